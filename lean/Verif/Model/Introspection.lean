import Verif.Model.Token
/-
introspection.go
-/

namespace OAuth2

/-- introspection.go:16-21 -/
structure IntrospectionRequest where
  token : Str := []
  tokenTypeHint : Str := []
  clientID : Str := []
  clientSecret : Str := []
  deriving DecidableEq, Repr

/-- introspection.go:26-59 `ParseIntrospectionRequest`. -/
def parseIntrospectionRequest (r : Request) : Except Error IntrospectionRequest :=
  if r.method ≠ b!"POST" then .error (invalidRequest b!"invalid HTTP method")
  else
    let (r, err) := r.parseForm
    if err then .error (invalidRequest b!"malformed query parameters or body form")
    else
      let post : Values := r.postForm.getD []
      let token := post.get b!"token"
      if token = [] then .error (invalidRequest b!"missing token")
      else
        let tokenTypeHint := post.get b!"token_type_hint"
        match r.basicAuth with
        | none => .error (invalidRequest b!"missing or invalid HTTP authorization header")
        | some (clientID, clientSecret) =>
          .ok { token := token, tokenTypeHint := tokenTypeHint, clientID := clientID,
                clientSecret := clientSecret }

/-- introspection.go:63-78. In `extra` a nil map is `none`; see `GoVal` for its values. -/
structure IntrospectionResponse where
  active : Bool := false
  scope : Scope := none
  clientID : Str := []
  username : Str := []
  tokenType : Str := []
  expiresAt : Int := 0
  issuedAt : Int := 0
  notBefore : Int := 0
  subject : Str := []
  audience : Str := []
  issuer : Str := []
  identifier : Str := []
  extra : Option (List (Str × GoVal)) := none
  deriving DecidableEq, Repr

/-- introspection.go:81-89 `NewIntrospectionResponse`. -/
def newIntrospectionResponse (active : Bool) (scope : Scope) (clientID username tokenType : Str) :
    IntrospectionResponse :=
  { active := active, scope := scope, clientID := clientID, username := username,
    tokenType := tokenType }

/-- An integer member with `omitempty`. introspection.go:69-71, the tags of `exp`, `iat` and `nbf`.
-/
def omitZero (k : Str) (v : Int) : List (Str × Str) := if v = 0 then [] else [(k, itoa v)]

/-- A map member with `omitempty`. introspection.go:77, the tag of `Extra`. -/
def omitEmptyMap (k : Str) (m : Option (List (Str × GoVal))) : List (Str × Str) :=
  match m.getD [] with
  | [] => []
  | l => match (GoVal.obj l).json with
    | none => []
    | some text => [(k, text)]

namespace IntrospectionResponse

/-- Whether `encoding/json` can encode the response: only `Extra` can hold values it cannot.
introspection.go:77; Go: `json.Encoder.Encode` at oauth2.go:83. -/
def encodable (r : IntrospectionResponse) : Bool := (GoVal.obj (r.extra.getD [])).json.isSome

/-- The struct tags of introspection.go:64-77, as `encoding/json` applies them, for responses that
are `encodable`. -/
def json (r : IntrospectionResponse) : Str :=
  jsonObject ([(b!"active", if r.active then b!"true" else b!"false")] ++
    (if r.scope.items.length = 0 then [] else [(b!"scope", r.scope.marshalJSON)]) ++
    omitEmpty b!"client_id" r.clientID ++ omitEmpty b!"username" r.username ++
    omitEmpty b!"token_type" r.tokenType ++ omitZero b!"exp" r.expiresAt ++
    omitZero b!"iat" r.issuedAt ++ omitZero b!"nbf" r.notBefore ++
    omitEmpty b!"sub" r.subject ++ omitEmpty b!"aud" r.audience ++
    omitEmpty b!"iss" r.issuer ++ omitEmpty b!"jti" r.identifier ++
    omitEmptyMap b!"extra" r.extra)

/-- The struct tags of introspection.go:64-77. -/
def jsonFields : List Str :=
  [b!"active", b!"scope", b!"client_id", b!"username", b!"token_type", b!"exp", b!"iat", b!"nbf",
   b!"sub", b!"aud", b!"iss", b!"jti", b!"extra"]

/-- Decoding one member into the struct of introspection.go:63-78. -/
def setField (t : IntrospectionResponse) (k : Str) (v : JSON) : Option IntrospectionResponse :=
  match selectField jsonFields k with
  | none => some t
  | some f =>
    if f = b!"active" then (decBool t.active v).map fun x => { t with active := x }
    else if f = b!"scope" then (Scope.unmarshalValue v).map fun x => { t with scope := x }
    else if f = b!"client_id" then (decStr t.clientID v).map fun x => { t with clientID := x }
    else if f = b!"username" then (decStr t.username v).map fun x => { t with username := x }
    else if f = b!"token_type" then (decStr t.tokenType v).map fun x => { t with tokenType := x }
    else if f = b!"exp" then (decInt t.expiresAt v).map fun x => { t with expiresAt := x }
    else if f = b!"iat" then (decInt t.issuedAt v).map fun x => { t with issuedAt := x }
    else if f = b!"nbf" then (decInt t.notBefore v).map fun x => { t with notBefore := x }
    else if f = b!"sub" then (decStr t.subject v).map fun x => { t with subject := x }
    else if f = b!"aud" then (decStr t.audience v).map fun x => { t with audience := x }
    else if f = b!"iss" then (decStr t.issuer v).map fun x => { t with issuer := x }
    else if f = b!"jti" then (decStr t.identifier v).map fun x => { t with identifier := x }
    else (decMap t.extra v).map fun x => { t with extra := x }

/-- Go: `json.Unmarshal(data, &irs)`; `none` is an error. -/
def unmarshal (data : Str) : Option IntrospectionResponse :=
  match parseJSON data with
  | some (.obj l) => l.foldlM (fun t m => t.setField m.1 m.2) {}
  | some .null => some {}
  | _ => none

end IntrospectionResponse

/-- introspection.go:92-99 `WriteIntrospectionResponse`; the result is "the returned error is
nil". -/
def writeIntrospectionResponse {σ : Type} (r : IntrospectionResponse) : Prog σ Bool :=
  if r.active && !knownTokenType r.tokenType then return false
  else if r.encodable then write r.json 200
  else writeUnencodable 200

/-- introspection.go:102-123 `IntrospectionRequestValues`. -/
def introspectionRequestValues (r : IntrospectionRequest) : Values :=
  (if r.token ≠ [] then [(b!"token", [r.token])] else []) ++
  (if r.tokenTypeHint.length ≠ 0 then [(b!"token_type_hint", [r.tokenTypeHint])] else [])

/-- introspection.go:126-145 `BuildIntrospectionRequest`; `none` is an error. -/
def buildIntrospectionRequest (uri : Str) (r : IntrospectionRequest) : Option Request :=
  buildFormRequest uri (introspectionRequestValues r) r.clientID r.clientSecret

/-- introspection.go:148-174 `ParseIntrospectionResponse`. -/
def parseIntrospectionResponse (res : Response) (limit : Int) :
    Except GoErr IntrospectionResponse :=
  match readJSONBody res limit with
  | .error e => .error e
  | .ok data =>
    match IntrospectionResponse.unmarshal data with
    | none => .error .lib
    | some irs => .ok irs

end OAuth2

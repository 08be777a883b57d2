import Verif.Model.OAuth2
import Verif.Model.Scope
/-
error.go
-/

namespace OAuth2

/-- error.go:16-28. `headers` is a Go map; the list order stands for the iteration order. -/
structure Error where
  name : Str := []
  state : Str := []
  scope : Scope := none
  realm : Str := []
  description : Str := []
  uri : Str := []
  status : Int := 0
  headers : GoMap Str := []
  redirectURI : Str := []
  useFragment : Bool := false
  deriving DecidableEq, Repr

/-- Go's `error` interface: an `*oauth2.Error`, an error /repo makes with `errors.New` or
`fmt.Errorf`, or an error of the standard library (its text is not modelled). error.go:47 makes
`Error` one; the others arise at hs256.go:58-60, 86-109 and introspection.go:95, 163. -/
inductive GoErr where
  | oauth (e : Error)
  | msg (text : Str)
  | lib
  deriving DecidableEq, Repr

namespace Error

/-- error.go:33-39 `SetRedirect`. -/
def setRedirect (e : Error) (uri state : Str) (useFragment : Bool) : Error :=
  { e with state := state, redirectURI := uri, useFragment := useFragment }

/-- error.go:42-44 `String`. -/
def string (e : Error) : Str := e.name ++ b!": " ++ e.description

/-- error.go:54-88 `Map`. Entries in the order they are inserted. -/
def map (e : Error) : GoMap Str :=
  (if e.name ≠ [] then [(b!"error", e.name)] else []) ++
  (if e.description ≠ [] then [(b!"error_description", e.description)] else []) ++
  (if e.state ≠ [] then [(b!"state", e.state)] else []) ++
  (if e.scope.items.length > 0 then [(b!"scope", e.scope.string)] else []) ++
  (if e.uri ≠ [] then [(b!"error_uri", e.uri)] else []) ++
  (if e.realm ≠ [] then [(b!"realm", e.realm)] else [])

/-- error.go:92-103, the body of `Params` for a map iterated in the given order. -/
def paramsOf (m : GoMap Str) : Str :=
  joinStr b!", " (sortStrings (m.map fun e => e.1 ++ b!"=\"" ++ e.2 ++ b!"\""))

/-- error.go:91-104 `Params`. -/
def params (e : Error) : Str := paramsOf e.map

/-- The struct tags of error.go:17-22, as `encoding/json` applies them. -/
def json (e : Error) : Str :=
  jsonObject ([(b!"error", jsonString e.name)] ++ omitEmpty b!"state" e.state ++
    (if e.scope.items.length = 0 then [] else [(b!"scope", e.scope.marshalJSON)]) ++
    omitEmpty b!"realm" e.realm ++ omitEmpty b!"error_description" e.description ++
    omitEmpty b!"error_uri" e.uri)

/-- The struct tags of error.go:17-22. -/
def jsonFields : List Str :=
  [b!"error", b!"state", b!"scope", b!"realm", b!"error_description", b!"error_uri"]

/-- Decoding one member into the struct of error.go:16-28. -/
def setField (e : Error) (k : Str) (v : JSON) : Option Error :=
  match selectField jsonFields k with
  | none => some e
  | some f =>
    if f = b!"error" then (decStr e.name v).map fun x => { e with name := x }
    else if f = b!"state" then (decStr e.state v).map fun x => { e with state := x }
    else if f = b!"scope" then (Scope.unmarshalValue v).map fun x => { e with scope := x }
    else if f = b!"realm" then (decStr e.realm v).map fun x => { e with realm := x }
    else if f = b!"error_description" then
      (decStr e.description v).map fun x => { e with description := x }
    else (decStr e.uri v).map fun x => { e with uri := x }

/-- Go: `json.Unmarshal(data, &oauthError)`; `none` is an error. -/
def unmarshal (data : Str) : Option Error :=
  match parseJSON data with
  | some (.obj l) => l.foldlM (fun e m => e.setField m.1 m.2) {}
  | some .null => some {}
  | _ => none

end Error

/-- error.go:109-115 -/
def invalidRequest (description : Str) : Error :=
  { status := 400, name := b!"invalid_request", description := description }

/-- error.go:120-129 -/
def invalidClient (description : Str) : Error :=
  { status := 401, name := b!"invalid_client", description := description,
    headers := [(b!"WWW-Authenticate", b!"Basic realm=\"OAuth2\"")] }

/-- error.go:135-141 -/
def invalidGrant (description : Str) : Error :=
  { status := 400, name := b!"invalid_grant", description := description }

/-- error.go:145-151 -/
def invalidScope (description : Str) : Error :=
  { status := 400, name := b!"invalid_scope", description := description }

/-- error.go:156-162 -/
def invalidToken (description : Str) : Error :=
  { status := 401, name := b!"invalid_token", description := description }

/-- error.go:167-173 -/
def unauthorizedClient (description : Str) : Error :=
  { status := 400, name := b!"unauthorized_client", description := description }

/-- error.go:177-183 -/
def unsupportedGrantType (description : Str) : Error :=
  { status := 400, name := b!"unsupported_grant_type", description := description }

/-- error.go:188-194 -/
def unsupportedResponseType (description : Str) : Error :=
  { status := 400, name := b!"unsupported_response_type", description := description }

/-- error.go:198-204 -/
def unsupportedTokenType (description : Str) : Error :=
  { status := 400, name := b!"unsupported_token_type", description := description }

/-- error.go:208-212 -/
def protectedResource : Error := { status := 401 }

/-- error.go:216-222 -/
def insufficientScope (necessaryScope : Scope) : Error :=
  { status := 403, name := b!"insufficient_scope", scope := necessaryScope }

/-- error.go:226-232 -/
def accessDenied (description : Str) : Error :=
  { status := 403, name := b!"access_denied", description := description }

/-- error.go:237-243 -/
def serverError (description : Str) : Error :=
  { status := 500, name := b!"server_error", description := description }

/-- error.go:248-254 -/
def temporarilyUnavailable (description : Str) : Error :=
  { status := 503, name := b!"temporarily_unavailable", description := description }

/-- error.go:262-265 and bearer.go:61: `err.(*Error)`. -/
def GoErr.asError : GoErr → Option Error
  | .oauth e => some e
  | _ => none

/-- error.go:260-278 `WriteError`; the result is "the returned error is nil". -/
def writeError {σ : Type} (err : GoErr) : Prog σ Bool := do
  let anError := err.asError.getD (serverError [])
  .respond fun w => { w with header := anError.headers.foldl (fun h e => h.set e.1 e.2) w.header }
  if anError.redirectURI ≠ [] then
    writeRedirect anError.redirectURI anError.map anError.useFragment
  else
    write anError.json anError.status

/-- error.go:282-294 `ParseRequestError`. -/
def parseRequestError (res : Response) (limit : Int) : GoErr :=
  let data := (res.readAll limit).1
  match Error.unmarshal data with
  | some oauthError => .oauth { oauthError with status := res.statusCode }
  | none => .msg (b!"unexpected response: " ++ res.status)

end OAuth2

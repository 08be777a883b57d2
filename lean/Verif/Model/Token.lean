import Verif.Model.Error
/-
token.go
-/

namespace OAuth2

/-- token.go:17-27 -/
structure TokenRequest where
  grantType : Str := []
  scope : Scope := none
  clientID : Str := []
  clientSecret : Str := []
  username : Str := []
  password : Str := []
  refreshToken : Str := []
  redirectURI : Str := []
  code : Str := []
  deriving DecidableEq, Repr

/-- token.go:34-102 `ParseTokenRequest`. `r.ParseForm` also stores the parsed forms in `r`; that
update is `r.parseForm.1`. -/
def parseTokenRequest (r : Request) : Except Error TokenRequest :=
  if r.method ≠ b!"POST" then .error (invalidRequest b!"invalid HTTP method")
  else
    let (r, err) := r.parseForm
    if err then .error (invalidRequest b!"malformed query parameters or body form")
    else
      let post : Values := r.postForm.getD []
      let grantType := post.get b!"grant_type"
      if grantType = [] then .error (invalidRequest b!"missing grant type")
      else
        let scope := Scope.parse (post.get b!"scope")
        let (clientID, clientSecret) :=
          match r.basicAuth with
          | some (u, p) => (u, p)
          | none => (post.get b!"client_id", post.get b!"client_secret")
        if clientID = [] then .error (invalidRequest b!"missing client identification")
        else
          let username := post.get b!"username"
          let password := post.get b!"password"
          let refreshToken := post.get b!"refresh_token"
          match queryUnescape (post.get b!"redirect_uri") with
          | none => .error (invalidRequest b!"invalid redirect URI")
          | some redirectURIString =>
            let ok : Bool :=
              if redirectURIString ≠ [] then
                match parseRequestURI redirectURIString with
                | none => false
                | some redirectURI => redirectURI.fragment = []
              else true
            if !ok then .error (invalidRequest b!"invalid redirect URI")
            else
              let code := post.get b!"code"
              .ok {
                grantType := grantType, scope := scope, clientID := clientID,
                clientSecret := clientSecret, username := username, password := password,
                refreshToken := refreshToken, redirectURI := redirectURIString, code := code }

/-- token.go:107-116 -/
structure TokenResponse where
  tokenType : Str := []
  accessToken : Str := []
  expiresIn : Int := 0
  refreshToken : Str := []
  scope : Scope := none
  state : Str := []
  redirectURI : Str := []
  deriving DecidableEq, Repr

/-- token.go:119-125 `NewTokenResponse`. -/
def newTokenResponse (tokenType accessToken : Str) (expiresIn : Int) : TokenResponse :=
  { tokenType := tokenType, accessToken := accessToken, expiresIn := expiresIn }

namespace TokenResponse

/-- token.go:129-134 `SetRedirect`. -/
def setRedirect (r : TokenResponse) (uri state : Str) : TokenResponse :=
  { r with redirectURI := uri, state := state }

/-- token.go:139-167 `Map`. -/
def map (r : TokenResponse) : GoMap Str :=
  [(b!"token_type", r.tokenType), (b!"access_token", r.accessToken),
   (b!"expires_in", itoa r.expiresIn)] ++
  (if r.refreshToken ≠ [] then [(b!"refresh_token", r.refreshToken)] else []) ++
  (if r.scope ≠ none then [(b!"scope", r.scope.string)] else []) ++
  (if r.state ≠ [] then [(b!"state", r.state)] else [])

/-- The struct tags of token.go:108-113, as `encoding/json` applies them. -/
def json (r : TokenResponse) : Str :=
  jsonObject ([(b!"token_type", jsonString r.tokenType),
    (b!"access_token", jsonString r.accessToken), (b!"expires_in", itoa r.expiresIn)] ++
    omitEmpty b!"refresh_token" r.refreshToken ++
    (if r.scope.items.length = 0 then [] else [(b!"scope", r.scope.marshalJSON)]) ++
    omitEmpty b!"state" r.state)

/-- The struct tags of token.go:108-113. -/
def jsonFields : List Str :=
  [b!"token_type", b!"access_token", b!"expires_in", b!"refresh_token", b!"scope", b!"state"]

/-- Decoding one member into the struct of token.go:107-116. -/
def setField (t : TokenResponse) (k : Str) (v : JSON) : Option TokenResponse :=
  match selectField jsonFields k with
  | none => some t
  | some f =>
    if f = b!"token_type" then (decStr t.tokenType v).map fun x => { t with tokenType := x }
    else if f = b!"access_token" then
      (decStr t.accessToken v).map fun x => { t with accessToken := x }
    else if f = b!"expires_in" then (decInt t.expiresIn v).map fun x => { t with expiresIn := x }
    else if f = b!"refresh_token" then
      (decStr t.refreshToken v).map fun x => { t with refreshToken := x }
    else if f = b!"scope" then (Scope.unmarshalValue v).map fun x => { t with scope := x }
    else (decStr t.state v).map fun x => { t with state := x }

/-- Go: `json.Unmarshal(data, &trs)`; `none` is an error. -/
def unmarshal (data : Str) : Option TokenResponse :=
  match parseJSON data with
  | some (.obj l) => l.foldlM (fun t m => t.setField m.1 m.2) {}
  | some .null => some {}
  | _ => none

end TokenResponse

/-- token.go:172-179 `WriteTokenResponse`; the result is "the returned error is nil". -/
def writeTokenResponse {σ : Type} (r : TokenResponse) : Prog σ Bool :=
  if r.redirectURI ≠ [] then writeRedirect r.redirectURI r.map true
  else write r.json 200

/-- token.go:182-233 `TokenRequestValues`. -/
def tokenRequestValues (r : TokenRequest) : Values :=
  (if r.grantType ≠ [] then [(b!"grant_type", [r.grantType])] else []) ++
  (if r.scope.items.length ≠ 0 then [(b!"scope", [r.scope.string])] else []) ++
  (if r.username ≠ [] then [(b!"username", [r.username])] else []) ++
  (if r.password ≠ [] then [(b!"password", [r.password])] else []) ++
  (if r.refreshToken ≠ [] then [(b!"refresh_token", [r.refreshToken])] else []) ++
  (if r.redirectURI ≠ [] then [(b!"redirect_uri", [queryEscape r.redirectURI])] else []) ++
  (if r.code ≠ [] then [(b!"code", [r.code])] else [])

/-- token.go:240-254, introspection.go:130-144 and revocation.go:85-99: the part the three
`Build...Request` functions share. `none` is an error. -/
def buildFormRequest (uri : Str) (values : Values) (clientID clientSecret : Str) :
    Option Request := do
  let req ← newPostRequest uri values.encode
  let req := if clientID ≠ [] ∨ clientSecret ≠ [] then req.setBasicAuth clientID clientSecret
    else req
  return { req with
    header := req.header.set b!"Content-Type" b!"application/x-www-form-urlencoded" }

/-- token.go:236-255 `BuildTokenRequest`; `none` is an error. -/
def buildTokenRequest (uri : Str) (r : TokenRequest) : Option Request :=
  buildFormRequest uri (tokenRequestValues r) r.clientID r.clientSecret

/-- token.go:259-274 and introspection.go:149-164: reading the body and checking the content
type. `%q` of a media type that `ParseMediaType` returned without error only adds quotes. -/
def readJSONBody (res : Response) (limit : Int) : Except GoErr Str :=
  let (data, err) := res.readAll limit
  if err then .error .lib
  else
    let (contentType, err) := parseMediaType (res.header.get b!"Content-Type")
    if err then .error .lib
    else if contentType ≠ b!"application/json" then
      .error (.msg (b!"unexpected content type: \"" ++ contentType ++ b!"\""))
    else .ok data

/-- token.go:258-284 `ParseTokenResponse`. -/
def parseTokenResponse (res : Response) (limit : Int) : Except GoErr TokenResponse :=
  match readJSONBody res limit with
  | .error e => .error e
  | .ok data =>
    match TokenResponse.unmarshal data with
    | none => .error .lib
    | some trs => .ok trs

end OAuth2

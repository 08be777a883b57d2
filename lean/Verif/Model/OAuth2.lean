import Verif.Model.Prog
/-
oauth2.go
-/

namespace OAuth2

/-- oauth2.go:15-20 -/
def PasswordGrantType : Str := b!"password"
/-- oauth2.go:15-20 -/
def ClientCredentialsGrantType : Str := b!"client_credentials"
/-- oauth2.go:15-20 -/
def AuthorizationCodeGrantType : Str := b!"authorization_code"
/-- oauth2.go:15-20 -/
def RefreshTokenGrantType : Str := b!"refresh_token"

/-- oauth2.go:24-34 `KnownGrantType`. -/
def knownGrantType (str : Str) : Bool :=
  str = PasswordGrantType || str = ClientCredentialsGrantType ||
  str = AuthorizationCodeGrantType || str = RefreshTokenGrantType

/-- oauth2.go:37-40 -/
def TokenResponseType : Str := b!"token"
/-- oauth2.go:37-40 -/
def CodeResponseType : Str := b!"code"

/-- oauth2.go:44-51 `KnownResponseType`. -/
def knownResponseType (str : Str) : Bool := str = TokenResponseType || str = CodeResponseType

/-- oauth2.go:54-57 -/
def AccessToken : Str := b!"access_token"
/-- oauth2.go:54-57 -/
def RefreshToken : Str := b!"refresh_token"

/-- oauth2.go:61-69 `KnownTokenType`. -/
def knownTokenType (str : Str) : Bool := str = AccessToken || str = RefreshToken

/-- oauth2.go:73-86 `Write`. The object comes already encoded by `json.Encoder.Encode` except for
the newline that function appends. The result is "the returned error is nil". Only an
`IntrospectionResponse` can fail to be encoded: see `writeUnencodable`. -/
def write {σ : Type} (json : Str) (status : Int) : Prog σ Bool := do
  .respond fun w => { w with header := w.header.set b!"Content-Type" b!"application/json;charset=UTF-8" }
  .respond fun w => { w with header := w.header.set b!"Cache-Control" b!"no-store" }
  .respond fun w => { w with header := w.header.set b!"Pragma" b!"no-cache" }
  .writeHeader status
  .respond (·.write (json ++ [0x0A]))
  return true

/-- oauth2.go:73-86 `Write` with an object that `encoding/json` cannot encode: `Encode` writes
nothing and returns an error. -/
def writeUnencodable {σ : Type} (status : Int) : Prog σ Bool := do
  .respond fun w => { w with header := w.header.set b!"Content-Type" b!"application/json;charset=UTF-8" }
  .respond fun w => { w with header := w.header.set b!"Cache-Control" b!"no-store" }
  .respond fun w => { w with header := w.header.set b!"Pragma" b!"no-cache" }
  .writeHeader status
  return false

/-- oauth2.go:91-121, the pure part of `WriteRedirect`: the text of the `Location` header. The
list `params` is the map in the order Go iterates it. -/
def redirectLocation (uri : Str) (params : GoMap Str) (useFragment : Bool) : Option Str :=
  match parseRequestURI uri with
  | none => none
  | some redirectURI =>
    if useFragment then
      let f : Values := params.foldl (fun f p => f.add p.1 p.2) []
      some { redirectURI with fragment := f.encode }.string
    else
      let q := params.foldl (fun q p => Values.add q p.1 p.2) redirectURI.query
      some { redirectURI with rawQuery := q.encode }.string

/-- oauth2.go:91-140 `WriteRedirect`; the result is "the returned error is nil". -/
def writeRedirect {σ : Type} (uri : Str) (params : GoMap Str) (useFragment : Bool) :
    Prog σ Bool :=
  match redirectLocation uri params useFragment with
  | none => return false
  | some location => do
    .respond fun w => { w with header := w.header.add b!"Location" location }
    .respond fun w => { w with header := w.header.set b!"Cache-Control" b!"no-store" }
    .respond fun w => { w with header := w.header.set b!"Pragma" b!"no-cache" }
    .respond fun w => { w with header := w.header.set b!"Referrer-Policy" b!"origin" }
    .writeHeader 303
    .respond (·.write [])
    return true

end OAuth2

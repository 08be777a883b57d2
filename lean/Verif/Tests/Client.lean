import Verif.Tests.Unit
import Verif.Spec.Client
/-
client_test.go, replayed on the model by evaluating client and server in the kernel. Tests of the
model, not proofs about it.
-/

namespace OAuth2.Tests.Client

open Spec

/-- utils_test.go:35-46: the server of `withServer`, with the client and user the tests add. -/
def srv : Server where
  config := ServerConfig.default b!"secret" (some [b!"foo", b!"bar"])
  clients := [(b!"c1", { secret := b!"secret", confidential := true })]
  users := [(b!"u1", { secret := b!"secret", confidential := true })]

/-- What the `ServeMux` of utils_test.go:43-49 answers to paths that are not registered
(`http.NotFound`). -/
def notFound : Response where
  statusCode := 404
  header := [(b!"Content-Type", [b!"text/plain; charset=utf-8"]),
    (b!"X-Content-Type-Options", [b!"nosniff"])]
  body := b!"404 page not found\n"

/-- The `ServeMux` of utils_test.go:43-44. -/
def mux (s : Shared Server) (coins : Str) : Transport := fun r =>
  if b!"/oauth2/".isPrefixOf r.path then wire s coins (fun _ => 1000 * second) r
  else some notFound

def base : Str := b!"http://0.0.0.0:1337"

def client (s : Shared Server) (coins : Str) : OAuth2.Client :=
  newClient (.default base) (mux s coins)

/-- The state after a request. -/
def after (s : Shared Server) (coins : Str) (r : Option Request) : Shared Server :=
  match r with
  | none => s
  | some r => (step s { op := .serve r, coins := coins, clock := fun _ => 1000 * second }).2

def coins : Str := (List.range 32).map UInt8.ofNat

def err (x : Except GoErr TokenResponse) : Option GoErr :=
  match x with
  | .error e => some e
  | .ok _ => none

def good (x : Except GoErr TokenResponse) : Bool :=
  match x with
  | .ok t => t.tokenType = b!"bearer" && t.accessToken ≠ [] && t.refreshToken ≠ [] &&
      t.expiresIn ≠ 0
  | .error _ => false

-- TestClientError
example : ((newClient { baseURI := base, tokenEndpoint := b!"/foo" } (mux ⟨false, srv⟩ [])).authenticate {
      grantType := b!"client_credentials", clientID := b!"secret", clientSecret := b!"secret" }) =
    .error (.msg b!"unexpected response: 404 Not Found") := by decide +kernel

/-! ### TestClientAuthenticate -/

-- unknown client
example : (client ⟨false, srv⟩ []).authenticate {
      grantType := b!"client_credentials", clientID := b!"foo", clientSecret := b!"secret" } =
    .error (.oauth { name := b!"invalid_client", description := b!"unknown client", status := 401 }) := by
  decide +kernel

-- client credentials
example : good ((client ⟨false, srv⟩ coins).authenticate {
      grantType := b!"client_credentials", clientID := b!"c1", clientSecret := b!"secret" }) = true := by
  decide +kernel

-- wrong password
example : (client ⟨false, srv⟩ []).authenticate {
      grantType := b!"password", clientID := b!"c1", clientSecret := b!"secret",
      username := b!"u1", password := b!"foo" } =
    .error (.oauth { name := b!"access_denied", status := 403 }) := by decide +kernel

-- resource owner password
example : good ((client ⟨false, srv⟩ coins).authenticate {
      grantType := b!"password", clientID := b!"c1", clientSecret := b!"secret",
      username := b!"u1", password := b!"secret" }) = true := by decide +kernel

-- wrong code
example : (client ⟨false, srv⟩ []).authenticate {
      grantType := b!"authorization_code", clientID := b!"c1", clientSecret := b!"secret",
      code := b!"foo" } =
    .error (.oauth {
      name := b!"invalid_request", status := 400,
      description := b!"a token must have two segments separated by a dot" }) := by decide +kernel

/-- client_test.go:47 `srv.Config.MustGenerate()` -/
def code : HS256Token := HS256Token.fromKey b!"secret" b!"0123456789abcdef"

/-- client_test.go:49-53 -/
def srvCode : Server := { srv with
  authorizationCodes := [(code.signatureString, {
    clientID := b!"c1", username := b!"ui", expiresAt := 4600 * second, scope := none })] }

-- authorization code
example : good ((client ⟨false, srvCode⟩ coins).authenticate {
      grantType := b!"authorization_code", clientID := b!"c1", clientSecret := b!"secret",
      code := code.string }) = true := by decide +kernel

/-! ### TestClientIntrospect, TestClientRevoke -/

def rq : TokenRequest where
  grantType := b!"client_credentials"
  clientID := b!"c1"
  clientSecret := b!"secret"

/-- The response to the first request of both tests. -/
def trs : TokenResponse :=
  match (client ⟨false, srv⟩ coins).authenticate rq with
  | .ok t => t
  | .error _ => {}

/-- The state after it. -/
def s1 : Shared Server := after ⟨false, srv⟩ coins (buildTokenRequest (base ++ b!"/oauth2/token") rq)

def introspect (token : Str) : Except GoErr IntrospectionResponse :=
  (client s1 []).introspect { token := token, clientID := b!"c1", clientSecret := b!"secret" }

def badToken : GoErr := .oauth {
  name := b!"invalid_request", status := 400,
  description := b!"a token must have two segments separated by a dot" }

example : (client ⟨false, srv⟩ coins).authenticate rq = .ok trs := by decide +kernel

-- invalid token
example : introspect b!"foo" = .error badToken := by decide +kernel

-- unknown token
example : introspect (HS256Token.fromKey b!"secret" b!"0123456789abcdef").string = .ok {} := by
  decide +kernel

-- access token
example : introspect trs.accessToken = .ok {
    active := true, clientID := b!"c1", tokenType := b!"access_token", expiresAt := 4600 } := by
  decide +kernel

-- refresh token
example : introspect trs.refreshToken = .ok {
    active := true, clientID := b!"c1", tokenType := b!"refresh_token",
    expiresAt := 1000 + 7 * 24 * 3600 } := by decide +kernel

def revocation (token : Str) : RevocationRequest :=
  { token := token, clientID := b!"c1", clientSecret := b!"secret" }

-- invalid token
example : (client s1 []).revoke (revocation b!"foo") = some badToken := by decide +kernel

-- unknown token
example : (client s1 []).revoke (revocation
    (HS256Token.fromKey b!"secret" b!"0123456789abcdef").string) = none := by decide +kernel

-- access token
example : (client s1 []).revoke (revocation trs.accessToken) = none := by decide +kernel

-- refresh token
example : (client (after s1 [] (buildRevocationRequest (base ++ b!"/oauth2/revoke")
    (revocation trs.accessToken))) []).revoke (revocation trs.refreshToken) = none := by decide +kernel

end OAuth2.Tests.Client

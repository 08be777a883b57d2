import Verif.Spec.Suite
/-
The one use of the integration tests in the repository: `TestServer` of server_test.go.
-/

namespace OAuth2.ServerTest

/-- server_test.go:12-15 -/
def config : ServerConfig := .default b!"secret" (some [b!"foo", b!"bar"])

/-- server_test.go:13 -/
def required : Scope := some [b!"foo"]

/-- server_test.go:35-77: the tokens made by `config.MustGenerate`, from these random keys, in this
order: unknown, valid, expired and insufficient access token, unknown, valid and expired refresh
token, unknown and expired authorization code. -/
def token (keys : Nat → Str) (i : Nat) : HS256Token := .fromKey b!"secret" (keys i)

/-- The signature a token is stored under. -/
def sig (keys : Nat → Str) (i : Nat) : Str := (token keys i).signatureString

/-- What server_test.go:40-80 stores with a token. -/
def credential (scope : Scope) (expiresAt : Time) : ServerCredential where
  clientID := b!"client1"
  scope := scope
  expiresAt := expiresAt

/-- Go: `time.Hour`. -/
def hour : Int := 60 * 60 * second

/-- server_test.go:17-80: the server, its clients, its user and its tokens. `now` are the readings
of the clock. -/
def server (keys : Nat → Str) (now : Nat → Time) : Server where
  config := config
  clients := (GoMap.set [] b!"client1" {
      secret := b!"foo", redirectURI := b!"http://example.com/callback1", confidential := true
    }).set b!"client2" {
      secret := b!"foo", redirectURI := b!"http://example.com/callback2", confidential := false }
  users := GoMap.set [] b!"user1" { secret := b!"foo" }
  accessTokens := ((GoMap.set [] (sig keys 1) (credential config.allowedScope (now 0 + hour))).set
    (sig keys 2) (credential config.allowedScope (now 1 - hour))).set
    (sig keys 3) (credential (some []) (now 2 + hour))
  refreshTokens := (GoMap.set [] (sig keys 5) (credential config.allowedScope (now 3 + hour))).set
    (sig keys 6) (credential config.allowedScope (now 4 - hour))
  authorizationCodes := GoMap.set [] (sig keys 8) (credential config.allowedScope (now 5 - hour))

/-- server_test.go:82-90. Simplification: `http.ServeMux` also redirects requests whose path is
not clean; here the path decides by its prefix alone. -/
def handler (r : Request) : Handler Unit :=
  if b!"/oauth2/".isPrefixOf r.path then Server.serveHTTP r
  else if b!"/api/".isPrefixOf r.path then Spec.guarded required r
  else Server.notFound

/-- server_test.go:92-140 -/
def spec (keys : Nat → Str) : Suite.Spec :=
  { Suite.Spec.default with
    passwordGrantSupport := true
    clientCredentialsGrantSupport := true
    implicitGrantSupport := true
    authorizationCodeGrantSupport := true
    refreshTokenGrantSupport := true
    confidentialClientID := b!"client1"
    confidentialClientSecret := b!"foo"
    publicClientID := b!"client2"
    resourceOwnerUsername := b!"user1"
    resourceOwnerPassword := b!"foo"
    invalidScope := b!"baz"
    validScope := b!"foo bar"
    exceedingScope := b!"foo bar baz"
    expectedExpiresIn := config.accessTokenLifespan.tdiv second
    invalidToken := b!"invalid"
    unknownToken := (token keys 0).string
    validToken := (token keys 1).string
    expiredToken := (token keys 2).string
    insufficientToken := (token keys 3).string
    invalidRedirectURI := b!"http://invalid.com"
    primaryRedirectURI := b!"http://example.com/callback1"
    secondaryRedirectURI := b!"http://example.com/callback2"
    invalidRefreshToken := b!"invalid"
    unknownRefreshToken := (token keys 4).string
    validRefreshToken := (token keys 5).string
    expiredRefreshToken := (token keys 6).string
    invalidAuthorizationCode := b!"invalid"
    unknownAuthorizationCode := (token keys 7).string
    expiredAuthorizationCode := (token keys 8).string
    invalidAuthorizationParams :=
      some [(b!"username", b!"user1"), (b!"password", b!"invalid")]
    validAuthorizationParams := some [(b!"username", b!"user1"), (b!"password", b!"foo")]
    codeReplayMitigation := true }

end OAuth2.ServerTest

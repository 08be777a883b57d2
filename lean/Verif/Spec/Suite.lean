import Verif.Spec.History
import Verif.Spec.Redirect
import Verif.Model.Suite
/-
When the specification given to the integration tests describes the server they run against.
-/

namespace OAuth2.Spec

/-- server_test.go:86-90: a resource that is guarded by `Authorize`. -/
def guarded (required : Scope) (r : Request) : Handler Unit := do
  if ← Server.authorize r required then .respond (·.write b!"OK")

/-- Requests for this URL are served by the server, at this endpoint. -/
def Serves (handler : Request → Handler Unit) (uri endpoint : Str) : Prop :=
  ∃ u, parseURL uri = some u ∧ u.rawQuery = [] ∧ LastSegment u.path endpoint ∧
    ∀ r, r.path = u.path → handler r = Server.serveHTTP r

/-- The handler under test gives the server the requests for its endpoints, and guards the
protected resource. Introspection and revocation are optional. -/
structure Routes (spec : Suite.Spec) (required : Scope) (handler : Request → Handler Unit) :
    Prop where
  token : Serves handler spec.tokenEndpoint b!"token"
  authorize : Serves handler spec.authorizeEndpoint b!"authorize"
  introspect : spec.introspectionEndpoint ≠ [] →
    Serves handler spec.introspectionEndpoint b!"introspect"
  revoke : spec.revocationEndpoint ≠ [] → Serves handler spec.revocationEndpoint b!"revoke"
  given : spec.protectedResource ≠ []
  resource : ∃ u, parseURL spec.protectedResource = some u ∧
    ∀ r, r.path = u.path → handler r = guarded required r

/-- The text is a token made with the server's secret, stored under this signature if at all. -/
def Genuine (s : Server) (text sig : Str) : Prop :=
  ∃ t, HS256Token.parse s.config.secret text = .ok t ∧ t.signatureString = sig

/-- The text is no token made with the server's secret. -/
def Forged (s : Server) (text : Str) : Prop := ¬ ∃ sig, Genuine s text sig

/-- The text is a token the server stores neither as access nor as refresh token. -/
def Unknown (s : Server) (text : Str) : Prop :=
  ∃ sig, Genuine s text sig ∧ s.accessTokens.get? sig = none ∧ s.refreshTokens.get? sig = none

/-- The text is an access token the server stores with these data. -/
def StoredAccess (s : Server) (text : Str) (c : ServerCredential) : Prop :=
  ∃ sig, Genuine s text sig ∧ s.accessTokens.get? sig = some c ∧ s.refreshTokens.get? sig = none

/-- The text is a refresh token the server stores with these data. -/
def StoredRefresh (s : Server) (text : Str) (c : ServerCredential) : Prop :=
  ∃ sig, Genuine s text sig ∧ s.refreshTokens.get? sig = some c ∧ s.accessTokens.get? sig = none

/-- The text is an authorization code the server stores with these data. -/
def StoredCode (s : Server) (text : Str) (c : ServerCredential) : Prop :=
  ∃ sig, Genuine s text sig ∧ s.authorizationCodes.get? sig = some c

/-- The clients: a confidential one with its secret and redirect URI, and a public one. -/
structure ClientsMatch (spec : Suite.Spec) (s : Server) : Prop where
  confidential : ∃ c, s.clients.get? spec.confidentialClientID = some c ∧ c.confidential = true ∧
    c.secret = spec.confidentialClientSecret ∧ c.redirectURI = spec.primaryRedirectURI
  nonconfidential : ∃ c, s.clients.get? spec.publicClientID = some c ∧ c.confidential = false
  unknown : s.clients.get? b!"unknown" = none ∧ s.clients.get? b!"invalid" = none
  given : spec.confidentialClientID ≠ [] ∧ spec.publicClientID ≠ []
  distinct : spec.confidentialClientID ≠ spec.publicClientID
  colon : 0x3A ∉ spec.confidentialClientID ∧ 0x3A ∉ spec.publicClientID
  secret : spec.confidentialClientSecret ≠ [] ∧ spec.confidentialClientSecret ≠ b!"invalid"

/-- The scopes: one that is allowed, suffices for the resource and is printed as it is written, and
two that are not allowed. -/
structure ScopesMatch (spec : Suite.Spec) (s : Server) (required : Scope) : Prop where
  given : spec.validScope ≠ [] ∧ spec.invalidScope ≠ [] ∧ spec.exceedingScope ≠ []
  valid : Within (Scope.parse spec.validScope) s.config.allowedScope
  sufficient : Within required (Scope.parse spec.validScope)
  printed : (Scope.parse spec.validScope).string = spec.validScope
  utf8 : ValidUTF8 spec.validScope
  invalid : ¬ Within (Scope.parse spec.invalidScope) s.config.allowedScope
  exceeding : ¬ Within (Scope.parse spec.exceedingScope) s.config.allowedScope

/-- The integers of 64 bits. -/
def FitsInt64 (i : Int) : Prop := -2 ^ 63 ≤ i ∧ i < 2 ^ 63

/-- The access tokens, for a run that lasts from `T₀` to `T₁`. -/
structure TokensMatch (spec : Suite.Spec) (s : Server) (required : Scope) (T₀ T₁ : Time) :
    Prop where
  given : spec.invalidToken ≠ []
  invalid : Forged s spec.invalidToken
  unknown : Unknown s spec.unknownToken
  valid : ∃ c, StoredAccess s spec.validToken c ∧ c.clientID = spec.confidentialClientID ∧
    Within required c.scope ∧ T₁ ≤ c.expiresAt ∧ FitsInt64 c.expiresAt.unix
  expired : ∃ c, StoredAccess s spec.expiredToken c ∧ c.expiresAt < T₀
  insufficient : ∃ c, StoredAccess s spec.insufficientToken c ∧ T₁ ≤ c.expiresAt ∧
    ¬ Within required c.scope

/-- The refresh tokens. -/
structure RefreshTokensMatch (spec : Suite.Spec) (s : Server) (required : Scope) (T₀ T₁ : Time) :
    Prop where
  given : spec.invalidRefreshToken ≠ []
  invalid : Forged s spec.invalidRefreshToken
  unknown : Unknown s spec.unknownRefreshToken
  expired : ∃ c, StoredRefresh s spec.expiredRefreshToken c ∧ c.expiresAt < T₀
  valid : ∃ c, StoredRefresh s spec.validRefreshToken c ∧
    c.clientID = spec.confidentialClientID ∧ T₁ ≤ c.expiresAt ∧ FitsInt64 c.expiresAt.unix ∧
    c.scope.string = spec.validScope ∧ Within required c.scope ∧
    ¬ Within (Scope.parse spec.exceedingScope) c.scope

/-- The resource owner. -/
structure OwnerMatch (spec : Suite.Spec) (s : Server) : Prop where
  given : spec.resourceOwnerUsername ≠ [] ∧ spec.resourceOwnerPassword ≠ []
  valid : Password s spec.resourceOwnerUsername spec.resourceOwnerPassword
  username : ¬ Password s b!"invalid" spec.resourceOwnerPassword
  password : ¬ Password s spec.resourceOwnerUsername b!"invalid"

/-- The value of a parameter, "" if it is missing. -/
def authParam (params : Option (GoMap Str)) (name : Str) : Str :=
  ((params.getD []).get? name).getD []

/-- What is sent along with authorization requests: the right password of a user and a wrong one,
in parameters. A Go map has one value for a key. -/
structure ConsentMatch (spec : Suite.Spec) (s : Server) : Prop where
  given : spec.invalidAuthorizationParams.isSome ∨ spec.invalidAuthorizationHeaders.isSome
  maps : (spec.validAuthorizationParams.getD []).keys.Nodup ∧
    (spec.invalidAuthorizationParams.getD []).keys.Nodup
  valid : Password s (authParam spec.validAuthorizationParams b!"username")
    (authParam spec.validAuthorizationParams b!"password")
  invalid : ¬ Password s (authParam spec.invalidAuthorizationParams b!"username")
    (authParam spec.invalidAuthorizationParams b!"password")
  missing : ¬ Password s [] []

/-- The redirect URIs: the one of the confidential client, which has no parameters with names the
server uses, and two others. -/
structure RedirectsMatch (spec : Suite.Spec) : Prop where
  primary : ∃ u, RedirectURI spec.primaryRedirectURI u ∧
    ∀ k ∈ [b!"error", b!"state", b!"code"], u.query.all k = []
  plain : queryUnescape spec.primaryRedirectURI = some spec.primaryRedirectURI
  secondary : ∃ uri u, queryUnescape spec.secondaryRedirectURI = some uri ∧
    parseRequestURI uri = some u ∧ uri ≠ spec.primaryRedirectURI
  invalid : queryUnescape spec.invalidRedirectURI ≠ some spec.primaryRedirectURI
  given : spec.primaryRedirectURI ≠ [] ∧ spec.secondaryRedirectURI ≠ [] ∧
    spec.invalidRedirectURI ≠ []

/-- The authorization codes. -/
structure CodesMatch (spec : Suite.Spec) (s : Server) (T₀ : Time) : Prop where
  given : spec.invalidAuthorizationCode ≠ []
  invalid : Forged s spec.invalidAuthorizationCode
  unknown : ∃ sig, Genuine s spec.unknownAuthorizationCode sig ∧
    s.authorizationCodes.get? sig = none
  expired : ∃ c, StoredCode s spec.expiredAuthorizationCode c ∧ c.used = false ∧
    c.expiresAt < T₀

/-- The specification describes the server, for a run that lasts from `T₀` to `T₁`. What belongs to
a grant need only be there if the grant is supported. -/
structure Matches (spec : Suite.Spec) (s : Server) (required : Scope) (T₀ T₁ : Time) : Prop where
  clients : ClientsMatch spec s
  scopes : ScopesMatch spec s required
  tokens : TokensMatch spec s required T₀ T₁
  expiresIn : spec.expectedExpiresIn = s.config.accessTokenLifespan.tdiv second ∧
    FitsInt64 spec.expectedExpiresIn
  owner : spec.passwordGrantSupport = true → OwnerMatch spec s
  redirects : spec.implicitGrantSupport = true ∨ spec.authorizationCodeGrantSupport = true →
    RedirectsMatch spec ∧ ConsentMatch spec s
  codes : spec.authorizationCodeGrantSupport = true → CodesMatch spec s T₀
  refresh : spec.refreshTokenGrantSupport = true → RefreshTokensMatch spec s required T₀ T₁

/-- The most requests a run makes. -/
def requests : Nat := 146

/-- The signature of the first (`i = 0`) or second (`i = 1`) token the server makes from the random
bytes of one request. -/
def drawnSignature (c : ServerConfig) (coins : Str) (i : Nat) : Str :=
  (HS256Token.fromKey c.secret
    ((coins.drop (i * c.keyLength.toNat)).take c.keyLength.toNat)).signatureString

/-- The texts in the specification that are tokens or codes. -/
def mentioned (spec : Suite.Spec) : List Str :=
  [spec.unknownToken, spec.validToken, spec.expiredToken, spec.insufficientToken,
    spec.unknownRefreshToken, spec.validRefreshToken, spec.expiredRefreshToken,
    spec.unknownAuthorizationCode, spec.expiredAuthorizationCode]

/-- The randomness and the clock are as one expects: there are enough random bytes, tokens made at
random differ from each other and from those that exist or are mentioned in the specification, and
the run does not last longer than tokens and codes live. The dates are those that 64-bit numbers of
seconds can tell. -/
structure Fair (spec : Suite.Spec) (s : Server) (draws : Nat → Suite.Draw) (T₀ T₁ : Time) :
    Prop where
  keyLength : 0 ≤ s.config.keyLength
  coins : ∀ n < requests, 2 * s.config.keyLength.toNat ≤ (draws n).coins.length
  distinct : ∀ n < requests, ∀ m < requests, ∀ i < 2, ∀ j < 2,
    drawnSignature s.config (draws n).coins i = drawnSignature s.config (draws m).coins j →
      n = m ∧ i = j
  new : ∀ n < requests, ∀ i < 2,
    s.accessTokens.get? (drawnSignature s.config (draws n).coins i) = none ∧
    s.refreshTokens.get? (drawnSignature s.config (draws n).coins i) = none ∧
    s.authorizationCodes.get? (drawnSignature s.config (draws n).coins i) = none ∧
    (∀ e ∈ s.accessTokens ++ s.refreshTokens,
      e.2.code ≠ drawnSignature s.config (draws n).coins i) ∧
    ∀ text ∈ mentioned spec, ¬ Genuine s text (drawnSignature s.config (draws n).coins i)
  clock : ∀ n < requests, ∀ i, T₀ ≤ (draws n).clock i ∧ (draws n).clock i ≤ T₁
  lifespans : T₁ - T₀ ≤ s.config.accessTokenLifespan ∧ T₁ - T₀ ≤ s.config.refreshTokenLifespan ∧
    T₁ - T₀ ≤ s.config.authorizationCodeLifespan
  dates : FitsInt64 T₀.unix ∧ FitsInt64 (T₁ + s.config.accessTokenLifespan).unix ∧
    FitsInt64 (T₁ + s.config.refreshTokenLifespan).unix

/-- Running the tests against the handler, in front of this server, no assertion fails and nothing
panics. -/
def Passes (handler : Request → Handler Unit) (draws : Nat → Suite.Draw) (s : Server)
    (t : Suite.Test Unit) : Prop :=
  ∃ s' n, t.run handler draws ⟨false, s⟩ 0 = some ((), true, s', n) ∧ n ≤ requests

end OAuth2.Spec

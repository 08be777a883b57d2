import Verif.Spec.History
import Verif.Spec.Scope
import Verif.Spec.Accept
import Verif.Model.Client
/-
The client library connected to the server.
-/

namespace OAuth2.Spec

/-- An HTTP connection to the server in this state: the request is served with these random bytes
and clock readings and the response comes back; if the handler panics, the connection breaks. -/
def wire (s : Shared Server) (coins : Str) (clock : Nat → Time) : Transport := fun r =>
  match (step s { op := .serve r, coins := coins, clock := clock }).1 with
  | .answered res => some res
  | _ => none

/-- A client library connected to the server. -/
def connected (cfg : ClientConfig) (s : Shared Server) (c : Call) : Client :=
  newClient cfg (wire s c.coins c.clock)

/-- `Authenticate` makes this call to the server and returns this. -/
def Authenticates (cfg : ClientConfig) (s : Shared Server) (rq : TokenRequest) (c : Call)
    (x : Except GoErr TokenResponse) : Prop :=
  (∃ r, buildTokenRequest (cfg.baseURI ++ cfg.tokenEndpoint) rq = some r ∧ c.op = .serve r) ∧
    (connected cfg s c).authenticate rq = x

/-- `Introspect` makes this call to the server and returns this. -/
def Introspects (cfg : ClientConfig) (s : Shared Server) (rq : IntrospectionRequest) (c : Call)
    (x : Except GoErr IntrospectionResponse) : Prop :=
  (∃ r, buildIntrospectionRequest (cfg.baseURI ++ cfg.introspectionEndpoint) rq = some r ∧
    c.op = .serve r) ∧
    (connected cfg s c).introspect rq = x

/-- `Revoke` makes this call to the server and returns this error, or nil. -/
def RevokesToken (cfg : ClientConfig) (s : Shared Server) (rq : RevocationRequest) (c : Call)
    (x : Option GoErr) : Prop :=
  (∃ r, buildRevocationRequest (cfg.baseURI ++ cfg.revocationEndpoint) rq = some r ∧
    c.op = .serve r) ∧
    (connected cfg s c).revoke rq = x

/-- The text is the URL of this endpoint. -/
def Endpoint (uri name : Str) : Prop :=
  ∃ u, parseURL uri = some u ∧ (parseQuery u.rawQuery).2 = false ∧ LastSegment u.path name

/-- The three endpoints of the configuration are those of the server. -/
structure Configured (cfg : ClientConfig) : Prop where
  token : Endpoint (cfg.baseURI ++ cfg.tokenEndpoint) b!"token"
  introspection : Endpoint (cfg.baseURI ++ cfg.introspectionEndpoint) b!"introspect"
  revocation : Endpoint (cfg.baseURI ++ cfg.revocationEndpoint) b!"revoke"

/-- The limit for responses; 2048 bytes if none is configured. -/
abbrev ResponseLimit (cfg : ClientConfig) : Int :=
  if cfg.responseLimit = 0 then 2048 else cfg.responseLimit

/-- The response fits into the limit of the client. -/
def Fits (cfg : ClientConfig) (x : Answer) : Prop :=
  ∀ res, x = .answered res → (res.body.length : Int) ≤ ResponseLimit cfg

/-- The error tells the status of the response: it is an OAuth2 error with this status, or a message
with the status line. -/
def Reflects (res : Response) (err : GoErr) : Prop :=
  (∃ e : Error, err = .oauth e ∧ e.status = res.statusCode) ∨
  err = .msg (b!"unexpected response: " ++ res.status)

/-- A token request that the wire can carry. -/
structure Sendable (rq : TokenRequest) : Prop where
  grantType : rq.grantType ≠ []
  client : rq.clientID ≠ []
  colon : 0x3A ∉ rq.clientID
  scope : CleanScope rq.scope
  redirect : rq.redirectURI = [] ∨ Target rq.redirectURI
  size : (tokenRequestValues rq).encode.length ≤ 10485760

/-- The token response is what the event handed out: this access token, a refresh token, and what
the access token stands for. -/
structure Delivers (cfg : ServerConfig) (e : Event) (h : List Event) (trs : TokenResponse)
    (a : HS256Token) (g : Grant) : Prop where
  access : trs.accessToken = a.string ∧ Hands e .access a
  inForce : InForce cfg (e :: h) .access a g
  refresh : ∃ b, trs.refreshToken = b.string ∧ Hands e .refresh b
  type : trs.tokenType = b!"bearer"
  expiresIn : trs.expiresIn = cfg.accessTokenLifespan.tdiv second
  scope : ∃ str, Replaced g.scope.string str ∧ trs.scope = Scope.parse str
  rest : trs.state = [] ∧ trs.redirectURI = []

/-- The error is the one the server reported. -/
def Reports (x : Answer) (err : GoErr) : Prop :=
  (∃ e : Error, err = .oauth e ∧ 400 ≤ e.status ∧ e.status ≤ 403 ∧
    RefusedWith x e.status.toNat e.name ∧
    ∀ res, x = .answered res → e.description ≠ [] →
      JsonMember res b!"error_description" e.description) ∨
  (err = .lib ∧ ∃ w, x = .panicked w)

/-- The request is one the server must honour, given the history and the registered clients and
users, and this is what the access token will stand for. -/
inductive Entitled (cfg : ServerConfig) (h : List Event) (s : Server) (rq : TokenRequest)
    (clock : Nat → Time) : Grant → Prop
  | password : rq.grantType = b!"password" → Identified s rq.clientID rq.clientSecret →
      Password s rq.username rq.password → Within rq.scope cfg.allowedScope →
      Entitled cfg h s rq clock {
        client := rq.clientID, user := rq.username, scope := rq.scope,
        expires := clock 0 + cfg.accessTokenLifespan }
  | client {client : ServerEntity} : rq.grantType = b!"client_credentials" →
      s.clients.get? rq.clientID = some client → client.confidential = true →
      client.secret = rq.clientSecret → Within rq.scope cfg.allowedScope →
      Entitled cfg h s rq clock {
        client := rq.clientID, user := [], scope := rq.scope,
        expires := clock 0 + cfg.accessTokenLifespan }
  | code {y : HS256Token} {g : CodeGrant} : rq.grantType = b!"authorization_code" →
      Identified s rq.clientID rq.clientSecret → Code cfg h y g false →
      SameToken cfg rq.code y → clock 0 ≤ g.expires → g.client = rq.clientID →
      g.redirectURI = rq.redirectURI →
      Entitled cfg h s rq clock {
        client := g.client, user := g.user, scope := g.scope,
        expires := clock 1 + cfg.accessTokenLifespan, origin := y.signatureString }
  | refresh {y : HS256Token} {g : Grant} : rq.grantType = b!"refresh_token" →
      Identified s rq.clientID rq.clientSecret → InForce cfg h .refresh y g →
      SameToken cfg rq.refreshToken y → clock 0 ≤ g.expires → g.client = rq.clientID →
      Within rq.scope g.scope →
      Entitled cfg h s rq clock {
        client := g.client, user := g.user,
        scope := if rq.scope.empty then g.scope else rq.scope,
        expires := clock 1 + cfg.accessTokenLifespan }

end OAuth2.Spec

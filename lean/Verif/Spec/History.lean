import Verif.Spec.Server
import Verif.Spec.Bearer
import Verif.Spec.Utf8
/-
Histories of API calls, and what an outside observer of a history (who sees every request, every
response and the clock readings, but not the server's memory) can conclude from it: which tokens
and codes were handed out, to whom, for what, until when, and which of them were taken back.
Nothing here refers to the maps in which the server keeps tokens and codes.
-/

namespace OAuth2.Spec

/-! ### Calls and histories -/

/-- A call of the API, or the embedding program exchanging the registered clients and users
(exported fields of the server) between two calls. -/
inductive Op where
  | serve (r : Request)
  | authorize (r : Request) (required : Scope)
  | configure (clients users : GoMap ServerEntity)

/-- A call with the random bytes and clock readings it obtains. -/
structure Call where
  op : Op
  coins : Str := []
  clock : Nat → Time

/-- What the caller observes. -/
inductive Answer where
  /-- `ServeHTTP` returned; this is the response the client gets. -/
  | answered (res : Response)
  /-- `Authorize` returned true; nothing was written. -/
  | admitted
  /-- `Authorize` returned false; this is the response the client gets. -/
  | rejected (res : Response)
  /-- The call panicked; this was written before. -/
  | panicked (w : Recorder)
  /-- The call never returns because the mutex is held. -/
  | stuck
  /-- The embedding program wrote the exported fields. -/
  | configured
  deriving DecidableEq

/-- The world of a call before it starts. -/
def Call.local (c : Call) : Local := { coins := c.coins, clock := c.clock }

/-- Making one call. -/
def step (s : Shared Server) (c : Call) : Answer × Shared Server :=
  match c.op with
  | .serve r =>
    match exec (Server.serveHTTP r) s c.local with
    | (.ret _, s', l) => (.answered l.w.result, s')
    | (.panic, s', l) => (.panicked l.w, s')
    | (.deadlock, s', _) => (.stuck, s')
  | .authorize r required =>
    match exec (Server.authorize r required) s c.local with
    | (.ret true, s', _) => (.admitted, s')
    | (.ret false, s', l) => (.rejected l.w.result, s')
    | (.panic, s', l) => (.panicked l.w, s')
    | (.deadlock, s', _) => (.stuck, s')
  | .configure clients users =>
    (.configured, { s with st := { s.st with clients := clients, users := users } })

/-- A call together with what was observed. -/
structure Event where
  call : Call
  answer : Answer

/-- The server started without tokens and codes. -/
structure Started (s₀ : Server) : Prop where
  access : s₀.accessTokens = []
  refresh : s₀.refreshTokens = []
  codes : s₀.authorizationCodes = []

/-- `h` (latest event first) is a history of calls made one after the other on a server that
started as `s₀`, and `s` is the server after it. -/
inductive History (s₀ : Server) : List Event → Shared Server → Prop
  | start : History s₀ [] ⟨false, s₀⟩
  | next {h : List Event} {s : Shared Server} (c : Call) : History s₀ h s →
      History s₀ (⟨c, (step s c).1⟩ :: h) (step s c).2

/-! ### Reading calls -/

/-- The call is a well-formed token request to the token endpoint. -/
def AsksToken (c : Call) (rq : TokenRequest) : Prop :=
  ∃ r, c.op = .serve r ∧ LastSegment r.path b!"token" ∧ parseTokenRequest r = .ok rq

/-- The call is a well-formed authorization request that is submitted (not a GET request) to the
authorization endpoint, with a user name and password in its form. -/
def AsksAuthorization (c : Call) (rq : AuthorizationRequest) (username password : Str) : Prop :=
  ∃ r, c.op = .serve r ∧ LastSegment r.path b!"authorize" ∧ r.method ≠ b!"GET" ∧
    parseAuthorizationRequest r = .ok rq ∧
    username = (r.parseForm.1.postForm.getD []).get b!"username" ∧
    password = (r.parseForm.1.postForm.getD []).get b!"password"

/-- The call is a well-formed introspection request to the introspection endpoint. -/
def AsksIntrospection (c : Call) (rq : IntrospectionRequest) : Prop :=
  ∃ r, c.op = .serve r ∧ LastSegment r.path b!"introspect" ∧ parseIntrospectionRequest r = .ok rq

/-- The call is a well-formed revocation request to the revocation endpoint. -/
def AsksRevocation (c : Call) (rq : RevocationRequest) : Prop :=
  ∃ r, c.op = .serve r ∧ LastSegment r.path b!"revoke" ∧ parseRevocationRequest r = .ok rq

/-- The call carries what entitles a client to tokens in the first place, given the clients and
users that are registered: the password of the user, together with the identification of the
client (or, in the browser, its redirect URI); or the secret of a confidential client that asks
for itself. -/
inductive Consent (s : Server) (c : Call) : (client user : Str) → (scope : Scope) → Prop
  | authorization {rq username password client} : AsksAuthorization c rq username password →
      Password s username password →
      s.clients.get? rq.clientID = some client → client.redirectURI = rq.redirectURI →
      Consent s c rq.clientID username rq.scope
  | password {rq} : AsksToken c rq → rq.grantType = b!"password" →
      Identified s rq.clientID rq.clientSecret → Password s rq.username rq.password →
      Consent s c rq.clientID rq.username rq.scope
  | client {rq client} : AsksToken c rq → rq.grantType = b!"client_credentials" →
      s.clients.get? rq.clientID = some client → client.confidential = true →
      client.secret = rq.clientSecret →
      Consent s c rq.clientID [] rq.scope

/-- The call only asks: `Authorize`, a GET request, an introspection request, or a request to no
endpoint. -/
def OnlyAsks (c : Call) : Prop :=
  (∃ r required, c.op = .authorize r required) ∨
  ∃ r, c.op = .serve r ∧ (r.method = b!"GET" ∨ LastSegment r.path b!"introspect" ∨
    ∀ endpoint ∈ [b!"authorize", b!"token", b!"revoke"], ¬ LastSegment r.path endpoint)

/-- The random source has enough bytes for `n` tokens or codes. -/
def Enough (cfg : ServerConfig) (c : Call) (n : Nat) : Prop :=
  0 ≤ cfg.keyLength ∧ n * cfg.keyLength.toNat ≤ c.coins.length

/-! ### Reading events -/

/-- The event is a well-formed token request to the token endpoint and its response. -/
def TokenCall (e : Event) (rq : TokenRequest) (res : Response) : Prop :=
  ∃ r, e.call.op = .serve r ∧ LastSegment r.path b!"token" ∧ parseTokenRequest r = .ok rq ∧
    e.answer = .answered res

/-- The event is a well-formed authorization request that was submitted (not a GET request) to
the authorization endpoint, with the user name in its form, and its response. -/
def AuthorizationCall (e : Event) (rq : AuthorizationRequest) (username : Str) (res : Response) :
    Prop :=
  ∃ r, e.call.op = .serve r ∧ LastSegment r.path b!"authorize" ∧ r.method ≠ b!"GET" ∧
    parseAuthorizationRequest r = .ok rq ∧
    username = (r.parseForm.1.postForm.getD []).get b!"username" ∧ e.answer = .answered res

/-- The event is a well-formed revocation request to the revocation endpoint and its response. -/
def RevocationCall (e : Event) (rq : RevocationRequest) (res : Response) : Prop :=
  ∃ r, e.call.op = .serve r ∧ LastSegment r.path b!"revoke" ∧ parseRevocationRequest r = .ok rq ∧
    e.answer = .answered res

/-- The body is a JSON object with this member. -/
def JsonMember (res : Response) (name value : Str) : Prop :=
  ∃ members, parseJSON res.body = some (.obj members) ∧ (name, .str value) ∈ members

/-- The body is a JSON object whose only member of this name is this integer. -/
def JsonNumber (res : Response) (name : Str) (value : Int) : Prop :=
  ∃ members, parseJSON res.body = some (.obj members) ∧
    ∀ doc, (name, doc) ∈ members ↔ doc = .num (itoa value)

/-- The call is answered with this status and an error of this name in a JSON body. -/
def RefusedWith (x : Answer) (status : Nat) (name : Str) : Prop :=
  ∃ res, x = .answered res ∧ res.statusCode = status ∧ JsonMember res b!"error" name

/-- The request is refused, because of its form or because of the client, and changes nothing. -/
def Refused (s : Server) (c : Call) : Prop :=
  (∃ status name, status ∈ [400, 401] ∧ RefusedWith (step ⟨false, s⟩ c).1 status name) ∧
    (step ⟨false, s⟩ c).2 = ⟨false, s⟩

/-- The response writer has received exactly one status line. -/
def AnsweredOnce (w : Recorder) (status : Nat) : Prop :=
  (∃ header, w.sent = some (status, header)) ∧ w.superfluous = 0

/-- The call is `Authorize` with a bearer token in its header, and this text is the token. -/
def Presents (c : Call) (required : Scope) (text : Str) : Prop :=
  ∃ r, c.op = .authorize r required ∧ CarriesBearer (r.header.get b!"Authorization") text

/-- Every item of the inner scope is one of the outer scope. -/
def Within (inner outer : Scope) : Prop := ∀ i ∈ inner.items, i ∈ outer.items

/-- The response redirects to a location whose fragment has this parameter (and no other of that
name). -/
def FragmentParameter (res : Response) (name value : Str) : Prop :=
  ∃ front fragment params, res.header.all b!"Location" = [front ++ [0x23] ++ fragment] ∧
    0x23 ∉ fragment ∧ unescape .fragment fragment = some params ∧
    (parseQuery params).1.all name = [value]

/-- The response redirects to a location whose query has this parameter in addition to the
parameters of that name in the query of `uri`. -/
def AddedParameter (uri : Str) (res : Response) (name value : Str) : Prop :=
  ∃ u front query, parseRequestURI uri = some u ∧
    res.header.all b!"Location" = [front ++ [0x3F] ++ query] ∧ 0x3F ∉ query ∧
    (parseQuery query).1.all name = u.query.all name ++ [value]

/-- The two kinds of tokens. -/
inductive Kind where
  | access
  | refresh
  deriving DecidableEq

/-- The name under which a response carries a token. -/
def Kind.name : Kind → Str
  | .access => b!"access_token"
  | .refresh => b!"refresh_token"

/-- The event hands out the token: in the JSON response of the token endpoint, or (access tokens)
in the fragment of a redirect of the authorization endpoint. -/
def Hands (e : Event) (k : Kind) (t : HS256Token) : Prop :=
  (∃ rq res, TokenCall e rq res ∧ JsonMember res k.name t.string) ∨
  (k = .access ∧ ∃ rq u res, AuthorizationCall e rq u res ∧ rq.responseType = b!"token" ∧
    FragmentParameter res b!"access_token" t.string)

/-- The event hands out the code in the query of a redirect. -/
def HandsCode (e : Event) (c : HS256Token) : Prop :=
  ∃ rq u res, AuthorizationCall e rq u res ∧ rq.responseType = b!"code" ∧
    AddedParameter rq.redirectURI res b!"code" c.string

/-- The texts spell tokens with the same signature. -/
def SameToken (cfg : ServerConfig) (text : Str) (t : HS256Token) : Prop :=
  ∃ t', HS256Token.parse cfg.secret text = .ok t' ∧ t'.signatureString = t.signatureString

/-- Two different keys with the same HMAC under the server's secret. -/
def Collision (cfg : ServerConfig) (key key' : Str) : Prop :=
  key ≠ key' ∧ hmacSHA256 cfg.secret key = hmacSHA256 cfg.secret key'

/-- The event redeems the code: a token request with it is answered with an access token. -/
def Redeems (cfg : ServerConfig) (e : Event) (c : HS256Token) : Prop :=
  ∃ rq res a, TokenCall e rq res ∧ rq.grantType = b!"authorization_code" ∧
    SameToken cfg rq.code c ∧ JsonMember res b!"access_token" a

/-- The event replays the code with this signature: a token request with it is refused because
the code is not known (any more). -/
def Replays (cfg : ServerConfig) (e : Event) (signature : Str) : Prop :=
  ∃ rq res c, TokenCall e rq res ∧ rq.grantType = b!"authorization_code" ∧
    HS256Token.parse cfg.secret rq.code = .ok c ∧ c.signatureString = signature ∧
    JsonMember res b!"error" b!"invalid_grant" ∧
    JsonMember res b!"error_description" b!"unknown authorization code"

/-- The event uses up the refresh token: a token request with it is answered with an access
token. -/
def UsesUp (cfg : ServerConfig) (e : Event) (t : HS256Token) : Prop :=
  ∃ rq res a, TokenCall e rq res ∧ rq.grantType = b!"refresh_token" ∧
    SameToken cfg rq.refreshToken t ∧ JsonMember res b!"access_token" a

/-- The event revokes the token: a revocation request with it is answered with success. -/
def Revokes (cfg : ServerConfig) (e : Event) (t : HS256Token) : Prop :=
  ∃ rq res, RevocationCall e rq res ∧ SameToken cfg rq.token t ∧ res.statusCode = 200

/-- The event is a revocation request of this client for the token that is refused because
something with this signature belongs to another client. -/
def HalfRevokes (cfg : ServerConfig) (e : Event) (t : HS256Token) (client : Str) : Prop :=
  ∃ rq res, RevocationCall e rq res ∧ SameToken cfg rq.token t ∧ rq.clientID = client ∧
    JsonMember res b!"error_description" b!"wrong client"

/-- The event reports a failure: a status of at least 400 (to the caller of an endpoint or of
`Authorize`), a panic, or a redirect with an `error` parameter. -/
def Fails (e : Event) : Prop :=
  (∃ res, (e.answer = .answered res ∨ e.answer = .rejected res) ∧ 400 ≤ res.statusCode) ∨
  (∃ w, e.answer = .panicked w) ∨
  ∃ rq u res name, AuthorizationCall e rq u res ∧
    ((rq.responseType = b!"token" ∧ FragmentParameter res b!"error" name) ∨
     (rq.responseType = b!"code" ∧ AddedParameter rq.redirectURI res b!"error" name))

/-! ### Codes -/

/-- What a code stands for. -/
structure CodeGrant where
  client : Str
  user : Str
  scope : Scope
  redirectURI : Str
  expires : Time

/-- After the history, the code `c` is on record, and whether it was redeemed. A later code with
the same signature takes its place. -/
inductive Code (cfg : ServerConfig) : List Event → HS256Token → CodeGrant → (redeemed : Bool) → Prop
  | issued {e h c rq u res} : AuthorizationCall e rq u res → rq.responseType = b!"code" →
      HandsCode e c →
      Code cfg (e :: h) c {
        client := rq.clientID, user := u, scope := rq.scope, redirectURI := rq.redirectURI,
        expires := e.call.clock 0 + cfg.authorizationCodeLifespan } false
  | redeemed {e h c g} : Code cfg h c g false → Redeems cfg e c → Code cfg (e :: h) c g true
  | later {e h c g b} : Code cfg h c g b → ¬ Redeems cfg e c →
      (∀ c', HandsCode e c' → c'.signatureString ≠ c.signatureString) → Code cfg (e :: h) c g b

/-! ### Tokens -/

/-- What a token stands for. `origin` is the signature of the code it was redeemed for. -/
structure Grant where
  client : Str
  user : Str
  scope : Scope
  expires : Time
  origin : Str := []

/-- When a token handed out by the call expires; `n` is the number of clock readings before. -/
def expiry (cfg : ServerConfig) (e : Event) (n : Nat) : Kind → Time
  | .access => e.call.clock n + cfg.accessTokenLifespan
  | .refresh => e.call.clock (n + 1) + cfg.refreshTokenLifespan

/-- The event takes the token away: a token of the same kind and signature is handed out, the
token is revoked, its code is replayed, or it is a refresh token and is used up. The case
`HalfRevokes` needs an access token and a refresh token of different clients with the same
signature. -/
def Ends (cfg : ServerConfig) (e : Event) (k : Kind) (t : HS256Token) (g : Grant) : Prop :=
  (∃ t', Hands e k t' ∧ t'.signatureString = t.signatureString) ∨ Revokes cfg e t ∨
  (g.origin ≠ [] ∧ Replays cfg e g.origin) ∨ (k = .refresh ∧ UsesUp cfg e t) ∨
  (k = .access ∧ HalfRevokes cfg e t g.client)

/-- After the history, the token `t` is in force. -/
inductive InForce (cfg : ServerConfig) : List Event → Kind → HS256Token → Grant → Prop
  | implicit {e h t rq u res} : AuthorizationCall e rq u res → Hands e .access t →
      InForce cfg (e :: h) .access t {
        client := rq.clientID, user := u, scope := rq.scope, expires := expiry cfg e 0 .access }
  | password {e h k t rq res} : TokenCall e rq res → rq.grantType = b!"password" → Hands e k t →
      InForce cfg (e :: h) k t {
        client := rq.clientID, user := rq.username, scope := rq.scope, expires := expiry cfg e 0 k }
  | client {e h k t rq res} : TokenCall e rq res → rq.grantType = b!"client_credentials" →
      Hands e k t →
      InForce cfg (e :: h) k t {
        client := rq.clientID, user := [], scope := rq.scope, expires := expiry cfg e 0 k }
  | exchange {e h k t rq res c g} : TokenCall e rq res → rq.grantType = b!"authorization_code" →
      Hands e k t → Code cfg h c g false → SameToken cfg rq.code c →
      InForce cfg (e :: h) k t {
        client := g.client, user := g.user, scope := g.scope, expires := expiry cfg e 1 k,
        origin := c.signatureString }
  | refresh {e h k t rq res u g} : TokenCall e rq res → rq.grantType = b!"refresh_token" →
      Hands e k t → InForce cfg h .refresh u g → SameToken cfg rq.refreshToken u →
      (k = .refresh → t.signatureString ≠ u.signatureString) →
      InForce cfg (e :: h) k t {
        client := g.client, user := g.user,
        scope := if rq.scope.empty then g.scope else rq.scope, expires := expiry cfg e 1 k }
  | later {e h k t g} : InForce cfg h k t g → ¬ Ends cfg e k t g → InForce cfg (e :: h) k t g

/-- What the client library reads from an introspection response describes the token: it is active,
of this kind, and client, user, scope and expiry are those of the grant (up to invalid UTF-8, which
JSON cannot transport). Nothing else is told. -/
structure Describes (i : IntrospectionResponse) (k : Kind) (g : Grant) : Prop where
  active : i.active = true
  kind : i.tokenType = k.name
  client : Replaced g.client i.clientID
  user : Replaced g.user i.username
  scope : ∃ str, Replaced g.scope.string str ∧ i.scope = Scope.parse str
  expires : i.expiresAt = g.expires.unix
  rest : i.issuedAt = 0 ∧ i.notBefore = 0 ∧ i.subject = [] ∧ i.audience = [] ∧ i.issuer = [] ∧
    i.identifier = [] ∧ i.extra = none

end OAuth2.Spec

import Verif.Spec.History
/-
The public maps of a server, whatever the embedding program has put in them: what the calls make of
them.
-/

namespace OAuth2.Spec

/-- The map of the tokens of this kind. -/
def tokens (s : Server) : Kind → GoMap ServerCredential
  | .access => s.accessTokens
  | .refresh => s.refreshTokens

/-- No key occurs twice. So it is with Go's maps. -/
def KeysOnce (s : Server) : Prop :=
  s.accessTokens.keys.Nodup ∧ s.refreshTokens.keys.Nodup

/-- What is recorded about a token of this kind that the event hands out. -/
inductive Records (s : Server) (e : Event) (k : Kind) : ServerCredential → Prop
  | implicit {rq u res} : AuthorizationCall e rq u res → rq.responseType = b!"token" →
      Records s e k {
        clientID := rq.clientID, username := u, scope := rq.scope,
        expiresAt := expiry s.config e 0 k }
  | password {rq res} : TokenCall e rq res → rq.grantType = b!"password" →
      Records s e k {
        clientID := rq.clientID, username := rq.username, scope := rq.scope,
        expiresAt := expiry s.config e 0 k }
  | client {rq res} : TokenCall e rq res → rq.grantType = b!"client_credentials" →
      Records s e k {
        clientID := rq.clientID, username := [], scope := rq.scope,
        expiresAt := expiry s.config e 0 k }
  | exchange {rq res x code} : TokenCall e rq res → rq.grantType = b!"authorization_code" →
      HS256Token.parse s.config.secret rq.code = .ok x →
      s.authorizationCodes.get? x.signatureString = some code →
      Records s e k {
        clientID := code.clientID, username := code.username, scope := code.scope,
        expiresAt := expiry s.config e 1 k, code := x.signatureString }
  | refresh {rq res x old} : TokenCall e rq res → rq.grantType = b!"refresh_token" →
      HS256Token.parse s.config.secret rq.refreshToken = .ok x →
      s.refreshTokens.get? x.signatureString = some old →
      Records s e k {
        clientID := old.clientID, username := old.username,
        scope := if rq.scope.empty then old.scope else rq.scope,
        expiresAt := expiry s.config e 1 k }

/-- The event removes the entry with this signature and content: the token is revoked, its code,
which must be on record, is replayed, or it is a refresh token and is used up. The last case needs
an entry of another client under the same signature in the other map. -/
def Withdraws (s : Server) (e : Event) (k : Kind) (signature : Str) (cred : ServerCredential) :
    Prop :=
  (∃ t, t.signatureString = signature ∧ Revokes s.config e t) ∨
  (∃ code, s.authorizationCodes.get? cred.code = some code ∧ Replays s.config e cred.code) ∨
  (k = .refresh ∧ ∃ t, t.signatureString = signature ∧ UsesUp s.config e t) ∨
  (k = .access ∧ ∃ t, t.signatureString = signature ∧ HalfRevokes s.config e t cred.clientID)

/-- What the token request presents is worth tokens, by what is registered and stored at the time of
the call. -/
inductive Merits (s : Server) (c : Call) (rq : TokenRequest) : Prop
  | password : rq.grantType = b!"password" → Password s rq.username rq.password →
      Within rq.scope s.config.allowedScope → Merits s c rq
  | client {client} : rq.grantType = b!"client_credentials" →
      s.clients.get? rq.clientID = some client → client.confidential = true →
      Within rq.scope s.config.allowedScope → Merits s c rq
  | exchange {x code} : rq.grantType = b!"authorization_code" →
      HS256Token.parse s.config.secret rq.code = .ok x →
      s.authorizationCodes.get? x.signatureString = some code → code.used = false →
      c.clock 0 ≤ code.expiresAt → code.clientID = rq.clientID →
      code.redirectURI = rq.redirectURI → Merits s c rq
  | refresh {x old} : rq.grantType = b!"refresh_token" →
      HS256Token.parse s.config.secret rq.refreshToken = .ok x →
      s.refreshTokens.get? x.signatureString = some old → c.clock 0 ≤ old.expiresAt →
      old.clientID = rq.clientID → Within rq.scope old.scope → Merits s c rq

end OAuth2.Spec

import Verif.Spec.History
/-
What a call names and carries, and when two servers agree on it.
-/

namespace OAuth2.Spec

/-- The call is a request with this client id. -/
inductive MentionsClient (c : Call) : Str → Prop
  | token {rq} : AsksToken c rq → MentionsClient c rq.clientID
  | introspection {rq} : AsksIntrospection c rq → MentionsClient c rq.clientID
  | revocation {rq} : AsksRevocation c rq → MentionsClient c rq.clientID
  | authorization {r rq} : c.op = .serve r → LastSegment r.path b!"authorize" →
      parseAuthorizationRequest r = .ok rq → MentionsClient c rq.clientID

/-- The call is a request with this user name: a password grant or a submitted authorization
request. -/
inductive MentionsUser (c : Call) : Str → Prop
  | token {rq} : AsksToken c rq → rq.grantType = b!"password" → MentionsUser c rq.username
  | authorization {rq username password} : AsksAuthorization c rq username password →
      MentionsUser c username

/-- The call carries this text as a token or code: the code or refresh token to exchange, the token
to introspect or revoke, or the bearer token presented to `Authorize`. -/
inductive Carries (c : Call) : Str → Prop
  | code {rq} : AsksToken c rq → rq.grantType = b!"authorization_code" → Carries c rq.code
  | refreshToken {rq} : AsksToken c rq → rq.grantType = b!"refresh_token" →
      Carries c rq.refreshToken
  | introspection {rq} : AsksIntrospection c rq → Carries c rq.token
  | revocation {rq} : AsksRevocation c rq → Carries c rq.token
  | bearer {required text} : Presents c required text → Carries c text

/-- A map, as Go has it: no key twice. -/
def Proper (s : Server) : Prop :=
  s.accessTokens.keys.Nodup ∧ s.refreshTokens.keys.Nodup ∧ s.authorizationCodes.keys.Nodup

/-- The servers hold the same under this signature. -/
def AgreeAt (s s' : Server) (signature : Str) : Prop :=
  s.accessTokens.get? signature = s'.accessTokens.get? signature ∧
  s.refreshTokens.get? signature = s'.refreshTokens.get? signature ∧
  s.authorizationCodes.get? signature = s'.authorizationCodes.get? signature

instance (s : Server) : Decidable (Proper s) := by unfold Proper; infer_instance

instance (s s' : Server) (signature : Str) : Decidable (AgreeAt s s' signature) := by
  unfold AgreeAt; infer_instance

/-- The servers agree on everything the call names and carries. -/
structure AgreeOn (c : Call) (s s' : Server) : Prop where
  clients : ∀ id, MentionsClient c id → s.clients.get? id = s'.clients.get? id
  users : ∀ name, MentionsUser c name → s.users.get? name = s'.users.get? name
  carried : ∀ text t, Carries c text → HS256Token.parse s.config.secret text = .ok t →
    AgreeAt s s' t.signatureString

/-- Making the calls one after the other: the answers and the server afterwards. -/
def runAll (s : Shared Server) : List Call → List Answer × Shared Server
  | [] => ([], s)
  | c :: cs =>
    let x := runAll (step s c).2 cs
    ((step s c).1 :: x.1, x.2)

end OAuth2.Spec

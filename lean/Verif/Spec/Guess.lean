import Verif.Spec.Local
/-
When a call cannot tell two sets of registered clients and users apart.
-/

namespace OAuth2.Spec

/-- The client is registered with this redirect URI. -/
def Registered (s : Server) (id uri : Str) : Prop :=
  ∃ c, s.clients.get? id = some c ∧ c.redirectURI = uri

/-- The client is registered as confidential. -/
def Confidential (s : Server) (id : Str) : Prop :=
  ∃ c, s.clients.get? id = some c ∧ c.confidential = true

/-- The call presents these client credentials to the token, introspection or revocation
endpoint. -/
inductive PresentsClient (c : Call) : (id secret : Str) → Prop
  | token {rq} : AsksToken c rq → PresentsClient c rq.clientID rq.clientSecret
  | introspection {rq} : AsksIntrospection c rq → PresentsClient c rq.clientID rq.clientSecret
  | revocation {rq} : AsksRevocation c rq → PresentsClient c rq.clientID rq.clientSecret

/-- The call presents this user name and password: a password grant or a submitted authorization
request. -/
inductive PresentsUser (c : Call) : (name password : Str) → Prop
  | token {rq} : AsksToken c rq → rq.grantType = b!"password" →
      PresentsUser c rq.username rq.password
  | authorization {rq username password} : AsksAuthorization c rq username password →
      PresentsUser c username password

/-- Everything the call presents is right for both servers or wrong for both: the password of the
user, the secret of the client, the redirect URI of the client named to the authorization endpoint,
and that a client asking for itself is confidential. -/
structure SameGuesses (c : Call) (s s' : Server) : Prop where
  user : ∀ name password, PresentsUser c name password →
    (Password s name password ↔ Password s' name password)
  client : ∀ id secret, PresentsClient c id secret →
    (Identified s id secret ↔ Identified s' id secret)
  own : ∀ rq, AsksToken c rq → rq.grantType = b!"client_credentials" →
    Identified s rq.clientID rq.clientSecret →
    (Confidential s rq.clientID ↔ Confidential s' rq.clientID)
  redirect : ∀ r rq, c.op = .serve r → LastSegment r.path b!"authorize" →
    parseAuthorizationRequest r = .ok rq →
    ∀ uri, Registered s rq.clientID uri ↔ Registered s' rq.clientID uri

/-- The server with other clients and users. -/
def withRegistrations (s : Server) (clients users : GoMap ServerEntity) : Server :=
  { s with clients := clients, users := users }

/-- The call does not itself exchange the registered clients and users. -/
def Requests (c : Call) : Prop := ∀ clients users, c.op ≠ .configure clients users

end OAuth2.Spec

import Verif.Spec.History
/-
Removing clients and users.
-/

namespace OAuth2.Spec

/-- The call is a request in the name of the client: for tokens, for an authorization, about a token, or to revoke
one. -/
inductive InNameOf (c : Call) (client : Str) : Prop
  | token {rq} : AsksToken c rq → rq.clientID = client → InNameOf c client
  | authorization {r rq} : c.op = .serve r → LastSegment r.path b!"authorize" →
      parseAuthorizationRequest r = .ok rq → rq.clientID = client → InNameOf c client
  | introspection {rq} : AsksIntrospection c rq → rq.clientID = client → InNameOf c client
  | revocation {rq} : AsksRevocation c rq → rq.clientID = client → InNameOf c client

/-- The call presents a password of the user: at the authorization endpoint, or in a password grant. -/
inductive WithPassword (c : Call) (user : Str) : Prop
  | authorization {rq password} : AsksAuthorization c rq user password → WithPassword c user
  | token {rq} : AsksToken c rq → rq.grantType = b!"password" → rq.username = user → WithPassword c user

/-- The call exchanges the registered clients and users. -/
def Registers (c : Call) : Prop := ∃ clients users, c.op = .configure clients users

/-- The event gives nothing: no token and no code. -/
def GivesNothing (e : Event) : Prop := (∀ k t, ¬ Hands e k t) ∧ ∀ x, ¬ HandsCode e x

end OAuth2.Spec

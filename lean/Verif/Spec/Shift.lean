import Verif.Spec.Local
/-
The same calls, made earlier or later.
-/

namespace OAuth2.Spec

/-- The call as it is made `d` nanoseconds later. -/
def Call.later (c : Call) (d : Int) : Call := { c with clock := fun n => c.clock n + d }

/-- Everything in the map expires `d` nanoseconds later. -/
def expiringLater (m : GoMap ServerCredential) (d : Int) : GoMap ServerCredential :=
  m.map fun e => (e.1, { e.2 with expiresAt := e.2.expiresAt + d })

/-- The server as it is when everything has happened `d` nanoseconds later. -/
def laterServer (s : Server) (d : Int) : Server := {
  s with
  accessTokens := expiringLater s.accessTokens d
  refreshTokens := expiringLater s.refreshTokens d
  authorizationCodes := expiringLater s.authorizationCodes d }

/-- The call goes to the introspection endpoint. -/
def ToIntrospection (c : Call) : Prop := ∃ r, c.op = .serve r ∧ LastSegment r.path b!"introspect"

/-- The response is the one with which a handler that has written nothing so far writes this description of a
token. -/
def WrittenAs (i : IntrospectionResponse) (res : Response) : Prop :=
  ∀ (σ : Type) (s : Shared σ) (l : Local), l.w = {} →
    ∃ l', exec (writeIntrospectionResponse i) s l = (.ret true, s, l') ∧ l'.w.result = res

/-- At the two times, the same of all that the server keeps has expired. -/
def SameExpired (s : Server) (t t' : Time) : Prop :=
  ∀ m ∈ [s.accessTokens, s.refreshTokens, s.authorizationCodes], ∀ e ∈ m,
    e.2.expiresAt < t ↔ e.2.expiresAt < t'

end OAuth2.Spec

import Verif.Spec.History
/-
Asking for less.
-/

namespace OAuth2.Spec

/-- The second call asks for the same, but for no more rights than the first: `Authorize` with no more required
scopes, or a request with no more scopes. -/
inductive AsksLess (c c' : Call) : Prop
  | authorize {r required less} : c.op = .authorize r required → c'.op = .authorize r less →
      Within less required → AsksLess c c'
  | token {rq less} : AsksToken c rq → AsksToken c' { rq with scope := less } → Within less rq.scope → AsksLess c c'
  | authorization {rq less u p} : AsksAuthorization c rq u p → AsksAuthorization c' { rq with scope := less } u p →
      Within less rq.scope → AsksLess c c'

/-- The second call is not made later, and gets the same random bytes. -/
structure NotLater (c c' : Call) : Prop where
  coins : c'.coins = c.coins
  clock : ∀ n, c'.clock n ≤ c.clock n

/-- The second server is the first, but allows no fewer scopes. -/
def AllowsMore (s s' : Server) : Prop :=
  ∃ more, Within s.config.allowedScope more ∧ s' = { s with config := { s.config with allowedScope := more } }

end OAuth2.Spec

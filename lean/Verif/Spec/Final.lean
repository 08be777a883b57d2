import Verif.Spec.Kinds
import Verif.Spec.Store
/-
Asking again, later, and for no less.
-/

namespace OAuth2.Spec

/-- The second call presents the same bearer token, not earlier, and requires no less of it. -/
def PresentsLater (c d : Call) (text : Str) : Prop :=
  ∃ required required', Presents c required text ∧ Presents d required' text ∧ Within required required' ∧
    c.clock 0 ≤ d.clock 0

/-- The second call is a token request of the same client, not earlier, and asks for no less: it refreshes with the same
refresh token, or exchanges the same code for the same redirect URI. -/
inductive AsksLater (c d : Call) (rq rq' : TokenRequest) : TokenSort → Str → Prop
  | refresh : rq.grantType = b!"refresh_token" → rq'.grantType = b!"refresh_token" →
      rq'.refreshToken = rq.refreshToken → rq'.clientID = rq.clientID → Within rq.scope rq'.scope →
      c.clock 0 ≤ d.clock 0 → AsksLater c d rq rq' .refresh rq.refreshToken
  | exchange : rq.grantType = b!"authorization_code" → rq'.grantType = b!"authorization_code" →
      rq'.code = rq.code → rq'.clientID = rq.clientID → rq'.redirectURI = rq.redirectURI →
      c.clock 0 ≤ d.clock 0 → AsksLater c d rq rq' .code rq.code

end OAuth2.Spec

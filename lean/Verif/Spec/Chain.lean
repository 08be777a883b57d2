import Verif.Spec.History

/-!
Chains of refreshes, as an outside observer sees them.
-/

namespace OAuth2.Spec

/-- After the history, the token `t` of this kind is in force and stands for the last grant; and it
goes back, over any number of refreshes with any other calls in between, to a refresh token that
stood for the grant `first`. -/
inductive Descends (cfg : ServerConfig) (first : Grant) :
    List Event → Kind → HS256Token → Grant → Prop
  | first {h y} : InForce cfg h .refresh y first → Descends cfg first h .refresh y first
  | wait {e h k t g} : Descends cfg first h k t g → InForce cfg (e :: h) k t g →
      Descends cfg first (e :: h) k t g
  | refresh {e h y g rq res k t g'} : Descends cfg first h .refresh y g → TokenCall e rq res →
      rq.grantType = b!"refresh_token" → SameToken cfg rq.refreshToken y → Hands e k t →
      InForce cfg (e :: h) k t g' → Descends cfg first (e :: h) k t g'

end OAuth2.Spec

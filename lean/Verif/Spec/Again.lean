import Verif.Spec.Removal
import Verif.Spec.Store
/-
Making the same request again.
-/

namespace OAuth2.Spec

/-- The second call is the same request, whenever it is made. -/
def RequestAgain (c c' : Call) : Prop := c'.op = c.op

/-- The server refuses: it answers with status 400 and does not change. -/
def Refuses (s : Shared Server) (c : Call) : Prop :=
  ∃ res, step s c = (.answered res, s) ∧ res.statusCode = 400

end OAuth2.Spec

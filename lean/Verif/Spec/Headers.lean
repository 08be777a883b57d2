import Verif.Spec.History
/-
What it means that a message has no header a line break could be smuggled through.
-/

namespace OAuth2.Spec

/-- No control character: no byte below the space, in particular no line break, and no DEL. -/
def OneLine (text : Str) : Prop := ∀ c ∈ text, 0x20 ≤ c ∧ c ≠ 0x7F

/-- Every value of every header is free of control characters. -/
def CleanHeader (h : Header) : Prop := ∀ e ∈ h, ∀ value ∈ e.2, OneLine value

/-- What `Authorize` is asked for is text without control characters. The required scope is chosen
by the embedding program, not by the client. -/
def Sane (c : Call) : Prop :=
  ∀ r required, c.op = .authorize r required → ∀ item ∈ required.items, OneLine item

end OAuth2.Spec

import Verif.Spec.Utf8
/-
Text in which no browser finds markup or the end of a script.
-/

namespace OAuth2.Spec

/-- A character that is no control character, not one of `&`, `<` and `>`, and not one of the line separators
U+2028 and U+2029, at which a string ends in JavaScript. -/
def Inert (r : Nat) : Prop := Scalar r ∧ 0x20 ≤ r ∧ r ∉ [0x26, 0x3C, 0x3E, 0x2028, 0x2029]

/-- The bytes are the UTF-8 encoding of such characters. -/
def InertText (s : Str) : Prop := ∃ rs : List Nat, (∀ r ∈ rs, Inert r) ∧ s = rs.flatMap encodeRune

/-- Such text, in lines. -/
def InertPage (s : Str) : Prop := ∃ rs : List Nat, (∀ r ∈ rs, Inert r ∨ r = 0x0A) ∧ s = rs.flatMap encodeRune

/-- One line of such text, or nothing. -/
def InertLine (s : Str) : Prop := s = [] ∨ ∃ text, InertText text ∧ s = text ++ b!"\n"

end OAuth2.Spec

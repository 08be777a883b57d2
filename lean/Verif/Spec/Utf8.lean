import Verif.Model.Bytes
/-
UTF-8 validity and the replacement of invalid bytes, independently of any decoder.
-/

namespace OAuth2.Spec

/-- A Unicode scalar value. -/
def Scalar (r : Nat) : Prop := r < 0xD800 ∨ (0xE000 ≤ r ∧ r ≤ 0x10FFFF)

/-- The bytes are the UTF-8 encoding of a sequence of scalar values. -/
def ValidUTF8 (s : Str) : Prop := ∃ rs : List Nat, (∀ r ∈ rs, Scalar r) ∧ s = rs.flatMap encodeRune

/-- `t` is `s` with every byte that starts no encoded scalar value replaced by U+FFFD, reading
from the left. -/
inductive Replaced : Str → Str → Prop
  | nil : Replaced [] []
  | char {r : Nat} {s t : Str} : Scalar r → Replaced s t →
      Replaced (encodeRune r ++ s) (encodeRune r ++ t)
  | bad {c : UInt8} {s t : Str} : (∀ r rest, Scalar r → c :: s ≠ encodeRune r ++ rest) →
      Replaced s t → Replaced (c :: s) ([0xEF, 0xBF, 0xBD] ++ t)

end OAuth2.Spec

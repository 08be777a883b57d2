import Verif.Spec.Extra
/-
The texts of JSON documents, as RFC 8259 has them, and what a client that knows certain member names
reads from them.
-/

namespace OAuth2.Spec

/-- White space between the tokens of a document. -/
def Space (s : Str) : Prop := ∀ c ∈ s, c = 0x20 ∨ c = 0x09 ∨ c = 0x0A ∨ c = 0x0D

/-- A hexadecimal digit, in either case, and its value. -/
def HexDigit (c : UInt8) (v : Nat) : Prop :=
  (Digit c ∧ v = c.toNat - 0x30) ∨ (0x61 ≤ c ∧ c ≤ 0x66 ∧ v = c.toNat - 0x61 + 10) ∨
    (0x41 ≤ c ∧ c ≤ 0x46 ∧ v = c.toNat - 0x41 + 10)

/-- `\u` and four digits. -/
def UnicodeEscape (t : Str) (v : Nat) : Prop := ∃ a b c d va vb vc vd,
  t = [0x5C, 0x75, a, b, c, d] ∧ HexDigit a va ∧ HexDigit b vb ∧ HexDigit c vc ∧ HexDigit d vd ∧
    v = 4096 * va + 256 * vb + 16 * vc + vd

/-- The letters that may follow a backslash, and what they stand for. -/
def shortEscapes : List (UInt8 × UInt8) :=
  [(0x22, 0x22), (0x5C, 0x5C), (0x2F, 0x2F), (0x62, 0x08), (0x66, 0x0C), (0x6E, 0x0A),
   (0x72, 0x0D), (0x74, 0x09)]

/-- The first half of a surrogate pair. -/
def High (v : Nat) : Prop := 0xD800 ≤ v ∧ v ≤ 0xDBFF

/-- The second half of a surrogate pair. -/
def Low (v : Nat) : Prop := 0xDC00 ≤ v ∧ v ≤ 0xDFFF

/-- What stands between the quotes of a string, and the string that it denotes. Bytes that are not
UTF-8 and halves of surrogate pairs that stand alone denote U+FFFD. -/
inductive StringText : Str → Str → Prop
  | nil : StringText [] []
  | char {r : Nat} {t s : Str} : Scalar r → 0x20 ≤ r → r ≠ 0x22 → r ≠ 0x5C → StringText t s →
      StringText (encodeRune r ++ t) (encodeRune r ++ s)
  | bad {c : UInt8} {t s : Str} : (∀ r rest, Scalar r → c :: t ≠ encodeRune r ++ rest) →
      StringText t s → StringText (c :: t) ([0xEF, 0xBF, 0xBD] ++ s)
  | short {e x : UInt8} {t s : Str} : (e, x) ∈ shortEscapes → StringText t s →
      StringText (0x5C :: e :: t) (x :: s)
  | unicode {u t s : Str} {v : Nat} : UnicodeEscape u v → Scalar v → StringText t s →
      StringText (u ++ t) (encodeRune v ++ s)
  | pair {u u' t s : Str} {v v' : Nat} : UnicodeEscape u v → UnicodeEscape u' v' → High v →
      Low v' → StringText t s →
      StringText (u ++ u' ++ t) (encodeRune (0x10000 + (v - 0xD800) * 0x400 + (v' - 0xDC00)) ++ s)
  | lone {u t s : Str} {v : Nat} : UnicodeEscape u v → High v ∨ Low v →
      ¬ (High v ∧ ∃ u' v' t', UnicodeEscape u' v' ∧ Low v' ∧ t = u' ++ t') → StringText t s →
      StringText (u ++ t) ([0xEF, 0xBF, 0xBD] ++ s)

mutual
/-- The text is that of the document, nested no deeper than `n` levels, with white space around it. -/
inductive JsonText : Nat → JSON → Str → Prop
  | mk {n : Nat} {v : JSON} {a t b : Str} : Space a → JsonValue n v t → Space b →
      JsonText n v (a ++ t ++ b)

/-- The same without white space around it. -/
inductive JsonValue : Nat → JSON → Str → Prop
  | null {n : Nat} : JsonValue n .null b!"null"
  | true {n : Nat} : JsonValue n (.bool Bool.true) b!"true"
  | false {n : Nat} : JsonValue n (.bool Bool.false) b!"false"
  | num {n : Nat} {lit : Str} : NumberText lit → JsonValue n (.num lit) lit
  | str {n : Nat} {t s : Str} : StringText t s → JsonValue n (.str s) (b!"\"" ++ t ++ b!"\"")
  | empty {n : Nat} {w : Str} : Space w → JsonValue (n + 1) (.arr []) (b!"[" ++ w ++ b!"]")
  | arr {n : Nat} {l : List JSON} {t : Str} : JsonElements n l t →
      JsonValue (n + 1) (.arr l) (b!"[" ++ t ++ b!"]")
  | emptyObj {n : Nat} {w : Str} : Space w → JsonValue (n + 1) (.obj []) (b!"{" ++ w ++ b!"}")
  | obj {n : Nat} {l : List (Str × JSON)} {t : Str} : JsonMembers n l t →
      JsonValue (n + 1) (.obj l) (b!"{" ++ t ++ b!"}")

/-- One or more elements of an array. -/
inductive JsonElements : Nat → List JSON → Str → Prop
  | one {n : Nat} {v : JSON} {t : Str} : JsonText n v t → JsonElements n [v] t
  | more {n : Nat} {v : JSON} {t : Str} {l : List JSON} {ts : Str} : JsonText n v t →
      JsonElements n l ts → JsonElements n (v :: l) (t ++ b!"," ++ ts)

/-- One or more members of an object. -/
inductive JsonMembers : Nat → List (Str × JSON) → Str → Prop
  | one {n : Nat} {k kt : Str} {v : JSON} {a b t : Str} : Space a → StringText kt k → Space b →
      JsonText n v t → JsonMembers n [(k, v)] (a ++ b!"\"" ++ kt ++ b!"\"" ++ b ++ b!":" ++ t)
  | more {n : Nat} {k kt : Str} {v : JSON} {a b t : Str} {l : List (Str × JSON)} {ts : Str} :
      Space a → StringText kt k → Space b → JsonText n v t → JsonMembers n l ts →
      JsonMembers n ((k, v) :: l) (a ++ b!"\"" ++ kt ++ b!"\"" ++ b ++ b!":" ++ t ++ b!"," ++ ts)
end

end OAuth2.Spec

import Verif.Model.Json
import Verif.Spec.Float
import Verif.Spec.Utf8
/-
Which user data an introspection response can carry.
-/

namespace OAuth2.Spec

/-- A JSON number (RFC 8259, section 6): an optional minus sign, an integer without leading zeros,
an optional fraction and an optional exponent. -/
def NumberText (lit : Str) : Prop := ∃ sign int frac exp : Str,
  lit = sign ++ int ++ frac ++ exp ∧
  (sign = [] ∨ sign = b!"-") ∧
  (int = b!"0" ∨ ∃ c cs, int = c :: cs ∧ c ≠ 0x30 ∧ Digit c ∧ ∀ x ∈ cs, Digit x) ∧
  (frac = [] ∨ ∃ ds, ds ≠ [] ∧ (∀ x ∈ ds, Digit x) ∧ frac = b!"." ++ ds) ∧
  (exp = [] ∨ ∃ e sign ds : Str, (e = b!"e" ∨ e = b!"E") ∧
    (sign = [] ∨ sign = b!"+" ∨ sign = b!"-") ∧ ds ≠ [] ∧ (∀ x ∈ ds, Digit x) ∧
    exp = e ++ sign ++ ds)

/-- The entries of a map, in the order of the keys. -/
def KeysInOrder (l : List (Str × GoVal)) : Prop :=
  l.Pairwise fun a b => strLe a.1 b.1 = true ∧ a.1 ≠ b.1

/-- The value is made of what JSON knows, nested no deeper than `n` levels. -/
inductive Representable : Nat → GoVal → Prop
  | null {n : Nat} : Representable n .null
  | bool {n : Nat} (b : Bool) : Representable n (.bool b)
  | num {n : Nat} (f : F64) : Representable n (.num f)
  | int {n : Nat} {i : Int} : -2 ^ 63 ≤ i → i < 2 ^ 64 → Representable n (.int i)
  | str {n : Nat} (s : Str) : Representable n (.str s)
  | arr {n : Nat} {l : List GoVal} : (∀ v ∈ l, Representable n v) → Representable (n + 1) (.arr l)
  | obj {n : Nat} {l : List (Str × GoVal)} : KeysInOrder l → (∀ e ∈ l, Representable n e.2) →
      Representable (n + 1) (.obj l)

/-- All strings in the value are valid UTF-8. -/
inductive ValidText : GoVal → Prop
  | null : ValidText .null
  | bool (b : Bool) : ValidText (.bool b)
  | num (f : F64) : ValidText (.num f)
  | int (i : Int) : ValidText (.int i)
  | str {s : Str} : ValidUTF8 s → ValidText (.str s)
  | arr {l : List GoVal} : (∀ v ∈ l, ValidText v) → ValidText (.arr l)
  | obj {l : List (Str × GoVal)} : (∀ e ∈ l, ValidUTF8 e.1) → (∀ e ∈ l, ValidText e.2) →
      ValidText (.obj l)

mutual
/-- What a value has become when it arrives: integers are numbers of the format then. -/
inductive Arrives : GoVal → GoVal → Prop
  | null : Arrives .null .null
  | bool (b : Bool) : Arrives (.bool b) (.bool b)
  | num (f : F64) : Arrives (.num f) (.num f)
  | int {i : Int} {f : F64} : Nearest i f → f.neg = decide (i < 0) → Arrives (.int i) (.num f)
  | str (s : Str) : Arrives (.str s) (.str s)
  | arr {l l' : List GoVal} : ArriveAll l l' → Arrives (.arr l) (.arr l')
  | obj {l l' : List (Str × GoVal)} : ArriveEach l l' → Arrives (.obj l) (.obj l')

/-- One by one. -/
inductive ArriveAll : List GoVal → List GoVal → Prop
  | nil : ArriveAll [] []
  | cons {v v' : GoVal} {l l' : List GoVal} : Arrives v v' → ArriveAll l l' →
      ArriveAll (v :: l) (v' :: l')

/-- Entry by entry, under the same keys. -/
inductive ArriveEach : List (Str × GoVal) → List (Str × GoVal) → Prop
  | nil : ArriveEach [] []
  | cons {k : Str} {v v' : GoVal} {l l' : List (Str × GoVal)} : Arrives v v' → ArriveEach l l' →
      ArriveEach ((k, v) :: l) ((k, v') :: l')
end

/-- The value contains an integer that is not of type `float64`. -/
inductive HasInteger : GoVal → Prop
  | int (i : Int) : HasInteger (.int i)
  | arr {l : List GoVal} {v : GoVal} : v ∈ l → HasInteger v → HasInteger (.arr l)
  | obj {l : List (Str × GoVal)} {e : Str × GoVal} : e ∈ l → HasInteger e.2 → HasInteger (.obj l)

/-- The value contains something that JSON cannot express. -/
inductive Inexpressible : GoVal → Prop
  | other : Inexpressible .other
  | arr {l : List GoVal} {v : GoVal} : v ∈ l → Inexpressible v → Inexpressible (.arr l)
  | obj {l : List (Str × GoVal)} {e : Str × GoVal} : e ∈ l → Inexpressible e.2 →
      Inexpressible (.obj l)

end OAuth2.Spec

import Verif.Model.Float
/-
The numbers of IEEE 754 (binary64), and the one that a number in a document stands for.
-/

namespace OAuth2.Spec

/-- The finite numbers of the format: integers of 53 bits and a sign, scaled by a power of two. -/
def Binary64 (x : Rat) : Prop :=
  ∃ m e : Int, x = m * 2 ^ e ∧ -2 ^ 53 < m ∧ m < 2 ^ 53 ∧ -1074 ≤ e ∧ e ≤ 971

/-- The numbers too large for the format: those not below the middle between its largest number and
the one that would come next. -/
def TooLarge (x : Rat) : Prop := (2 ^ 54 - 1) * 2 ^ 970 ≤ x.abs

/-- `f` is a number of the format nearest to `x`, the even one if there are two. -/
structure Nearest (x : Rat) (f : F64) : Prop where
  near : ∀ y, Binary64 y → (x - f.value).abs ≤ (x - y).abs
  even : ∀ y, Binary64 y → (x - f.value).abs = (x - y).abs → y = f.value ∨ f.mant % 2 = 0

/-- A decimal digit. -/
def Digit (c : UInt8) : Prop := 0x30 ≤ c ∧ c ≤ 0x39

/-- The number that a row of digits stands for. -/
def numeral : Str → Nat
  | [] => 0
  | c :: cs => (c.toNat - 0x30) * 10 ^ cs.length + numeral cs

/-- The number that an exponent stands for. Zeros in front do not matter, and of a number with more
than five digits only the first five count. -/
def exponent (ds : Str) : Nat := numeral ((ds.dropWhile (· = 0x30)).take 5)

/-- The literal of a number: its sign and its absolute value. -/
def NumberValue (lit : Str) (neg : Bool) (x : Rat) : Prop := ∃ int frac exp : Str, ∃ k : Int,
  lit = (if neg then b!"-" else []) ++ int ++ (if frac = [] then [] else b!"." ++ frac) ++ exp ∧
  int ≠ [] ∧ (∀ c ∈ int ++ frac, Digit c) ∧
  (exp = [] ∧ k = 0 ∨ ∃ e sign ds : Str, exp = e ++ sign ++ ds ∧ (e = b!"e" ∨ e = b!"E") ∧
    ds ≠ [] ∧ (∀ c ∈ ds, Digit c) ∧
    ((sign = [] ∨ sign = b!"+") ∧ k = exponent ds ∨ sign = b!"-" ∧ k = -(exponent ds : Int))) ∧
  x = numeral (int ++ frac) * 10 ^ (k - frac.length)

/-- The number of the format that a literal stands for. -/
def NumberDenotes (lit : Str) (f : F64) : Prop :=
  ∃ x, NumberValue lit f.neg x ∧ ¬ TooLarge x ∧ Nearest (if f.neg then -x else x) f

end OAuth2.Spec

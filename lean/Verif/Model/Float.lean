import Verif.Model.Bytes
/-
The type `float64` and the functions of package `strconv` (Go standard library, Go 1.16) through
which `encoding/json` writes and reads it. The values of `IntrospectionResponse.Extra`
(introspection.go:77) and the numbers oauth2test looks at (oauth2test/utils.go:56-59) are of this
type.
-/

namespace OAuth2

/-- A decimal digit. Go: `encoding/json` scanner (token.go:278). -/
def isDigit (c : UInt8) : Bool := inRange 48 57 c

/-- A decimal number, digits only. Go: `strconv.ParseInt`, called by `json.Unmarshal`
(token.go:278). -/
def digitsVal (s : Str) : Nat := s.foldl (fun n c => n * 10 + (c.toNat - 48)) 0

/-- The significands and exponents of finite numbers: 53 bits, all of them used unless the exponent
is the smallest one. Go: `float64` (introspection.go:77), an IEEE 754 binary64 number. -/
def F64.Valid (mant : Nat) (exp : Int) : Prop :=
  mant < 2 ^ 53 ∧ -1074 ≤ exp ∧ exp ≤ 971 ∧ (2 ^ 52 ≤ mant ∨ exp = -1074)

/-- Auxiliary, no code. -/
instance (mant : Nat) (exp : Int) : Decidable (F64.Valid mant exp) :=
  inferInstanceAs (Decidable (_ ∧ _))

/-- A finite number `± mant * 2 ^ exp`; there are two zeros. Go: `float64` (introspection.go:77)
without infinities and NaN. -/
structure F64 where
  neg : Bool
  mant : Nat
  exp : Int
  valid : F64.Valid mant exp
  deriving DecidableEq, Repr

namespace F64

/-- The absolute value, as a number. Auxiliary, no code (introspection.go:77). -/
def abs (f : F64) : Rat := f.mant * 2 ^ f.exp

/-- The number. Auxiliary, no code (introspection.go:77). -/
def value (f : F64) : Rat := if f.neg then -f.abs else f.abs

/-- The number zero, or negative zero. Go: `float64` (introspection.go:77). -/
def zero (neg : Bool) : F64 := { neg := neg, mant := 0, exp := -1074, valid := by decide }

/-- The integer part of the binary logarithm of a positive number. Go: part of
`strconv.ParseFloat` (introspection.go:168). -/
def log2 (x : Rat) : Int :=
  let k : Int := x.num.natAbs.log2 - x.den.log2
  if x < 2 ^ k then k - 1 else k

/-- The integer nearest to a number that is not negative; the even one of two. Go: part of
`strconv.ParseFloat` (introspection.go:168). -/
def roundEven (x : Rat) : Nat :=
  let q := x.floor.toNat
  if q + 1 / 2 < x ∨ (q + 1 / 2 = x ∧ q % 2 = 1) then q + 1 else q

/-- The number with this significand and exponent; `none` if it is out of range. Go: part of
`strconv.ParseFloat` (introspection.go:168), which returns an error then. -/
def make (neg : Bool) (mant : Nat) (exp : Int) : Option F64 :=
  if h : Valid mant exp then some { neg := neg, mant := mant, exp := exp, valid := h } else none

/-- Rounding to the nearest number, for an absolute value `x`; `none` is an overflow. Go: part of
`strconv.ParseFloat` (introspection.go:168), and the conversion of an integer to `float64`
(oauth2test/grants.go:122). -/
def round (neg : Bool) (x : Rat) : Option F64 :=
  if x = 0 then some (zero neg)
  else
    let e := max (-1074) (log2 x - 52)
    let m := roundEven (x / 2 ^ e)
    if m < 2 ^ 53 then make neg m e else make neg (2 ^ 52) (e + 1)

/-- Go: the conversion of an integer to `float64` (oauth2test/grants.go:122). Those of an `int` are
not too large. -/
def ofInt (i : Int) : F64 := (round (decide (i < 0)) i.natAbs).getD (zero false)

/-- The digits of an exponent. Once it has reached 10000 the rest is not looked at. Go:
`strconv.readFloat` (introspection.go:168). -/
def expVal (s : Str) : Nat :=
  s.foldl (fun n c => if n < 10000 then n * 10 + (c.toNat - 48) else n) 0

/-- The exponent of a number literal, from its `e` on. Go: `strconv.readFloat`
(introspection.go:168). -/
def readExp : Str → Int
  | _ :: 0x2D :: s => -(expVal s : Int)
  | _ :: 0x2B :: s => expVal s
  | _ :: s => expVal s
  | [] => 0

/-- What follows the decimal point, if there is one, and what is left. Go: `strconv.readFloat`
(introspection.go:168). -/
def readFrac : Str → Str × Str
  | 0x2E :: s => (s.takeWhile isDigit, s.dropWhile isDigit)
  | s => ([], s)

/-- The absolute value of a number literal without sign. Go: `strconv.readFloat`
(introspection.go:168). -/
def readAbs (s : Str) : Rat :=
  let int := s.takeWhile isDigit
  let (frac, s) := readFrac (s.dropWhile isDigit)
  digitsVal (int ++ frac) * 10 ^ (readExp s - frac.length)

/-- Go: `strconv.ParseFloat(lit, 64)` for a JSON number literal; `none` is an error (the number is
too large). Called by `json.Unmarshal` (introspection.go:168) and `Decode`
(oauth2test/utils.go:38). -/
def parse : Str → Option F64
  | 0x2D :: s => round true (readAbs s)
  | s => round false (readAbs s)

/-- The largest `p`, going down from the given one, such that a multiple of `10 ^ p` next to the
number is read as the number, and the multiple; the nearer one of two. Go: `strconv.roundShortest`
(oauth2.go:83); its faster variants give the same digits. -/
def search (f : F64) : Nat → Int → Nat × Int
  | 0, p => (0, p)
  | n + 1, p =>
    let y := f.abs / 10 ^ p
    let down := y.floor.toNat
    let okDown := round f.neg (down * 10 ^ p) = some f
    let okUp := round f.neg ((down + 1 : Nat) * 10 ^ p) = some f
    if okDown ∧ okUp then (roundEven y, p)
    else if okDown then (down, p)
    else if okUp then (down + 1, p)
    else search f n (p - 1)

/-- The digits of the number, without zeros at the end, and the position of the decimal point:
the number is `0.digits * 10 ^ position`. Go: `strconv.roundShortest` (oauth2.go:83). -/
def digits (f : F64) : Str × Int :=
  if f.mant = 0 then ([], 0)
  else
    let (d, p) := search f 1384 309
    let ds := natDigits d
    ((ds.reverse.dropWhile (· = 0x30)).reverse, ds.length + p)

/-- Go: `strconv.fmtF` (oauth2.go:83). -/
def fmtF (ds : Str) (dp : Int) : Str :=
  (if 0 < dp then ds.take dp.toNat ++ List.replicate (dp.toNat - ds.length) 0x30 else [0x30]) ++
  (if dp < ds.length then
    0x2E :: (List.replicate (-dp).toNat 0x30 ++ ds.drop dp.toNat) else [])

/-- Go: `strconv.fmtE` (oauth2.go:83), with the zero in front of a negative exponent of one digit
removed, as `encoding/json` does. A positive one never has only one digit here. -/
def fmtE (ds : Str) (dp : Int) : Str :=
  ds.take 1 ++ (if 1 < ds.length then 0x2E :: ds.drop 1 else []) ++ [0x65] ++
  (if dp - 1 < 0 then 0x2D :: natDigits (1 - dp).toNat else 0x2B :: natDigits (dp - 1).toNat)

/-- The constant `1e-6`, converted to `float64`. Go: `encoding/json.floatEncoder` (oauth2.go:83). -/
def tiny : Rat := ((round false (1 / 10 ^ 6)).map abs).getD 0

/-- Go: `encoding/json.floatEncoder` (oauth2.go:83), with `strconv.AppendFloat`. -/
def text (f : F64) : Str :=
  let (ds, dp) := f.digits
  (if f.neg then [0x2D] else []) ++
  (if f.mant ≠ 0 ∧ (f.abs < tiny ∨ 10 ^ 21 ≤ f.abs) then fmtE ds dp else fmtF ds dp)

end F64

end OAuth2

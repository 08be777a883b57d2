import Verif.Model.Bytes
/-
White space and scope items, independently of the model of `strings.TrimSpace` and `ParseScope`.
-/

namespace OAuth2.Spec

/-- The Unicode white space characters. -/
def whiteSpace : List Nat :=
  [0x09, 0x0A, 0x0B, 0x0C, 0x0D, 0x20, 0x85, 0xA0, 0x1680, 0x2000, 0x2001, 0x2002, 0x2003, 0x2004,
   0x2005, 0x2006, 0x2007, 0x2008, 0x2009, 0x200A, 0x2028, 0x2029, 0x202F, 0x205F, 0x3000]

/-- The bytes are the UTF-8 encoding of one white space character. -/
def IsSpaceChar (x : Str) : Prop := ∃ r ∈ whiteSpace, x = encodeRune r

/-- The bytes are the UTF-8 encoding of zero or more white space characters. -/
def AllSpace (s : Str) : Prop := ∃ parts : List Str, (∀ x ∈ parts, IsSpaceChar x) ∧ s = parts.flatten

/-- The text neither begins nor ends with white space. -/
def Trimmed (t : Str) : Prop :=
  (∀ x rest, IsSpaceChar x → t ≠ x ++ rest) ∧ (∀ x rest, IsSpaceChar x → t ≠ rest ++ x)

/-- `t` is `s` without the white space at both ends. -/
def IsTrimOf (s t : Str) : Prop := ∃ l r, s = l ++ t ++ r ∧ AllSpace l ∧ AllSpace r ∧ Trimmed t

/-- An item a scope can carry: nonempty, without spaces, without white space at its ends. -/
def CleanItem (i : Str) : Prop := i ≠ [] ∧ 0x20 ∉ i ∧ Trimmed i

/-- `items` are the nonempty trimmed texts between the spaces of `str`, in order. -/
def ScopeItems (str : Str) (items : List Str) : Prop :=
  ∃ segments trimmed : List Str,
    segments ≠ [] ∧ str = joinStr [0x20] segments ∧ (∀ g ∈ segments, 0x20 ∉ g) ∧
    segments.length = trimmed.length ∧
    (∀ p ∈ segments.zip trimmed, IsTrimOf p.1 p.2) ∧
    items = trimmed.filter (· ≠ [])

/-- A scope value that can be printed and parsed back: missing, or a nonempty list of clean
items. -/
def CleanScope (s : Option (List Str)) : Prop := ∀ l, s = some l → l ≠ [] ∧ ∀ i ∈ l, CleanItem i

end OAuth2.Spec

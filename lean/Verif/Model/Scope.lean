import Verif.Model.Json
/-
scope.go
-/

namespace OAuth2

/-- scope.go:9 `type Scope []string`; `none` is a nil slice, which is distinguished from an empty
one at token.go:157. -/
abbrev Scope := Option (List Str)

namespace Scope

/-- The elements a `range` over the slice yields. scope.go:34, 45. -/
def items (s : Scope) : List Str := s.getD []

/-- The result of appending to a nil slice: nil if nothing was appended (scope.go:17, 25). -/
def ofItems (l : List Str) : Scope := if l = [] then none else some l

/-- scope.go:12-30 `ParseScope`. -/
def parse (str : Str) : Scope :=
  ofItems (((splitByte 0x20 str).map trimSpace).filter (· ≠ []))

/-- scope.go:33-41 `Scope.Contains`. -/
def containsStr (s : Scope) (str : Str) : Bool := s.items.any (· = str)

/-- scope.go:44-52 `Scope.Includes`. -/
def includes (s : Scope) (scope : Scope) : Bool := scope.items.all fun i => s.containsStr i

/-- scope.go:55-57 `Scope.Empty`. -/
def empty (s : Scope) : Bool := s.items.length = 0

/-- scope.go:60-62 `Scope.String`. -/
def string (s : Scope) : Str := joinStr [0x20] s.items

/-- scope.go:65-67 `Scope.MarshalJSON`. -/
def marshalJSON (s : Scope) : Str := jsonString s.string

/-- scope.go:70-81 `Scope.UnmarshalJSON`, applied to an already parsed document: a string is
parsed, `null` leaves the local string empty, anything else is an error. -/
def unmarshalValue : JSON → Option Scope
  | .str s => some (parse s)
  | .null => some (parse [])
  | _ => none

/-- scope.go:70-81 `Scope.UnmarshalJSON(buf)`; `none` is an error. -/
def unmarshalJSON (buf : Str) : Option Scope := do unmarshalValue (← parseJSON buf)

end Scope

end OAuth2

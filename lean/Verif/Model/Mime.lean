import Verif.Model.Bytes
/-
`mime.ParseMediaType` (Go standard library, Go 1.16), as called at token.go:266,
introspection.go:156 (of the original file) and by `net/http`'s `ParseForm`.
-/

namespace OAuth2

/-- Go: `strings.ToLower`. Non-ASCII runes are left alone except U+0130 (İ) and U+212A (K), the
only ones whose lower case is ASCII. Simplification: for all other non-ASCII runes the result is
only ever checked for being a token, and no non-ASCII byte is a token byte. -/
def mimeLower : Str → Str
  | 0xC4 :: 0xB0 :: rest => 0x69 :: mimeLower rest
  | 0xE2 :: 0x84 :: 0xAA :: rest => 0x6B :: mimeLower rest
  | c :: rest => lowerByte c :: mimeLower rest
  | [] => []

/-- Go: `mime.isTSpecial`. -/
def isTSpecial (c : UInt8) : Bool := b!"()<>@,;:\\\"/[]?=".contains c

/-- Go: `mime.isTokenChar`. -/
def isTokenChar (c : UInt8) : Bool := 0x20 < c && c < 0x7F && !isTSpecial c

/-- Go: `mime.consumeToken`. -/
def consumeToken (s : Str) : Str × Str := (s.takeWhile isTokenChar, s.dropWhile isTokenChar)

/-- Go: `mime.checkMediaTypeDisposition(s) == nil`. -/
def validMediaType (s : Str) : Bool :=
  let (typ, rest) := consumeToken s
  if typ = [] then false
  else match rest with
    | [] => true
    | c :: rest' =>
      if c ≠ 0x2F then false
      else
        let (sub, rest'') := consumeToken rest'
        sub ≠ [] && rest'' = []

/-- The body of a quoted string: the content and the rest after the closing quote. Go:
`mime.consumeValue`, under `ParseForm` (token.go:41). -/
def consumeQuoted : Str → Option (Str × Str)
  | [] => none
  | c :: cs =>
    if c = 0x22 then some ([], cs)
    else if c = 0x5C then
      match cs with
      | d :: ds =>
        if isTSpecial d then (consumeQuoted ds).map fun (a, r) => (d :: a, r)
        else (consumeQuoted (d :: ds)).map fun (a, r) => (c :: a, r)
      | [] => none
    else if c = 0x0D ∨ c = 0x0A then none
    else (consumeQuoted cs).map fun (a, r) => (c :: a, r)

/-- Go: `mime.consumeValue`; `none` stands for "value is empty and nothing was consumed". -/
def consumeValue (v : Str) : Option (Str × Str) :=
  match v with
  | 0x22 :: cs => consumeQuoted cs
  | _ =>
    let (t, r) := consumeToken v
    if t = [] then none else some (t, r)

/-- Go: `mime.consumeMediaParam`; `none` stands for an empty parameter name. -/
def consumeMediaParam (v : Str) : Option (Str × Str × Str) :=
  match trimLeftSpace v with
  | 0x3B :: rest =>
    let (param, rest) := consumeToken (trimLeftSpace rest)
    if param = [] then none
    else match trimLeftSpace rest with
      | 0x3D :: rest =>
        (consumeValue (trimLeftSpace rest)).map fun (x, r) => (lowerStr' param, x, r)
      | _ => none
  | _ => none
where
  /-- a token is ASCII -/
  lowerStr' (s : Str) : Str := s.map lowerByte

/-- The parameter loop of `mime.ParseMediaType`. The result is the media type returned ("" or the
one given) and whether the error is non-nil. Only the names of the parameters matter, for the
duplicate check. Go: under `ParseForm` (token.go:41). -/
def mediaParams (mt : Str) : Nat → List Str → Str → Str × Bool
  | 0, _, _ => (mt, false)
  | n + 1, seen, v =>
    let v := trimLeftSpace v
    if v = [] then (mt, false)
    else match consumeMediaParam v with
      | none => if trimSpace v = [0x3B] then (mt, false) else (mt, true)
      | some (k, _, rest) => if seen.contains k then ([], true) else mediaParams mt n (k :: seen) rest

/-- Go: `mt, _, err := mime.ParseMediaType(v)`: the media type and `err != nil`. Simplification:
RFC 2231 continuations only affect the parameter values, which /repo ignores. -/
def parseMediaType (v : Str) : Str × Bool :=
  let base := v.takeWhile (· ≠ 0x3B)
  let rest := v.dropWhile (· ≠ 0x3B)
  let mt := trimSpace (mimeLower base)
  if !validMediaType mt then ([], true) else mediaParams mt (rest.length + 1) [] rest

end OAuth2

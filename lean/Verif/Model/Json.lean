import Verif.Model.Float
/-
`encoding/json` (Go standard library, Go 1.16): the encoder for the value kinds that occur in
the structs of /repo, a full parser, and the parts of decoding into structs that the structs of
/repo use.
-/

namespace OAuth2

/-- Bytes Go's encoder copies unchanged inside a string (`htmlSafeSet`). Go: `encoding/json`,
called at oauth2.go:83 and scope.go:66. -/
def htmlSafe (c : UInt8) : Bool :=
  0x20 ≤ c && c < 0x80 && !(c = 0x22 || c = 0x26 || c = 0x3C || c = 0x3E || c = 0x5C)

/-- The escape sequence Go's encoder writes for an ASCII byte that is not `htmlSafe`. oauth2.go:83,
scope.go:66. -/
def jsonEscByte (c : UInt8) : Str :=
  if c = 0x5C ∨ c = 0x22 then [0x5C, c]
  else if c = 0x0A then b!"\\n"
  else if c = 0x0D then b!"\\r"
  else if c = 0x09 then b!"\\t"
  else b!"\\u00" ++ [hexLower (c.toNat / 16), hexLower (c.toNat % 16)]

/-- Go: the loop of `encodeState.string(s, escapeHTML = true)`. -/
def jsonEscAux : Nat → Str → Str
  | 0, _ => []
  | _ + 1, [] => []
  | n + 1, c :: cs =>
    if c < 0x80 then (if htmlSafe c then [c] else jsonEscByte c) ++ jsonEscAux n cs
    else
      let (r, size) := decodeRune (c :: cs)
      if r = runeError ∧ size = 1 then b!"\\ufffd" ++ jsonEscAux n cs
      else if r = 0x2028 ∨ r = 0x2029 then
        b!"\\u202" ++ [hexLower (r % 16)] ++ jsonEscAux n ((c :: cs).drop size)
      else (c :: cs).take size ++ jsonEscAux n ((c :: cs).drop size)

/-- Go: `json.Marshal(s)` for a string. -/
def jsonString (s : Str) : Str := 0x22 :: jsonEscAux s.length s ++ [0x22]

/-- An object with already encoded members. Go: `encoding/json` structEncoder (oauth2.go:83). -/
def jsonObject (ms : List (Str × Str)) : Str :=
  [0x7B] ++ joinStr [0x2C] (ms.map fun m => jsonString m.1 ++ [0x3A] ++ m.2) ++ [0x7D]

/-- A string member with `omitempty`. Go: `encoding/json` (oauth2.go:83); the tags are at
error.go:17-22, token.go:108-113 and introspection.go:64-77. -/
def omitEmpty (k v : Str) : List (Str × Str) := if v = [] then [] else [(k, jsonString v)]

/-- JSON documents. Numbers keep their literal text; strings are unquoted. Go: what
`json.Unmarshal` reads at error.go:288, token.go:278 and introspection.go:168. -/
inductive JSON where
  | null
  | bool (b : Bool)
  | num (lit : Str)
  | str (s : Str)
  | arr (l : List JSON)
  | obj (l : List (Str × JSON))

/-- JSON white space. Go: `encoding/json.isSpace` (token.go:278). -/
def isJsonWs (c : UInt8) : Bool := c = 0x20 || c = 0x09 || c = 0x0A || c = 0x0D

/-- Skip white space. Go: `encoding/json` scanner, called at error.go:288, token.go:278,
introspection.go:168 and scope.go:72. -/
def skipWs (s : Str) : Str := s.dropWhile isJsonWs

/-- Four hex digits. Go: `encoding/json.getu4` (token.go:278). -/
def hex4 : Str → Option (Nat × Str)
  | a :: b :: c :: d :: rest => do
    let a ← unhex a
    let b ← unhex b
    let c ← unhex c
    let d ← unhex d
    return (((a * 16 + b) * 16 + c) * 16 + d, rest)
  | _ => none

/-- Go: `json.getu4`: a complete `\uXXXX` at the front. -/
def getu4 : Str → Option (Nat × Str)
  | a :: b :: rest => if a = 0x5C ∧ b = 0x75 then hex4 rest else none
  | _ => none

/-- The simple escapes. Go: `encoding/json.unquoteBytes` (token.go:278). -/
def simpleEscape (c : UInt8) : Option UInt8 :=
  if c = 0x22 ∨ c = 0x5C ∨ c = 0x2F then some c
  else if c = 0x62 then some 0x08
  else if c = 0x66 then some 0x0C
  else if c = 0x6E then some 0x0A
  else if c = 0x72 then some 0x0D
  else if c = 0x74 then some 0x09
  else none

/-- The rest of a string literal after the opening quote: the unquoted text and what follows the
closing quote. The scanner (syntax check) and `unquoteBytes` of Go merged into one pass. -/
def parseStr : Nat → Str → Option (Str × Str)
  | 0, _ => none
  | _ + 1, [] => none
  | n + 1, c :: cs =>
    if c = 0x22 then some ([], cs)
    else if c = 0x5C then
      match cs with
      | [] => none
      | e :: rest =>
        if e = 0x75 then
          match hex4 rest with
          | none => none
          | some (r, rest') =>
            if 0xD800 ≤ r ∧ r < 0xE000 then
              match getu4 rest' with
              | some (r2, rest'') =>
                if r < 0xDC00 ∧ 0xDC00 ≤ r2 ∧ r2 < 0xE000 then
                  (parseStr n rest'').map fun (a, t) =>
                    (encodeRune ((r - 0xD800) * 1024 + (r2 - 0xDC00) + 0x10000) ++ a, t)
                else (parseStr n rest').map fun (a, t) => (encodeRune runeError ++ a, t)
              | none => (parseStr n rest').map fun (a, t) => (encodeRune runeError ++ a, t)
            else (parseStr n rest').map fun (a, t) => (encodeRune r ++ a, t)
        else match simpleEscape e with
          | none => none
          | some x => (parseStr n rest).map fun (a, t) => (x :: a, t)
    else if c < 0x20 then none
    else if c < 0x80 then (parseStr n cs).map fun (a, t) => (c :: a, t)
    else
      let (r, size) := decodeRune (c :: cs)
      (parseStr n ((c :: cs).drop size)).map fun (a, t) => (encodeRune r ++ a, t)

/-- Integer part of a number: `0` or a nonzero digit followed by digits. Go: `encoding/json`
scanner, `stateBeginValue`, `state0`, `state1` (token.go:278). -/
def numInt (s : Str) : Option (Str × Str) :=
  match s with
  | [] => none
  | c :: cs =>
    if c = 0x30 then some ([c], cs)
    else if isDigit c then some (c :: cs.takeWhile isDigit, cs.dropWhile isDigit)
    else none

/-- Optional fraction. Go: `encoding/json` scanner, `stateDot`, `stateDot0` (token.go:278). -/
def numFrac (s : Str) : Option (Str × Str) :=
  match s with
  | [] => some ([], [])
  | c :: cs =>
    if c = 0x2E then
      if cs.takeWhile isDigit = [] then none
      else some (c :: cs.takeWhile isDigit, cs.dropWhile isDigit)
    else some ([], s)

/-- Optional exponent. Go: `encoding/json` scanner, `stateE`, `stateESign`, `stateE0`
(token.go:278). -/
def numExp (s : Str) : Option (Str × Str) :=
  match s with
  | [] => some ([], [])
  | c :: cs =>
    if c = 0x65 ∨ c = 0x45 then
      let (sign, ds) := match cs with
        | x :: xs => if x = 0x2B ∨ x = 0x2D then ([x], xs) else ([], cs)
        | [] => ([], [])
      if ds.takeWhile isDigit = [] then none
      else some (c :: sign ++ ds.takeWhile isDigit, ds.dropWhile isDigit)
    else some ([], s)

/-- A number literal. Go: `encoding/json` scanner (token.go:278). -/
def parseNum (s : Str) : Option (Str × Str) := do
  let (sign, s) := match s with
    | c :: cs => if c = 0x2D then ([c], cs) else ([], s)
    | [] => (([] : Str), ([] : Str))
  let (i, s) ← numInt s
  let (f, s) ← numFrac s
  let (e, s) ← numExp s
  return (sign ++ i ++ f ++ e, s)

/-- Go: `json.maxNestingDepth`. -/
def maxDepth : Nat := 10000

mutual
/-- A value, after optional white space. `fuel` bounds the recursion, `d` is the nesting depth. Go:
`encoding/json` scanner, `stateBeginValue` (error.go:288, token.go:278, introspection.go:168). -/
def parseValue : (fuel : Nat) → (d : Nat) → Str → Option (JSON × Str)
  | 0, _, _ => none
  | n + 1, d, s =>
    match skipWs s with
    | [] => none
    | c :: cs =>
      if c = 0x7B then
        if maxDepth ≤ d then none
        else match skipWs cs with
          | [] => none
          | x :: xs =>
            if x = 0x7D then some (.obj [], xs)
            else (parseMembers n (d + 1) (x :: xs)).map fun (l, r) => (.obj l, r)
      else if c = 0x5B then
        if maxDepth ≤ d then none
        else match skipWs cs with
          | [] => none
          | x :: xs =>
            if x = 0x5D then some (.arr [], xs)
            else (parseElems n (d + 1) (x :: xs)).map fun (l, r) => (.arr l, r)
      else if c = 0x22 then (parseStr (cs.length + 1) cs).map fun (a, r) => (.str a, r)
      else if c = 0x74 then (stripPrefix b!"rue" cs).map fun r => (.bool true, r)
      else if c = 0x66 then (stripPrefix b!"alse" cs).map fun r => (.bool false, r)
      else if c = 0x6E then (stripPrefix b!"ull" cs).map fun r => (.null, r)
      else (parseNum (c :: cs)).map fun (a, r) => (.num a, r)

/-- The members of a nonempty object up to and including the closing brace. Go: `encoding/json`
scanner, `stateBeginString` to `stateEndValue`. -/
def parseMembers : (fuel : Nat) → (d : Nat) → Str → Option (List (Str × JSON) × Str)
  | 0, _, _ => none
  | n + 1, d, s =>
    match skipWs s with
    | [] => none
    | q :: s1 =>
      if q ≠ 0x22 then none
      else match parseStr (s1.length + 1) s1 with
        | none => none
        | some (k, s2) =>
          match skipWs s2 with
          | [] => none
          | c :: s3 =>
            if c ≠ 0x3A then none
            else match parseValue n d s3 with
              | none => none
              | some (v, s4) =>
                match skipWs s4 with
                | [] => none
                | e :: s5 =>
                  if e = 0x7D then some ([(k, v)], s5)
                  else if e = 0x2C then (parseMembers n d s5).map fun (l, r) => ((k, v) :: l, r)
                  else none

/-- The elements of a nonempty array up to and including the closing bracket. Go: `encoding/json`
scanner, `stateBeginValueOrEmpty` to `stateEndValue`. -/
def parseElems : (fuel : Nat) → (d : Nat) → Str → Option (List JSON × Str)
  | 0, _, _ => none
  | n + 1, d, s =>
    match parseValue n d s with
    | none => none
    | some (v, s1) =>
      match skipWs s1 with
      | [] => none
      | e :: s2 =>
        if e = 0x5D then some ([v], s2)
        else if e = 0x2C then (parseElems n d s2).map fun (l, r) => (v :: l, r)
        else none
end

/-- A complete document: one value and nothing but white space after it. Go: `json.Unmarshal` with
its `checkValid` (error.go:288, token.go:278, introspection.go:168, scope.go:72). -/
def parseJSON (s : Str) : Option JSON :=
  match parseValue (s.length + 1) 0 s with
  | some (v, rest) => if skipWs rest = [] then some v else none
  | none => none

/-- The case folding used when matching object keys with struct fields: ASCII letters, and the two
non-ASCII runes that fold to `s` and `k`. Go: `encoding/json` `foldFunc` (error.go:288,
token.go:278, introspection.go:168). -/
def foldKey : Str → Str
  | 0xC5 :: 0xBF :: rest => 0x73 :: foldKey rest
  | 0xE2 :: 0x84 :: 0xAA :: rest => 0x6B :: foldKey rest
  | c :: rest => lowerByte c :: foldKey rest
  | [] => []

/-- Go: the struct field a key selects: an exact match if there is one, else the first field
that matches under case folding. -/
def selectField (fields : List Str) (k : Str) : Option Str :=
  if fields.contains k then some k else fields.find? fun f => foldKey f = foldKey k

/-- Go: decoding into a `string` field; `none` is an error, `null` leaves the field alone. -/
def decStr (old : Str) : JSON → Option Str
  | .str s => some s
  | .null => some old
  | _ => none

/-- Go: decoding into a `bool` field. -/
def decBool (old : Bool) : JSON → Option Bool
  | .bool b => some b
  | .null => some old
  | _ => none

/-- Go: `strconv.ParseInt(lit, 10, 64)` on a JSON number literal; `none` is an error (a fraction,
an exponent or overflow). -/
def parseInt64 (lit : Str) : Option Int :=
  match lit with
  | [] => none
  | c :: cs =>
    if c = 0x2D then
      if cs ≠ [] ∧ cs.all isDigit ∧ digitsVal cs ≤ 9223372036854775808 then
        some (-(digitsVal cs : Int))
      else none
    else if (c :: cs).all isDigit ∧ digitsVal (c :: cs) < 9223372036854775808 then
      some (digitsVal (c :: cs) : Int)
    else none

/-- Go: decoding into an `int` or `int64` field (64-bit platform). -/
def decInt (old : Int) : JSON → Option Int
  | .num lit => parseInt64 lit
  | .null => some old
  | _ => none

/-! ### Values of type `interface{}` -/

/-- A Go value stored in an `interface{}`: nil, a Boolean, a finite `float64`, an integer of any
type, a string, a `[]interface{}`, a `map[string]interface{}`, or `other`: a value `encoding/json`
cannot encode (a channel, a function, NaN, an infinity). A map is listed in the order of its keys.
Simplification: values of other types that can be encoded (structs, slices and maps of other types,
nil maps) are represented by the value they decode to. -/
inductive GoVal where
  | null
  | bool (b : Bool)
  | num (f : F64)
  | int (i : Int)
  | str (s : Str)
  | arr (l : List GoVal)
  | obj (l : List (Str × GoVal))
  | other
  deriving Repr

mutual
/-- Equality of values. Auxiliary, no code: makes equality of the values of introspection.go:77
decidable. -/
def GoVal.same : GoVal → GoVal → Bool
  | .null, .null => true
  | .bool a, .bool b => a = b
  | .num a, .num b => a = b
  | .int a, .int b => a = b
  | .str a, .str b => a = b
  | .arr a, .arr b => GoVal.sameElems a b
  | .obj a, .obj b => GoVal.sameEntries a b
  | .other, .other => true
  | _, _ => false

/-- Equality of slices of values; auxiliary, no code (introspection.go:77). -/
def GoVal.sameElems : List GoVal → List GoVal → Bool
  | [], [] => true
  | x :: xs, y :: ys => GoVal.same x y && GoVal.sameElems xs ys
  | _, _ => false

/-- Equality of lists of entries; auxiliary, no code (introspection.go:77). -/
def GoVal.sameEntries : List (Str × GoVal) → List (Str × GoVal) → Bool
  | [], [] => true
  | (k, x) :: xs, (j, y) :: ys => k = j && GoVal.same x y && GoVal.sameEntries xs ys
  | _, _ => false
end

mutual
theorem GoVal.same_iff : ∀ a b : GoVal, GoVal.same a b = true ↔ a = b
  | .null, b => by cases b <;> simp [GoVal.same]
  | .bool _, b => by cases b <;> simp [GoVal.same]
  | .num _, b => by cases b <;> simp [GoVal.same]
  | .int _, b => by cases b <;> simp [GoVal.same]
  | .str _, b => by cases b <;> simp [GoVal.same]
  | .arr l, b => by cases b <;> simp [GoVal.same, GoVal.sameElems_iff l]
  | .obj l, b => by cases b <;> simp [GoVal.same, GoVal.sameEntries_iff l]
  | .other, b => by cases b <;> simp [GoVal.same]

theorem GoVal.sameElems_iff : ∀ a b : List GoVal, GoVal.sameElems a b = true ↔ a = b
  | [], b => by cases b <;> simp [GoVal.sameElems]
  | x :: xs, b => by
    cases b <;> simp [GoVal.sameElems, GoVal.same_iff x, GoVal.sameElems_iff xs]

theorem GoVal.sameEntries_iff : ∀ a b : List (Str × GoVal), GoVal.sameEntries a b = true ↔ a = b
  | [], b => by cases b <;> simp [GoVal.sameEntries]
  | (k, x) :: xs, b => by
    cases b <;> simp [GoVal.sameEntries, GoVal.same_iff x, GoVal.sameEntries_iff xs, Prod.ext_iff]
end

/-- Equality of the values of introspection.go:77 is decidable; auxiliary, no code. -/
instance : DecidableEq GoVal := fun a b => decidable_of_iff _ (GoVal.same_iff a b)

mutual
/-- Go: `json.Marshal(v)` for a value of type `interface{}`; `none` is an error. Maps are written
with their keys sorted. -/
def GoVal.json : GoVal → Option Str
  | .null => some b!"null"
  | .bool b => some (if b then b!"true" else b!"false")
  | .num f => some f.text
  | .int i => some (itoa i)
  | .str s => some (jsonString s)
  | .arr l => (GoVal.elems l).map fun ts => [0x5B] ++ joinStr [0x2C] ts ++ [0x5D]
  | .obj l => (GoVal.entries l).map fun ms => jsonObject (sortBy (fun a b => strLe a.1 b.1) ms)
  | .other => none

/-- The encoded elements of a slice. Go: `encoding/json` arrayEncoder (oauth2.go:83). -/
def GoVal.elems : List GoVal → Option (List Str)
  | [] => some []
  | v :: l => match v.json, GoVal.elems l with
    | some t, some ts => some (t :: ts)
    | _, _ => none

/-- The encoded entries of a map. Go: `encoding/json` mapEncoder (oauth2.go:83). -/
def GoVal.entries : List (Str × GoVal) → Option (List (Str × Str))
  | [] => some []
  | (k, v) :: l => match v.json, GoVal.entries l with
    | some t, some ts => some ((k, t) :: ts)
    | _, _ => none
end

mutual
/-- Go: decoding a document into an `interface{}`; see `JSON.readable` for numbers that are too
large. -/
def JSON.value : JSON → GoVal
  | .null => .null
  | .bool b => .bool b
  | .num lit => match F64.parse lit with
    | some f => .num f
    | none => .null
  | .str s => .str s
  | .arr l => .arr (JSON.values l)
  | .obj l => .obj (JSON.entries l)

/-- The values of a slice `interface{}` is unmarshalled to. Go: `encoding/json` `arrayInterface`
(introspection.go:168). -/
def JSON.values : List JSON → List GoVal
  | [] => []
  | v :: l => v.value :: JSON.values l

/-- Of members with the same name the last one counts. Go: `encoding/json` `objectInterface`
(introspection.go:168). -/
def JSON.entries : List (Str × JSON) → List (Str × GoVal)
  | [] => []
  | (k, v) :: l =>
    let m := JSON.entries l
    if m.any fun e => e.1 = k then m else insertBy (fun a b => strLe a.1 b.1) (k, v.value) m
end

mutual
/-- Whether all numbers in the document can be decoded. Go: `encoding/json` `convertNumber`, whose
error `json.Unmarshal` (introspection.go:168) and `Decode` (oauth2test/utils.go:38) return in the
end. -/
def JSON.readable : JSON → Bool
  | .num lit => (F64.parse lit).isSome
  | .arr l => JSON.readableElems l
  | .obj l => JSON.readableMembers l
  | _ => true

/-- The same for the elements of an array. Go: `encoding/json` (introspection.go:168). -/
def JSON.readableElems : List JSON → Bool
  | [] => true
  | v :: l => v.readable && JSON.readableElems l

/-- The same for the members of an object, also for those that are overridden. Go: `encoding/json`
(introspection.go:168). -/
def JSON.readableMembers : List (Str × JSON) → Bool
  | [] => true
  | (_, v) :: l => v.readable && JSON.readableMembers l
end

/-- Go: decoding an object into a `map[string]interface{}` that may have entries already; a nil
map is `none`; `null` makes it nil. -/
def decMap (old : Option (List (Str × GoVal))) : JSON → Option (Option (List (Str × GoVal)))
  | .obj l =>
    let new := JSON.entries l
    if ¬ JSON.readableMembers l then none
    else some (some ((old.getD []).foldr (fun e m =>
      if m.any fun x => x.1 = e.1 then m else insertBy (fun a b => strLe a.1 b.1) e m) new))
  | .null => some none
  | _ => none

end OAuth2

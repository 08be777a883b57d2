/-
Byte strings and the parts of Go's `strings`, `unicode/utf8` and `sort` packages that the
code under /repo calls.  A Go `string` is an arbitrary sequence of bytes, so it is modelled
as `List UInt8`; nothing is assumed about UTF-8 validity anywhere.

The Go standard library is not part of /repo: every definition below that models a standard
library function says so, and the reading is that of Go 1.16 (the version pinned by
/repo/.github/workflows/test.yml:9-10).
-/

namespace OAuth2

/-- A Go `string` or `[]byte`. (A nil and an empty `[]byte` are not distinguished: no code in
/repo compares a byte slice with nil.) -/
abbrev Str := List UInt8

/-- `b!"..."` is the explicit list of the UTF-8 bytes of a literal. -/
macro:max "b!" s:str : term => do
  let bs := s.getString.toUTF8.toList
  let l ← bs.foldrM (fun b acc => `(List.cons ($(Lean.quote b.toNat) : UInt8) $acc)) (← `(List.nil))
  `(($l : Str))

/-- Go: `strings.Split(s, sep)` for a one-byte separator (used at scope.go:14 with " " and at
hs256.go:84 with "."). Always returns at least one element. -/
def splitByte (sep : UInt8) : Str → List Str
  | [] => [[]]
  | c :: cs =>
    if c = sep then [] :: splitByte sep cs
    else match splitByte sep cs with
      | [] => [[c]]
      | h :: t => (c :: h) :: t

/-- Go: `strings.Join(elems, sep)` (scope.go:61, error.go:103). -/
def joinStr (sep : Str) : List Str → Str
  | [] => []
  | [x] => x
  | x :: y :: rest => x ++ sep ++ joinStr sep (y :: rest)

/-- Go: `strings.Index(s, sep)` followed by slicing, for a one-byte separator: the text before
the first occurrence and the text after it. Standard library, used by `net/url` and
`net/http` below. -/
def cutByte (sep : UInt8) : Str → Option (Str × Str)
  | [] => none
  | c :: cs =>
    if c = sep then some ([], cs)
    else match cutByte sep cs with
      | some (a, r) => some (c :: a, r)
      | none => none

/-- Go: `strings.LastIndex(s, sep)` followed by slicing, one-byte separator. -/
def cutLastByte (sep : UInt8) : Str → Option (Str × Str)
  | [] => none
  | c :: cs =>
    match cutLastByte sep cs with
    | some (a, r) => some (c :: a, r)
    | none => if c = sep then some ([], cs) else none

/-- Go: `strings.HasPrefix(s, p)` + slicing: `some rest` iff `s = p ++ rest`. -/
def stripPrefix : Str → Str → Option Str
  | [], s => some s
  | _ :: _, [] => none
  | p :: ps, c :: cs => if p = c then stripPrefix ps cs else none

/-- Go: `strings.HasPrefix(s, p)`. -/
def hasPrefix (p s : Str) : Bool := (stripPrefix p s).isSome

/-- ASCII lower-casing of one byte. Go: part of `strings.EqualFold` (bearer.go:38) and of header
and media type handling (token.go:41). -/
def lowerByte (c : UInt8) : UInt8 := if 65 ≤ c ∧ c ≤ 90 then c + 32 else c

/-- ASCII upper-casing of one byte. Go: part of `textproto.CanonicalMIMEHeaderKey`, under every
`Header` call, for example bearer.go:27. -/
def upperByte (c : UInt8) : UInt8 := if 97 ≤ c ∧ c ≤ 122 then c - 32 else c

/-- Go: `strings.EqualFold(s, t)` as used at bearer.go:38 with `t = "bearer"` and in
`net/http.parseBasicAuth` with `t = "Basic "`, always on an `s` of the same *byte* length as
`t`.  Simplification: folding is ASCII-only.  The only non-ASCII runes that fold to an ASCII
letter are U+212A (k) and U+017F (s); they occupy two or three bytes, so an `s` containing one
has fewer runes than `t` has and is never equal to it.  On equal byte lengths and an ASCII `t`
this definition therefore agrees with Go's. -/
def equalFold (s t : Str) : Bool := s.map lowerByte = t.map lowerByte

/-- The UTF-8 encodings of the runes for which Go's `unicode.IsSpace` is true. Go: for
`strings.TrimSpace` (scope.go:22). -/
def spaceSeqs : List Str :=
  [[0x20], [0x09], [0x0A], [0x0B], [0x0C], [0x0D], [0xC2, 0x85], [0xC2, 0xA0],
   [0xE1, 0x9A, 0x80],
   [0xE2, 0x80, 0x80], [0xE2, 0x80, 0x81], [0xE2, 0x80, 0x82], [0xE2, 0x80, 0x83],
   [0xE2, 0x80, 0x84], [0xE2, 0x80, 0x85], [0xE2, 0x80, 0x86], [0xE2, 0x80, 0x87],
   [0xE2, 0x80, 0x88], [0xE2, 0x80, 0x89], [0xE2, 0x80, 0x8A],
   [0xE2, 0x80, 0xA8], [0xE2, 0x80, 0xA9], [0xE2, 0x80, 0xAF], [0xE2, 0x81, 0x9F],
   [0xE3, 0x80, 0x80]]

/-- Strip one of the given byte sequences from the front, if one is there. Go: a step of
`strings.TrimSpace` (scope.go:22). -/
def stripOne (seqs : List Str) (s : Str) : Option Str := seqs.findSome? (stripPrefix · s)

/-- Strip the given sequences from the front as long as possible (`fuel ≥ s.length` steps). Go: the
loops of `strings.TrimSpace` (scope.go:22). -/
def stripMany (seqs : List Str) : Nat → Str → Str
  | 0, s => s
  | n + 1, s => match stripOne seqs s with
    | some r => stripMany seqs n r
    | none => s

/-- Go: `strings.TrimLeftFunc(s, unicode.IsSpace)`. -/
def trimLeftSpace (s : Str) : Str := stripMany spaceSeqs s.length s

/-- Go: `strings.TrimRightFunc(s, unicode.IsSpace)`.  `utf8.DecodeLastRuneInString` returns one
of the space runes exactly when the string ends in that rune's UTF-8 encoding. -/
def trimRightSpace (s : Str) : Str :=
  (stripMany (spaceSeqs.map List.reverse) s.length s.reverse).reverse

/-- Go: `strings.TrimSpace(s)` (scope.go:22). -/
def trimSpace (s : Str) : Str := trimRightSpace (trimLeftSpace s)

/-- Go's `<=` on strings: lexicographic by bytes. Used by `sort.Strings` (error.go:101) and by
`Values.Encode` (oauth2.go:109, 120). -/
def strLe : Str → Str → Bool
  | [], _ => true
  | _ :: _, [] => false
  | a :: as, b :: bs => if a < b then true else if a = b then strLe as bs else false

/-- Insert into a sorted list. Go: for `sort.Strings` (error.go:101). -/
def insertBy (le : α → α → Bool) (x : α) : List α → List α
  | [] => [x]
  | y :: ys => if le x y then x :: y :: ys else y :: insertBy le x ys

/-- Insertion sort: the *result* of Go's `sort.Strings` (any correct sort has this result).
error.go:101; `Values.Encode` sorts its keys in the same way. -/
def sortBy (le : α → α → Bool) : List α → List α
  | [] => []
  | x :: xs => insertBy le x (sortBy le xs)

/-- Go: `sort.Strings` (error.go:101). -/
def sortStrings : List Str → List Str := sortBy strLe

/-- Decimal digits of a natural number. Go: for `strconv.Itoa` (token.go:149) and for numbers in
JSON (oauth2.go:83). -/
def natDigits (n : Nat) : Str := (Nat.toDigits 10 n).map fun c => UInt8.ofNat c.toNat

/-- Go: `strconv.Itoa(i)` (token.go:149) and the JSON encoding of an integer. -/
def itoa (i : Int) : Str :=
  match i with
  | Int.ofNat n => natDigits n
  | Int.negSucc n => 0x2D :: natDigits (n + 1)

/-- Uppercase hex digit, as written by `net/url` ("0123456789ABCDEF"). Go: used by
`url.QueryEscape` (token.go:190) and `Values.Encode`. -/
def hexUpper (n : Nat) : UInt8 := if n < 10 then UInt8.ofNat (48 + n) else UInt8.ofNat (55 + n)

/-- Lowercase hex digit, as written by `encoding/json` ("0123456789abcdef"). Go: used by
`json.Encoder` (oauth2.go:83). -/
def hexLower (n : Nat) : UInt8 := if n < 10 then UInt8.ofNat (48 + n) else UInt8.ofNat (87 + n)

/-- The value of a hex digit of either case; `none` for other bytes. Go: `ishex` and `unhex` of
`net/url` (authorization.go:52) and `getu4` of `encoding/json`. -/
def unhex (c : UInt8) : Option Nat :=
  if 48 ≤ c ∧ c ≤ 57 then some (c.toNat - 48)
  else if 97 ≤ c ∧ c ≤ 102 then some (c.toNat - 87)
  else if 65 ≤ c ∧ c ≤ 70 then some (c.toNat - 55)
  else none

/-- Go: `utf8.RuneError`. -/
def runeError : Nat := 0xFFFD

/-- Is the byte in the inclusive range? Auxiliary; stands for comparisons in the standard library
functions below that use it. Go: for example `shouldEscape` of `net/url`. -/
def inRange (lo hi : UInt8) (c : UInt8) : Bool := lo ≤ c && c ≤ hi

/-- Go: `utf8.DecodeRuneInString(s)`: the rune and its width in bytes; `(RuneError, 1)` for an
invalid encoding and `(RuneError, 0)` for the empty string. -/
def decodeRune : Str → Nat × Nat
  | [] => (runeError, 0)
  | b0 :: rest =>
    if b0 < 0x80 then (b0.toNat, 1)
    else if inRange 0xC2 0xDF b0 then
      match rest with
      | b1 :: _ =>
        if inRange 0x80 0xBF b1 then ((b0.toNat - 0xC0) * 64 + (b1.toNat - 0x80), 2)
        else (runeError, 1)
      | [] => (runeError, 1)
    else if inRange 0xE0 0xEF b0 then
      match rest with
      | b1 :: b2 :: _ =>
        let lo : UInt8 := if b0 = 0xE0 then 0xA0 else 0x80
        let hi : UInt8 := if b0 = 0xED then 0x9F else 0xBF
        if inRange lo hi b1 && inRange 0x80 0xBF b2 then
          ((b0.toNat - 0xE0) * 4096 + (b1.toNat - 0x80) * 64 + (b2.toNat - 0x80), 3)
        else (runeError, 1)
      | _ => (runeError, 1)
    else if inRange 0xF0 0xF4 b0 then
      match rest with
      | b1 :: b2 :: b3 :: _ =>
        let lo : UInt8 := if b0 = 0xF0 then 0x90 else 0x80
        let hi : UInt8 := if b0 = 0xF4 then 0x8F else 0xBF
        if inRange lo hi b1 && inRange 0x80 0xBF b2 && inRange 0x80 0xBF b3 then
          ((b0.toNat - 0xF0) * 262144 + (b1.toNat - 0x80) * 4096 + (b2.toNat - 0x80) * 64
            + (b3.toNat - 0x80), 4)
        else (runeError, 1)
      | _ => (runeError, 1)
    else (runeError, 1)

/-- Go: `utf8.EncodeRune(r)`; surrogates and out-of-range values give U+FFFD. -/
def encodeRune (r : Nat) : Str :=
  if r < 0x80 then [UInt8.ofNat r]
  else if r < 0x800 then [UInt8.ofNat (0xC0 + r / 64), UInt8.ofNat (0x80 + r % 64)]
  else if (0xD800 ≤ r ∧ r ≤ 0xDFFF) ∨ 0x10FFFF < r then [0xEF, 0xBF, 0xBD]
  else if r < 0x10000 then
    [UInt8.ofNat (0xE0 + r / 4096), UInt8.ofNat (0x80 + r / 64 % 64), UInt8.ofNat (0x80 + r % 64)]
  else
    [UInt8.ofNat (0xF0 + r / 262144), UInt8.ofNat (0x80 + r / 4096 % 64),
     UInt8.ofNat (0x80 + r / 64 % 64), UInt8.ofNat (0x80 + r % 64)]

end OAuth2

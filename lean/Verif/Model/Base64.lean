import Verif.Model.Bytes
/-
`encoding/base64` (Go standard library): `RawURLEncoding` (hs256.go:15) and `StdEncoding`
(used by `net/http` for HTTP basic authentication).
-/

namespace OAuth2

/-- The 64-character alphabet. `url = true` is the URL-safe one ('-' and '_'). Go:
`encoding/base64`, called at hs256.go:90, 96, 131 and 136 and by `BasicAuth` (token.go:56). -/
def b64Char (url : Bool) (n : Nat) : UInt8 :=
  if n < 26 then UInt8.ofNat (65 + n)
  else if n < 52 then UInt8.ofNat (71 + n)
  else if n < 62 then UInt8.ofNat (n - 4)
  else if n = 62 then (if url then 0x2D else 0x2B)
  else (if url then 0x5F else 0x2F)

/-- Go: `enc.decodeMap[c]`. -/
def b64Val (url : Bool) (c : UInt8) : Option Nat :=
  if 65 ≤ c ∧ c ≤ 90 then some (c.toNat - 65)
  else if 97 ≤ c ∧ c ≤ 122 then some (c.toNat - 71)
  else if 48 ≤ c ∧ c ≤ 57 then some (c.toNat + 4)
  else if c = (if url then 0x2D else 0x2B) then some 62
  else if c = (if url then 0x5F else 0x2F) then some 63
  else none

/-- Go: `enc.EncodeToString(src)` without padding (`pad = []`) or with `=` (`pad = ['=']`). -/
def b64Encode (url : Bool) (pad : Str) : Str → Str
  | [] => []
  | [a] => [b64Char url (a.toNat / 4), b64Char url (a.toNat % 4 * 16)] ++ pad ++ pad
  | [a, b] =>
    [b64Char url (a.toNat / 4), b64Char url (a.toNat % 4 * 16 + b.toNat / 16),
     b64Char url (b.toNat % 16 * 4)] ++ pad
  | a :: b :: c :: rest =>
    b64Char url (a.toNat / 4) :: b64Char url (a.toNat % 4 * 16 + b.toNat / 16) ::
    b64Char url (b.toNat % 16 * 4 + c.toNat / 64) :: b64Char url (c.toNat % 64) ::
    b64Encode url pad rest

/-- Combine sextets; `RawURLEncoding` allows a final group of two or three. The decoder is not
strict: unused trailing bits are ignored. Go: `encoding/base64`, called at hs256.go:90, 96, 131 and
136 and by `BasicAuth` (token.go:56). -/
def b64Groups : List Nat → Option Str
  | [] => some []
  | [_] => none
  | [a, b] => some [UInt8.ofNat (a * 4 + b / 16)]
  | [a, b, c] => some [UInt8.ofNat (a * 4 + b / 16), UInt8.ofNat (b % 16 * 16 + c / 4)]
  | a :: b :: c :: d :: rest =>
    (b64Groups rest).map fun t =>
      UInt8.ofNat (a * 4 + b / 16) :: UInt8.ofNat (b % 16 * 16 + c / 4) ::
      UInt8.ofNat (c % 4 * 64 + d) :: t

/-- Go's base64 decoder skips carriage returns and line feeds anywhere in its input. Go:
`encoding/base64`, called at hs256.go:90, 96, 131 and 136 and by `BasicAuth` (token.go:56). -/
def dropNewlines (s : Str) : Str := s.filter fun c => !(c = 0x0A || c = 0x0D)

/-- Go: `base64.RawURLEncoding.DecodeString(s)` (hs256.go:90, 96); `none` is an error. -/
def b64RawURLDecode (s : Str) : Option Str := do
  b64Groups (← (dropNewlines s).mapM (b64Val true))

/-- Go: `base64.RawURLEncoding.EncodeToString(b)` (hs256.go:131, 136). -/
def b64RawURLEncode (b : Str) : Str := b64Encode true [] b

/-- The padded decoder on newline-free input. Go: `base64.StdEncoding.DecodeString`, called by
`BasicAuth` (token.go:56, introspection.go:48, revocation.go:43). -/
def b64StdGroups : Str → Option Str
  | [] => some []
  | a :: b :: c :: d :: rest =>
    if c = 0x3D ∧ d = 0x3D ∧ rest = [] then do
      b64Groups [← b64Val false a, ← b64Val false b]
    else if d = 0x3D ∧ rest = [] then do
      b64Groups [← b64Val false a, ← b64Val false b, ← b64Val false c]
    else do
      let h ← b64Groups [← b64Val false a, ← b64Val false b, ← b64Val false c, ← b64Val false d]
      let t ← b64StdGroups rest
      return h ++ t
  | _ => none

/-- Go: `base64.StdEncoding.DecodeString(s)`. -/
def b64StdDecode (s : Str) : Option Str := b64StdGroups (dropNewlines s)

/-- Go: `base64.StdEncoding.EncodeToString(b)`. -/
def b64StdEncode (b : Str) : Str := b64Encode false [0x3D] b

end OAuth2

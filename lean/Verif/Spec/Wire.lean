import Verif.Spec.Challenge
/-
Messages of HTTP/1.1 as bytes, by RFC 7230: every text the grammar allows, with what the text says.
Left out, as what is proved about does not use it: lines that continue others, extensions of chunks,
trailers, and messages that end with the connection.
-/

namespace OAuth2.Rfc7230

open Rfc7235 (Token Blank)

/-- The end of a line. -/
def CRLF : Str := [0x0D, 0x0A]

/-- RFC 7230, 3.2, `field-value`: text on one line, without blanks at its ends. (The RFC also forbids
the other control characters; see `Printable`.) -/
structure Value (v : Str) : Prop where
  line : ∀ b ∈ v, b ≠ 0x0D ∧ b ≠ 0x0A
  first : ∀ b, v.head? = some b → b ≠ 0x20 ∧ b ≠ 0x09
  last : ∀ b, v.getLast? = some b → b ≠ 0x20 ∧ b ≠ 0x09

/-- RFC 7230, 3.2, the bytes of a `field-value`: visible ones, blanks and those from 128 on. -/
def Printable (v : Str) : Prop := ∀ b ∈ v, b = 0x09 ∨ (0x20 ≤ b ∧ b ≠ 0x7F)

/-- RFC 7230, 3.2, `*( header-field CRLF )` with `header-field = field-name ":" OWS field-value OWS`. -/
inductive Fields : Str → List (Str × Str) → Prop
  | nil : Fields [] []
  | cons {k w v w' s : Str} {l : List (Str × Str)} : Token k → Blank w → Value v → Blank w' →
    Fields s l → Fields (k ++ [0x3A] ++ w ++ v ++ w' ++ CRLF ++ s) ((k, v) :: l)

/-- A letter in lower case. -/
def lower (b : UInt8) : UInt8 := if 0x41 ≤ b ∧ b ≤ 0x5A then b + 0x20 else b

/-- The same but for the case of letters. -/
def SameName (a b : Str) : Prop := a.map lower = b.map lower

instance (a b : Str) : Decidable (SameName a b) := inferInstanceAs (Decidable (_ = _))

/-- The values of the fields of this name, in order. -/
def named (fields : List (Str × Str)) (name : Str) : List Str :=
  (fields.filter fun f => SameName f.1 name).map (·.2)

/-- The number that decimal digits stand for. -/
def decimal (s : Str) : Nat := s.foldl (fun n b => n * 10 + (b.toNat - 0x30)) 0

/-- The values of the hexadecimal digits. -/
inductive HexDigit : UInt8 → Nat → Prop
  | digit {b : UInt8} : 0x30 ≤ b → b ≤ 0x39 → HexDigit b (b.toNat - 0x30)
  | upper {b : UInt8} : 0x41 ≤ b → b ≤ 0x46 → HexDigit b (b.toNat - 0x41 + 10)
  | lower {b : UInt8} : 0x61 ≤ b → b ≤ 0x66 → HexDigit b (b.toNat - 0x61 + 10)

/-- The number that hexadecimal digits stand for. -/
inductive Hex : Str → Nat → Prop
  | nil : Hex [] 0
  | snoc {s : Str} {b : UInt8} {n d : Nat} : Hex s n → HexDigit b d → Hex (s ++ [b]) (n * 16 + d)

/-- RFC 7230, 4.1, `chunked-body`, and the body it stands for. Sizes are of 64 bits. -/
inductive Chunks : Str → Str → Prop
  | last {size : Str} : size ≠ [] → size.length ≤ 16 → Hex size 0 →
    Chunks (size ++ CRLF ++ CRLF) []
  | chunk {size data s body : Str} : size ≠ [] → size.length ≤ 16 → Hex size data.length →
    data ≠ [] → Chunks s body → Chunks (size ++ CRLF ++ data ++ CRLF ++ s) (data ++ body)

/-- RFC 7230, 3.3.3: which bytes after the head are the body, by the fields of the message. A message
without a length is one of a request without a body. Lengths are of 63 bits. -/
inductive Body (request : Bool) (fields : List (Str × Str)) : Str → Str → Prop
  | chunked {coding s body : Str} : named fields b!"Transfer-Encoding" = [coding] →
    SameName coding b!"chunked" → Chunks s body → Body request fields s body
  | length {digits body : Str} : named fields b!"Transfer-Encoding" = [] →
    named fields b!"Content-Length" = [digits] → digits ≠ [] →
    (∀ b ∈ digits, 0x30 ≤ b ∧ b ≤ 0x39) → decimal digits = body.length → body.length < 2 ^ 63 →
    Body request fields body body
  | none : request = true → named fields b!"Transfer-Encoding" = [] →
    named fields b!"Content-Length" = [] → Body request fields [] []

/-- What a message says. -/
structure Message where
  start : Str
  fields : List (Str × Str)
  body : Str
  deriving DecidableEq

/-- RFC 7230, 3, `start-line *( header-field CRLF ) CRLF [ message-body ]`. -/
inductive Text (request : Bool) : Str → Message → Prop
  | mk {start head body : Str} {m : Message} : start = m.start →
    (∀ b ∈ start, b ≠ 0x0D ∧ b ≠ 0x0A) → Fields head m.fields → Body request m.fields body m.body →
    Text request (start ++ CRLF ++ head ++ CRLF ++ body) m

/-- RFC 7230, 3.1.2, `status-line` without its end. -/
def StatusLine (start code reason : Str) : Prop :=
  start = b!"HTTP/1.1 " ++ code ++ [0x20] ++ reason ∧ code.length = 3 ∧
    ∀ b ∈ code, 0x30 ≤ b ∧ b ≤ 0x39

/-- RFC 7230, 3.1.1, `request-line` without its end. -/
def RequestLine (start method target : Str) : Prop :=
  start = method ++ [0x20] ++ target ++ b!" HTTP/1.1" ∧ Token method ∧ (0x20 : UInt8) ∉ target

/-- RFC 7230, 5.4 with RFC 3986, the bytes of a `Host`: those of names, addresses and ports. -/
def HostText (h : Str) : Prop := ∀ b ∈ h,
  b ∈ b!"!$%&()*+,-.:;='[]_~0123456789ABCDEFGHIJKLMNOPQRSTUVWXYZabcdefghijklmnopqrstuvwxyz"

/-- Messages one after the other on a connection. -/
inductive Stream (request : Bool) : Str → List Message → Prop
  | nil : Stream request [] []
  | cons {a s : Str} {m : Message} {l : List Message} : Text request a m → Stream request s l →
    Stream request (a ++ s) (m :: l)

end OAuth2.Rfc7230

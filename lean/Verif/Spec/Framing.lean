import Verif.Spec.Wire
/-
Messages of HTTP/1.1 as a receiver may accept them: the grammar of RFC 7230 with all that it lets a
recipient put up with, and with what Go puts up with besides (said where it is so). What is not in
here must be refused, or two readers of a connection could see different messages in it.
-/

namespace OAuth2.Rfc7230

open Rfc7235 (Token Blank)

/-- A line and its end, which may lack the CR (RFC 7230, 3.5). -/
inductive Line : Str → Str → Prop
  | crlf {l : Str} : (0x0A : UInt8) ∉ l → Line (l ++ CRLF) l
  | lf {l : Str} : (0x0A : UInt8) ∉ l → l.getLast? ≠ some 0x0D → Line (l ++ [0x0A]) l

/-- The lines up to an empty one. -/
inductive Lines : Str → List Str → Prop
  | nil {e : Str} : Line e [] → Lines e []
  | cons {a l s : Str} {ls : List Str} : Line a l → l ≠ [] → Lines s ls → Lines (a ++ s) (l :: ls)

/-- A space or a tab. -/
def blank (b : UInt8) : Bool := b = 0x20 || b = 0x09

/-- Without blanks at the start; at the end; at both. -/
def left (s : Str) : Str := s.dropWhile blank
def right (s : Str) : Str := (left s.reverse).reverse
def strip (s : Str) : Str := right (left s)

/-- RFC 7230, 3.2.4, `obs-fold`: a value and the lines that continue it, each as if by one space. -/
def unfolded (v : Str) (more : List Str) : Str :=
  left (right v ++ more.flatMap fun m => [0x20] ++ strip m)

/-- The fields on these lines. The name goes to the first colon; a line that starts with a blank
continues the one before it. (What a name consists of is not said here.) -/
inductive Folded : List Str → List (Str × Str) → Prop
  | nil : Folded [] []
  | cons {k v : Str} {more ls : List Str} {l : List (Str × Str)} : (0x3A : UInt8) ∉ k →
    (∀ b, (k ++ [0x3A]).head? = some b → blank b = false) →
    (∀ m ∈ more, ∃ b s, m = b :: s ∧ blank b = true) → Folded ls l →
    Folded ((k ++ [0x3A] ++ v) :: (more ++ ls)) ((k, unfolded v more) :: l)

/-- A head: its bytes, with the empty line at the end, and its fields. -/
def Head (bytes : Str) (fields : List (Str × Str)) : Prop := ∃ ls, Lines bytes ls ∧ Folded ls fields

/-- White space: blanks and the bytes of ends of lines. -/
def white (b : UInt8) : Bool := b = 0x20 || b = 0x09 || b = 0x0A || b = 0x0D

/-- Without white space at both ends. -/
def trim (s : Str) : Str := ((s.dropWhile white).reverse.dropWhile white).reverse

/-- RFC 7230, 4.1, `chunk-size [ chunk-ext ] CRLF`. Go also takes no digits for zero, white space at
the end, and an extension of any text. -/
inductive SizeLine : Str → Nat → Prop
  | mk {digits ext w : Str} {n : Nat} : digits.length ≤ 16 → Hex digits n →
    (ext = [] ∨ ext.head? = some 0x3B) → (0x0A : UInt8) ∉ ext →
    (∀ b ∈ w, white b = true ∧ b ≠ 0x0A) → SizeLine (digits ++ ext ++ w ++ [0x0A]) n

/-- RFC 7230, 4.1, `chunked-body` with extensions and a trailer. -/
inductive Chunked : Str → Str → Prop
  | last {a trailer : Str} {fields : List (Str × Str)} : SizeLine a 0 → Head trailer fields →
    Chunked (a ++ trailer) []
  | chunk {a data s body : Str} : SizeLine a data.length → data ≠ [] → Chunked s body →
    Chunked (a ++ data ++ CRLF ++ s) (data ++ body)

/-- The name of the coding, but for the case of letters. For Go, the sign for Kelvin is a letter k. -/
def ChunkedName (s : Str) : Prop := SameName s b!"chunked" ∨
  ∃ a c, s = a ++ [0xE2, 0x84, 0xAA] ++ c ∧ SameName a b!"chun" ∧ SameName c b!"ed"

/-- RFC 7230, 3.3.3: which bytes after the head are the body (`text`), what body they stand for, and
what is left of the connection. Several lengths must be the same; one without text counts, in Go,
like none. Nothing else tells how long a body is. -/
inductive Framed (request : Bool) (fields : List (Str × Str)) : Str → Str → Str → Prop
  | chunked {coding text body rest : Str} : named fields b!"Transfer-Encoding" = [coding] →
    ChunkedName (trim coding) → Chunked text body → Framed request fields text body rest
  | length {digits body rest : Str} : named fields b!"Transfer-Encoding" = [] →
    named fields b!"Content-Length" ≠ [] →
    (∀ v ∈ named fields b!"Content-Length", trim v = digits) → digits ≠ [] →
    (∀ b ∈ digits, 0x30 ≤ b ∧ b ≤ 0x39) → decimal digits = body.length → body.length < 2 ^ 63 →
    Framed request fields body body rest
  | none {rest : Str} : request = true → named fields b!"Transfer-Encoding" = [] →
    (∀ v ∈ named fields b!"Content-Length", trim v = []) → Framed request fields [] [] rest
  | toEnd {body : Str} : request = false → named fields b!"Transfer-Encoding" = [] →
    (∀ v ∈ named fields b!"Content-Length", trim v = []) → Framed request fields body body []

/-- A connection that starts with a message in order, with this first line, these fields, this body
and this rest. -/
def Starts (request : Bool) (bytes start : Str) (fields : List (Str × Str)) (body rest : Str) : Prop :=
  ∃ first head text, bytes = first ++ head ++ text ++ rest ∧ Line first start ∧ Head head fields ∧
    Framed request fields text body rest

/-- Fields that do not say how long the body is, or say so in two ways. -/
inductive Unclear (fields : List (Str × Str)) : Prop
  /-- several transfer codings -/
  | codings {a b : Str} {l : List Str} : named fields b!"Transfer-Encoding" = a :: b :: l →
    Unclear fields
  /-- a transfer coding that is not known -/
  | coding {a : Str} : a ∈ named fields b!"Transfer-Encoding" → ¬ ChunkedName (trim a) → Unclear fields
  /-- lengths that differ -/
  | lengths {a b : Str} : named fields b!"Transfer-Encoding" = [] →
    a ∈ named fields b!"Content-Length" → b ∈ named fields b!"Content-Length" → trim a ≠ trim b →
    Unclear fields
  /-- a length that is no number -/
  | length {a : Str} {c : UInt8} : named fields b!"Transfer-Encoding" = [] →
    a ∈ named fields b!"Content-Length" → c ∈ trim a → ¬ (0x30 ≤ c ∧ c ≤ 0x39) → Unclear fields
  /-- a length of 64 bits and more -/
  | large {a : Str} : named fields b!"Transfer-Encoding" = [] →
    a ∈ named fields b!"Content-Length" → 2 ^ 63 ≤ decimal (trim a) → Unclear fields

end OAuth2.Rfc7230

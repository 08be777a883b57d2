import Verif.Model.HS256
/-
What can be seen of a computation by measuring time: hs256.go and the parts of `crypto/sha256`,
`crypto/hmac` and `crypto/subtle` below it, and the comparison of strings in server.go, with a record of
the branches that are taken and of the places in memory that are read. The hash is computed piece by
piece, as Go does.

Simplification: the generic implementation of `crypto/sha256` (`blockGeneric`); arithmetic on words
takes the same time whatever the words are; allocation leaves no trace.
-/

namespace OAuth2

/-- What is seen of one step: how a condition came out, which element of an array was read, how many
bytes were copied, and (for code that only works on what the attacker sent) the whole text. No code:
the observer of hs256.go:82-127. -/
inductive Leak where
  | branch (taken : Bool)
  | load (index : Nat)
  | copy (length : Nat)
  | text (text : Str)
  deriving DecidableEq, Repr

/-- A result and what was seen while it was computed. No code: the observer of hs256.go:82-127. -/
structure Leaky (α : Type) where
  value : α
  trace : List Leak
  deriving Repr

namespace Leaky

/-- One step after the other. No code: the semicolon. -/
instance : Monad Leaky where
  pure a := ⟨a, []⟩
  bind x f := ⟨(f x.value).value, x.trace ++ (f x.value).trace⟩

/-- A condition, as in hs256.go:108. -/
def test (b : Bool) : Leaky Bool := ⟨b, [.branch b]⟩

/-- An index expression, as `x[i]` in `crypto/subtle` `ConstantTimeCompare` (hs256.go:126). -/
def load {α : Type} [Inhabited α] (x : List α) (i : Nat) : Leaky α := ⟨x.getD i default, [.load i]⟩

/-- Go: `copy`, as in `crypto/hmac` `New` (hs256.go:31). -/
def copy (x : Str) : Leaky Str := ⟨x, [.copy x.length]⟩

/-- A function of what the attacker sent, of which everything is seen, as `strings.Split(str, ".")` in
hs256.go:84. -/
def open_ {α : Type} (text : Str) (f : Str → α) : Leaky α := ⟨f text, [.text text]⟩

/-- Go: `for i := lo; i < lo + n; i++ { ... }`, as in `crypto/subtle` `ConstantTimeCompare`
(hs256.go:126). -/
def loop {α : Type} (lo : Nat) : (n : Nat) → (body : Nat → α → Leaky α) → α → Leaky α
  | 0, _, s => do
    let _ ← test false
    return s
  | n + 1, body, s => do
    let _ ← test true
    let s ← body lo s
    loop (lo + 1) n body s

end Leaky

namespace Sha256

open Leaky

/-- Go: `crypto/sha256` `digest` (hs256.go:31): the hash so far, the bytes `d.x[:d.nx]` that wait for
a full block, and the number of all bytes. Simplification: the number is unbounded. -/
structure Digest where
  h : Regs
  x : Str
  len : Nat

/-- Go: `sha256.New` (hs256.go:31). -/
def Digest.new : Digest := { h := init, x := [], len := 0 }

/-- Go: the first loop of `blockGeneric` in `crypto/sha256` (hs256.go:31): sixteen words. -/
def firstWords (p : Str) : Leaky (List Nat) :=
  loop 0 16 (fun i w => do
    let a ← load p (i * 4)
    let b ← load p (i * 4 + 1)
    let c ← load p (i * 4 + 2)
    let d ← load p (i * 4 + 3)
    return w ++ [a.toNat * 16777216 + b.toNat * 65536 + c.toNat * 256 + d.toNat]) []

/-- Go: the second loop of `blockGeneric` in `crypto/sha256` (hs256.go:31): the message schedule. -/
def allWords (w : List Nat) : Leaky (List Nat) :=
  loop 16 48 (fun i w => do
    let v1 ← load w (i - 2)
    let v2 ← load w (i - 15)
    let v3 ← load w (i - 7)
    let v4 ← load w (i - 16)
    let t1 := rotr 17 v1 ^^^ rotr 19 v1 ^^^ (v1 >>> 10)
    let t2 := rotr 7 v2 ^^^ rotr 18 v2 ^^^ (v2 >>> 3)
    return w ++ [(t1 + v3 + t2 + v4) % w32]) w

/-- Go: the third loop of `blockGeneric` in `crypto/sha256` (hs256.go:31): the rounds. -/
def allRounds (w : List Nat) (r : Regs) : Leaky Regs :=
  loop 0 64 (fun i r => do
    let k ← load K i
    let x ← load w i
    return round r k x) r

/-- Go: the body of `blockGeneric` in `crypto/sha256` (hs256.go:31): one block of 64 bytes. -/
def oneBlock (r : Regs) (p : Str) : Leaky Regs := do
  let w ← firstWords p
  let w ← allWords w
  let s ← allRounds w r
  return ⟨(r.a + s.a) % w32, (r.b + s.b) % w32, (r.c + s.c) % w32, (r.d + s.d) % w32,
    (r.e + s.e) % w32, (r.f + s.f) % w32, (r.g + s.g) % w32, (r.h + s.h) % w32⟩

/-- Go: `blockGeneric` in `crypto/sha256` (hs256.go:31): the blocks of `p`, whose number is `n`. -/
def someBlocks (n : Nat) (r : Regs) (p : Str) : Leaky Regs :=
  match n with
  | 0 => do
    let _ ← test false
    return r
  | n + 1 => do
    let _ ← test true
    let r ← oneBlock r (p.take 64)
    someBlocks n r (p.drop 64)

/-- Go: the part of `digest.Write` in `crypto/sha256` (hs256.go:34) that fills up the waiting block. -/
def Digest.fill (d : Digest) (p : Str) : Leaky (Digest × Str) := do
  if ← test (0 < d.x.length) then
    let c ← copy (p.take (64 - d.x.length))
    let d := { d with x := d.x ++ c }
    let rest := p.drop c.length
    if ← test (d.x.length = 64) then
      let h ← someBlocks 1 d.h d.x
      return ({ d with h := h, x := [] }, rest)
    else return (d, rest)
  else return (d, p)

/-- Go: `digest.Write` in `crypto/sha256` (hs256.go:34). -/
def Digest.write (d : Digest) (p : Str) : Leaky Digest := do
  let d := { d with len := d.len + p.length }
  let (d, p) ← d.fill p
  let (d, p) ← (do
    if ← test (64 ≤ p.length) then
      let n := p.length / 64
      let h ← someBlocks n d.h (p.take (n * 64))
      return ({ d with h := h }, p.drop (n * 64))
    else return (d, p) : Leaky (Digest × Str))
  if ← test (0 < p.length) then
    let c ← copy p
    return { d with x := c }
  else return d

/-- Go: `digest.checkSum` in `crypto/sha256` (hs256.go:37). Simplification: the check that no bytes
wait at the end, which panics otherwise, is left out; it never fails. -/
def Digest.checkSum (d : Digest) : Leaky Str := do
  let len := d.len
  let d ← (do
    if ← test (len % 64 < 56) then d.write (0x80 :: List.replicate (56 - len % 64 - 1) 0)
    else d.write (0x80 :: List.replicate (64 + 56 - len % 64 - 1) 0) : Leaky Digest)
  let d ← d.write (be (len * 8) 8)
  let r := d.h
  return be r.a 4 ++ be r.b 4 ++ be r.c 4 ++ be r.d 4 ++ be r.e 4 ++ be r.f 4 ++ be r.g 4 ++ be r.h 4

end Sha256

namespace Timing

open Leaky Sha256

/-- Go: `crypto/hmac` `hmac` (hs256.go:31), with SHA-256: the pad for the outer hash, and the inner
hash. -/
structure Hmac where
  opad : Str
  inner : Digest

/-- Go: the loops `for i := range hm.ipad { hm.ipad[i] ^= 0x36 }` of `crypto/hmac` `New` (hs256.go:31). -/
def xorPad (pad : Str) (byte : UInt8) : Leaky Str :=
  loop 0 64 (fun i out => do
    let b ← load pad i
    return out ++ [b ^^^ byte]) []

/-- Go: `hmac.New(sha256.New, secret)` (hs256.go:31). -/
def Hmac.new (secret : Str) : Leaky Hmac := do
  let key ← (do
    if ← test (64 < secret.length) then
      let outer ← Digest.new.write secret
      outer.checkSum
    else return secret : Leaky Str)
  let ipad ← copy key
  let opad ← copy key
  let ipad ← xorPad (ipad ++ List.replicate (64 - ipad.length) 0) 0x36
  let opad ← xorPad (opad ++ List.replicate (64 - opad.length) 0) 0x5c
  let inner ← Digest.new.write ipad
  return { opad := opad, inner := inner }

/-- Go: `hash.Write(key)` (hs256.go:34). -/
def Hmac.write (h : Hmac) (p : Str) : Leaky Hmac := do
  let inner ← h.inner.write p
  return { h with inner := inner }

/-- Go: `hash.Sum(nil)` (hs256.go:37). -/
def Hmac.sum (h : Hmac) : Leaky Str := do
  let sum ← h.inner.checkSum
  let outer ← Digest.new.write h.opad
  let outer ← outer.write sum
  outer.checkSum

/-- hs256.go:29-46 `HS256TokenFromKey`. -/
def fromKey (secret key : Str) : Leaky HS256Token := do
  let hash ← Hmac.new secret
  let hash ← hash.write key
  let signature ← hash.sum
  return { key := key, signature := signature }

/-- Go: `subtle.ConstantTimeByteEq` (hs256.go:126). Words of 32 bits. -/
def byteEq (x y : UInt8) : UInt32 := ((x ^^^ y).toUInt32 - 1) >>> 31

/-- Go: `subtle.ConstantTimeCompare` (hs256.go:126). -/
def constantTimeCompare (x y : Str) : Leaky UInt32 := do
  if ← test (x.length ≠ y.length) then return 0
  else
    let v ← loop 0 x.length (fun i v => do
      let a ← load x i
      let b ← load y i
      return v ||| (a ^^^ b)) (0 : UInt8)
    return byteEq v 0

/-- hs256.go:125-127 `Equal`. -/
def equal (t : HS256Token) (signature : Str) : Leaky Bool := do
  let x ← constantTimeCompare t.signature signature
  return x == 1

/-- hs256.go:116-118 `Valid`. -/
def valid (t : HS256Token) (secret : Str) : Leaky Bool := do
  let u ← fromKey secret t.key
  equal u t.signature

/-- hs256.go:82-113 `ParseHS256Token`. Of `strings.Split` and `DecodeString`, which work on the text
that is parsed alone, everything is seen. -/
def parse (secret str : Str) : Leaky (Except Str HS256Token) := do
  match ← open_ str (splitByte 0x2E) with
  | [s0, s1] =>
    match ← open_ s0 b64RawURLDecode with
    | none => return .error b!"token key is not base64 encoded"
    | some key =>
      match ← open_ s1 b64RawURLDecode with
      | none => return .error b!"token signature is not base64 encoded"
      | some signature =>
        let token : HS256Token := { key := key, signature := signature }
        let ok ← valid token secret
        if ← test !ok then return .error b!"invalid token supplied" else return .ok token
  | _ => return .error b!"a token must have two segments separated by a dot"

/-- Go: the loop of the runtime function `memequal`, which compares `block` bytes at a time and stops at
the first difference (server.go:209 and 279). -/
def memequal (block : Nat) : (n : Nat) → (i : Nat) → (x y : Str) → Leaky Bool
  | 0, _, _, _ => return true
  | n + 1, i, x, y => do
    let a ← (⟨x.take block, [.load i]⟩ : Leaky Str)
    let b ← (⟨y.take block, [.load i]⟩ : Leaky Str)
    if ← test (a = b) then memequal block n (i + 1) (x.drop block) (y.drop block) else return false

/-- Go: `x == y` for strings (server.go:209, 233, 279, 300, 471 and 533): first the lengths, then the
bytes, `block` at a time. How many that is depends on the machine. -/
def stringsEqual (block : Nat) (x y : Str) : Leaky Bool := do
  if ← test (x.length = y.length) then memequal block ((x.length + block - 1) / block) 0 x y
  else return false

end Timing

end OAuth2

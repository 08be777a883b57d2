import Verif.Model.Bytes
/-
`crypto/sha256` and `crypto/hmac` (Go standard library), executable, on natural numbers below
2^32.  FIPS 180-4 / RFC 2104.
-/

namespace OAuth2

namespace Sha256

/-- 2^32, the modulus of the words of SHA-256. FIPS 180-4, section 2.2.2; called through
hs256.go:31. -/
def w32 : Nat := 4294967296

/-- Rotate a word right. FIPS 180-4, section 3.2; called through hs256.go:31. -/
def rotr (n : Nat) (x : Nat) : Nat := (x >>> n) ||| ((x <<< (32 - n)) % w32)

/-- The round constants. FIPS 180-4, section 4.2.2; Go: `crypto/sha256` `_K` (hs256.go:31). -/
def K : List Nat :=
  [0x428a2f98, 0x71374491, 0xb5c0fbcf, 0xe9b5dba5, 0x3956c25b, 0x59f111f1, 0x923f82a4, 0xab1c5ed5,
   0xd807aa98, 0x12835b01, 0x243185be, 0x550c7dc3, 0x72be5d74, 0x80deb1fe, 0x9bdc06a7, 0xc19bf174,
   0xe49b69c1, 0xefbe4786, 0x0fc19dc6, 0x240ca1cc, 0x2de92c6f, 0x4a7484aa, 0x5cb0a9dc, 0x76f988da,
   0x983e5152, 0xa831c66d, 0xb00327c8, 0xbf597fc7, 0xc6e00bf3, 0xd5a79147, 0x06ca6351, 0x14292967,
   0x27b70a85, 0x2e1b2138, 0x4d2c6dfc, 0x53380d13, 0x650a7354, 0x766a0abb, 0x81c2c92e, 0x92722c85,
   0xa2bfe8a1, 0xa81a664b, 0xc24b8b70, 0xc76c51a3, 0xd192e819, 0xd6990624, 0xf40e3585, 0x106aa070,
   0x19a4c116, 0x1e376c08, 0x2748774c, 0x34b0bcb5, 0x391c0cb3, 0x4ed8aa4a, 0x5b9cca4f, 0x682e6ff3,
   0x748f82ee, 0x78a5636f, 0x84c87814, 0x8cc70208, 0x90befffa, 0xa4506ceb, 0xbef9a3f7, 0xc67178f2]

/-- The eight working variables. FIPS 180-4, section 6.2; Go: `crypto/sha256` `digest.h`
(hs256.go:31). -/
structure Regs where
  a : Nat
  b : Nat
  c : Nat
  d : Nat
  e : Nat
  f : Nat
  g : Nat
  h : Nat

/-- The initial hash value. FIPS 180-4, section 5.3.3; Go: `crypto/sha256` `init0` to `init7`
(hs256.go:31). -/
def init : Regs :=
  ⟨0x6a09e667, 0xbb67ae85, 0x3c6ef372, 0xa54ff53a, 0x510e527f, 0x9b05688c, 0x1f83d9ab, 0x5be0cd19⟩

/-- Extend the message schedule by `n` words; `w` holds the words so far, newest first. FIPS 180-4,
section 6.2.2, step 1; Go: `blockGeneric` (hs256.go:31). -/
def schedule : Nat → List Nat → List Nat
  | 0, w => w
  | n + 1, w =>
    let w2 := w.getD 1 0
    let w7 := w.getD 6 0
    let w15 := w.getD 14 0
    let w16 := w.getD 15 0
    let s1 := rotr 17 w2 ^^^ rotr 19 w2 ^^^ (w2 >>> 10)
    let s0 := rotr 7 w15 ^^^ rotr 18 w15 ^^^ (w15 >>> 3)
    schedule n (((s1 + w7 + s0 + w16) % w32) :: w)

/-- One round. FIPS 180-4, section 6.2.2, step 3; Go: `crypto/sha256` `blockGeneric` (hs256.go:31).
-/
def round (r : Regs) (k w : Nat) : Regs :=
  let s1 := rotr 6 r.e ^^^ rotr 11 r.e ^^^ rotr 25 r.e
  let ch := (r.e &&& r.f) ^^^ ((w32 - 1 - r.e) &&& r.g)
  let t1 := r.h + s1 + ch + k + w
  let s0 := rotr 2 r.a ^^^ rotr 13 r.a ^^^ rotr 22 r.a
  let maj := (r.a &&& r.b) ^^^ (r.a &&& r.c) ^^^ (r.b &&& r.c)
  ⟨(t1 + s0 + maj) % w32, r.a, r.b, r.c, (r.d + t1) % w32, r.e, r.f, r.g⟩

/-- All rounds. FIPS 180-4, section 6.2.2, step 3; Go: `blockGeneric` (hs256.go:31). -/
def rounds : List Nat → List Nat → Regs → Regs
  | k :: ks, w :: ws, r => rounds ks ws (round r k w)
  | _, _, r => r

/-- One message block. FIPS 180-4, section 6.2.2; Go: `blockGeneric` (hs256.go:31). -/
def block (r : Regs) (words : List Nat) : Regs :=
  let s := rounds K (schedule 48 words.reverse).reverse r
  ⟨(r.a + s.a) % w32, (r.b + s.b) % w32, (r.c + s.c) % w32, (r.d + s.d) % w32,
   (r.e + s.e) % w32, (r.f + s.f) % w32, (r.g + s.g) % w32, (r.h + s.h) % w32⟩

/-- Big-endian words of a byte string whose length is a multiple of four. FIPS 180-4, section
5.2.1; Go: `blockGeneric` (hs256.go:31). -/
def toWords : Str → List Nat
  | a :: b :: c :: d :: rest =>
    (a.toNat * 16777216 + b.toNat * 65536 + c.toNat * 256 + d.toNat) :: toWords rest
  | _ => []

/-- A number as `k` bytes, big-endian. Go: `binary.BigEndian` in `crypto/sha256` (hs256.go:31). -/
def be (n : Nat) (k : Nat) : Str :=
  match k with
  | 0 => []
  | k + 1 => UInt8.ofNat (n / 256 ^ k) :: be n k

/-- Merkle–Damgård padding. FIPS 180-4, section 5.1.1; Go: `crypto/sha256` `checkSum`
(hs256.go:37). Simplification: none for messages below 2^61 bytes. -/
def pad (m : Str) : Str :=
  m ++ [0x80] ++ List.replicate ((119 - m.length % 64) % 64) 0 ++ be (m.length * 8) 8

/-- All message blocks in order. FIPS 180-4, section 6.2.2 (hs256.go:31-34). -/
def blocks : Nat → List Nat → Regs → Regs
  | 0, _, r => r
  | n + 1, ws, r => blocks n (ws.drop 16) (block r (ws.take 16))

/-- Go: `sha256.Sum256` (hs256.go:31-37). FIPS 180-4, section 6.2. -/
def sha256 (m : Str) : Str :=
  let p := pad m
  let r := blocks (p.length / 64) (toWords p) init
  be r.a 4 ++ be r.b 4 ++ be r.c 4 ++ be r.d 4 ++ be r.e 4 ++ be r.f 4 ++ be r.g 4 ++ be r.h 4

end Sha256

/-- Go: `h := hmac.New(sha256.New, secret); h.Write(msg); h.Sum(nil)` (hs256.go:31-37). -/
def hmacSHA256 (secret msg : Str) : Str :=
  let k0 := if secret.length > 64 then Sha256.sha256 secret else secret
  let k := k0 ++ List.replicate (64 - k0.length) 0
  Sha256.sha256 (k.map (· ^^^ 0x5c) ++ Sha256.sha256 (k.map (· ^^^ 0x36) ++ msg))

end OAuth2

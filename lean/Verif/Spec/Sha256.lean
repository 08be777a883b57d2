import Mathlib.Data.Nat.Find
import Verif.Model.Bytes

/-!
SHA-256 as FIPS 180-4 defines it, on 32-bit words, with the constants defined by the primes they
come from, and HMAC as RFC 2104 defines it. Written from the standards, independently of the model.
-/

namespace OAuth2.Spec

/-- The prime numbers below 312, the first 64 prime numbers. -/
def primes : List Nat :=
  (List.range 312).filter fun p => decide (2 ≤ p ∧ ∀ d < p, 2 ≤ d → ¬ d ∣ p)

/-- The integer part of the root: the greatest `c` with `c ^ n ≤ x`. -/
def intRoot (n x : Nat) : Nat := Nat.findGreatest (fun c => c ^ n ≤ x) x

namespace Sha256

/-- FIPS 180-4, 4.1.2. -/
def ch (x y z : BitVec 32) : BitVec 32 := (x &&& y) ^^^ (~~~x &&& z)
def maj (x y z : BitVec 32) : BitVec 32 := (x &&& y) ^^^ (x &&& z) ^^^ (y &&& z)
def bigSigma0 (x : BitVec 32) : BitVec 32 := x.rotateRight 2 ^^^ x.rotateRight 13 ^^^ x.rotateRight 22
def bigSigma1 (x : BitVec 32) : BitVec 32 := x.rotateRight 6 ^^^ x.rotateRight 11 ^^^ x.rotateRight 25
def sigma0 (x : BitVec 32) : BitVec 32 := x.rotateRight 7 ^^^ x.rotateRight 18 ^^^ x >>> 3
def sigma1 (x : BitVec 32) : BitVec 32 := x.rotateRight 17 ^^^ x.rotateRight 19 ^^^ x >>> 10

/-- FIPS 180-4, 4.2.2: the first 32 bits of the fractional part of the cube root of prime `t`. -/
def k (t : Nat) : BitVec 32 := BitVec.ofNat 32 (intRoot 3 (primes.getD t 0 * 2 ^ 96))

/-- FIPS 180-4, 5.3.3: the first 32 bits of the fractional part of the square root of prime `i`. -/
def h0 (i : Nat) : BitVec 32 := BitVec.ofNat 32 (intRoot 2 (primes.getD i 0 * 2 ^ 64))

/-- FIPS 180-4, 5.1.1, in bytes: a one bit, as few zero bits as possible up to a multiple of 512
bits, and the length in bits as a 64-bit number (modulo 2^64, if it does not fit). -/
def IsPadded (m p : Str) : Prop :=
  ∃ zeros length, p = m ++ [0x80] ++ List.replicate zeros 0 ++ length ∧
    zeros < 64 ∧ p.length % 64 = 0 ∧
    length = (List.range 8).map fun i => UInt8.ofNat (8 * m.length / 256 ^ (7 - i))

/-- FIPS 180-4, 5.2.1: word `j` of block `i` of the padded message, big-endian. -/
def word (p : Str) (i j : Nat) : BitVec 32 :=
  let byte (n : Nat) : BitVec 8 := (p.getD (64 * i + 4 * j + n) 0).toBitVec
  byte 0 ++ byte 1 ++ byte 2 ++ byte 3

/-- FIPS 180-4, 6.2.2, step 1: the message schedule. -/
def schedule (m : Nat → BitVec 32) (t : Nat) : BitVec 32 :=
  if t < 16 then m t
  else sigma1 (schedule m (t - 2)) + schedule m (t - 7) + sigma0 (schedule m (t - 15)) +
    schedule m (t - 16)

/-- The eight working variables, also the intermediate hash value. -/
structure Vars where
  (a b c d e f g h : BitVec 32)

/-- FIPS 180-4, 6.2.2, step 3. -/
def round (w : Nat → BitVec 32) (v : Vars) (t : Nat) : Vars :=
  let t1 := v.h + bigSigma1 v.e + ch v.e v.f v.g + k t + w t
  let t2 := bigSigma0 v.a + maj v.a v.b v.c
  ⟨t1 + t2, v.a, v.b, v.c, v.d + t1, v.e, v.f, v.g⟩

/-- FIPS 180-4, 6.2.2: the intermediate hash value after a block. -/
def compress (v : Vars) (m : Nat → BitVec 32) : Vars :=
  let r := (List.range 64).foldl (round (schedule m)) v
  ⟨r.a + v.a, r.b + v.b, r.c + v.c, r.d + v.d, r.e + v.e, r.f + v.f, r.g + v.g, r.h + v.h⟩

/-- FIPS 180-4, 5.3.3. -/
def start : Vars := ⟨h0 0, h0 1, h0 2, h0 3, h0 4, h0 5, h0 6, h0 7⟩

/-- The four bytes of a word. -/
def bytes (x : BitVec 32) : Str :=
  [⟨x.extractLsb' 24 8⟩, ⟨x.extractLsb' 16 8⟩, ⟨x.extractLsb' 8 8⟩, ⟨x.extractLsb' 0 8⟩]

end Sha256

open Sha256 in
/-- `digest` is the SHA-256 digest of `m`. -/
def IsSha256 (m digest : Str) : Prop :=
  ∃ p, IsPadded m p ∧
    let v := (List.range (p.length / 64)).foldl (fun v i => compress v (word p i)) start
    digest = bytes v.a ++ bytes v.b ++ bytes v.c ++ bytes v.d ++ bytes v.e ++ bytes v.f ++
      bytes v.g ++ bytes v.h

/-- RFC 2104, section 2, with SHA-256, whose blocks have 64 bytes: `mac` is the HMAC of `text`
under `key`. -/
def IsHmacSha256 (key text mac : Str) : Prop :=
  ∃ key' inner zeros,
    (key.length ≤ 64 ∧ key' = key ++ List.replicate zeros 0 ∨
      64 < key.length ∧ ∃ d, IsSha256 key d ∧ key' = d ++ List.replicate zeros 0) ∧
    key'.length = 64 ∧
    IsSha256 (key'.map (· ^^^ 0x36) ++ text) inner ∧
    IsSha256 (key'.map (· ^^^ 0x5C) ++ inner) mac

end OAuth2.Spec

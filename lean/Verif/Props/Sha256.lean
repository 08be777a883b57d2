import Verif.Model.Sha256
import Verif.Props.Tokens
import Verif.Spec.Sha256

/-!
C02: the SHA-256 and HMAC of the model are those of the standards.
-/

namespace OAuth2

open Spec.Sha256

/-! ### Constants -/

theorem intRoot_eq {n x c : Nat} (hn : n ≠ 0) (h1 : c ^ n ≤ x) (h2 : x < (c + 1) ^ n) :
    Spec.intRoot n x = c := by
  unfold Spec.intRoot
  rw [Nat.findGreatest_eq_iff]
  refine ⟨?_, fun _ => h1, fun {m} h3 _ h4 => ?_⟩
  · exact Nat.le_trans (Nat.le_self_pow hn c) h1
  · have := Nat.pow_le_pow_left (Nat.succ_le_of_lt h3) n
    exact absurd h4 (Nat.not_le_of_lt (Nat.lt_of_lt_of_le h2 this))

theorem primes_eq : Spec.primes =
    [2, 3, 5, 7, 11, 13, 17, 19, 23, 29, 31, 37, 41, 43, 47, 53, 59, 61, 67, 71, 73, 79, 83, 89, 97,
     101, 103, 107, 109, 113, 127, 131, 137, 139, 149, 151, 157, 163, 167, 173, 179, 181, 191, 193,
     197, 199, 211, 223, 227, 229, 233, 239, 241, 251, 257, 263, 269, 271, 277, 281, 283, 293, 307,
     311] := by decide +kernel

theorem k_eq : ∀ t < 64, (k t).toNat = Sha256.K.getD t 0 := by
  have key : ∀ t < 64, ∃ q < 8,
      (q * 2 ^ 32 + Sha256.K.getD t 0) ^ 3 ≤ Spec.primes.getD t 0 * 2 ^ 96 ∧
      Spec.primes.getD t 0 * 2 ^ 96 < (q * 2 ^ 32 + Sha256.K.getD t 0 + 1) ^ 3 ∧
      Sha256.K.getD t 0 < 2 ^ 32 := by
    rw [primes_eq]
    decide +kernel
  intro t ht
  obtain ⟨q, _, h1, h2, h3⟩ := key t ht
  unfold k
  rw [intRoot_eq (by decide) h1 h2, BitVec.toNat_ofNat, Nat.mul_comm, Nat.mul_add_mod, Nat.mod_eq_of_lt h3]

theorem h0_eq : ∀ i < 8, (h0 i).toNat = [0x6a09e667, 0xbb67ae85, 0x3c6ef372, 0xa54ff53a, 0x510e527f,
    0x9b05688c, 0x1f83d9ab, 0x5be0cd19].getD i 0 := by
  have key : ∀ i < 8, ∃ q < 8,
      let c := [0x6a09e667, 0xbb67ae85, 0x3c6ef372, 0xa54ff53a, 0x510e527f, 0x9b05688c, 0x1f83d9ab,
        0x5be0cd19].getD i 0
      (q * 2 ^ 32 + c) ^ 2 ≤ Spec.primes.getD i 0 * 2 ^ 64 ∧
      Spec.primes.getD i 0 * 2 ^ 64 < (q * 2 ^ 32 + c + 1) ^ 2 ∧ c < 2 ^ 32 := by
    rw [primes_eq]
    decide +kernel
  intro i hi
  obtain ⟨q, _, h1, h2, h3⟩ := key i hi
  unfold h0
  rw [intRoot_eq (by decide) h1 h2, BitVec.toNat_ofNat, Nat.mul_comm, Nat.mul_add_mod, Nat.mod_eq_of_lt h3]

/-! ### Words -/

theorem rotr_eq (n : Nat) (hn : n < 32) (x : BitVec 32) :
    Sha256.rotr n x.toNat = (x.rotateRight n).toNat := by
  rw [BitVec.toNat_rotateRight, Nat.mod_eq_of_lt hn]
  rfl

theorem not_eq (x : BitVec 32) : Sha256.w32 - 1 - x.toNat = (~~~x).toNat := by
  rw [BitVec.toNat_not]
  rfl

/-- The working variables of the model are those of the standard. -/
structure SameVars (r : Sha256.Regs) (v : Vars) : Prop where
  a : r.a = v.a.toNat
  b : r.b = v.b.toNat
  c : r.c = v.c.toNat
  d : r.d = v.d.toNat
  e : r.e = v.e.toNat
  f : r.f = v.f.toNat
  g : r.g = v.g.toNat
  h : r.h = v.h.toNat

theorem same_init : SameVars Sha256.init start where
  a := (h0_eq 0 (by decide)).symm
  b := (h0_eq 1 (by decide)).symm
  c := (h0_eq 2 (by decide)).symm
  d := (h0_eq 3 (by decide)).symm
  e := (h0_eq 4 (by decide)).symm
  f := (h0_eq 5 (by decide)).symm
  g := (h0_eq 6 (by decide)).symm
  h := (h0_eq 7 (by decide)).symm

theorem sum_7 (a b c d e f g : BitVec 32) :
    (a.toNat + b.toNat + c.toNat + d.toNat + e.toNat + f.toNat + g.toNat) % Sha256.w32 =
      (a + b + c + d + e + (f + g)).toNat := by
  show _ % 4294967296 = _
  simp only [BitVec.toNat_add]
  omega

theorem sum_6 (a b c d e f : BitVec 32) :
    (a.toNat + (b.toNat + c.toNat + d.toNat + e.toNat + f.toNat)) % Sha256.w32 =
      (a + (b + c + d + e + f)).toNat := by
  show _ % 4294967296 = _
  simp only [BitVec.toNat_add]
  omega

theorem rotr_2 (x : BitVec 32) : Sha256.rotr 2 x.toNat = (x.rotateRight 2).toNat := rotr_eq 2 (by decide) x
theorem rotr_6 (x : BitVec 32) : Sha256.rotr 6 x.toNat = (x.rotateRight 6).toNat := rotr_eq 6 (by decide) x
theorem rotr_7 (x : BitVec 32) : Sha256.rotr 7 x.toNat = (x.rotateRight 7).toNat := rotr_eq 7 (by decide) x
theorem rotr_11 (x : BitVec 32) : Sha256.rotr 11 x.toNat = (x.rotateRight 11).toNat := rotr_eq 11 (by decide) x
theorem rotr_13 (x : BitVec 32) : Sha256.rotr 13 x.toNat = (x.rotateRight 13).toNat := rotr_eq 13 (by decide) x
theorem rotr_17 (x : BitVec 32) : Sha256.rotr 17 x.toNat = (x.rotateRight 17).toNat := rotr_eq 17 (by decide) x
theorem rotr_18 (x : BitVec 32) : Sha256.rotr 18 x.toNat = (x.rotateRight 18).toNat := rotr_eq 18 (by decide) x
theorem rotr_19 (x : BitVec 32) : Sha256.rotr 19 x.toNat = (x.rotateRight 19).toNat := rotr_eq 19 (by decide) x
theorem rotr_22 (x : BitVec 32) : Sha256.rotr 22 x.toNat = (x.rotateRight 22).toNat := rotr_eq 22 (by decide) x
theorem rotr_25 (x : BitVec 32) : Sha256.rotr 25 x.toNat = (x.rotateRight 25).toNat := rotr_eq 25 (by decide) x

theorem same_round {r : Sha256.Regs} {v : Vars} (h : SameVars r v) (w : Nat → BitVec 32) {t : Nat}
    (ht : t < 64) : SameVars (Sha256.round r (Sha256.K.getD t 0) (w t).toNat) (round w v t) := by
  obtain ⟨ha, hb, hc, hd, he, hf, hg, hh⟩ := h
  rw [← k_eq t ht]
  unfold Sha256.round round bigSigma0 bigSigma1 ch maj
  constructor
  all_goals simp only [ha, hb, hc, hd, he, hf, hg, hh, rotr_2, rotr_6, rotr_11, rotr_13, rotr_22,
    rotr_25, not_eq]
  all_goals simp only [← BitVec.toNat_xor, ← BitVec.toNat_and]
  · exact sum_7 ..
  · exact sum_6 ..

/-! ### Rounds -/

theorem same_rounds (w : Nat → BitVec 32) : ∀ (l : List Nat), (∀ t ∈ l, t < 64) →
    ∀ {r : Sha256.Regs} {v : Vars}, SameVars r v →
      SameVars (Sha256.rounds (l.map fun t => Sha256.K.getD t 0) (l.map fun t => (w t).toNat) r)
        (l.foldl (round w) v)
  | [], _, _, _, h => h
  | t :: l, hl, _, _, h =>
    same_rounds w l (fun t ht => hl t (.tail _ ht)) (same_round h w (hl t (.head _)))

theorem K_map : (List.range 64).map (fun t => Sha256.K.getD t 0) = Sha256.K := by decide +kernel

/-! ### The message schedule -/

theorem schedule_getD (f : Nat → Nat) {n i : Nat} (hi : i < n) :
    (((List.range n).map f).reverse).getD i 0 = f (n - 1 - i) := by
  rw [List.getD_eq_getElem?_getD, List.getElem?_reverse (by simpa using hi)]
  simp only [List.length_map, List.length_range, List.getElem?_map]
  rw [List.getElem?_range (by omega)]
  rfl

theorem sum_4 (a b c d : BitVec 32) :
    (a.toNat + b.toNat + c.toNat + d.toNat) % Sha256.w32 = (a + b + c + d).toNat := by
  show _ % 4294967296 = _
  simp only [BitVec.toNat_add]
  omega

theorem schedule_eq (m : Nat → BitVec 32) : ∀ n N, 16 ≤ N →
    Sha256.schedule n ((List.range N).map fun t => (schedule m t).toNat).reverse =
      ((List.range (N + n)).map fun t => (schedule m t).toNat).reverse
  | 0, _, _ => rfl
  | n + 1, N, hN => by
    unfold Sha256.schedule
    simp only [schedule_getD _ (show 1 < N by omega), schedule_getD _ (show 6 < N by omega),
      schedule_getD _ (show 14 < N by omega), schedule_getD _ (show 15 < N by omega),
      rotr_17, rotr_19, rotr_7, rotr_18, ← BitVec.toNat_ushiftRight, ← BitVec.toNat_xor, sum_4]
    have h1 : (schedule m N).toNat :: ((List.range N).map fun t => (schedule m t).toNat).reverse =
        ((List.range (N + 1)).map fun t => (schedule m t).toNat).reverse := by
      rw [List.range_succ, List.map_append, List.reverse_append]
      rfl
    have h2 : schedule m N = sigma1 (schedule m (N - 2)) + schedule m (N - 7) +
        sigma0 (schedule m (N - 15)) + schedule m (N - 16) := by
      rw [schedule, if_neg (by omega)]
    have h3 := schedule_eq m n (N + 1) (by omega)
    rw [← h1, h2] at h3
    rw [show N + (n + 1) = N + 1 + n by omega, ← h3]
    unfold sigma1 sigma0
    rw [show N - 1 - 1 = N - 2 by omega, show N - 1 - 6 = N - 7 by omega,
      show N - 1 - 14 = N - 15 by omega, show N - 1 - 15 = N - 16 by omega]

theorem sum_2 (a b : BitVec 32) : (a.toNat + b.toNat) % Sha256.w32 = (b + a).toNat := by
  show _ % 4294967296 = _
  simp only [BitVec.toNat_add]
  omega

theorem same_block {r : Sha256.Regs} {v : Vars} (h : SameVars r v) (m : Nat → BitVec 32) :
    SameVars (Sha256.block r ((List.range 16).map fun j => (m j).toNat)) (compress v m) := by
  have hw : (Sha256.schedule 48 ((List.range 16).map fun j => (m j).toNat).reverse).reverse =
      (List.range 64).map fun t => (schedule m t).toNat := by
    have h1 : ((List.range 16).map fun j => (m j).toNat) =
        (List.range 16).map fun t => (schedule m t).toNat := by
      apply List.map_congr_left
      intro t ht
      rw [schedule, if_pos (by simpa using ht)]
    rw [h1, schedule_eq m 48 16 (by decide), List.reverse_reverse]
  have hr : SameVars (Sha256.rounds Sha256.K
      (Sha256.schedule 48 ((List.range 16).map fun j => (m j).toNat).reverse).reverse r)
      ((List.range 64).foldl (round (schedule m)) v) := by
    rw [hw, ← K_map]
    exact same_rounds (schedule m) _ (fun t ht => by simpa using ht) h
  unfold Sha256.block compress
  generalize Sha256.rounds _ _ r = x at hr
  generalize List.foldl _ v _ = y at hr
  obtain ⟨ha, hb, hc, hd, he, hf, hg, hh⟩ := h
  obtain ⟨ha', hb', hc', hd', he', hf', hg', hh'⟩ := hr
  constructor
  all_goals simp only [ha, hb, hc, hd, he, hf, hg, hh, ha', hb', hc', hd', he', hf', hg', hh']
  all_goals exact sum_2 ..

/-! ### Words and bytes -/

theorem word_eq (a b c d : UInt8) :
    (a.toBitVec ++ b.toBitVec ++ c.toBitVec ++ d.toBitVec).toNat =
      a.toNat * 16777216 + b.toNat * 65536 + c.toNat * 256 + d.toNat := by
  have hb := b.toNat_lt
  have hc := c.toNat_lt
  have hd := d.toNat_lt
  rw [BitVec.toNat_append, BitVec.toNat_append, BitVec.toNat_append]
  rw [← Nat.shiftLeft_add_eq_or_of_lt (by simpa using hd), ← Nat.shiftLeft_add_eq_or_of_lt (by simpa using hc),
    ← Nat.shiftLeft_add_eq_or_of_lt (by simpa using hb)]
  simp only [Nat.shiftLeft_eq, UInt8.toNat_toBitVec]
  omega

theorem toWords_eq (p : Str) : ∀ n, p.length = 4 * n → Sha256.toWords p =
    (List.range n).map fun j => (p.getD (4 * j) 0).toNat * 16777216 + (p.getD (4 * j + 1) 0).toNat * 65536
      + (p.getD (4 * j + 2) 0).toNat * 256 + (p.getD (4 * j + 3) 0).toNat := by
  induction p using Sha256.toWords.induct with
  | case1 a b c d rest ih =>
    intro n hn
    obtain ⟨n, rfl⟩ : ∃ k, n = k + 1 := ⟨n - 1, by simp at hn; omega⟩
    rw [Sha256.toWords, ih n (by simp at hn; omega), List.range_succ_eq_map]
    simp only [List.map_cons, List.map_map]
    rfl
  | case2 p h =>
    intro n hn
    cases n with
    | zero =>
      match p, hn with
      | [], _ => rfl
    | succ n =>
      match p, hn with
      | a :: b :: c :: d :: rest, _ => exact absurd rfl (h a b c d rest)
      | [], hn => simp at hn
      | [_], hn => simp at hn; omega
      | [_, _], hn => simp at hn; omega
      | [_, _, _], hn => simp at hn; omega

theorem same_blocks (f : Nat → BitVec 32) : ∀ n i {r : Sha256.Regs} {v : Vars}, SameVars r v →
    SameVars (Sha256.blocks n ((List.range' (16 * i) (16 * n)).map fun j => (f j).toNat) r)
      ((List.range' i n).foldl (fun v i => compress v fun j => f (16 * i + j)) v)
  | 0, _, _, _, h => h
  | n + 1, i, _, _, h => by
    have h1 := same_block h fun j => f (16 * i + j)
    have h2 : List.range' (16 * i) (16 * (n + 1)) =
        List.range' (16 * i) 16 ++ List.range' (16 * (i + 1)) (16 * n) := by
      rw [show 16 * (i + 1) = 16 * i + 16 by omega, List.range'_append_1,
        show 16 + 16 * n = 16 * (n + 1) by omega]
    have h3 : (List.range' (16 * i) 16).map (fun j => (f j).toNat) =
        (List.range 16).map fun j => (f (16 * i + j)).toNat := by
      rw [List.range'_eq_map_range, List.map_map]
      rfl
    unfold Sha256.blocks
    rw [h2, List.map_append, List.take_left' (by simp), List.drop_left' (by simp), h3,
      List.range'_succ, List.foldl_cons]
    exact same_blocks f n (i + 1) h1

theorem bytes_eq (x : BitVec 32) : Sha256.be x.toNat 4 = bytes x := by
  have key : ∀ k, UInt8.ofNat (x.toNat / 256 ^ k) = ⟨x.extractLsb' (8 * k) 8⟩ := by
    intro k
    apply UInt8.toNat_inj.mp
    rw [UInt8.toNat_ofNat', ← UInt8.toNat_toBitVec, BitVec.extractLsb'_toNat, Nat.shiftRight_eq_div_pow,
      show 2 ^ (8 * k) = 256 ^ k by rw [Nat.pow_mul]]
  unfold bytes
  simp only [Sha256.be]
  rw [key 3, key 2, key 1, key 0]

/-! ### Padding -/

theorem padded_iff (m p : Str) : IsPadded m p ↔ p = Sha256.pad m := by
  have hbe : Sha256.be (m.length * 8) 8 =
      (List.range 8).map fun i => UInt8.ofNat (8 * m.length / 256 ^ (7 - i)) := by
    rw [Nat.mul_comm]
    rfl
  unfold Sha256.pad
  rw [hbe]
  constructor
  · rintro ⟨zeros, length, rfl, h1, h2, rfl⟩
    have : zeros = (119 - m.length % 64) % 64 := by
      simp only [List.length_append, List.length_replicate, List.length_map, List.length_range,
        List.length_cons, List.length_nil] at h2
      omega
    rw [this]
  · rintro rfl
    refine ⟨_, _, rfl, by omega, ?_, rfl⟩
    simp only [List.length_append, List.length_replicate, List.length_map, List.length_range,
      List.length_cons, List.length_nil]
    omega

/-- A block has sixteen words. -/
theorem schedule_congr {m m' : Nat → BitVec 32} (h : ∀ j < 16, m j = m' j) (t : Nat) :
    schedule m t = schedule m' t := by
  induction t using Nat.strongRecOn with
  | ind t ih =>
    rw [schedule.eq_1 m t, schedule.eq_1 m' t]
    by_cases ht : t < 16
    · rw [if_pos ht, if_pos ht, h t ht]
    · rw [if_neg ht, if_neg ht, ih (t - 2) (by omega), ih (t - 7) (by omega), ih (t - 15) (by omega),
        ih (t - 16) (by omega)]

theorem compress_congr {m m' : Nat → BitVec 32} (h : ∀ j < 16, m j = m' j) (v : Vars) :
    compress v m = compress v m' := by
  have : schedule m = schedule m' := funext (schedule_congr h)
  unfold compress
  rw [this]

/-- The model and the standard on the same padded message. -/
theorem same_hash (p : Str) (hlen : p.length % 64 = 0) :
    SameVars (Sha256.blocks (p.length / 64) (Sha256.toWords p) Sha256.init)
      ((List.range (p.length / 64)).foldl (fun v i => compress v (word p i)) start) := by
  have hs := same_blocks (fun n => word p (n / 16) (n % 16)) (p.length / 64) 0 same_init
  have hw : Sha256.toWords p = (List.range' (16 * 0) (16 * (p.length / 64))).map fun j =>
        (word p (j / 16) (j % 16)).toNat := by
    rw [toWords_eq _ (16 * (p.length / 64)) (by omega), Nat.mul_zero, ← List.range_eq_range']
    apply List.map_congr_left
    intro j _
    unfold word
    rw [word_eq, show 64 * (j / 16) + 4 * (j % 16) = 4 * j by omega]
    rfl
  have hf : (fun (v : Vars) (i : Nat) => compress v fun j => word p ((16 * i + j) / 16) ((16 * i + j) % 16)) =
      fun v i => compress v (word p i) := by
    funext v i
    apply compress_congr
    intro j hj
    rw [show (16 * i + j) / 16 = i by omega, show (16 * i + j) % 16 = j by omega]
  rw [← hw, hf, ← List.range_eq_range'] at hs
  exact hs

/-- **C02.** The SHA-256 of the model is the one of FIPS 180-4. -/
theorem C02_sha256 (m digest : Str) : Spec.IsSha256 m digest ↔ digest = Sha256.sha256 m := by
  have hlen : (Sha256.pad m).length % 64 = 0 := by
    obtain ⟨_, _, _, _, h, _⟩ := (padded_iff m _).mpr rfl
    exact h
  obtain ⟨ha, hb, hc, hd, he, hf, hg, hh⟩ := same_hash _ hlen
  unfold Spec.IsSha256 Sha256.sha256
  simp only [padded_iff, exists_eq_left]
  rw [ha, hb, hc, hd, he, hf, hg, hh]
  simp only [bytes_eq]

/-- A digest has 32 bytes. -/
theorem digest_length (m : Str) : (Sha256.sha256 m).length = 32 := rfl

/-- **C02.** The HMAC of the model is the one of RFC 2104 with SHA-256. -/
theorem C02_hmac (secret key mac : Str) :
    Spec.IsHmacSha256 secret key mac ↔ mac = hmacSHA256 secret key := by
  unfold Spec.IsHmacSha256 hmacSHA256
  simp only [C02_sha256]
  constructor
  · rintro ⟨key', inner, zeros, hk, hl, rfl, rfl⟩
    have : key' = (if secret.length > 64 then Sha256.sha256 secret else secret) ++
        List.replicate (64 - (if secret.length > 64 then Sha256.sha256 secret else secret).length) 0 := by
      rcases hk with ⟨h, rfl⟩ | ⟨h, d, rfl, rfl⟩
      · rw [if_neg (by omega)]
        rw [List.length_append, List.length_replicate] at hl
        rw [show 64 - secret.length = zeros by omega]
      · rw [if_pos h]
        rw [List.length_append, List.length_replicate] at hl
        rw [show 64 - (Sha256.sha256 secret).length = zeros by omega]
    rw [← this]
  · rintro rfl
    refine ⟨_, _, 64 - (if secret.length > 64 then Sha256.sha256 secret else secret).length,
      ?_, ?_, rfl, rfl⟩
    · by_cases h : secret.length > 64
      · rw [if_pos h]
        exact .inr ⟨h, _, rfl, rfl⟩
      · rw [if_neg h]
        exact .inl ⟨by omega, rfl⟩
    · rw [List.length_append, List.length_replicate]
      by_cases h : secret.length > 64
      · rw [if_pos h, digest_length]
      · rw [if_neg h]
        omega

/-- **C02.** A string is accepted, with token `t`, exactly when it is two base64url texts around a
single dot, of `t.key` and `t.signature`, and the signature is what RFC 2104 and FIPS 180-4 say
the HMAC-SHA256 of the key under the secret is. -/
theorem C02_accept_standard (secret str : Str) (t : HS256Token) :
    HS256Token.parse secret str = .ok t ↔
      ∃ a b, str = a ++ [0x2E] ++ b ∧ 0x2E ∉ a ∧ 0x2E ∉ b ∧
        Spec.IsBase64Url a t.key ∧ Spec.IsBase64Url b t.signature ∧
        Spec.IsHmacSha256 secret t.key t.signature := by
  simp only [C02_hmac]
  exact C02_accept_iff secret str t

/-- Non-vacuity: "abc", the example of FIPS 180-4. -/
example : Spec.IsSha256 b!"abc"
    [0xba, 0x78, 0x16, 0xbf, 0x8f, 0x01, 0xcf, 0xea, 0x41, 0x41, 0x40, 0xde, 0x5d, 0xae, 0x22, 0x23,
     0xb0, 0x03, 0x61, 0xa3, 0x96, 0x17, 0x7a, 0x9c, 0xb4, 0x10, 0xff, 0x61, 0xf2, 0x00, 0x15, 0xad] :=
  (C02_sha256 _ _).mpr (by decide +kernel)

end OAuth2

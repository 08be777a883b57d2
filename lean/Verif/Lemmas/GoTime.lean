import Verif.Spec.GoTime
namespace OAuth2
theorem bmod64 {x : Int} (h : -2 ^ 63 ≤ x) (h2 : x < 2 ^ 63) : x.bmod (2 ^ 64) = x := by
  unfold Int.bmod
  simp only
  split <;> omega
theorem bmod32 {x : Int} (h : -2 ^ 31 ≤ x) (h2 : x < 2 ^ 31) : x.bmod (2 ^ 32) = x := by
  unfold Int.bmod
  simp only
  split <;> omega

theorem i64_add {a b : Int64} (h : -2 ^ 63 ≤ a.toInt + b.toInt) (h2 : a.toInt + b.toInt < 2 ^ 63) :
    (a + b).toInt = a.toInt + b.toInt := by rw [Int64.toInt_add, bmod64 h h2]

theorem i64_sub {a b : Int64} (h : -2 ^ 63 ≤ a.toInt - b.toInt) (h2 : a.toInt - b.toInt < 2 ^ 63) :
    (a - b).toInt = a.toInt - b.toInt := by rw [Int64.toInt_sub, bmod64 h h2]

theorem i32_add {a b : Int32} (h : -2 ^ 31 ≤ a.toInt + b.toInt) (h2 : a.toInt + b.toInt < 2 ^ 31) :
    (a + b).toInt = a.toInt + b.toInt := by rw [Int32.toInt_add, bmod32 h h2]

theorem i32_sub {a b : Int32} (h : -2 ^ 31 ≤ a.toInt - b.toInt) (h2 : a.toInt - b.toInt < 2 ^ 31) :
    (a - b).toInt = a.toInt - b.toInt := by rw [Int32.toInt_sub, bmod32 h h2]

theorem i64_range (a : Int64) : -2 ^ 63 ≤ a.toInt ∧ a.toInt < 2 ^ 63 :=
  ⟨a.le_toInt, a.toInt_lt⟩

theorem tdivmod (a : Int) : ∃ q r : Int, a.tdiv 1000000000 = q ∧ a.tmod 1000000000 = r ∧
    a = q * 1000000000 + r ∧ (0 ≤ a → 0 ≤ r ∧ r < 1000000000) ∧
    (a ≤ 0 → r ≤ 0 ∧ -1000000000 < r) := by
  refine ⟨_, _, rfl, rfl, ?_, ?_, ?_⟩
  · rw [Int.mul_comm]; exact (Int.mul_tdiv_add_tmod a 1000000000).symm
  · exact fun h => ⟨Int.tmod_nonneg _ h, Int.tmod_lt_of_pos _ (by decide)⟩
  · intro h
    have h1 := Int.tmod_nonneg 1000000000 (a := -a) (by omega)
    have h2 := Int.tmod_lt_of_pos (-a) (b := 1000000000) (by decide)
    rw [Int.neg_tmod] at h1 h2
    omega

theorem u64_toInt {x : UInt64} (h : x.toNat < 2 ^ 63) : x.toInt64.toInt = x.toNat := by
  have h1 : x.toInt64.toInt = x.toBitVec.toInt := rfl
  have h2 : x.toBitVec.toNat = x.toNat := rfl
  rw [h1, BitVec.toInt_eq_toNat_cond, h2]
  split <;> omega

theorem u32_toInt {x : UInt32} (h : x.toNat < 2 ^ 31) : x.toInt32.toInt = x.toNat := by
  have h1 : x.toInt32.toInt = x.toBitVec.toInt := rfl
  have h2 : x.toBitVec.toNat = x.toNat := rfl
  rw [h1, BitVec.toInt_eq_toNat_cond, h2]
  split <;> omega

theorem i64_toNat (x : Int64) :
    (x.toUInt64.toNat : Int) = if 0 ≤ x.toInt then x.toInt else x.toInt + 2 ^ 64 := by
  have h1 : x.toInt = x.toUInt64.toBitVec.toInt := rfl
  have h2 : x.toUInt64.toBitVec.toNat = x.toUInt64.toNat := rfl
  rw [h1, BitVec.toInt_eq_toNat_cond] at *
  have := x.toUInt64.toNat_lt
  split at * <;> split <;> omega

namespace GoTime

theorem and_mask (w : UInt64) : (w &&& nsecMask).toNat = w.toNat % 2 ^ 30 := by
  rw [UInt64.toNat_and]
  exact Nat.and_two_pow_sub_one_eq_mod w.toNat 30

theorem and_high (w : UInt64) : (w &&& hasMonotonic).toNat = w.toNat / 2 ^ 63 * 2 ^ 63 := by
  rw [UInt64.toNat_and]
  have h : hasMonotonic.toNat = 2 ^ 63 := rfl
  have hw := w.toNat_lt
  rw [h]
  apply Nat.eq_of_testBit_eq
  intro i
  rw [Nat.testBit_and, Nat.testBit_two_pow, Nat.testBit_mul_two_pow, Nat.testBit_div_two_pow]
  by_cases hi : i = 63
  · subst hi; simp
  · have h1 : ¬ 63 = i := fun h => hi h.symm
    simp only [h1, decide_false, Bool.and_false]
    symm
    by_cases h2 : 63 ≤ i
    · have h3 : i - 63 + 63 = i := by omega
      simp only [h2, decide_true, Bool.true_and, h3]
      exact Nat.testBit_lt_two_pow (Nat.lt_of_lt_of_le hw (Nat.pow_le_pow_right (by decide) (by omega)))
    · simp [h2]

theorem isMonotonic_iff (t : GoTime) : t.isMonotonic = true ↔ 2 ^ 63 ≤ t.wall.toNat := by
  unfold isMonotonic
  rw [bne_iff_ne, ne_eq, ← UInt64.toNat_inj, and_high]
  have := t.wall.toNat_lt
  simp only [UInt64.toNat_zero]
  omega

theorem nsec_toInt (t : GoTime) : t.nsec.toInt = (t.wall.toNat % 2 ^ 30 : Nat) := by
  unfold nsec
  have h := and_mask t.wall
  generalize t.wall &&& nsecMask = x at h
  have h1 : x.toUInt32.toNat = x.toNat := by
    rw [UInt64.toNat_toUInt32]
    omega
  rw [u32_toInt (by omega), h1, h]

theorem wallSec_toInt (t : GoTime) : t.wallSec.toInt = (t.wall.toNat / 2 ^ 30 % 2 ^ 33 : Nat) := by
  unfold wallSec
  have h : (t.wall <<< 1 >>> 31).toNat = t.wall.toNat / 2 ^ 30 % 2 ^ 33 := by
    rw [UInt64.toNat_shiftRight, UInt64.toNat_shiftLeft]
    have h1 : (1 : UInt64).toNat % 64 = 1 := rfl
    have h2 : (31 : UInt64).toNat % 64 = 31 := rfl
    rw [h1, h2, Nat.shiftRight_eq_div_pow, Nat.shiftLeft_eq]
    omega
  rw [u64_toInt (by omega), h]

theorem and_not (w : UInt64) : (w &&& ~~~nsecMask).toNat = w.toNat / 2 ^ 30 * 2 ^ 30 := by
  rw [UInt64.toNat_and, UInt64.toNat_not]
  apply Nat.eq_of_testBit_eq
  intro i
  have hw := w.toNat_lt
  rw [Nat.testBit_and, Nat.testBit_mul_two_pow, Nat.testBit_div_two_pow]
  have h1 : UInt64.size - 1 - nsecMask.toNat = (2 ^ 34 - 1) * 2 ^ 30 := by decide
  rw [h1, Nat.testBit_mul_two_pow, Nat.testBit_two_pow_sub_one]
  by_cases h : 30 ≤ i
  · have h3 : i - 30 + 30 = i := by omega
    simp only [h, decide_true, Bool.true_and, h3]
    by_cases h4 : i - 30 < 34
    · simp [h4]
    · simp only [h4, decide_false, Bool.and_false]
      exact (Nat.testBit_lt_two_pow (Nat.lt_of_lt_of_le hw (Nat.pow_le_pow_right (by decide) (by omega)))).symm
  · simp [h]

/-- Replacing the nanoseconds. -/
theorem or_nsec {w n : UInt64} (hn : n.toNat < 2 ^ 30) :
    (w &&& ~~~nsecMask ||| n).toNat = w.toNat / 2 ^ 30 * 2 ^ 30 + n.toNat := by
  rw [UInt64.toNat_or, and_not, ← Nat.shiftLeft_eq, Nat.shiftLeft_add_eq_or_of_lt hn]

theorem pack {s n : Nat} (hs : s < 2 ^ 33) (hn : n < 2 ^ 30) :
    n ||| s <<< 30 ||| 2 ^ 63 = 2 ^ 63 + s * 2 ^ 30 + n := by
  rw [Nat.or_comm n, ← Nat.shiftLeft_add_eq_or_of_lt hn, Nat.or_comm,
    show 2 ^ 63 = 1 <<< 63 from rfl, ← Nat.shiftLeft_add_eq_or_of_lt (by rw [Nat.shiftLeft_eq]; omega), Nat.shiftLeft_eq, Nat.shiftLeft_eq]
  omega

theorem or_sec {w s : UInt64} (hs : s.toNat < 2 ^ 33) :
    (w &&& nsecMask ||| s <<< 30 ||| hasMonotonic).toNat =
      2 ^ 63 + s.toNat * 2 ^ 30 + w.toNat % 2 ^ 30 := by
  have h0 : (s <<< 30).toNat = s.toNat <<< 30 := by
    rw [UInt64.toNat_shiftLeft]
    have h2 : (30 : UInt64).toNat % 64 = 30 := rfl
    rw [h2, Nat.shiftLeft_eq]; omega
  rw [UInt64.toNat_or, UInt64.toNat_or, and_mask, h0, show hasMonotonic.toNat = 2 ^ 63 from rfl]
  exact pack hs (by omega)

theorem or_now {s n : UInt64} (hs : s.toNat < 2 ^ 33) (hn : n.toNat < 2 ^ 30) :
    (hasMonotonic ||| s <<< 30 ||| n).toNat = 2 ^ 63 + s.toNat * 2 ^ 30 + n.toNat := by
  have h := or_sec (w := n) hs
  rw [← Nat.mod_eq_of_lt hn, ← h]
  have : n &&& nsecMask = n := by
    rw [← UInt64.toNat_inj, and_mask]; omega
  rw [this, UInt64.or_comm (hasMonotonic ||| _), UInt64.or_comm hasMonotonic, UInt64.or_assoc]

theorem sec_mono {t : GoTime} (h : t.isMonotonic = true) :
    t.sec.toInt = 59453308800 + (t.wall.toNat / 2 ^ 30 % 2 ^ 33 : Nat) := by
  unfold sec
  rw [if_pos h]
  have hw := wallSec_toInt t
  have h1 : wallToInternal.toInt = 59453308800 := rfl
  rw [i64_add (by omega) (by omega), h1, hw]

theorem sec_wall {t : GoTime} (h : t.isMonotonic = false) : t.sec = t.ext := by
  unfold sec
  simp [h]

theorem strip_spec (t : GoTime) : t.stripMono.isMonotonic = false ∧ t.stripMono.sec = t.sec ∧
    t.stripMono.nsec = t.nsec := by
  unfold stripMono
  cases h : t.isMonotonic with
  | false => simp [h]
  | true =>
    simp only [if_true]
    have h1 : (GoTime.mk (t.wall &&& nsecMask) t.sec).isMonotonic = false := by
      rw [Bool.eq_false_iff, ne_eq, isMonotonic_iff, and_mask]
      omega
    refine ⟨h1, sec_wall h1, ?_⟩
    rw [← Int32.toInt_inj, nsec_toInt, nsec_toInt, and_mask]
    omega

/-- Setting the nanoseconds. -/
theorem setNsec_spec (t : GoTime) {n : Int32} (h0 : 0 ≤ n.toInt) (h1 : n.toInt < 1000000000) :
    let u : GoTime := { t with wall := t.wall &&& ~~~nsecMask ||| n.toInt64.toUInt64 }
    u.isMonotonic = t.isMonotonic ∧ u.sec = t.sec ∧ u.wallSec = t.wallSec ∧ u.nsec = n ∧ u.ext = t.ext := by
  intro u
  have h2 : (n.toInt64.toUInt64.toNat : Int) = n.toInt := by
    rw [i64_toNat, Int32.toInt_toInt64, if_pos h0]
  have h3 : u.wall.toNat = t.wall.toNat / 2 ^ 30 * 2 ^ 30 + n.toInt64.toUInt64.toNat := or_nsec (by omega)
  have hm : u.isMonotonic = t.isMonotonic := by
    rw [Bool.eq_iff_iff, isMonotonic_iff, isMonotonic_iff]
    omega
  have hs : u.wallSec = t.wallSec := by
    rw [← Int64.toInt_inj, wallSec_toInt, wallSec_toInt]
    omega
  refine ⟨hm, ?_, hs, ?_, rfl⟩
  · unfold sec
    rw [hm, hs]
  · rw [← Int32.toInt_inj, nsec_toInt]
    omega

theorem addSec_spec (t : GoTime) {d : Int64} (h : -2 ^ 63 ≤ t.sec.toInt + d.toInt)
    (h' : t.sec.toInt + d.toInt < 2 ^ 63) :
    (t.addSec d).sec.toInt = t.sec.toInt + d.toInt ∧ (t.addSec d).nsec = t.nsec ∧
      ((t.addSec d).isMonotonic = true → (t.addSec d).ext = t.ext) ∧
      ((t.addSec d).isMonotonic = true ↔ t.isMonotonic = true ∧ 0 ≤ t.wallSec.toInt + d.toInt ∧
        t.wallSec.toInt + d.toInt < 2 ^ 33) := by
  unfold addSec
  cases hm : t.isMonotonic with
  | false =>
    simp only [Bool.false_eq_true, if_false]
    have h1 : (GoTime.mk t.wall (t.ext + d)).isMonotonic = false := hm
    have h2 : t.sec = t.ext := sec_wall hm
    rw [sec_wall h1, h1, ← h2]
    exact ⟨i64_add h h', rfl, nofun, by simp⟩
  | true =>
    simp only [if_true]
    have hw := wallSec_toInt t
    have hs := sec_mono hm
    have hadd : (t.wallSec + d).toInt = t.wallSec.toInt + d.toInt := by
      have := i64_range d
      exact i64_add (by omega) (by omega)
    have hc : (0 ≤ t.wallSec + d ∧ t.wallSec + d ≤ 0x1FFFFFFFF) ↔
        0 ≤ t.wallSec.toInt + d.toInt ∧ t.wallSec.toInt + d.toInt < 2 ^ 33 := by
      rw [Int64.le_iff_toInt_le, Int64.le_iff_toInt_le, hadd]
      have h1 : (0 : Int64).toInt = 0 := rfl
      have h2 : (0x1FFFFFFFF : Int64).toInt = 0x1FFFFFFFF := rfl
      rw [h1, h2]
      omega
    by_cases hr : 0 ≤ t.wallSec.toInt + d.toInt ∧ t.wallSec.toInt + d.toInt < 2 ^ 33
    · rw [if_pos (hc.2 hr)]
      have h2 : ((t.wallSec + d).toUInt64.toNat : Int) = t.wallSec.toInt + d.toInt := by
        rw [i64_toNat, hadd, if_pos hr.1]
      have h3 := or_sec (w := t.wall) (s := (t.wallSec + d).toUInt64) (by omega)
      have hm' : (GoTime.mk (t.wall &&& nsecMask ||| (t.wallSec + d).toUInt64 <<< 30 ||| hasMonotonic) t.ext).isMonotonic = true := by
        rw [isMonotonic_iff, h3]; omega
      refine ⟨?_, ?_, fun _ => rfl, fun _ => ⟨trivial, hr⟩, fun _ => hm'⟩
      · rw [sec_mono hm', h3, hs]
        omega
      · rw [← Int32.toInt_inj, nsec_toInt, nsec_toInt, h3]
        omega
    · rw [if_neg (fun h => hr (hc.1 h))]
      obtain ⟨k1, k2, k3⟩ := strip_spec t
      have h1 : (GoTime.mk t.stripMono.wall (t.stripMono.ext + d)).isMonotonic = false := k1
      rw [sec_wall h1, h1]
      have h4 : t.stripMono.ext = t.sec := (sec_wall k1).symm.trans k2
      refine ⟨?_, k3, nofun, nofun, fun h => absurd h.2 hr⟩
      simp only
      rw [h4]
      exact i64_add h h'

theorem addNsec_spec (t : GoTime) (d : Int64) (h : t.nsec.toInt < 1000000000) :
    (t.addNsec d).1.toInt * 1000000000 + (t.addNsec d).2.toInt = t.nsec.toInt + d.toInt ∧
      0 ≤ (t.addNsec d).2.toInt ∧ (t.addNsec d).2.toInt < 1000000000 := by
  unfold addNsec
  obtain ⟨q, r, hq, hr, hd, hp, hn⟩ := tdivmod d.toInt
  have h0 := nsec_toInt t
  have hk : (1000000000 : Int64).toInt = 1000000000 := rfl
  have hk' : (1000000000 : Int32).toInt = 1000000000 := rfl
  have hd64 := i64_range d
  have h1 : (d / 1000000000).toInt = q := by
    rw [Int64.toInt_div, hk, hq, bmod64 (by omega) (by omega)]
  have h2 : (d % 1000000000).toInt32.toInt = r := by
    rw [Int64.toInt_toInt32, Int64.toInt_mod, hk, hr, bmod32 (by omega) (by omega)]
  have h3 : (t.nsec + (d % 1000000000).toInt32).toInt = t.nsec.toInt + r := by
    rw [i32_add (by omega) (by omega), h2]
  simp only
  have one : (1 : Int64).toInt = 1 := rfl
  split
  · rename_i hc
    rw [Int32.le_iff_toInt_le, h3, hk'] at hc
    simp only
    rw [i64_add (by omega) (by omega), i32_sub (by omega) (by omega), h1, h3, hk', one]
    omega
  · rename_i hc
    rw [Int32.le_iff_toInt_le, h3, hk'] at hc
    split
    · rename_i hc2
      rw [Int32.lt_iff_toInt_lt, h3, show (0 : Int32).toInt = 0 from rfl] at hc2
      simp only
      rw [i64_sub (by omega) (by omega), i32_add (by omega) (by omega), h1, h3, hk', one]
      omega
    · rename_i hc2
      rw [Int32.lt_iff_toInt_lt, h3, show (0 : Int32).toInt = 0 from rfl] at hc2
      simp only
      rw [h1, h3]
      omega

theorem add_spec (t : GoTime) (d : Int64) (hn : t.nsec.toInt < 1000000000)
    (h : -2 ^ 62 ≤ t.sec.toInt) (h' : t.sec.toInt < 2 ^ 62) :
    (t.add d).instant = t.instant + d.toInt ∧ (t.add d).nsec.toInt < 1000000000 ∧
      ((t.add d).isMonotonic = true → (t.add d).ext.toInt = t.ext.toInt + d.toInt) ∧
      (t.isMonotonic = true → (0 ≤ t.wallSec.toInt * 1000000000 + t.nsec.toInt + d.toInt) →
        t.wallSec.toInt * 1000000000 + t.nsec.toInt + d.toInt < 2 ^ 33 * 1000000000 →
        -2 ^ 63 ≤ t.ext.toInt + d.toInt → t.ext.toInt + d.toInt < 2 ^ 63 →
        (t.add d).isMonotonic = true) := by
  obtain ⟨a1, a2, a3⟩ := addNsec_spec t d hn
  unfold add
  generalize ha : t.addNsec d = a at a1 a2 a3
  obtain ⟨dsec, nsec⟩ := a
  simp only at a1 a2 a3 ⊢
  obtain ⟨b1, b2, b3, b4, b5⟩ := setNsec_spec t a2 a3
  generalize GoTime.mk (t.wall &&& ~~~nsecMask ||| nsec.toInt64.toUInt64) t.ext = u at b1 b2 b3 b4 b5
  have hd := i64_range d
  have hnn := nsec_toInt t
  obtain ⟨c1, c2, c3, c4⟩ := addSec_spec u (d := dsec) (by rw [b2]; omega) (by rw [b2]; omega)
  generalize u.addSec dsec = v at c1 c2 c3 c4
  have hi : v.instant = t.instant + d.toInt := by
    unfold instant epoch
    rw [c1, c2, b2, b4]
    omega
  have hvn : v.nsec.toInt < 1000000000 := by rw [c2, b4]; exact a3
  cases hv : v.isMonotonic with
  | false =>
    simp only [Bool.false_eq_true, if_false]
    refine ⟨hi, hvn, fun h => ?_, fun hm k0 k1 _ _ => ?_⟩
    · rw [hv] at h; cases h
    · have := c4.2 ⟨b1.trans hm, by rw [b3]; omega, by rw [b3]; omega⟩
      rw [hv] at this; cases this
  | true =>
    simp only [if_true]
    have hx := (c3 hv).trans b5
    rw [hx]
    have hext := i64_range t.ext
    have hsum : (t.ext + d).toInt = (t.ext.toInt + d.toInt).bmod (2 ^ 64) := Int64.toInt_add ..
    have hz : (0 : Int64).toInt = 0 := rfl
    split
    · rename_i hc
      obtain ⟨k1, k2, k3⟩ := strip_spec v
      refine ⟨?_, by rw [k3]; exact hvn, fun h => ?_, fun _ _ _ l1 l2 => ?_⟩
      · rw [← hi]; unfold instant; rw [k2, k3]
      · rw [k1] at h; cases h
      · rw [bmod64 l1 l2] at hsum
        simp only [Int64.lt_iff_toInt_lt, hz, hsum] at hc
        omega
    · rename_i hc
      have hm' : (GoTime.mk v.wall (t.ext + d)).isMonotonic = true := hv
      refine ⟨?_, hvn, fun _ => ?_, fun _ _ _ _ _ => hm'⟩
      · rw [← hi]
        unfold instant epoch
        rw [sec_mono hm', sec_mono hv]
        rfl
      · simp only
        simp only [Int64.lt_iff_toInt_lt, hz, hsum] at hc
        rw [hsum]
        unfold Int.bmod at hc ⊢
        simp only at hc ⊢
        split at hc <;> split <;> omega

/-- `Before` when one of the times has no reading of the monotonic clock. -/
theorem before_wall {t u : GoTime} (h : ¬ (t.isMonotonic = true ∧ u.isMonotonic = true))
    (ht : t.nsec.toInt < 1000000000) (hu : u.nsec.toInt < 1000000000) :
    t.before u = decide (t.instant < u.instant) := by
  have hb : (t.wall &&& u.wall &&& hasMonotonic) = 0 := by
    rw [isMonotonic_iff, isMonotonic_iff] at h
    rw [← UInt64.toNat_inj, and_high, UInt64.toNat_zero]
    have h1 : (t.wall &&& u.wall).toNat ≤ t.wall.toNat := by rw [UInt64.toNat_and]; exact Nat.and_le_left
    have h2 : (t.wall &&& u.wall).toNat ≤ u.wall.toNat := by rw [UInt64.toNat_and]; exact Nat.and_le_right
    have := t.wall.toNat_lt
    omega
  unfold before
  rw [hb]
  simp only [bne_self_eq_false, Bool.false_eq_true, if_false]
  have h1 := nsec_toInt t
  have h2 := nsec_toInt u
  rw [Bool.eq_iff_iff]
  simp only [Bool.or_eq_true, decide_eq_true_eq, Bool.and_eq_true, beq_iff_eq, Int64.lt_iff_toInt_lt,
    Int32.lt_iff_toInt_lt, ← Int64.toInt_inj]
  unfold instant epoch
  omega

theorem before_mono {t u : GoTime} (ht : t.isMonotonic = true) (hu : u.isMonotonic = true) :
    t.before u = decide (t.ext.toInt < u.ext.toInt) := by
  have hb : (t.wall &&& u.wall &&& hasMonotonic) ≠ 0 := by
    intro hz
    have h1 : (t.wall &&& hasMonotonic) = hasMonotonic := by
      rw [isMonotonic_iff] at ht
      rw [← UInt64.toNat_inj, and_high, show hasMonotonic.toNat = 2 ^ 63 from rfl]
      have := t.wall.toNat_lt
      omega
    have h2 : (u.wall &&& hasMonotonic) = hasMonotonic := by
      rw [isMonotonic_iff] at hu
      rw [← UInt64.toNat_inj, and_high, show hasMonotonic.toNat = 2 ^ 63 from rfl]
      have := u.wall.toNat_lt
      omega
    rw [UInt64.and_assoc, h2, h1] at hz
    exact absurd hz (by decide)
  unfold before
  rw [if_pos (by rw [bne_iff_ne]; exact hb), Bool.eq_iff_iff]
  simp only [decide_eq_true_eq, Int64.lt_iff_toInt_lt]

theorem unix_spec {t : GoTime} (h : t.Proper) : t.unix.toInt = (Time.unix t.instant) := by
  unfold unix Time.unix second instant epoch
  have h1 := nsec_toInt t
  have h2 := h.nsec
  have h3 := i64_range t.sec
  have h4 : unixToInternal.toInt = 62135596800 := rfl
  have h5 := h.sec
  unfold epoch at h5
  rw [i64_sub (by omega) (by omega), h4]
  omega

end GoTime

theorem now_spec {c : Clocks} {t : Time} (h : c.Ordinary t) :
    (c.now t).isMonotonic = true ∧ (c.now t).ext.toInt = c.mono t ∧ (c.now t).instant = c.wall t ∧
      (c.now t).nsec.toInt < 1000000000 ∧ (c.now t).sec.toInt = (c.read t).sec.toInt + 62135596800 ∧
      (c.now t).wallSec.toInt = (c.read t).sec.toInt + 2682288000 ∧
      (c.now t).nsec = (c.read t).nsec := by
  obtain ⟨⟨n1, n2⟩, ⟨y1, y2⟩, ⟨m1, m2⟩⟩ := h
  unfold Clocks.now
  unfold Clocks.mono Clocks.wall at *
  generalize c.read t = r at *
  simp only
  have hk : (GoTime.unixToInternal - GoTime.wallToInternal).toInt = 2682288000 := rfl
  have hs : (r.sec + (GoTime.unixToInternal - GoTime.wallToInternal)).toInt =
      r.sec.toInt + 2682288000 := by
    rw [i64_add (by omega) (by omega), hk]
  generalize r.sec + (GoTime.unixToInternal - GoTime.wallToInternal) = sec at hs
  have hu : (sec.toUInt64.toNat : Int) = r.sec.toInt + 2682288000 := by
    rw [i64_toNat, if_pos (by omega), hs]
  have hc : sec.toUInt64 >>> 33 = 0 := by
    rw [← UInt64.toNat_inj, UInt64.toNat_shiftRight, show (33 : UInt64).toNat % 64 = 33 from rfl,
      Nat.shiftRight_eq_div_pow, UInt64.toNat_zero]
    omega
  rw [hc]
  simp only [bne_self_eq_false, Bool.false_eq_true, if_false]
  have hn : (r.nsec.toInt64.toUInt64.toNat : Int) = r.nsec.toInt := by
    rw [i64_toNat, Int32.toInt_toInt64, if_pos n1]
  have hw := GoTime.or_now (s := sec.toUInt64) (n := r.nsec.toInt64.toUInt64) (by omega) (by omega)
  have hm := i64_sub (a := r.mono) (b := c.startNano) (by omega) m2
  generalize r.mono - c.startNano = x at hm
  generalize hg : GoTime.mk (GoTime.hasMonotonic ||| sec.toUInt64 <<< 30 ||| r.nsec.toInt64.toUInt64) x = g
  have hgw : g.wall.toNat = 2 ^ 63 + sec.toUInt64.toNat * 2 ^ 30 + r.nsec.toInt64.toUInt64.toNat := by
    rw [← hg]; exact hw
  have k1 : g.isMonotonic = true := by rw [GoTime.isMonotonic_iff, hgw]; omega
  have k2 := GoTime.sec_mono k1
  have k3 := GoTime.nsec_toInt g
  have k4 := GoTime.wallSec_toInt g
  refine ⟨k1, hm, ?_, by omega, by omega, by omega, by rw [← Int32.toInt_inj]; omega⟩
  unfold GoTime.instant GoTime.epoch
  omega

end OAuth2

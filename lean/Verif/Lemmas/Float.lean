import Verif.Spec.Float
/-
Rounding to `float64`.
-/

namespace OAuth2

open Spec

namespace F64

theorem two_pos (e : Int) : (0 : Rat) < 2 ^ e := Rat.zpow_pos (by decide)

theorem ten_pos (e : Int) : (0 : Rat) < 10 ^ e := Rat.zpow_pos (by decide)

theorem two_ne (e : Int) : (2 : Rat) ^ e ≠ 0 := Rat.ne_of_gt (two_pos e)

theorem ten_ne (e : Int) : (10 : Rat) ^ e ≠ 0 := Rat.ne_of_gt (ten_pos e)

theorem two_add (a b : Int) : (2 : Rat) ^ (a + b) = 2 ^ a * 2 ^ b := Rat.zpow_add (by decide) a b

theorem ten_add (a b : Int) : (10 : Rat) ^ (a + b) = 10 ^ a * 10 ^ b := Rat.zpow_add (by decide) a b

theorem two_nat (n : Nat) : (2 : Rat) ^ (n : Int) = ((2 ^ n : Nat) : Rat) := by
  rw [Rat.zpow_natCast, Rat.natCast_pow]; rfl

theorem ten_nat (n : Nat) : (10 : Rat) ^ (n : Int) = ((10 ^ n : Nat) : Rat) := by
  rw [Rat.zpow_natCast, Rat.natCast_pow]; rfl

theorem two_le {a b : Int} (h : a ≤ b) : (2 : Rat) ^ a ≤ 2 ^ b := by
  obtain ⟨n, rfl⟩ : ∃ n : Nat, b = a + n := ⟨(b - a).toNat, by omega⟩
  rw [two_add, two_nat]
  have h1 : (1 : Rat) ≤ ((2 ^ n : Nat) : Rat) := by
    have : 1 ≤ 2 ^ n := Nat.one_le_two_pow
    exact Rat.natCast_le_natCast.mpr this
  have := Rat.mul_le_mul_of_nonneg_left h1 (Rat.le_of_lt (two_pos a))
  rwa [Rat.mul_one] at this

theorem two_lt {a b : Int} : (2 : Rat) ^ a < 2 ^ b ↔ a < b := by
  constructor
  · intro h
    refine Int.not_le.mp fun h' => ?_
    exact Rat.not_le.mpr h (two_le h')
  · intro h
    have h1 : (2 : Rat) ^ (a + 1) ≤ 2 ^ b := two_le (by omega)
    rw [Rat.zpow_add_one (by decide)] at h1
    have := two_pos a
    grind

theorem num_div (x : Rat) : x * (x.den : Rat) = (x.num : Rat) := by
  have h : (x.num : Rat) / ((x.den : Int) : Rat) = x := by
    rw [← Rat.divInt_eq_div, Rat.num_divInt_den]
  have hd : ((x.den : Int) : Rat) ≠ 0 := by
    rw [Ne, Rat.intCast_eq_zero_iff]
    have := x.den_nz
    omega
  have := Rat.div_mul_cancel (a := (x.num : Rat)) hd
  rwa [h] at this

/-- The logarithm is what it should be. -/
theorem log2_spec {x : Rat} (hx : 0 < x) : (2 : Rat) ^ log2 x ≤ x ∧ x < 2 ^ (log2 x + 1) := by
  have hn : 0 < x.num := by
    have := Rat.num_nonneg.mpr (Rat.le_of_lt hx)
    have h0 : x.num ≠ 0 := fun h => Rat.ne_of_gt hx (Rat.num_eq_zero.mp h)
    omega
  obtain ⟨n, hn'⟩ : ∃ n : Nat, x.num = n := ⟨x.num.toNat, by omega⟩
  have hn0 : n ≠ 0 := by omega
  have hd0 : x.den ≠ 0 := x.den_nz
  have hxd : x * (x.den : Rat) = (n : Rat) := by
    rw [num_div, hn']; rfl
  have n1 : ((2 ^ n.log2 : Nat) : Rat) ≤ n := Rat.natCast_le_natCast.mpr (Nat.log2_self_le hn0)
  have n2 : (n : Rat) < ((2 ^ (n.log2 + 1) : Nat) : Rat) :=
    Rat.natCast_lt_natCast.mpr Nat.lt_log2_self
  have d1 : ((2 ^ x.den.log2 : Nat) : Rat) ≤ x.den :=
    Rat.natCast_le_natCast.mpr (Nat.log2_self_le hd0)
  have d2 : (x.den : Rat) < ((2 ^ (x.den.log2 + 1) : Nat) : Rat) :=
    Rat.natCast_lt_natCast.mpr Nat.lt_log2_self
  have hd : (0 : Rat) < x.den := Rat.natCast_pos.mpr (Nat.pos_of_ne_zero hd0)
  rw [← two_nat] at n1 n2 d1 d2
  have hk : log2 x = if x < 2 ^ ((n.log2 : Int) - x.den.log2) then (n.log2 : Int) - x.den.log2 - 1
      else (n.log2 : Int) - x.den.log2 := by
    unfold log2
    rw [hn']
    rfl
  have low : (2 : Rat) ^ ((n.log2 : Int) - x.den.log2 - 1) < x := by
    apply Rat.lt_of_mul_lt_mul_right (c := (x.den : Rat)) _ (Rat.le_of_lt hd)
    rw [hxd]
    have h := Rat.mul_lt_mul_of_pos_left d2 (two_pos ((n.log2 : Int) - x.den.log2 - 1))
    rw [← two_add] at h
    rw [show (n.log2 : Int) - x.den.log2 - 1 + ((x.den.log2 + 1 : Nat) : Int) = n.log2 from by
      omega] at h
    grind
  have high : x < (2 : Rat) ^ ((n.log2 : Int) - x.den.log2 + 1) := by
    apply Rat.lt_of_mul_lt_mul_right (c := (x.den : Rat)) _ (Rat.le_of_lt hd)
    rw [hxd]
    have h := Rat.mul_le_mul_of_nonneg_left d1
      (Rat.le_of_lt (two_pos ((n.log2 : Int) - x.den.log2 + 1)))
    rw [← two_add] at h
    rw [show (n.log2 : Int) - x.den.log2 + 1 + ((x.den.log2 : Nat) : Int) =
      ((n.log2 + 1 : Nat) : Int) from by omega] at h
    grind
  rw [hk]
  split
  · rename_i h
    exact ⟨Rat.le_of_lt low, by rwa [Int.sub_add_cancel]⟩
  · rename_i h
    exact ⟨Rat.not_lt.mp h, high⟩

/-- The logarithm is determined by its bounds. -/
theorem log2_unique {x : Rat} (hx : 0 < x) {k : Int} (h1 : (2 : Rat) ^ k ≤ x)
    (h2 : x < 2 ^ (k + 1)) : log2 x = k := by
  obtain ⟨l1, l2⟩ := log2_spec hx
  have a : k < log2 x + 1 := two_lt.mp (by grind)
  have b : log2 x < k + 1 := two_lt.mp (by grind)
  omega

theorem cast_sub_le {a b : Int} (h : a < b) : (a : Rat) + 1 ≤ b := by
  have : ((a + 1 : Int) : Rat) ≤ b := Rat.intCast_le_intCast.mpr (by omega)
  rwa [Rat.intCast_add] at this

/-- The nearest integer, and the even one of two. -/
theorem roundEven_nearest {x : Rat} (hx : 0 ≤ x) (k : Int) :
    (x - (roundEven x : Rat)).abs ≤ (x - k).abs ∧
      ((x - (roundEven x : Rat)).abs = (x - k).abs → k = roundEven x ∨ roundEven x % 2 = 0) := by
  have hf : 0 ≤ x.floor := Rat.le_floor_iff.mpr hx
  obtain ⟨q, hq⟩ : ∃ q : Nat, x.floor = q := ⟨x.floor.toNat, by omega⟩
  have f1 : (q : Rat) ≤ x := by
    have := Rat.floor_le x; rw [hq] at this; exact this
  have f2 : x < (q : Rat) + 1 := by
    have := Rat.lt_floor_add_one x
    rw [hq, Rat.intCast_add] at this
    exact this
  have hr : roundEven x = if (q : Rat) + 1 / 2 < x ∨ ((q : Rat) + 1 / 2 = x ∧ q % 2 = 1) then q + 1
      else q := by
    unfold roundEven
    rw [hq]
    rfl
  have hk : (k : Rat) + 1 ≤ q ∨ (k : Rat) = q ∨ (k : Rat) = q + 1 ∨ (q : Rat) + 2 ≤ k := by
    rcases Int.lt_trichotomy k q with h | h | h
    · exact Or.inl (cast_sub_le h)
    · subst h; exact Or.inr (Or.inl rfl)
    · by_cases h' : k = q + 1
      · subst h'; right; right; left; rw [Rat.intCast_add]; rfl
      · right; right; right
        have := cast_sub_le (a := q + 1) (b := k) (by omega)
        rw [Rat.intCast_add] at this
        have e : ((q : Int) : Rat) = q := rfl
        rw [e] at this
        have e1 : ((1 : Int) : Rat) = 1 := rfl
        rw [e1] at this
        grind
  have kq : (k : Rat) = q → k = (q : Int) := fun h => Rat.intCast_inj.mp h
  have kq1 : (k : Rat) = q + 1 → k = ((q + 1 : Nat) : Int) := fun h =>
    Rat.intCast_inj.mp (by rw [h]; exact (Rat.natCast_add q 1).symm)
  rw [hr]
  have ab : ∀ y : Rat, y.abs = if 0 ≤ y then y else -y := fun y => by
    split
    · rename_i h; exact Rat.abs_of_nonneg h
    · rename_i h; exact Rat.abs_of_nonpos (Rat.le_of_lt (Rat.not_le.mp h))
  split
  · rename_i h
    rw [Rat.natCast_add q 1]
    have e1 : ((1 : Nat) : Rat) = 1 := rfl
    rw [e1, ab, ab]
    rcases h with h | ⟨h, ho⟩
    · rcases hk with hk | hk | hk | hk
      · grind
      · grind
      · exact ⟨by grind, fun _ => Or.inl (kq1 hk)⟩
      · grind
    · exact ⟨by grind, fun _ => Or.inr (by omega)⟩
  · rename_i h
    rw [ab, ab]
    have h1 : x ≤ q + 1 / 2 := Rat.not_lt.mp fun h' => h (Or.inl h')
    by_cases h2 : (q : Rat) + 1 / 2 = x
    · have : q % 2 = 0 := by
        have : ¬ q % 2 = 1 := fun h' => h (Or.inr ⟨h2, h'⟩)
        omega
      refine ⟨by grind, fun _ => Or.inr this⟩
    · rcases hk with hk | hk | hk | hk
      · grind
      · exact ⟨by grind, fun _ => Or.inl (kq hk)⟩
      · grind
      · grind

theorem roundEven_nat (n : Nat) : roundEven (n : Rat) = n := by
  have hf : (n : Rat).floor = (n : Int) := Rat.floor_intCast n
  unfold roundEven
  rw [hf]
  simp only [Int.toNat_natCast]
  rw [if_neg]
  grind

/-- Bounds are kept. -/
theorem le_roundEven {x : Rat} {n : Nat} (h : (n : Rat) ≤ x) : n ≤ roundEven x := by
  have hf : (n : Int) ≤ x.floor := Rat.le_floor_iff.mpr h
  unfold roundEven
  simp only
  split <;> omega

theorem roundEven_le {x : Rat} (hx : 0 ≤ x) {n : Nat} (h : x ≤ n) : roundEven x ≤ n := by
  have hf : 0 ≤ x.floor := Rat.le_floor_iff.mpr hx
  obtain ⟨q, hq⟩ : ∃ q : Nat, x.floor = q := ⟨x.floor.toNat, by omega⟩
  have f1 : (q : Rat) ≤ x := by
    have := Rat.floor_le x; rw [hq] at this; exact this
  have hqn : q ≤ n := Rat.natCast_le_natCast.mp (Rat.le_trans f1 h)
  unfold roundEven
  rw [hq]
  simp only [Int.toNat_natCast]
  split
  · rename_i hc
    have : (q : Rat) < x := by grind
    have : q < n := Rat.natCast_lt_natCast.mp (by grind)
    omega
  · exact hqn

/-! ### The nearest number -/

theorem ratAbs (y : Rat) : y.abs = if 0 ≤ y then y else -y := by
  split
  · rename_i h; exact Rat.abs_of_nonneg h
  · rename_i h; exact Rat.abs_of_nonpos (Rat.le_of_lt (Rat.not_le.mp h))

theorem abs_mul_pos {u : Rat} (hu : 0 < u) (z : Rat) : (u * z).abs = u * z.abs := by
  have h : 0 ≤ u * z ↔ 0 ≤ z := by
    constructor
    · intro h
      refine Rat.not_lt.mp fun hz => ?_
      have := (Rat.mul_neg_iff_of_pos_left hu).mpr hz
      grind
    · exact fun h => Rat.mul_nonneg (Rat.le_of_lt hu) h
  rw [ratAbs, ratAbs]
  by_cases hz : 0 ≤ z
  · rw [if_pos hz, if_pos (h.mpr hz)]
  · rw [if_neg hz, if_neg fun h' => hz (h.mp h'), Rat.mul_neg]

/-- The exponent to which a number is rounded. -/
def ulp (x : Rat) : Int := max (-1074) (log2 x - 52)

/-- Rounding, when it does not overflow. -/
theorem round_eq {x : Rat} (hx : x ≠ 0) (neg : Bool) : round neg x =
    if roundEven (x / 2 ^ ulp x) < 2 ^ 53 then make neg (roundEven (x / 2 ^ ulp x)) (ulp x)
    else make neg (2 ^ 52) (ulp x + 1) := by
  unfold round
  rw [if_neg hx]
  rfl

theorem ulp_bounds {x : Rat} (hx : 0 < x) : -1074 ≤ ulp x ∧
    (ulp x = -1074 ∨ (2 ^ 52 : Nat) ≤ x / 2 ^ ulp x) ∧ x / 2 ^ ulp x < (2 ^ 53 : Nat) ∧
    0 ≤ x / 2 ^ ulp x := by
  obtain ⟨h1, h2⟩ := log2_spec hx
  have hz : 0 ≤ x / 2 ^ ulp x := by
    rw [Rat.div_def]
    exact Rat.le_of_lt (Rat.mul_pos hx (Rat.inv_pos.mpr (two_pos _)))
  refine ⟨by unfold ulp; omega, ?_, ?_, hz⟩
  · by_cases h : log2 x - 52 ≤ -1074
    · left; unfold ulp; omega
    · right
      have he : ulp x = log2 x - 52 := by unfold ulp; omega
      rw [he]
      refine Rat.not_lt.mp fun hc => ?_
      have := (Rat.div_lt_iff (two_pos _)).mp hc
      rw [← two_nat, ← two_add] at this
      rw [show ((52 : Nat) : Int) + (log2 x - 52) = log2 x from by omega] at this
      grind
  · rw [Rat.div_lt_iff (two_pos _), ← two_nat, ← two_add]
    have : (2 : Rat) ^ (log2 x + 1) ≤ 2 ^ (((53 : Nat) : Int) + ulp x) :=
      two_le (by unfold ulp; omega)
    grind

theorem roundEven_ulp {x : Rat} (hx : 0 < x) : roundEven (x / 2 ^ ulp x) ≤ 2 ^ 53 ∧
    (ulp x = -1074 ∨ 2 ^ 52 ≤ roundEven (x / 2 ^ ulp x)) := by
  obtain ⟨-, h2, h3, h4⟩ := ulp_bounds hx
  exact ⟨roundEven_le h4 (Rat.le_of_lt h3), h2.imp_right le_roundEven⟩

/-- What rounding yields. -/
theorem round_some {x : Rat} (hx : 0 < x) {neg : Bool} {f : F64} (h : round neg x = some f) :
    f.neg = neg ∧ f.abs = roundEven (x / 2 ^ ulp x) * 2 ^ ulp x ∧
      (f.mant = roundEven (x / 2 ^ ulp x) ∨ f.mant = 2 ^ 52) := by
  obtain ⟨b1, b2⟩ := roundEven_ulp hx
  rw [round_eq (Rat.ne_of_gt hx)] at h
  split at h
  · unfold make at h
    split at h
    · cases h; exact ⟨rfl, rfl, Or.inl rfl⟩
    · cases h
  · rename_i hc
    have hm : roundEven (x / 2 ^ ulp x) = 2 ^ 53 := by omega
    unfold make at h
    split at h
    · cases h
      refine ⟨rfl, ?_, Or.inr rfl⟩
      rw [hm]
      unfold abs
      rw [Rat.zpow_add_one (by decide)]
      have : ((2 ^ 53 : Nat) : Rat) = ((2 ^ 52 : Nat) : Rat) * 2 := by decide +kernel
      rw [this]
      grind
    · cases h

theorem make_none {neg : Bool} {m : Nat} {e : Int} : make neg m e = none ↔ ¬ Valid m e := by
  unfold make
  split
  · rename_i h; simp [h]
  · rename_i h; simp [h]

theorem round_none {x : Rat} (hx : 0 < x) {neg : Bool} :
    round neg x = none ↔ (2 ^ 54 - 1 : Rat) * 2 ^ (970 : Int) ≤ x := by
  obtain ⟨b1, b2⟩ := roundEven_ulp hx
  obtain ⟨u1, u2, u3, u4⟩ := ulp_bounds hx
  have half : (2 ^ 54 - 1 : Rat) * 2 ^ (970 : Int) = (((2 ^ 53 - 1 : Nat) : Rat) + 1 / 2) * 2 ^ (971 : Int) := by
    decide +kernel
  have hxu : x = x / 2 ^ ulp x * 2 ^ ulp x := (Rat.div_mul_cancel (two_ne _)).symm
  have key : round neg x = none ↔ 971 < ulp x ∨
      (ulp x = 971 ∧ roundEven (x / 2 ^ ulp x) = 2 ^ 53) := by
    rw [round_eq (Rat.ne_of_gt hx)]
    generalize roundEven (x / 2 ^ ulp x) = m at b1 b2
    generalize ulp x = e at u1 b2
    split
    · rw [make_none]; unfold Valid; omega
    · rw [make_none]; unfold Valid; omega
  rw [key, half]
  constructor
  · rintro (h | ⟨h, hm⟩)
    · have h52 := u2.resolve_left (by omega)
      have e1 : (2 : Rat) ^ (972 : Int) ≤ 2 ^ ulp x := two_le (by omega)
      have e2 : (2 : Rat) ^ (972 : Int) = 2 ^ (971 : Int) * 2 := Rat.zpow_add_one (by decide) 971
      have e3 := Rat.mul_le_mul_of_nonneg_right h52 (Rat.le_of_lt (two_pos (ulp x)))
      rw [← hxu] at e3
      have e4 := Rat.mul_le_mul_of_nonneg_left e1 (c := ((2 ^ 52 : Nat) : Rat)) Rat.natCast_nonneg
      have e5 : (((2 ^ 53 - 1 : Nat) : Rat) + 1 / 2) * 2 ^ (971 : Int) ≤
          ((2 ^ 52 : Nat) : Rat) * 2 ^ (972 : Int) := by decide +kernel
      grind
    · refine Rat.not_lt.mp fun hc => ?_
      have hz : x / 2 ^ ulp x < ((2 ^ 53 - 1 : Nat) : Rat) + 1 / 2 := by
        rw [Rat.div_lt_iff (two_pos _), h]; exact hc
      have := (roundEven_nearest u4 (2 ^ 53 - 1 : Nat)).1
      rw [hm] at this
      have e0 : (((2 ^ 53 - 1 : Nat) : Int) : Rat) = ((2 ^ 53 - 1 : Nat) : Rat) := rfl
      rw [e0] at this
      have e1 : ((2 ^ 53 : Nat) : Rat) = ((2 ^ 53 - 1 : Nat) : Rat) + 1 := by decide +kernel
      rw [e1, ratAbs, ratAbs] at this
      grind
  · intro h
    by_cases h1 : 971 < ulp x
    · exact Or.inl h1
    · right
      have hz : ((2 ^ 53 - 1 : Nat) : Rat) + 1 / 2 ≤ x / 2 ^ ulp x := by
        refine Rat.not_lt.mp fun hc => ?_
        have := (Rat.div_lt_iff (two_pos _)).mp hc
        have e1 : (2 : Rat) ^ ulp x ≤ 2 ^ (971 : Int) := two_le (by omega)
        have e2 := Rat.mul_le_mul_of_nonneg_left e1 (c := ((2 ^ 53 - 1 : Nat) : Rat) + 1 / 2)
          (by decide +kernel)
        grind
      have hu : ulp x = 971 := by
        by_cases hu : ulp x ≤ 970
        · exfalso
          have e1 : (2 : Rat) ^ ulp x ≤ 2 ^ (970 : Int) := two_le hu
          have e3 := Rat.mul_lt_mul_of_pos_right u3 (two_pos (ulp x))
          rw [← hxu] at e3
          have e2 := Rat.mul_le_mul_of_nonneg_left e1 (c := ((2 ^ 53 : Nat) : Rat)) Rat.natCast_nonneg
          have e5 : ((2 ^ 53 : Nat) : Rat) * 2 ^ (970 : Int) <
            (((2 ^ 53 - 1 : Nat) : Rat) + 1 / 2) * 2 ^ (971 : Int) := by decide +kernel
          grind
        · omega
      refine ⟨hu, ?_⟩
      have hlow : 2 ^ 53 - 1 ≤ roundEven (x / 2 ^ ulp x) := le_roundEven (by grind)
      by_cases hm : roundEven (x / 2 ^ ulp x) = 2 ^ 53 - 1
      · exfalso
        obtain ⟨n1, n2⟩ := roundEven_nearest u4 ((2 ^ 53 : Nat) : Int)
        rw [hm] at n1 n2
        have e0 : (((2 ^ 53 : Nat) : Int) : Rat) = ((2 ^ 53 - 1 : Nat) : Rat) + 1 := by decide +kernel
        rw [e0, ratAbs, ratAbs] at n1 n2
        have : ¬ (((2 ^ 53 : Nat) : Int) = ((2 ^ 53 - 1 : Nat) : Int) ∨ (2 ^ 53 - 1) % 2 = 0) := by
          decide
        exact this (n2 (by grind))
      · omega

theorem dyadic_lt {y : Rat} {m e : Int} {k : Int} (hy : y = m * 2 ^ e) (hm : m < 2 ^ 53)
    (he : e < k) : y < ((2 ^ 52 : Nat) : Rat) * 2 ^ k := by
  have h1 : (m : Rat) < ((2 ^ 53 : Nat) : Rat) := by
    have : (m : Rat) < ((2 ^ 53 : Int) : Rat) := Rat.intCast_lt_intCast.mpr hm
    exact this
  have h2 := Rat.mul_lt_mul_of_pos_right h1 (two_pos e)
  have h3 : (2 : Rat) ^ (e + 1) ≤ 2 ^ k := two_le (by omega)
  rw [Rat.zpow_add_one (by decide)] at h3
  have h4 := Rat.mul_le_mul_of_nonneg_left h3 (c := ((2 ^ 52 : Nat) : Rat)) Rat.natCast_nonneg
  have h5 : ((2 ^ 53 : Nat) : Rat) = ((2 ^ 52 : Nat) : Rat) * 2 := by decide +kernel
  rw [h5] at h2
  grind

/-- Rounding yields the nearest number. -/
theorem round_nearest {x : Rat} (hx : 0 < x) {neg : Bool} {f : F64} (h : round neg x = some f)
    {y : Rat} (hy : Binary64 y) : (x - f.abs).abs ≤ (x - y).abs ∧
      ((x - f.abs).abs = (x - y).abs → y = f.abs ∨ f.mant % 2 = 0) := by
  obtain ⟨-, habs, hmant⟩ := round_some hx h
  obtain ⟨u1, u2, u3, u4⟩ := ulp_bounds hx
  obtain ⟨m, e, rfl, hm1, hm2, he1, he2⟩ := hy
  have hxu : x = 2 ^ ulp x * (x / 2 ^ ulp x) := by
    rw [Rat.mul_comm]; exact (Rat.div_mul_cancel (two_ne _)).symm
  have hu := two_pos (ulp x)
  generalize hz : x / 2 ^ ulp x = z at *
  have d1 : x - f.abs = 2 ^ ulp x * (z - roundEven z) := by rw [habs]; grind
  rw [d1, abs_mul_pos hu]
  by_cases he : ulp x ≤ e
  · obtain ⟨n, rfl⟩ : ∃ n : Nat, e = ulp x + n := ⟨(e - ulp x).toNat, by omega⟩
    have d2 : x - m * 2 ^ (ulp x + n) = 2 ^ ulp x * (z - ((m * 2 ^ n : Int) : Rat)) := by
      rw [two_add, two_nat, Rat.intCast_mul, Rat.intCast_pow, Rat.natCast_pow]
      have : (((2 : Int) : Rat)) = ((2 : Nat) : Rat) := rfl
      rw [this]
      grind
    rw [d2, abs_mul_pos hu]
    obtain ⟨n1, n2⟩ := roundEven_nearest u4 (m * 2 ^ n)
    refine ⟨Rat.mul_le_mul_of_nonneg_left n1 (Rat.le_of_lt hu), fun heq => ?_⟩
    have heq' : (z - (roundEven z : Rat)).abs = (z - ((m * 2 ^ n : Int) : Rat)).abs := by
      have a : (z - (roundEven z : Rat)).abs ≤ (z - ((m * 2 ^ n : Int) : Rat)).abs :=
        Rat.le_of_mul_le_mul_left (by rw [heq]; exact Rat.le_refl) hu
      have b : (z - ((m * 2 ^ n : Int) : Rat)).abs ≤ (z - (roundEven z : Rat)).abs :=
        Rat.le_of_mul_le_mul_left (by rw [← heq]; exact Rat.le_refl) hu
      exact Rat.le_antisymm a b
    rcases n2 heq' with h | h
    · left
      have : ((m * 2 ^ n : Int) : Rat) = (roundEven z : Rat) := by rw [h]; rfl
      rw [habs, ← this, two_add, two_nat, Rat.intCast_mul, Rat.intCast_pow, Rat.natCast_pow]
      have : (((2 : Int) : Rat)) = ((2 : Nat) : Rat) := rfl
      rw [this]
      grind
    · right
      rcases hmant with e | e <;> rw [e]
      exact h
  · have h52 := u2.resolve_left (by omega)
    have hlt := dyadic_lt rfl hm2 (Int.not_le.mp he)
    have n1 := (roundEven_nearest u4 ((2 ^ 52 : Nat) : Int)).1
    have e0 : (((2 ^ 52 : Nat) : Int) : Rat) = ((2 ^ 52 : Nat) : Rat) := rfl
    rw [e0] at n1
    have n2 := Rat.mul_le_mul_of_nonneg_left n1 (Rat.le_of_lt hu)
    have n3 : (2 : Rat) ^ ulp x * (z - ((2 ^ 52 : Nat) : Rat)).abs = x - ((2 ^ 52 : Nat) : Rat) * 2 ^ ulp x := by
      rw [Rat.abs_of_nonneg (by grind)]; grind
    have n4 : (2 : Rat) ^ ulp x * (z - (roundEven z : Rat)).abs < (x - m * 2 ^ e).abs := by
      rw [ratAbs (x - m * 2 ^ e)]
      grind
    exact ⟨Rat.le_of_lt n4, fun h => absurd h (Rat.ne_of_lt n4)⟩

end F64

end OAuth2

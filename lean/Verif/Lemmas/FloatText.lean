import Verif.Lemmas.Float
import Verif.Lemmas.Json
import Verif.Spec.Extra
/-
Reading and writing numbers of type `float64`.
-/

namespace OAuth2

open Spec

theorem digit_isDigit {c : UInt8} (h : Digit c) : isDigit c = true := by
  unfold isDigit inRange
  simp only [Bool.and_eq_true, decide_eq_true_eq]
  exact h

theorem isDigit_digit {c : UInt8} (h : isDigit c = true) : Digit c := by
  unfold isDigit inRange at h
  simp only [Bool.and_eq_true, decide_eq_true_eq] at h
  exact h

theorem digit_facts : ∀ c : UInt8, isDigit c = true → c ≠ 0x2D ∧ c ≠ 0x2E ∧ c ≠ 0x2B ∧
    c ≠ 0x65 ∧ c ≠ 0x45 := forall_u8 (by decide +kernel)

theorem digits_end {ds rest : Str} (hd : ∀ c ∈ ds, Digit c)
    (he : ∀ c t, rest = c :: t → isDigit c = false) :
    (ds ++ rest).takeWhile isDigit = ds ∧ (ds ++ rest).dropWhile isDigit = rest := by
  induction ds with
  | nil =>
    cases rest with
    | nil => exact ⟨rfl, rfl⟩
    | cons c t => simp [he c t rfl]
  | cons d ds ih =>
    have := digit_isDigit (hd d (by simp))
    obtain ⟨i1, i2⟩ := ih fun c hc => hd c (List.mem_cons_of_mem _ hc)
    rw [List.cons_append, List.takeWhile_cons, List.dropWhile_cons]
    simp [this, i1, i2]

/-! ### Numerals -/

theorem foldl_numeral (ds : Str) (n : Nat) :
    ds.foldl (fun n c => n * 10 + (c.toNat - 48)) n = n * 10 ^ ds.length + numeral ds := by
  induction ds generalizing n with
  | nil => simp [numeral]
  | cons c cs ih =>
    rw [List.foldl_cons, ih, numeral, List.length_cons, Nat.pow_succ, Nat.add_mul, Nat.mul_assoc,
      Nat.mul_comm 10, Nat.add_assoc]

theorem digitsVal_numeral (ds : Str) : digitsVal ds = numeral ds := by
  unfold digitsVal
  rw [foldl_numeral]; simp

theorem numeral_append (a b : Str) : numeral (a ++ b) = numeral a * 10 ^ b.length + numeral b := by
  induction a with
  | nil => simp [numeral]
  | cons c cs ih =>
    rw [List.cons_append, numeral, numeral, ih, List.length_append, Nat.pow_add, Nat.add_mul,
      Nat.mul_assoc, Nat.add_assoc]

theorem numeral_zeros (n : Nat) : numeral (List.replicate n 0x30) = 0 := by
  induction n with
  | zero => rfl
  | succ n ih => rw [List.replicate_succ, numeral, ih]; simp

theorem numeral_natDigits (n : Nat) : numeral (natDigits n) = n := by
  rw [← digitsVal_numeral]; exact (natDigits_spec n).2.1

theorem numeral_lt {ds : Str} (h : ∀ c ∈ ds, Digit c) : numeral ds < 10 ^ ds.length := by
  induction ds with
  | nil => simp [numeral]
  | cons c cs ih =>
    have := ih fun d hd => h d (List.mem_cons_of_mem _ hd)
    have hc : c.toNat - 0x30 ≤ 9 := by
      have := (h c (by simp)).2
      have : c.toNat ≤ 0x39 := this
      omega
    rw [numeral, List.length_cons, Nat.pow_succ]
    have h2 := Nat.mul_le_mul_right (10 ^ cs.length) hc
    omega

/-- The step of the exponent. -/
def F64.expStep (n : Nat) (c : UInt8) : Nat := if n < 10000 then n * 10 + (c.toNat - 48) else n

theorem F64.expStep_big (ds : Str) {n : Nat} (h : 10000 ≤ n) : ds.foldl F64.expStep n = n := by
  induction ds with
  | nil => rfl
  | cons c cs ih => rw [List.foldl_cons, F64.expStep, if_neg (by omega)]; exact ih

theorem F64.expStep_fold (j : Nat) : ∀ (ds : Str) (n : Nat), (∀ c ∈ ds, Digit c) → j ≤ 4 →
    10 ^ (4 - j) ≤ n → n < 10 ^ (5 - j) →
    ds.foldl F64.expStep n = n * 10 ^ (ds.take j).length + numeral (ds.take j) := by
  induction j with
  | zero =>
    intro ds n _ _ h1 _
    rw [F64.expStep_big ds (by simpa using h1)]
    simp [numeral]
  | succ j ih =>
    intro ds n hd hj h1 h2
    cases ds with
    | nil => simp [numeral]
    | cons c cs =>
      have hc : c.toNat - 0x30 ≤ 9 := by
        have := (hd c (by simp)).2
        have : c.toNat ≤ 0x39 := this
        omega
      have hn : n < 10000 := by
        have : 10 ^ (5 - (j + 1)) ≤ 10 ^ 4 := Nat.pow_le_pow_right (by decide) (by omega)
        omega
      have e1 : 10 ^ (4 - j) = 10 ^ (4 - (j + 1)) * 10 := by
        rw [← Nat.pow_succ]; congr 1; omega
      have e2 : 10 ^ (5 - j) = 10 ^ (5 - (j + 1)) * 10 := by
        rw [← Nat.pow_succ]; congr 1; omega
      rw [List.foldl_cons, F64.expStep, if_pos hn,
        ih cs _ (fun d hd' => hd d (List.mem_cons_of_mem _ hd')) (by omega) (by omega) (by omega)]
      rw [List.take_succ_cons, numeral, List.length_cons, Nat.pow_succ, Nat.add_mul, Nat.mul_assoc,
        Nat.mul_comm 10, Nat.add_assoc]

theorem F64.expVal_exponent {ds : Str} (hd : ∀ c ∈ ds, Digit c) :
    F64.expVal ds = exponent ds := by
  show ds.foldl F64.expStep 0 = exponent ds
  unfold exponent
  induction ds with
  | nil => rfl
  | cons c cs ih =>
    have hd' : ∀ c ∈ cs, Digit c := fun d h => hd d (List.mem_cons_of_mem _ h)
    by_cases hc : c = 0x30
    · subst hc
      rw [List.foldl_cons, List.dropWhile_cons]
      exact ih hd'
    · have h1 : 0x30 ≤ c.toNat := (hd c (by simp)).1
      have h2 : c.toNat ≤ 0x39 := (hd c (by simp)).2
      have h3 : c.toNat ≠ 0x30 := fun h => hc (UInt8.toNat_inj.mp h)
      rw [List.foldl_cons, List.dropWhile_cons, if_neg (by simp [hc]), List.take_succ_cons, numeral]
      have e : F64.expStep 0 c = c.toNat - 0x30 := by unfold F64.expStep; simp
      rw [e, F64.expStep_fold 4 cs _ hd' (by omega) (by omega) (by omega)]

/-! ### Reading -/

theorem F64.readFrac_other {s : Str} (h : ∀ c t, s = c :: t → c ≠ 0x2E) : F64.readFrac s = ([], s) := by
  unfold F64.readFrac
  split
  · rename_i t; exact absurd rfl (h 0x2E t rfl)
  · rfl

theorem F64.readAbs_text {int frac exp : Str} (hd : ∀ c ∈ int ++ frac, Digit c)
    (he : ∀ c t, exp = c :: t → c = 0x65 ∨ c = 0x45) :
    F64.readAbs (int ++ (if frac = [] then [] else b!"." ++ frac) ++ exp) =
      numeral (int ++ frac) * 10 ^ (F64.readExp exp - frac.length) := by
  have hexp : ∀ c t, exp = c :: t → isDigit c = false := by
    intro c t h
    rcases he c t h with rfl | rfl <;> decide
  have hi : ∀ c ∈ int, Digit c := fun c h => hd c (List.mem_append_left _ h)
  have hf : ∀ c ∈ frac, Digit c := fun c h => hd c (List.mem_append_right _ h)
  unfold F64.readAbs
  by_cases h : frac = []
  · subst h
    obtain ⟨t1, t2⟩ := digits_end hi hexp
    simp only [if_true, List.append_nil]
    rw [t1, t2, F64.readFrac_other (by
      intro c t h
      rcases he c t h with rfl | rfl <;> decide)]
    rw [digitsVal_numeral]
    simp
  · rw [if_neg h, List.append_assoc]
    obtain ⟨t1, t2⟩ := digits_end (rest := b!"." ++ frac ++ exp) hi (by
      intro c t h
      cases h; decide)
    simp only
    rw [t1, t2]
    have : F64.readFrac (b!"." ++ frac ++ exp) = (frac, exp) := by
      obtain ⟨u1, u2⟩ := digits_end hf hexp
      show ((frac ++ exp).takeWhile isDigit, (frac ++ exp).dropWhile isDigit) = _
      rw [u1, u2]
    rw [this, digitsVal_numeral]

theorem F64.readExp_text {e sign ds : Str} (he : e = b!"e" ∨ e = b!"E") (hne : ds ≠ [])
    (hd : ∀ c ∈ ds, Digit c) {k : Int}
    (hs : (sign = [] ∨ sign = b!"+") ∧ k = exponent ds ∨ sign = b!"-" ∧ k = -(exponent ds : Int)) :
    F64.readExp (e ++ sign ++ ds) = k := by
  have hx := F64.expVal_exponent hd
  obtain ⟨d, ds, rfl⟩ := List.exists_cons_of_ne_nil hne
  obtain ⟨h1, -, h2, -⟩ := digit_facts d (digit_isDigit (hd d (by simp)))
  rcases hs with ⟨rfl | rfl, rfl⟩ | ⟨rfl, rfl⟩
  · rcases he with rfl | rfl <;>
    · rw [← hx]
      show F64.readExp (_ :: d :: ds) = _
      rw [F64.readExp.eq_def]
      split
      · rename_i h; cases h; exact absurd rfl h1
      · rename_i h; cases h; exact absurd rfl h2
      · rename_i h; cases h; rfl
      · rename_i h; cases h
  · rcases he with rfl | rfl <;>
    · rw [← hx]; rfl
  · rcases he with rfl | rfl <;>
    · rw [← hx]; rfl

theorem F64.parse_value {lit : Str} {neg : Bool} {x : Rat} (h : NumberValue lit neg x) :
    F64.parse lit = F64.round neg x := by
  obtain ⟨int, frac, exp, k, rfl, hi, hd, hk, rfl⟩ := h
  have hexp : ∀ c t, exp = c :: t → c = 0x65 ∨ c = 0x45 := by
    intro c t he
    rcases hk with ⟨h, -⟩ | ⟨e, sign, ds, rfl, he' | he', -⟩
    · rw [h] at he; cases he
    · subst he'; cases he; exact Or.inl rfl
    · subst he'; cases he; exact Or.inr rfl
  have hread : F64.readExp exp = k := by
    rcases hk with ⟨rfl, rfl⟩ | ⟨e, sign, ds, rfl, he, hne, hds, hs⟩
    · rfl
    · exact F64.readExp_text he hne hds hs
  have hr := F64.readAbs_text hd hexp
  rw [hread] at hr
  cases neg with
  | true =>
    show F64.parse (0x2D :: _) = _
    rw [F64.parse.eq_1]
    have := congrArg (F64.round true) hr
    exact this
  | false =>
    obtain ⟨d, ds, rfl⟩ := List.exists_cons_of_ne_nil hi
    have hne := (digit_facts d (digit_isDigit (hd d (by simp)))).1
    have := congrArg (F64.round false) hr
    rw [← this]
    show F64.parse (d :: _) = F64.round false (F64.readAbs (d :: _))
    rw [F64.parse.eq_def]
    split
    · rename_i h; cases h; exact absurd rfl hne
    · rfl

/-- Every number literal has a value. -/
theorem number_value {lit : Str} (h : NumberText lit) : ∃ neg x, NumberValue lit neg x := by
  obtain ⟨sign, int, frac, exp, rfl, hs, hi, hf, he⟩ := h
  have hint : int ≠ [] ∧ ∀ c ∈ int, Digit c := by
    rcases hi with rfl | ⟨c, cs, rfl, -, hc, hcs⟩
    · refine ⟨by simp, fun c hc => ?_⟩
      rw [List.mem_singleton.mp hc]; unfold Digit; decide
    · refine ⟨by simp, fun d hd => ?_⟩
      rcases List.mem_cons.mp hd with rfl | hd
      · exact hc
      · exact hcs d hd
  obtain ⟨ds, hds, hfe⟩ : ∃ ds : Str, (∀ c ∈ ds, Digit c) ∧
      frac = if ds = [] then [] else b!"." ++ ds := by
    rcases hf with rfl | ⟨ds, hne, hds, rfl⟩
    · exact ⟨[], by simp, rfl⟩
    · exact ⟨ds, hds, by rw [if_neg hne]⟩
  obtain ⟨k, hk⟩ : ∃ k : Int, (exp = [] ∧ k = 0 ∨ ∃ e sign ds : Str, exp = e ++ sign ++ ds ∧
      (e = b!"e" ∨ e = b!"E") ∧ ds ≠ [] ∧ (∀ c ∈ ds, Digit c) ∧
      ((sign = [] ∨ sign = b!"+") ∧ k = exponent ds ∨ sign = b!"-" ∧ k = -(exponent ds : Int))) := by
    rcases he with rfl | ⟨e, sg, ds, he, hsg, hne, hd, rfl⟩
    · exact ⟨0, Or.inl ⟨rfl, rfl⟩⟩
    · rcases hsg with rfl | rfl | rfl
      · exact ⟨_, Or.inr ⟨e, _, ds, rfl, he, hne, hd, Or.inl ⟨Or.inl rfl, rfl⟩⟩⟩
      · exact ⟨_, Or.inr ⟨e, _, ds, rfl, he, hne, hd, Or.inl ⟨Or.inr rfl, rfl⟩⟩⟩
      · exact ⟨_, Or.inr ⟨e, _, ds, rfl, he, hne, hd, Or.inr ⟨rfl, rfl⟩⟩⟩
  refine ⟨decide (sign = b!"-"), _, int, ds, exp, k, ?_, hint.1, ?_, hk, rfl⟩
  · rw [hfe]
    rcases hs with rfl | rfl <;> rfl
  · intro c hc
    rcases List.mem_append.mp hc with hc | hc
    · exact hint.2 c hc
    · exact hds c hc

theorem zpow_ten_nonneg (n : Nat) (e : Int) : (0 : Rat) ≤ n * 10 ^ e :=
  Rat.mul_nonneg Rat.natCast_nonneg (Rat.le_of_lt (F64.ten_pos e))

theorem Spec.NumberValue.nonneg {lit : Str} {neg : Bool} {x : Rat} (h : NumberValue lit neg x) :
    0 ≤ x := by
  obtain ⟨int, frac, exp, k, -, -, -, -, rfl⟩ := h
  exact zpow_ten_nonneg _ _

theorem binary64_neg {y : Rat} (h : Binary64 y) : Binary64 (-y) := by
  obtain ⟨m, e, rfl, h1, h2, h3, h4⟩ := h
  exact ⟨-m, e, by rw [Rat.intCast_neg, Rat.neg_mul], by omega, by omega, h3, h4⟩

theorem F64.binary64 (f : F64) : Binary64 f.value := by
  obtain ⟨h1, h2, h3, -⟩ := f.valid
  have h : Binary64 f.abs := ⟨f.mant, f.exp, rfl, by omega, by omega, h2, h3⟩
  unfold F64.value
  split
  · exact binary64_neg h
  · exact h

theorem F64.abs_nonneg (f : F64) : 0 ≤ f.abs :=
  Rat.mul_nonneg Rat.natCast_nonneg (Rat.le_of_lt (F64.two_pos _))

theorem F64.zero_value (neg : Bool) : (F64.zero neg).value = 0 := by
  cases neg <;> decide +kernel

theorem F64.zero_of_value {f : F64} (h : f.value = 0) : f = F64.zero f.neg := by
  have ha : f.abs = 0 := by
    unfold F64.value at h
    split at h
    · grind
    · exact h
  have hm : f.mant = 0 := by
    unfold F64.abs at ha
    rcases Rat.mul_eq_zero.mp ha with h | h
    · exact Rat.natCast_eq_zero_iff.mp h
    · exact absurd h (F64.two_ne _)
  obtain ⟨-, -, -, hv⟩ := f.valid
  have he : f.exp = -1074 := by
    rcases hv with h | h
    · omega
    · exact h
  cases f
  simp only at hm he
  subst hm he
  rfl

theorem F64.abs_binary64 (f : F64) : Binary64 f.abs := by
  obtain ⟨h1, h2, h3, -⟩ := f.valid
  exact ⟨f.mant, f.exp, rfl, by omega, by omega, h2, h3⟩

/-- A number with a smaller exponent is smaller. -/
theorem F64.abs_lt_of_exp {f g : F64} (h : f.exp < g.exp) : f.abs < g.abs := by
  obtain ⟨a1, a2, a3, a4⟩ := f.valid
  obtain ⟨b1, b2, b3, b4⟩ := g.valid
  have h1 : f.abs < ((2 ^ 52 : Nat) : Rat) * 2 ^ g.exp :=
    F64.dyadic_lt (m := f.mant) (e := f.exp) rfl (by omega) h
  have hm : 2 ^ 52 ≤ g.mant := by
    rcases b4 with h | h
    · exact h
    · omega
  have h2 : ((2 ^ 52 : Nat) : Rat) * 2 ^ g.exp ≤ g.abs :=
    Rat.mul_le_mul_of_nonneg_right (Rat.natCast_le_natCast.mpr hm) (Rat.le_of_lt (F64.two_pos _))
  grind

theorem F64.ext_abs {f g : F64} (hn : f.neg = g.neg) (h : f.abs = g.abs) : f = g := by
  have he : f.exp = g.exp := by
    rcases Int.lt_trichotomy f.exp g.exp with h' | h' | h'
    · have := F64.abs_lt_of_exp h'; grind
    · exact h'
    · have := F64.abs_lt_of_exp h'; grind
  have hm : f.mant = g.mant := by
    unfold F64.abs at h
    rw [he] at h
    have : (f.mant : Rat) = g.mant := by
      have := congrArg (· / (2 : Rat) ^ g.exp) h
      simpa [Rat.mul_div_cancel (F64.two_ne _)] using this
    exact Rat.natCast_inj.mp this
  cases f; cases g
  simp only at hn he hm
  subst hn he hm
  rfl

/-- The next number after an even one is no even one. -/
theorem F64.even_apart {f g : F64} (hlt : f.abs < g.abs) (hf : f.mant % 2 = 0)
    (hg : g.mant % 2 = 0) : ∃ y, Binary64 y ∧ f.abs < y ∧ y < g.abs := by
  obtain ⟨a1, a2, a3, a4⟩ := f.valid
  refine ⟨((f.mant + 1 : Nat) : Rat) * 2 ^ f.exp, ⟨(f.mant + 1 : Nat), f.exp, rfl, by omega, by omega,
    a2, a3⟩, ?_, ?_⟩
  · exact Rat.mul_lt_mul_of_pos_right (Rat.natCast_lt_natCast.mpr (Nat.lt_succ_self _)) (F64.two_pos _)
  · have he : f.exp ≤ g.exp := by
      refine Int.not_lt.mp fun h => ?_
      have := F64.abs_lt_of_exp h; grind
    obtain ⟨k, hk⟩ : ∃ k : Nat, g.exp = k + f.exp := ⟨(g.exp - f.exp).toNat, by omega⟩
    have hga : g.abs = ((g.mant * 2 ^ k : Nat) : Rat) * 2 ^ f.exp := by
      unfold F64.abs
      rw [hk, F64.two_add, F64.two_nat, Rat.natCast_mul, Rat.mul_assoc]
    have hl : f.mant < g.mant * 2 ^ k := by
      rw [hga] at hlt
      refine Nat.lt_of_not_le fun h => ?_
      have : ((g.mant * 2 ^ k : Nat) : Rat) * 2 ^ f.exp ≤ f.abs :=
        Rat.mul_le_mul_of_nonneg_right (Rat.natCast_le_natCast.mpr h) (Rat.le_of_lt (F64.two_pos _))
      grind
    have hev : (g.mant * 2 ^ k) % 2 = 0 := by rw [Nat.mul_mod, hg]; simp
    rw [hga]
    exact Rat.mul_lt_mul_of_pos_right (Rat.natCast_lt_natCast.mpr (by omega)) (F64.two_pos _)

theorem F64.nearest_abs {x : Rat} {f : F64} : Nearest (if f.neg then -x else x) f ↔
    (∀ y, Binary64 y → (x - f.abs).abs ≤ (x - y).abs) ∧
    ∀ y, Binary64 y → (x - f.abs).abs = (x - y).abs → y = f.abs ∨ f.mant % 2 = 0 := by
  have flip : ∀ a b : Rat, (-a - -b).abs = (a - b).abs := by
    intro a b
    rw [← Rat.abs_neg]; congr 1; grind
  have flip' : ∀ a b : Rat, (-a - b).abs = (a - -b).abs := by
    intro a b
    rw [← Rat.abs_neg]; congr 1; grind
  by_cases hn : f.neg = true
  · have hv : f.value = -f.abs := by unfold F64.value; rw [if_pos hn]
    rw [if_pos hn]
    constructor
    · rintro ⟨h1, h2⟩
      rw [hv] at h1 h2
      refine ⟨fun y hy => ?_, fun y hy h => ?_⟩
      · have := h1 (-y) (binary64_neg hy)
        rwa [flip, flip] at this
      · have := h2 (-y) (binary64_neg hy)
        rw [flip, flip] at this
        refine (this h).imp_left fun h => ?_
        grind
    · rintro ⟨h1, h2⟩
      refine ⟨fun y hy => ?_, fun y hy h => ?_⟩
      · rw [hv, flip, flip']
        exact h1 _ (binary64_neg hy)
      · rw [hv, flip, flip'] at h
        refine (h2 _ (binary64_neg hy) h).imp_left fun h => ?_
        rw [hv]
        grind
  · have hv : f.value = f.abs := by unfold F64.value; rw [if_neg hn]
    rw [if_neg hn]
    constructor
    · rintro ⟨h1, h2⟩
      rw [hv] at h1 h2
      exact ⟨h1, h2⟩
    · rintro ⟨h1, h2⟩
      exact ⟨by rw [hv]; exact h1, by rw [hv]; exact h2⟩

/-- There is one nearest number. -/
theorem F64.nearest_unique {x : Rat} {f g : F64} (hn : f.neg = g.neg)
    (hf : Nearest (if f.neg then -x else x) f) (hg : Nearest (if g.neg then -x else x) g) : f = g := by
  rw [F64.nearest_abs] at hf hg
  obtain ⟨f1, f2⟩ := hf
  obtain ⟨g1, g2⟩ := hg
  have he : (x - f.abs).abs = (x - g.abs).abs := by
    have a := f1 _ g.abs_binary64
    have b := g1 _ f.abs_binary64
    grind
  apply F64.ext_abs hn
  rcases f2 _ g.abs_binary64 he with h | hfe
  · exact h.symm
  rcases g2 _ f.abs_binary64 he.symm with h | hge
  · exact h
  have key : ∀ {f g : F64}, (∀ y, Binary64 y → (x - f.abs).abs ≤ (x - y).abs) →
      (x - f.abs).abs = (x - g.abs).abs → f.mant % 2 = 0 → g.mant % 2 = 0 → ¬ f.abs < g.abs := by
    intro f g h1 he hf hg hlt
    obtain ⟨y, hy, y1, y2⟩ := F64.even_apart hlt hf hg
    have := h1 y hy
    simp only [F64.ratAbs] at he this
    grind
  have k1 := key f1 he hfe hge
  have k2 := key g1 he.symm hge hfe
  grind

/-- Rounding yields exactly the nearest number. -/
theorem F64.round_iff {x : Rat} (hx : 0 ≤ x) (neg : Bool) (f : F64) :
    F64.round neg x = some f ↔
      f.neg = neg ∧ ¬ TooLarge x ∧ Nearest (if neg then -x else x) f := by
  have large : TooLarge x ↔ (2 ^ 54 - 1 : Rat) * 2 ^ (970 : Int) ≤ x := by
    unfold TooLarge
    rw [Rat.abs_of_nonneg hx]
    rfl
  have fwd : ∀ g, F64.round neg x = some g →
      g.neg = neg ∧ ¬ TooLarge x ∧ Nearest (if neg then -x else x) g := by
    intro g h
    by_cases h0 : x = 0
    · subst h0
      have : g = F64.zero neg := by
        unfold F64.round at h
        rw [if_pos rfl] at h
        exact (Option.some.inj h).symm
      subst this
      refine ⟨rfl, ?_, ?_⟩
      · rw [large]; decide +kernel
      · have hz : (if neg then -(0 : Rat) else 0) = 0 := by cases neg <;> decide +kernel
        rw [hz]
        refine ⟨fun y _ => ?_, fun y _ h => ?_⟩
        · rw [F64.zero_value]
          simp only [F64.ratAbs]; grind
        · rw [F64.zero_value] at h ⊢
          simp only [F64.ratAbs] at h; left; grind
    · have hx' : 0 < x := by grind
      have hn : g.neg = neg := (F64.round_some hx' h).1
      refine ⟨hn, ?_, ?_⟩
      · rw [large, ← F64.round_none hx' (neg := neg), h]; simp
      · subst hn
        rw [F64.nearest_abs]
        exact ⟨fun y hy => (F64.round_nearest hx' h hy).1, fun y hy => (F64.round_nearest hx' h hy).2⟩
  refine ⟨fwd f, ?_⟩
  rintro ⟨rfl, h2, h3⟩
  cases hr : F64.round f.neg x with
  | none =>
    exfalso
    by_cases h0 : x = 0
    · subst h0
      unfold F64.round at hr
      rw [if_pos rfl] at hr
      cases hr
    · rw [F64.round_none (by grind)] at hr
      exact h2 (large.mpr hr)
  | some g =>
    obtain ⟨g1, -, g3⟩ := fwd g hr
    rw [← g1] at g3
    rw [F64.nearest_unique g1.symm h3 g3]

theorem F64.parse_iff {lit : Str} (h : NumberText lit) (f : F64) :
    F64.parse lit = some f ↔ NumberDenotes lit f := by
  constructor
  · intro hp
    obtain ⟨neg, x, hv⟩ := number_value h
    rw [F64.parse_value hv, F64.round_iff hv.nonneg] at hp
    obtain ⟨rfl, h2, h3⟩ := hp
    exact ⟨x, hv, h2, h3⟩
  · rintro ⟨x, hv, h2, h3⟩
    rw [F64.parse_value hv, F64.round_iff hv.nonneg]
    exact ⟨rfl, h2, h3⟩

/-! ### Numbers that need no rounding -/

theorem F64.not_tooLarge (f : F64) : ¬ TooLarge f.abs := by
  obtain ⟨h1, h2, h3, -⟩ := f.valid
  unfold TooLarge
  rw [Rat.abs_of_nonneg f.abs_nonneg]
  have ha : f.abs ≤ ((2 ^ 53 - 1 : Nat) : Rat) * 2 ^ (971 : Int) := by
    have a : f.abs ≤ ((2 ^ 53 - 1 : Nat) : Rat) * 2 ^ f.exp :=
      Rat.mul_le_mul_of_nonneg_right (Rat.natCast_le_natCast.mpr (by omega))
        (Rat.le_of_lt (F64.two_pos _))
    have b : ((2 ^ 53 - 1 : Nat) : Rat) * 2 ^ f.exp ≤ ((2 ^ 53 - 1 : Nat) : Rat) * 2 ^ (971 : Int) :=
      Rat.mul_le_mul_of_nonneg_left (F64.two_le h3) Rat.natCast_nonneg
    exact Rat.le_trans a b
  have hb : ((2 ^ 53 - 1 : Nat) : Rat) * 2 ^ (971 : Int) < (2 ^ 54 - 1) * 2 ^ 970 := by decide +kernel
  grind

theorem F64.round_abs (f : F64) : F64.round f.neg f.abs = some f := by
  rw [F64.round_iff f.abs_nonneg]
  refine ⟨rfl, f.not_tooLarge, F64.nearest_abs.mpr ⟨fun y _ => ?_, fun y _ h => ?_⟩⟩
  · simp only [F64.ratAbs]; grind
  · simp only [F64.ratAbs] at h; left; grind

/-! ### Digits -/

theorem F64.abs_ten (f : F64) (n : Nat) (h : -(n : Int) ≤ f.exp) :
    ∃ k : Nat, f.abs / 10 ^ (-(n : Int)) = k := by
  obtain ⟨j, hj⟩ : ∃ j : Nat, f.exp = j + -(n : Int) := ⟨(f.exp + n).toNat, by omega⟩
  refine ⟨f.mant * 2 ^ j * 5 ^ n, ?_⟩
  unfold F64.abs
  rw [hj, F64.two_add, F64.two_nat, Rat.zpow_neg, Rat.zpow_neg, Rat.zpow_natCast, Rat.zpow_natCast]
  have h10 : (10 : Rat) ^ n = 2 ^ n * 5 ^ n := by
    have : ((10 ^ n : Nat) : Rat) = ((2 ^ n * 5 ^ n : Nat) : Rat) := by rw [← Nat.mul_pow]
    rw [Rat.natCast_mul, Rat.natCast_pow, Rat.natCast_pow, Rat.natCast_pow] at this
    exact this
  have h2 : (2 : Rat) ^ n ≠ 0 := by
    have := F64.two_ne n; rwa [Rat.zpow_natCast] at this
  rw [Rat.div_def, Rat.inv_inv, h10, Rat.natCast_mul, Rat.natCast_mul, Rat.natCast_pow,
    Rat.natCast_pow]
  have : ((2 : Rat) ^ n)⁻¹ * 2 ^ n = 1 := Rat.inv_mul_cancel _ h2
  show (f.mant : Rat) * (2 ^ j * (2 ^ n)⁻¹) * (2 ^ n * 5 ^ n) = (f.mant : Rat) * ((2 ^ j : Rat)) * 5 ^ n
  grind

theorem F64.roundEven_floor (y : Rat) :
    F64.roundEven y = y.floor.toNat ∨ F64.roundEven y = y.floor.toNat + 1 := by
  unfold F64.roundEven
  simp only
  split
  · exact Or.inr rfl
  · exact Or.inl rfl

theorem F64.search_spec (f : F64) (q0 : Int) (k : Nat) (hk : f.abs / 10 ^ q0 = k) (n : Nat) (p : Int)
    (h1 : q0 ≤ p) (h2 : p < q0 + n) :
    F64.round f.neg ((F64.search f n p).1 * 10 ^ (F64.search f n p).2) = some f ∧
      q0 ≤ (F64.search f n p).2 ∧ (F64.search f n p).2 ≤ p := by
  induction n generalizing p with
  | zero => omega
  | succ n ih =>
    rw [F64.search]
    split
    · rename_i h
      refine ⟨?_, h1, Int.le_refl _⟩
      rcases F64.roundEven_floor (f.abs / 10 ^ p) with e | e
      · simp only; rw [e]; exact h.1
      · simp only; rw [e]; exact h.2
    · split
      · rename_i h; exact ⟨h, h1, Int.le_refl _⟩
      · split
        · rename_i h; exact ⟨h, h1, Int.le_refl _⟩
        · rename_i h3 _
          have hp : q0 ≠ p := by
            rintro rfl
            apply h3
            rw [hk]
            have : (k : Rat).floor = (k : Int) := Rat.floor_intCast k
            rw [this, Int.toNat_natCast, ← hk, Rat.div_mul_cancel (F64.ten_ne _)]
            exact f.round_abs
          obtain ⟨i1, i2, i3⟩ := ih (p - 1) (by omega) (by omega)
          exact ⟨i1, i2, by omega⟩

/-- Without the zeros at the end. -/
theorem strip_zeros (ds : Str) : ∃ z : Nat, ds =
    (ds.reverse.dropWhile (· = 0x30)).reverse ++ List.replicate z 0x30 := by
  refine ⟨(ds.reverse.takeWhile (· = 0x30)).length, ?_⟩
  have h : ds.reverse.takeWhile (· = 0x30) =
      List.replicate (ds.reverse.takeWhile (· = 0x30)).length 0x30 := by
    rw [List.eq_replicate_iff]
    refine ⟨rfl, fun b hb => ?_⟩
    have := List.all_takeWhile (p := fun c : UInt8 => decide (c = 0x30)) (l := ds.reverse)
    rw [List.all_eq_true] at this
    simpa using this b hb
  have := congrArg List.reverse (List.takeWhile_append_dropWhile (p := (· = (0x30 : UInt8))) (l := ds.reverse))
  rw [List.reverse_append, List.reverse_reverse] at this
  conv => lhs; rw [← this]
  congr 1
  rw [h, List.reverse_replicate]
  simp

theorem natDigits_pow (n : Nat) (h : n ≠ 0) : 10 ^ ((natDigits n).length - 1) ≤ n := by
  obtain ⟨h1, h2, ⟨c, cs, h3, h4⟩, -⟩ := natDigits_spec n
  rw [digitsVal_numeral] at h2
  rw [h3, numeral] at h2
  rw [h3]
  have hc := isDigit_digit (h1 c (by rw [h3]; simp))
  have h30 : 0x30 ≤ c.toNat := hc.1
  have hne : c.toNat ≠ 0x30 := fun he => h4 h (UInt8.toNat_inj.mp he)
  have : 1 * 10 ^ cs.length ≤ (c.toNat - 0x30) * 10 ^ cs.length :=
    Nat.mul_le_mul_right _ (by omega)
  simp only [List.length_cons, Nat.add_sub_cancel]
  omega

attribute [local irreducible] F64.search

theorem F64.search_pair (f : F64) (q0 : Int) (n : Nat) (p : Int)
    (hq : ∃ k : Nat, f.abs / 10 ^ q0 = k) (h1 : q0 ≤ p) (h2 : p < q0 + n) :
    ∃ d p', F64.search f n p = (d, p') ∧ F64.round f.neg (d * 10 ^ p') = some f ∧ q0 ≤ p' := by
  obtain ⟨k, hk⟩ := hq
  obtain ⟨s1, s2, -⟩ := f.search_spec q0 k hk n p h1 h2
  exact ⟨_, _, rfl, s1, s2⟩

theorem F64.abs_smallest (f : F64) : ∃ k : Nat, f.abs / 10 ^ (-1074 : Int) = k :=
  f.abs_ten 1074 f.valid.2.1

theorem F64.search_some (f : F64) : ∃ d p, F64.search f 1384 309 = (d, p) ∧
    F64.round f.neg (d * 10 ^ p) = some f ∧ -1074 ≤ p :=
  f.search_pair (-1074) 1384 309 f.abs_smallest (by decide) (by decide)

/-- What the digits of a number are. -/
theorem F64.digits_spec (f : F64) (h : f.mant ≠ 0) : ∃ c cs,
    f.digits.1 = c :: cs ∧ c ≠ 0x30 ∧ (∀ x ∈ f.digits.1, Digit x) ∧
    -1074 ≤ f.digits.2 ∧ f.digits.2 ≤ 309 ∧
    F64.round f.neg (numeral f.digits.1 * 10 ^ (f.digits.2 - f.digits.1.length)) = some f := by
  obtain ⟨d, p, hs, s1, s2⟩ := f.search_some
  unfold F64.digits
  rw [if_neg h, hs]
  clear hs
  simp only
  have hd0 : d ≠ 0 := by
    rintro rfl
    have e : (((0 : Nat) : Rat)) * 10 ^ p = 0 := by
      have : ((0 : Nat) : Rat) = 0 := rfl
      rw [this, Rat.zero_mul]
    rw [e] at s1
    unfold F64.round at s1
    rw [if_pos rfl] at s1
    have := congrArg (Option.map F64.mant) s1
    simp only [Option.map_some, Option.some.injEq] at this
    exact h this.symm
  obtain ⟨n1, -, ⟨c, cs, n3, n4⟩, -⟩ := natDigits_spec d
  have hpow := natDigits_pow d hd0
  obtain ⟨z, hz⟩ := strip_zeros (natDigits d)
  generalize hS : ((natDigits d).reverse.dropWhile (· = 0x30)).reverse = S at hz
  have hval : numeral (natDigits d) = numeral S * 10 ^ z := by
    rw [hz, numeral_append, numeral_zeros, List.length_replicate, Nat.add_zero]
  rw [numeral_natDigits] at hval
  have hlen : (natDigits d).length = S.length + z := by
    conv => lhs; rw [hz]
    simp
  have hSne : S ≠ [] := by
    rintro rfl
    rw [numeral, Nat.zero_mul] at hval
    exact hd0 hval
  obtain ⟨c', cs', rfl⟩ := List.exists_cons_of_ne_nil hSne
  refine ⟨c', cs', rfl, ?_, ?_, ?_, ?_, ?_⟩
  · rw [n3, List.cons_append] at hz
    cases hz
    exact n4 hd0
  · intro x hx
    exact isDigit_digit (n1 x (by rw [hz]; exact List.mem_append_left _ hx))
  · rw [hlen]; simp only [List.length_cons]; omega
  · rw [F64.round_iff (zpow_ten_nonneg _ _)] at s1
    have hnl := s1.2.1
    unfold TooLarge at hnl
    rw [Rat.abs_of_nonneg (zpow_ten_nonneg _ _)] at hnl
    have a : ((10 ^ ((natDigits d).length - 1) : Nat) : Rat) * 10 ^ p ≤ d * 10 ^ p :=
      Rat.mul_le_mul_of_nonneg_right (Rat.natCast_le_natCast.mpr hpow) (Rat.le_of_lt (F64.ten_pos _))
    rw [← F64.ten_nat, ← F64.ten_add] at a
    refine Int.not_lt.mp fun hlt => ?_
    have b : (10 : Rat) ^ (309 : Int) ≤ 10 ^ (((natDigits d).length - 1 : Nat) + p) := by
      obtain ⟨j, hj⟩ : ∃ j : Nat, ((((natDigits d).length - 1 : Nat) : Int) + p) = 309 + j :=
        ⟨(((natDigits d).length - 1 : Nat) + p - 309).toNat, by omega⟩
      rw [hj, F64.ten_add, F64.ten_nat]
      have h1 : (1 : Rat) ≤ ((10 ^ j : Nat) : Rat) := by
        have : 1 ≤ 10 ^ j := Nat.one_le_pow _ _ (by decide)
        exact Rat.natCast_le_natCast.mpr this
      have := Rat.mul_le_mul_of_nonneg_left h1 (Rat.le_of_lt (F64.ten_pos 309))
      rwa [Rat.mul_one] at this
    have c : (2 ^ 54 - 1 : Rat) * 2 ^ 970 ≤ 10 ^ (309 : Int) := by decide +kernel
    exact hnl (Rat.le_trans c (Rat.le_trans b a))
  · rw [← s1]
    congr 1
    rw [hlen, hval, Rat.natCast_mul, ← F64.ten_nat, Rat.mul_assoc, ← F64.ten_add]
    congr 2
    simp only [List.length_cons]
    omega

/-! ### Writing -/

/-- A literal in pieces. -/
def Literal (lit : Str) (x : Rat) : Prop := ∃ int frac exp : Str, ∃ k : Int,
  lit = int ++ (if frac = [] then [] else b!"." ++ frac) ++ exp ∧
  (int = b!"0" ∨ ∃ c cs, int = c :: cs ∧ c ≠ 0x30 ∧ Digit c ∧ ∀ x ∈ cs, Digit x) ∧
  (∀ c ∈ frac, Digit c) ∧
  (exp = [] ∧ k = 0 ∨ ∃ e sign ds : Str, exp = e ++ sign ++ ds ∧ (e = b!"e" ∨ e = b!"E") ∧
    ds ≠ [] ∧ (∀ c ∈ ds, Digit c) ∧
    ((sign = [] ∨ sign = b!"+") ∧ k = exponent ds ∨ sign = b!"-" ∧ k = -(exponent ds : Int))) ∧
  x = numeral (int ++ frac) * 10 ^ (k - frac.length)

theorem Literal.value {lit : Str} {x : Rat} (h : Literal lit x) (neg : Bool) :
    NumberValue ((if neg then b!"-" else []) ++ lit) neg x := by
  obtain ⟨int, frac, exp, k, rfl, hi, hf, he, rfl⟩ := h
  refine ⟨int, frac, exp, k, by simp [List.append_assoc], ?_, ?_, he, rfl⟩
  · rcases hi with rfl | ⟨c, cs, rfl, -⟩ <;> simp
  · intro c hc
    rcases List.mem_append.mp hc with hc | hc
    · rcases hi with rfl | ⟨c', cs, rfl, -, h1, h2⟩
      · rw [List.mem_singleton.mp hc]; unfold Digit; decide
      · rcases List.mem_cons.mp hc with rfl | hc
        · exact h1
        · exact h2 c hc
    · exact hf c hc

theorem Literal.text {lit : Str} {x : Rat} (h : Literal lit x) (neg : Bool) :
    NumberText ((if neg then b!"-" else []) ++ lit) := by
  obtain ⟨int, frac, exp, k, rfl, hi, hf, he, rfl⟩ := h
  refine ⟨if neg then b!"-" else [], int, if frac = [] then [] else b!"." ++ frac, exp,
    by simp [List.append_assoc], ?_, hi, ?_, ?_⟩
  · cases neg
    · exact Or.inl rfl
    · exact Or.inr rfl
  · by_cases h0 : frac = []
    · exact Or.inl (by rw [if_pos h0])
    · exact Or.inr ⟨frac, h0, hf, by rw [if_neg h0]⟩
  · rcases he with ⟨rfl, -⟩ | ⟨e, sign, ds, rfl, he, hne, hd, hs⟩
    · exact Or.inl rfl
    · refine Or.inr ⟨e, sign, ds, he, ?_, hne, hd, rfl⟩
      rcases hs with ⟨h | h, -⟩ | ⟨h, -⟩
      · exact Or.inl h
      · exact Or.inr (Or.inl h)
      · exact Or.inr (Or.inr h)

theorem numeral_zeros_append (n : Nat) (ds : Str) :
    numeral (List.replicate n 0x30 ++ ds) = numeral ds := by
  rw [numeral_append, numeral_zeros]; simp

theorem F64.fmtF_literal {ds : Str} {c : UInt8} {cs : Str} (hds : ds = c :: cs) (hc : c ≠ 0x30)
    (hd : ∀ x ∈ ds, Digit x) (dp : Int) :
    Literal (F64.fmtF ds dp) (numeral ds * 10 ^ (dp - ds.length)) := by
  have digit0 : Digit 0x30 := by unfold Digit; decide
  unfold F64.fmtF
  by_cases h0 : 0 < dp
  · rw [if_pos h0]
    obtain ⟨n, rfl⟩ : ∃ n : Nat, dp = n + 1 := ⟨(dp - 1).toNat, by omega⟩
    have hn : ((n : Int) + 1).toNat = n + 1 := by omega
    rw [hn]
    by_cases h1 : ((n : Int) + 1) < ds.length
    · rw [if_pos h1]
      have e0 : (-((n : Int) + 1)).toNat = 0 := by omega
      rw [e0]
      refine ⟨ds.take (n + 1), ds.drop (n + 1), [], 0, ?_, ?_, ?_, Or.inl ⟨rfl, rfl⟩, ?_⟩
      · rw [if_neg (by intro h; rw [List.drop_eq_nil_iff] at h; omega)]
        have : n + 1 - ds.length = 0 := by omega
        rw [this]; simp
      · right
        refine ⟨c, cs.take n, by rw [hds]; rfl, hc, hd c (by rw [hds]; simp), fun x hx => ?_⟩
        exact hd x (by rw [hds]; exact List.mem_cons_of_mem _ (List.mem_of_mem_take hx))
      · exact fun x hx => hd x (List.mem_of_mem_drop hx)
      · rw [List.take_append_drop]
        congr 2
        rw [List.length_drop]; omega
    · rw [if_neg h1]
      refine ⟨ds ++ List.replicate (n + 1 - ds.length) 0x30, [], [], 0, ?_, ?_, by simp,
        Or.inl ⟨rfl, rfl⟩, ?_⟩
      · have : ds.take (n + 1) = ds := List.take_of_length_le (by omega)
        rw [this]; simp
      · right
        refine ⟨c, cs ++ List.replicate (n + 1 - ds.length) 0x30, by rw [hds]; rfl, hc,
          hd c (by rw [hds]; simp), fun x hx => ?_⟩
        rcases List.mem_append.mp hx with hx | hx
        · exact hd x (by rw [hds]; exact List.mem_cons_of_mem _ hx)
        · rw [(List.mem_replicate.mp hx).2]; exact digit0
      · rw [List.append_nil, numeral_append, numeral_zeros, Nat.add_zero, List.length_replicate,
          Rat.natCast_mul, ← F64.ten_nat, Rat.mul_assoc, ← F64.ten_add]
        congr 2
        simp only [List.length_nil]
        omega
  · rw [if_neg h0]
    have hpos : 0 < ds.length := by rw [hds]; simp
    have h1 : dp < ds.length := by omega
    rw [if_pos h1]
    have e0 : dp.toNat = 0 := by omega
    rw [e0, List.drop_zero]
    refine ⟨b!"0", List.replicate (-dp).toNat 0x30 ++ ds, [], 0, ?_, Or.inl rfl, ?_,
      Or.inl ⟨rfl, rfl⟩, ?_⟩
    · rw [if_neg (by rw [hds]; simp)]; simp
    · intro x hx
      rcases List.mem_append.mp hx with hx | hx
      · rw [(List.mem_replicate.mp hx).2]; exact digit0
      · exact hd x hx
    · have : b!"0" ++ (List.replicate (-dp).toNat 0x30 ++ ds) =
          List.replicate ((-dp).toNat + 1) 0x30 ++ ds := by
        rw [List.replicate_succ]; rfl
      rw [this, numeral_zeros_append]
      congr 2
      rw [List.length_append, List.length_replicate]; omega

theorem exponent_natDigits {n : Nat} (h : n < 100000) : exponent (natDigits n) = n := by
  obtain ⟨h1, h2, ⟨c, cs, h3, h4⟩, h5⟩ := natDigits_spec n
  by_cases hn : n = 0
  · rw [h5 hn, hn]; rfl
  · have hlen : (natDigits n).length ≤ 5 := by
      refine Nat.not_lt.mp fun hlt => ?_
      have := natDigits_pow n hn
      have h6 : 10 ^ 5 ≤ 10 ^ ((natDigits n).length - 1) := Nat.pow_le_pow_right (by decide) (by omega)
      omega
    unfold exponent
    have : (natDigits n).dropWhile (· = 0x30) = natDigits n := by
      rw [h3, List.dropWhile_cons, if_neg (by simpa using h4 hn)]
    rw [this, List.take_of_length_le hlen, numeral_natDigits]

theorem F64.fmtE_literal {ds : Str} {c : UInt8} {cs : Str} (hds : ds = c :: cs) (hc : c ≠ 0x30)
    (hd : ∀ x ∈ ds, Digit x) {dp : Int} (h1 : -1074 ≤ dp) (h2 : dp ≤ 309) :
    Literal (F64.fmtE ds dp) (numeral ds * 10 ^ (dp - ds.length)) := by
  subst hds
  unfold F64.fmtE
  have hcs : ∀ x ∈ cs, Digit x := fun x hx => hd x (List.mem_cons_of_mem _ hx)
  have hdig : ∀ n, ∀ x ∈ natDigits n, Digit x := fun n x hx => isDigit_digit ((natDigits_spec n).1 x hx)
  have hne : ∀ n, natDigits n ≠ [] := by
    intro n h
    obtain ⟨-, -, ⟨c, cs, h3, -⟩, -⟩ := natDigits_spec n
    rw [h] at h3; cases h3
  refine ⟨[c], cs, b!"e" ++ (if dp - 1 < 0 then b!"-" else b!"+") ++
    natDigits (if dp - 1 < 0 then 1 - dp else dp - 1).toNat, dp - 1, ?_,
    Or.inr ⟨c, [], rfl, hc, hd c (by simp), by simp⟩, hcs, Or.inr ⟨b!"e", _, _, rfl, Or.inl rfl,
      hne _, hdig _, ?_⟩, ?_⟩
  · have : (if 1 < (c :: cs).length then 0x2E :: (c :: cs).drop 1 else []) =
        if cs = [] then [] else b!"." ++ cs := by
      cases cs <;> simp
    rw [this]
    by_cases h : dp - 1 < 0
    · rw [if_pos h, if_pos h, if_pos h]; simp
    · rw [if_neg h, if_neg h, if_neg h]; simp
  · split
    · refine Or.inr ⟨rfl, ?_⟩
      rw [exponent_natDigits (by omega)]; omega
    · refine Or.inl ⟨Or.inr rfl, ?_⟩
      rw [exponent_natDigits (by omega)]; omega
  · show _ = ((numeral (c :: cs) : Nat) : Rat) * _
    congr 2
    simp only [List.length_cons]; omega

/-- What is written for a number is a literal, and it is read as the number. -/
theorem F64.text_literal (f : F64) : ∃ lit x, f.text = (if f.neg then b!"-" else []) ++ lit ∧
    Literal lit x ∧ F64.round f.neg x = some f := by
  unfold F64.text
  by_cases h : f.mant = 0
  · have hd : f.digits = ([], 0) := by unfold F64.digits; rw [if_pos h]
    refine ⟨b!"0", 0, ?_, ⟨b!"0", [], [], 0, rfl, Or.inl rfl, by simp, Or.inl ⟨rfl, rfl⟩, ?_⟩, ?_⟩
    · rw [hd]
      have : ¬ (f.mant ≠ 0 ∧ (f.abs < F64.tiny ∨ 10 ^ 21 ≤ f.abs)) := fun h' => h'.1 h
      simp only [this, if_false]
      rfl
    · decide +kernel
    · have hz : f.abs = 0 := by
        unfold F64.abs; rw [h]
        have : ((0 : Nat) : Rat) = 0 := rfl
        rw [this, Rat.zero_mul]
      rw [← hz]
      exact f.round_abs
  · obtain ⟨c, cs, d1, d2, d3, d4, d5, d6⟩ := f.digits_spec h
    refine ⟨_, _, rfl, ?_, d6⟩
    split
    · exact F64.fmtE_literal d1 d2 d3 d4 d5
    · exact F64.fmtF_literal d1 d2 d3 _

theorem F64.text_number (f : F64) : NumberText f.text := by
  obtain ⟨lit, x, h, hl, -⟩ := f.text_literal
  rw [h]; exact hl.text _

theorem F64.parse_text (f : F64) : F64.parse f.text = some f := by
  obtain ⟨lit, x, h, hl, hr⟩ := f.text_literal
  rw [h, F64.parse_value (hl.value _)]
  exact hr

theorem itoa_literal (i : Int) : ∃ lit, itoa i = (if decide (i < 0) then b!"-" else []) ++ lit ∧
    Literal lit (i.natAbs : Rat) := by
  have key : ∀ n : Nat, Literal (natDigits n) (n : Rat) := by
    intro n
    obtain ⟨h1, -, ⟨c, cs, h3, h4⟩, h5⟩ := natDigits_spec n
    refine ⟨natDigits n, [], [], 0, by simp, ?_, by simp, Or.inl ⟨rfl, rfl⟩, ?_⟩
    · by_cases hn : n = 0
      · exact Or.inl (h5 hn)
      · refine Or.inr ⟨c, cs, h3, h4 hn, isDigit_digit (h1 c (by rw [h3]; simp)), fun x hx => ?_⟩
        exact isDigit_digit (h1 x (by rw [h3]; exact List.mem_cons_of_mem _ hx))
    · rw [List.append_nil, numeral_natDigits]
      show _ = (n : Rat) * 10 ^ (0 : Int)
      rw [Rat.zpow_zero, Rat.mul_one]
  cases i with
  | ofNat n => exact ⟨natDigits n, by simp [itoa], key n⟩
  | negSucc n => exact ⟨natDigits (n + 1), by simp [itoa], key (n + 1)⟩

theorem itoa_number (i : Int) : NumberText (itoa i) := by
  obtain ⟨lit, h, hl⟩ := itoa_literal i
  rw [h]; exact hl.text _

theorem F64.parse_itoa (i : Int) : F64.parse (itoa i) = F64.round (decide (i < 0)) (i.natAbs : Rat) := by
  obtain ⟨lit, h, hl⟩ := itoa_literal i
  rw [h, F64.parse_value (hl.value _)]

theorem int_abs (i : Int) : (if decide (i < 0) then -(i.natAbs : Rat) else (i.natAbs : Rat)) = i := by
  cases i with
  | ofNat n =>
    have : ¬ (Int.ofNat n < 0) := by simp
    simp only [this, decide_false]
    rfl
  | negSucc n =>
    have : Int.negSucc n < 0 := Int.negSucc_lt_zero n
    simp only [this, decide_true, if_true]
    show -((n + 1 : Nat) : Rat) = ((Int.negSucc n : Int) : Rat)
    rw [Int.negSucc_eq, Rat.intCast_neg]
    rfl

/-- Integers that fit in 64 bits are not too large. -/
theorem F64.parse_integer {i : Int} (h1 : -2 ^ 63 ≤ i) (h2 : i < 2 ^ 64) :
    ∃ f, F64.parse (itoa i) = some f ∧ Nearest i f ∧ f.neg = decide (i < 0) := by
  have hx : (0 : Rat) ≤ (i.natAbs : Rat) := Rat.natCast_nonneg
  rw [F64.parse_itoa]
  cases hr : F64.round (decide (i < 0)) (i.natAbs : Rat) with
  | none =>
    exfalso
    by_cases h0 : (i.natAbs : Rat) = 0
    · unfold F64.round at hr
      rw [if_pos h0] at hr
      cases hr
    · rw [F64.round_none (by grind)] at hr
      have a : (i.natAbs : Rat) ≤ ((2 ^ 64 : Nat) : Rat) := Rat.natCast_le_natCast.mpr (by omega)
      have b : ¬ (2 ^ 54 - 1 : Rat) * 2 ^ (970 : Int) ≤ ((2 ^ 64 : Nat) : Rat) := by decide +kernel
      exact b (Rat.le_trans hr a)
  | some f =>
    rw [F64.round_iff hx] at hr
    refine ⟨f, rfl, ?_, hr.1⟩
    have := hr.2.2
    rwa [int_abs] at this

/-- The conversion of an integer that fits in 64 bits. -/
theorem F64.parse_ofInt {i : Int} (h1 : -2 ^ 63 ≤ i) (h2 : i < 2 ^ 63) :
    F64.parse (itoa i) = some (F64.ofInt i) ∧ Nearest i (F64.ofInt i) := by
  obtain ⟨f, hf, hn, -⟩ := F64.parse_integer h1 (Int.lt_trans h2 (by decide))
  have e : F64.ofInt i = f := by
    unfold F64.ofInt
    rw [← F64.parse_itoa, hf]
    rfl
  rw [e]
  exact ⟨hf, hn⟩

/-- An integer other than zero is nearer to 1 or -1 than to zero. -/
theorem F64.nearest_ne_zero {i : Int} (h : i ≠ 0) {f : F64} (hf : Nearest i f) : f.value ≠ 0 := by
  intro h0
  have hc : ∀ s : Int, -2 ^ 53 < s → s < 2 ^ 53 → Binary64 s := fun s h1 h2 =>
    ⟨s, 0, by rw [Rat.zpow_zero, Rat.mul_one], h1, h2, by decide, by decide⟩
  by_cases hp : 0 < i
  · have := hf.near 1 (hc 1 (by decide) (by decide))
    rw [h0] at this
    have h1 : (1 : Rat) ≤ i := by
      have := Rat.intCast_le_intCast.mpr (show (1 : Int) ≤ i by omega)
      simpa using this
    unfold Rat.abs at this
    grind
  · have := hf.near ((-1 : Int) : Rat) (hc (-1) (by decide) (by decide))
    rw [h0] at this
    have h1 : (i : Rat) ≤ -1 := by
      have := Rat.intCast_le_intCast.mpr (show i ≤ (-1 : Int) by omega)
      simpa using this
    unfold Rat.abs at this
    grind

end OAuth2

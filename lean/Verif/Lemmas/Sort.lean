import Verif.Lemmas.Basic
import Verif.Model.Bytes

namespace OAuth2

theorem strLe_refl (a : Str) : strLe a a = true := by
  induction a with
  | nil => rfl
  | cons c cs ih =>
    have : ¬ c < c := by simp
    simp [strLe, ih]

theorem strLe_total (a b : Str) : strLe a b = true ∨ strLe b a = true := by
  induction a generalizing b with
  | nil => left; cases b <;> rfl
  | cons c cs ih =>
    cases b with
    | nil => right; rfl
    | cons d ds =>
      simp only [strLe]
      by_cases h1 : c < d
      · simp [h1]
      · by_cases h2 : d < c
        · simp [h2]
        · have : c = d := by
            apply u8_ext
            rw [UInt8.lt_iff_toNat_lt] at h1 h2
            omega
          subst this
          simpa using ih ds

theorem strLe_antisymm {a b : Str} (h1 : strLe a b = true) (h2 : strLe b a = true) : a = b := by
  induction a generalizing b with
  | nil => cases b with
    | nil => rfl
    | cons d ds => simp [strLe] at h2
  | cons c cs ih =>
    cases b with
    | nil => simp [strLe] at h1
    | cons d ds =>
      simp only [strLe] at h1 h2
      by_cases hcd : c = d
      · subst hcd
        have : ¬ c < c := by simp
        simp only [this, if_false, if_true] at h1 h2
        rw [ih h1 h2]
      · have hdc : ¬ d = c := fun h => hcd h.symm
        simp only [hcd, hdc, if_false] at h1 h2
        have h1' : c < d := by simpa using h1
        have h2' : d < c := by simpa using h2
        rw [UInt8.lt_iff_toNat_lt] at h1' h2'
        omega

theorem strLe_trans {a b c : Str} (h1 : strLe a b = true) (h2 : strLe b c = true) :
    strLe a c = true := by
  induction a generalizing b c with
  | nil => rfl
  | cons x xs ih =>
    cases b with
    | nil => simp [strLe] at h1
    | cons y ys =>
      cases c with
      | nil => simp [strLe] at h2
      | cons z zs =>
        simp only [strLe] at h1 h2 ⊢
        by_cases hxy : x < y
        · by_cases hyz : y < z
          · have : x < z := by rw [UInt8.lt_iff_toNat_lt] at *; omega
            simp [this]
          · simp only [hyz, if_false] at h2
            split at h2
            · rename_i e; subst e; simp [hxy]
            · contradiction
        · simp only [hxy, if_false] at h1
          split at h1
          · rename_i e
            subst e
            by_cases hyz : x < z
            · simp [hyz]
            · simp only [hyz, if_false] at h2 ⊢
              split at h2
              · rename_i e
                rw [if_pos e]
                exact ih h1 h2
              · contradiction
          · contradiction

theorem insertBy_perm {α : Type} (le : α → α → Bool) (x : α) (l : List α) :
    (insertBy le x l).Perm (x :: l) := by
  induction l with
  | nil => exact List.Perm.refl _
  | cons y ys ih =>
    simp only [insertBy]
    split
    · exact List.Perm.refl _
    · exact (List.Perm.cons y ih).trans (List.Perm.swap x y ys)

theorem sortBy_perm {α : Type} (le : α → α → Bool) (l : List α) : (sortBy le l).Perm l := by
  induction l with
  | nil => exact List.Perm.refl _
  | cons x xs ih => exact (insertBy_perm le x _).trans (List.Perm.cons x ih)

theorem insertBy_sorted (x : Str) (l : List Str)
    (h : l.Pairwise fun a b => strLe a b = true) :
    (insertBy strLe x l).Pairwise fun a b => strLe a b = true := by
  induction l with
  | nil => simp [insertBy]
  | cons y ys ih =>
    simp only [insertBy]
    split
    · rename_i hxy
      refine List.Pairwise.cons ?_ h
      intro z hz
      rcases List.mem_cons.mp hz with rfl | hz
      · exact hxy
      · exact strLe_trans hxy (List.rel_of_pairwise_cons h hz)
    · rename_i hxy
      have hyx : strLe y x = true := (strLe_total y x).resolve_right hxy
      refine List.Pairwise.cons ?_ (ih h.of_cons)
      intro z hz
      rcases List.mem_cons.mp ((insertBy_perm strLe x ys).mem_iff.mp hz) with rfl | hz
      · exact hyx
      · exact List.rel_of_pairwise_cons h hz

theorem sortStrings_sorted (l : List Str) :
    (sortStrings l).Pairwise fun a b => strLe a b = true := by
  induction l with
  | nil => exact List.Pairwise.nil
  | cons x xs ih => exact insertBy_sorted x _ ih

theorem sortStrings_perm (l : List Str) : (sortStrings l).Perm l := sortBy_perm _ _

theorem sorted_perm_eq {l₁ l₂ : List Str} (hp : l₁.Perm l₂)
    (h1 : l₁.Pairwise fun a b => strLe a b = true)
    (h2 : l₂.Pairwise fun a b => strLe a b = true) : l₁ = l₂ := by
  induction l₁ generalizing l₂ with
  | nil => exact hp.nil_eq
  | cons x xs ih =>
    cases l₂ with
    | nil => exact absurd hp.symm.nil_eq (by simp)
    | cons y ys =>
      have hxy : x = y := by
        have hx : x ∈ y :: ys := hp.mem_iff.mp (List.mem_cons_self ..)
        have hy : y ∈ x :: xs := hp.mem_iff.mpr (List.mem_cons_self ..)
        rcases List.mem_cons.mp hx with e | hx
        · exact e
        · rcases List.mem_cons.mp hy with e | hy
          · exact e.symm
          · exact strLe_antisymm (List.rel_of_pairwise_cons h1 hy) (List.rel_of_pairwise_cons h2 hx)
      subst hxy
      rw [ih (List.Perm.cons_inv hp) h1.of_cons h2.of_cons]

/-- Sorting forgets the order of its input. -/
theorem sortStrings_of_perm {l₁ l₂ : List Str} (h : l₁.Perm l₂) :
    sortStrings l₁ = sortStrings l₂ :=
  sorted_perm_eq ((sortStrings_perm l₁).trans (h.trans (sortStrings_perm l₂).symm))
    (sortStrings_sorted l₁) (sortStrings_sorted l₂)

end OAuth2

import Mathlib.Algebra.Order.BigOperators.Group.Finset
import Mathlib.Algebra.BigOperators.Fin
import Mathlib.Algebra.BigOperators.Ring.Finset
import Mathlib.Data.Fintype.BigOperators
import Mathlib.SetTheory.Cardinal.Finite

/-! Counting the outcomes of independent draws. -/

namespace OAuth2

section
variable {ι K S : Type} [Fintype ι] [DecidableEq ι] [Fintype K]

/-- If, whatever the other draws are, all outcomes of one draw that lead to an event have the same value,
then the event is no more frequent than a value. -/
theorem count_one (f : K → S) {F : Nat} (hF : ∀ v, Nat.card {x : K // f x = v} ≤ F) (p : ι)
    (P : (ι → K) → Prop)
    (h : ∀ t t', P t → P t' → (∀ i, i ≠ p → t i = t' i) → f (t p) = f (t' p)) :
    Nat.card {t : ι → K // P t} * Fintype.card K ≤ F * Fintype.card (ι → K) := by
  classical
  have hF' : ∀ v, (Finset.univ.filter fun x => f x = v).card ≤ F := by
    intro v
    have := hF v
    rwa [Nat.card_eq_fintype_card, Fintype.card_subtype] at this
  rw [Nat.card_eq_fintype_card, Fintype.card_subtype]
  let g : (ι → K) → ({i // i ≠ p} → K) := fun t i => t i
  have h1 : (Finset.univ.filter P).card ≤ F * ((Finset.univ.filter P).image g).card := by
    refine Finset.card_le_mul_card_image _ _ fun b hb => ?_
    obtain ⟨t, ht, rfl⟩ := Finset.mem_image.mp hb
    have ht := (Finset.mem_filter.mp ht).2
    refine le_trans ?_ (hF' (f (t p)))
    refine Finset.card_le_card_of_injOn (fun t' => t' p) ?_ ?_
    · intro t' ht'
      have ht' := Finset.mem_filter.mp (Finset.mem_coe.mp ht')
      have hP := (Finset.mem_filter.mp ht'.1).2
      simp only [Finset.coe_filter, Finset.mem_univ, true_and, Set.mem_ofPred_eq]
      exact h _ _ hP ht fun i hi => congrFun ht'.2 ⟨i, hi⟩
    · intro x hx y hy hxy
      have hx := (Finset.mem_filter.mp (Finset.mem_coe.mp hx)).2
      have hy := (Finset.mem_filter.mp (Finset.mem_coe.mp hy)).2
      funext i
      by_cases hi : i = p
      · subst hi; exact hxy
      · exact congrFun (hx.trans hy.symm) ⟨i, hi⟩
  have h2 : ((Finset.univ.filter P).image g).card ≤ Fintype.card ({i // i ≠ p} → K) := Finset.card_le_univ _
  have h3 : Fintype.card ({i // i ≠ p} → K) * Fintype.card K = Fintype.card (ι → K) := by
    rw [Fintype.card_fun, Fintype.card_fun, ← pow_succ]
    congr 1
    rw [Fintype.card_subtype_compl, Fintype.card_subtype_eq]
    have : 0 < Fintype.card ι := Fintype.card_pos_iff.mpr ⟨p⟩
    omega
  calc _ ≤ F * Fintype.card ({i // i ≠ p} → K) * Fintype.card K :=
        Nat.mul_le_mul_right _ (h1.trans (Nat.mul_le_mul_left _ h2))
    _ = _ := by rw [mul_assoc, h3]

/-- The same for any of a number of events. -/
theorem count_any {J : Type} (f : K → S) {F : Nat} (hF : ∀ v, Nat.card {x : K // f x = v} ≤ F)
    (js : Finset J) (p : J → ι) (P : J → (ι → K) → Prop)
    (h : ∀ j ∈ js, ∀ t t', P j t → P j t' → (∀ i, i ≠ p j → t i = t' i) → f (t (p j)) = f (t' (p j)))
    (Q : (ι → K) → Prop) (hQ : ∀ t, Q t → ∃ j ∈ js, P j t) :
    Nat.card {t : ι → K // Q t} * Fintype.card K ≤ js.card * F * Fintype.card (ι → K) := by
  classical
  have h1 : (Finset.univ.filter Q).card ≤ ∑ j ∈ js, (Finset.univ.filter (P j)).card := by
    refine (Finset.card_le_card ?_).trans Finset.card_biUnion_le
    intro t ht
    obtain ⟨j, hj, hP⟩ := hQ t (Finset.mem_filter.mp ht).2
    exact Finset.mem_biUnion.mpr ⟨j, hj, Finset.mem_filter.mpr ⟨Finset.mem_univ _, hP⟩⟩
  rw [Nat.card_eq_fintype_card, Fintype.card_subtype]
  refine (Nat.mul_le_mul_right _ h1).trans ?_
  rw [Finset.sum_mul, mul_assoc, ← smul_eq_mul js.card]
  refine Finset.sum_le_card_nsmul _ _ _ fun j hj => ?_
  have := count_one f hF (p j) (P j) (h j hj)
  rwa [Nat.card_eq_fintype_card, Fintype.card_subtype] at this

end

/-- The elements of a list at which something is. -/
theorem card_positions {α : Type} [DecidableEq α] (l : List α) (a : α) :
    (Finset.univ.filter fun i : Fin l.length => l[i] = a).card = l.count a := by
  rw [Finset.card_filter]
  induction l with
  | nil => rfl
  | cons x l ih =>
    have := Fin.sum_univ_succ (fun i : Fin (l.length + 1) => if (x :: l)[i] = a then 1 else 0)
    refine this.trans ?_
    rw [List.count_cons, ← ih, add_comm]
    refine congr (congrArg _ rfl) ?_
    by_cases h : x = a <;> simp [h]

noncomputable instance instFintypeUInt8 : Fintype UInt8 :=
  Fintype.ofEquiv (Fin 256) ⟨UInt8.ofFin, UInt8.toFin, fun _ => rfl, fun _ => rfl⟩

theorem card_u8 : Fintype.card UInt8 = 256 := by
  rw [Fintype.ofEquiv_card, Fintype.card_fin]

end OAuth2

import Verif.Model.Bytes
import Verif.Lemmas.Basic

namespace OAuth2

theorem splitByte_ne_nil (sep : UInt8) (s : Str) : splitByte sep s ≠ [] := by
  cases s with
  | nil => simp [splitByte]
  | cons c cs =>
    simp only [splitByte]
    split
    · simp
    · split <;> simp

theorem splitByte_no_sep {sep : UInt8} {s : Str} (h : sep ∉ s) : splitByte sep s = [s] := by
  induction s with
  | nil => rfl
  | cons c cs ih =>
    simp only [List.mem_cons, not_or] at h
    simp [splitByte, Ne.symm h.1, ih h.2]

theorem splitByte_append {sep : UInt8} {a : Str} (b : Str) (h : sep ∉ a) :
    splitByte sep (a ++ sep :: b) = a :: splitByte sep b := by
  induction a with
  | nil => simp [splitByte]
  | cons c cs ih =>
    simp only [List.mem_cons, not_or] at h
    simp [splitByte, Ne.symm h.1, ih h.2]

theorem splitByte_parts (sep : UInt8) (s : Str) : ∀ p ∈ splitByte sep s, sep ∉ p := by
  induction s with
  | nil => simp [splitByte]
  | cons c cs ih =>
    simp only [splitByte]
    split
    · simpa using ih
    · rename_i hc
      cases hs : splitByte sep cs with
      | nil => exact absurd hs (splitByte_ne_nil sep cs)
      | cons h t =>
        rw [hs] at ih
        intro p hp
        simp only [List.mem_cons] at hp
        rcases hp with rfl | hp
        · simp only [List.mem_cons, not_or]
          exact ⟨fun e => hc e.symm, ih h (by simp)⟩
        · exact ih p (by simp [hp])

theorem joinStr_cons (sep x : Str) (l : List Str) (h : l ≠ []) :
    joinStr sep (x :: l) = x ++ sep ++ joinStr sep l := by
  cases l with
  | nil => exact absurd rfl h
  | cons y ys => rfl

theorem joinStr_splitByte (sep : UInt8) (s : Str) : joinStr [sep] (splitByte sep s) = s := by
  induction s with
  | nil => rfl
  | cons c cs ih =>
    simp only [splitByte]
    split
    · rename_i hc
      rw [joinStr_cons _ _ _ (splitByte_ne_nil sep cs), ih]
      simp [hc]
    · cases hs : splitByte sep cs with
      | nil => exact absurd hs (splitByte_ne_nil sep cs)
      | cons h t =>
        rw [hs] at ih
        cases t with
        | nil => simpa [joinStr] using ih
        | cons y ys =>
          simp only [joinStr] at ih ⊢
          simp [← ih]

theorem splitByte_joinStr {sep : UInt8} {l : List Str} (hne : l ≠ []) (h : ∀ p ∈ l, sep ∉ p) :
    splitByte sep (joinStr [sep] l) = l := by
  induction l with
  | nil => exact absurd rfl hne
  | cons x l ih =>
    cases l with
    | nil => exact splitByte_no_sep (h x (by simp))
    | cons y ys =>
      rw [joinStr_cons _ _ _ (by simp), List.append_assoc]
      rw [List.singleton_append, splitByte_append _ (h x (by simp))]
      rw [ih (by simp) fun p hp => h p (by simp [hp])]

/-- Splitting gives exactly two parts iff the separator occurs exactly once. -/
theorem splitByte_pair_iff (sep : UInt8) (s a b : Str) :
    splitByte sep s = [a, b] ↔ s = a ++ sep :: b ∧ sep ∉ a ∧ sep ∉ b := by
  constructor
  · intro h
    have hp := splitByte_parts sep s
    have hj := joinStr_splitByte sep s
    rw [h] at hp hj
    refine ⟨?_, hp a (by simp), hp b (by simp)⟩
    rw [← hj]; simp [joinStr]
  · rintro ⟨rfl, ha, hb⟩
    rw [splitByte_append _ ha, splitByte_no_sep hb]

/-! ### cutByte -/

theorem cutByte_append {sep : UInt8} {a : Str} (b : Str) (h : sep ∉ a) :
    cutByte sep (a ++ sep :: b) = some (a, b) := by
  induction a with
  | nil => simp [cutByte]
  | cons c cs ih =>
    simp only [List.mem_cons, not_or] at h
    simp [cutByte, Ne.symm h.1, ih h.2]

theorem cutByte_none_iff (sep : UInt8) (s : Str) : cutByte sep s = none ↔ sep ∉ s := by
  induction s with
  | nil => simp [cutByte]
  | cons c cs ih =>
    simp only [cutByte, List.mem_cons, not_or]
    by_cases hc : c = sep
    · simp [hc]
    · simp only [hc, if_false]
      cases hs : cutByte sep cs with
      | none => simp [ih.mp hs, Ne.symm hc]
      | some p =>
        have : ¬ sep ∉ cs := fun h => by rw [ih.mpr h] at hs; cases hs
        simp [this]

theorem cutByte_some_iff (sep : UInt8) (s a b : Str) :
    cutByte sep s = some (a, b) ↔ s = a ++ sep :: b ∧ sep ∉ a := by
  constructor
  · intro h
    induction s generalizing a with
    | nil => simp [cutByte] at h
    | cons c cs ih =>
      simp only [cutByte] at h
      by_cases hc : c = sep
      · simp only [hc, if_true, Option.some.injEq, Prod.mk.injEq] at h
        obtain ⟨rfl, rfl⟩ := h
        simp [hc]
      · simp only [hc, if_false] at h
        cases hs : cutByte sep cs with
        | none => simp [hs] at h
        | some p =>
          obtain ⟨a', r⟩ := p
          simp only [hs, Option.some.injEq, Prod.mk.injEq] at h
          obtain ⟨rfl, rfl⟩ := h
          obtain ⟨h1, h2⟩ := ih a' hs
          simp only [List.mem_cons, not_or]
          exact ⟨by rw [h1]; rfl, Ne.symm hc, h2⟩
  · rintro ⟨rfl, h⟩
    exact cutByte_append b h

theorem cutLastByte_append {sep : UInt8} (a : Str) {b : Str} (h : sep ∉ b) :
    cutLastByte sep (a ++ sep :: b) = some (a, b) := by
  have hb : cutLastByte sep b = none := by
    induction b with
    | nil => rfl
    | cons c cs ih =>
      simp only [List.mem_cons, not_or] at h
      simp [cutLastByte, ih h.2, Ne.symm h.1]
  induction a with
  | nil => simp [cutLastByte, hb]
  | cons c cs ih => simp [cutLastByte, ih]

theorem cutLastByte_none_iff (sep : UInt8) (s : Str) : cutLastByte sep s = none ↔ sep ∉ s := by
  induction s with
  | nil => simp [cutLastByte]
  | cons c cs ih =>
    simp only [cutLastByte, List.mem_cons, not_or]
    cases hs : cutLastByte sep cs with
    | some p =>
      have : ¬ sep ∉ cs := fun h => by rw [ih.mpr h] at hs; cases hs
      simp [this]
    | none =>
      have := ih.mp hs
      by_cases hc : c = sep
      · simp [hc]
      · simp [hc, Ne.symm hc, this]

theorem cutLastByte_some_iff (sep : UInt8) (s a b : Str) :
    cutLastByte sep s = some (a, b) ↔ s = a ++ sep :: b ∧ sep ∉ b := by
  constructor
  · intro h
    induction s generalizing a with
    | nil => simp [cutLastByte] at h
    | cons c cs ih =>
      simp only [cutLastByte] at h
      cases hs : cutLastByte sep cs with
      | some p =>
        obtain ⟨a', r⟩ := p
        simp only [hs, Option.some.injEq, Prod.mk.injEq] at h
        obtain ⟨rfl, rfl⟩ := h
        obtain ⟨h1, h2⟩ := ih a' hs
        exact ⟨by rw [h1]; rfl, h2⟩
      | none =>
        simp only [hs] at h
        by_cases hc : c = sep
        · simp only [hc, if_true, Option.some.injEq, Prod.mk.injEq] at h
          obtain ⟨rfl, rfl⟩ := h
          exact ⟨by simp [hc], (cutLastByte_none_iff sep cs).mp hs⟩
        · simp [hc] at h
  · rintro ⟨rfl, h⟩
    exact cutLastByte_append a h

/-! ### stripPrefix -/

theorem stripPrefix_some_iff (p s r : Str) : stripPrefix p s = some r ↔ s = p ++ r := by
  induction p generalizing s with
  | nil => simp [stripPrefix]
  | cons x xs ih =>
    cases s with
    | nil => simp [stripPrefix]
    | cons c cs =>
      simp only [stripPrefix]
      by_cases hx : x = c
      · simp [hx, ih]
      · simp [hx, Ne.symm hx]

theorem stripPrefix_append (p r : Str) : stripPrefix p (p ++ r) = some r :=
  (stripPrefix_some_iff p _ r).mpr rfl

theorem hasPrefix_iff (p s : Str) : hasPrefix p s = true ↔ ∃ r, s = p ++ r := by
  unfold hasPrefix
  rw [Option.isSome_iff_exists]
  simp only [stripPrefix_some_iff]

end OAuth2

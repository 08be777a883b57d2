import Verif.Lemmas.Bytes
import Verif.Spec.Scope

namespace OAuth2

open Spec

theorem mem_spaceSeqs_iff (x : Str) : x ∈ spaceSeqs ↔ IsSpaceChar x := by
  have h1 : ∀ x ∈ spaceSeqs, ∃ r ∈ whiteSpace, x = encodeRune r := by decide +kernel
  have h2 : ∀ r ∈ whiteSpace, encodeRune r ∈ spaceSeqs := by decide +kernel
  constructor
  · exact h1 x
  · rintro ⟨r, hr, rfl⟩; exact h2 r hr

theorem spaceSeqs_ne_nil : ∀ x ∈ spaceSeqs, x ≠ [] := by decide +kernel

theorem stripOne_none_iff (seqs : List Str) (s : Str) :
    stripOne seqs s = none ↔ ∀ x ∈ seqs, ∀ r, s ≠ x ++ r := by
  unfold stripOne
  rw [List.findSome?_eq_none_iff]
  constructor
  · intro h x hx r e
    have := h x hx
    rw [e, stripPrefix_append] at this
    cases this
  · intro h x hx
    cases hs : stripPrefix x s with
    | none => rfl
    | some r => exact absurd ((stripPrefix_some_iff _ _ _).mp hs) (h x hx r)

theorem stripOne_some {seqs : List Str} {s r : Str} (h : stripOne seqs s = some r) :
    ∃ x ∈ seqs, s = x ++ r := by
  unfold stripOne at h
  obtain ⟨x, hx, hs⟩ := List.exists_of_findSome?_eq_some h
  exact ⟨x, hx, (stripPrefix_some_iff _ _ _).mp hs⟩

theorem stripMany_spec (seqs : List Str) (hne : ∀ x ∈ seqs, x ≠ []) (n : Nat) (s : Str)
    (hn : s.length ≤ n) :
    ∃ parts : List Str, (∀ x ∈ parts, x ∈ seqs) ∧ s = parts.flatten ++ stripMany seqs n s ∧
      stripOne seqs (stripMany seqs n s) = none := by
  induction n generalizing s with
  | zero =>
    have : s = [] := List.length_eq_zero_iff.mp (by omega)
    subst this
    refine ⟨[], by simp, by simp [stripMany], ?_⟩
    rw [stripOne_none_iff]
    intro x hx r e
    have h0 := hne x hx
    simp only [stripMany] at e
    exact h0 (List.append_eq_nil_iff.mp e.symm).1
  | succ n ih =>
    simp only [stripMany]
    cases hs : stripOne seqs s with
    | none => exact ⟨[], by simp, by simp, hs⟩
    | some r =>
      obtain ⟨x, hx, e⟩ := stripOne_some hs
      have hxl : 0 < x.length := List.length_pos_iff.mpr (hne x hx)
      have hr : r.length ≤ n := by
        have := congrArg List.length e
        rw [List.length_append] at this
        omega
      obtain ⟨parts, hp, he, hd⟩ := ih r hr
      refine ⟨x :: parts, ?_, ?_, hd⟩
      · intro y hy
        rcases List.mem_cons.mp hy with rfl | hy
        · exact hx
        · exact hp y hy
      · rw [List.flatten_cons, List.append_assoc, ← he]; exact e

theorem stripMany_eq_self {seqs : List Str} {n : Nat} {s : Str} (h : stripOne seqs s = none) :
    stripMany seqs n s = s := by
  cases n with
  | zero => rfl
  | succ n => simp [stripMany, h]

theorem allSpace_flatten {parts : List Str} (h : ∀ x ∈ parts, x ∈ spaceSeqs) :
    AllSpace parts.flatten :=
  ⟨parts, fun x hx => (mem_spaceSeqs_iff x).mp (h x hx), rfl⟩

theorem trimLeft_spec (s : Str) :
    ∃ l, s = l ++ trimLeftSpace s ∧ AllSpace l ∧
      ∀ x rest, IsSpaceChar x → trimLeftSpace s ≠ x ++ rest := by
  obtain ⟨parts, hp, he, hd⟩ := stripMany_spec spaceSeqs spaceSeqs_ne_nil s.length s (Nat.le_refl _)
  refine ⟨parts.flatten, he, allSpace_flatten hp, ?_⟩
  intro x rest hx
  exact (stripOne_none_iff _ _).mp hd x ((mem_spaceSeqs_iff x).mpr hx) rest

theorem trimRight_spec (s : Str) :
    ∃ r, s = trimRightSpace s ++ r ∧ AllSpace r ∧
      ∀ x rest, IsSpaceChar x → trimRightSpace s ≠ rest ++ x := by
  have hne : ∀ x ∈ spaceSeqs.map List.reverse, x ≠ [] := by decide +kernel
  obtain ⟨parts, hp, he, hd⟩ := stripMany_spec (spaceSeqs.map List.reverse) hne s.length s.reverse
    (by simp)
  refine ⟨(parts.map List.reverse).reverse.flatten, ?_, ?_, ?_⟩
  · unfold trimRightSpace
    have := congrArg List.reverse he
    simp only [List.reverse_reverse, List.reverse_append, List.reverse_flatten] at this
    exact this
  · refine ⟨(parts.map List.reverse).reverse, ?_, rfl⟩
    intro x hx
    simp only [List.mem_reverse, List.mem_map] at hx
    obtain ⟨y, hy, rfl⟩ := hx
    obtain ⟨z, hz, rfl⟩ := List.mem_map.mp (hp y hy)
    rw [List.reverse_reverse]
    exact (mem_spaceSeqs_iff z).mp hz
  · intro x rest hx e
    have hx' : x.reverse ∈ spaceSeqs.map List.reverse :=
      List.mem_map.mpr ⟨x, (mem_spaceSeqs_iff x).mpr hx, rfl⟩
    refine (stripOne_none_iff _ _).mp hd x.reverse hx' rest.reverse ?_
    have := congrArg List.reverse e
    simpa [trimRightSpace] using this

theorem trimSpace_spec (s : Str) : IsTrimOf s (trimSpace s) := by
  obtain ⟨l, h1, h2, h3⟩ := trimLeft_spec s
  obtain ⟨r, h4, h5, h6⟩ := trimRight_spec (trimLeftSpace s)
  refine ⟨l, r, ?_, h2, h5, ?_, h6⟩
  · rw [List.append_assoc]; unfold trimSpace; rw [← h4]; exact h1
  · intro x rest hx e
    unfold trimSpace at e
    rw [e] at h4
    exact h3 x (rest ++ r) hx (by rw [h4]; simp)

theorem trimSpace_eq_self {t : Str} (h : Trimmed t) : trimSpace t = t := by
  have h1 : trimLeftSpace t = t := stripMany_eq_self ((stripOne_none_iff _ _).mpr
    fun x hx r e => h.1 x r ((mem_spaceSeqs_iff x).mp hx) e)
  have h2 : trimRightSpace t = t := by
    unfold trimRightSpace
    rw [stripMany_eq_self, List.reverse_reverse]
    rw [stripOne_none_iff]
    intro x hx r e
    obtain ⟨y, hy, rfl⟩ := List.mem_map.mp hx
    refine h.2 y r.reverse ((mem_spaceSeqs_iff y).mp hy) ?_
    have := congrArg List.reverse e
    simpa using this
  unfold trimSpace
  rw [h1, h2]

theorem trimSpace_trimmed (s : Str) : Trimmed (trimSpace s) := by
  obtain ⟨_, _, _, _, _, h⟩ := trimSpace_spec s
  exact h

theorem trimSpace_sublist (s : Str) : ∀ c ∈ trimSpace s, c ∈ s := by
  obtain ⟨l, r, h, _⟩ := trimSpace_spec s
  intro c hc
  rw [h]
  simp [hc]

theorem stripOne_append {seqs : List Str}
    (hpf : ∀ x ∈ seqs, ∀ y ∈ seqs, x <+: y → x = y) {x : Str} (hx : x ∈ seqs) (rest : Str) :
    stripOne seqs (x ++ rest) = some rest := by
  cases h : stripOne seqs (x ++ rest) with
  | none => exact absurd rfl ((stripOne_none_iff _ _).mp h x hx rest)
  | some r =>
    obtain ⟨y, hy, e⟩ := stripOne_some h
    have : x = y := by
      rcases List.append_eq_append_iff.mp e with ⟨m, h1, _⟩ | ⟨m, h1, _⟩
      · exact hpf x hx y hy ⟨m, h1.symm⟩
      · exact (hpf y hy x hx ⟨m, h1.symm⟩).symm
    subst this
    rw [List.append_cancel_left e]

theorem stripMany_flatten {seqs : List Str} (hne : ∀ x ∈ seqs, x ≠ [])
    (hpf : ∀ x ∈ seqs, ∀ y ∈ seqs, x <+: y → x = y) (parts : List Str)
    (hp : ∀ x ∈ parts, x ∈ seqs) (t : Str) (ht : stripOne seqs t = none) (n : Nat)
    (hn : (parts.flatten ++ t).length ≤ n) : stripMany seqs n (parts.flatten ++ t) = t := by
  induction parts generalizing n with
  | nil => simpa using stripMany_eq_self ht
  | cons x parts ih =>
    have hx := hp x (List.mem_cons_self ..)
    have hxl : 0 < x.length := List.length_pos_iff.mpr (hne x hx)
    simp only [List.flatten_cons, List.append_assoc, List.length_append] at hn ⊢
    cases n with
    | zero => omega
    | succ n =>
      rw [stripMany, stripOne_append hpf hx]
      exact ih (fun y hy => hp y (List.mem_cons_of_mem _ hy)) n (by rw [List.length_append]; omega)

theorem allSpace_parts {s : Str} (h : AllSpace s) :
    ∃ parts : List Str, (∀ x ∈ parts, x ∈ spaceSeqs) ∧ s = parts.flatten := by
  obtain ⟨parts, hp, rfl⟩ := h
  exact ⟨parts, fun x hx => (mem_spaceSeqs_iff x).mpr (hp x hx), rfl⟩

theorem isTrimOf_unique {s t : Str} (h : IsTrimOf s t) : t = trimSpace s := by
  obtain ⟨l, r, rfl, hl, hr, ht⟩ := h
  obtain ⟨lp, hlp, rfl⟩ := allSpace_parts hl
  obtain ⟨rp, hrp, rfl⟩ := allSpace_parts hr
  have pf1 : ∀ x ∈ spaceSeqs, ∀ y ∈ spaceSeqs, x <+: y → x = y := by decide +kernel
  have pf2 : ∀ x ∈ spaceSeqs.map List.reverse, ∀ y ∈ spaceSeqs.map List.reverse,
      x <+: y → x = y := by decide +kernel
  have ne2 : ∀ x ∈ spaceSeqs.map List.reverse, x ≠ [] := by decide +kernel
  by_cases ht0 : t = []
  · subst ht0
    have h0 : stripOne spaceSeqs [] = none := by decide +kernel
    have : trimLeftSpace (lp.flatten ++ [] ++ rp.flatten) = [] := by
      unfold trimLeftSpace
      have := stripMany_flatten spaceSeqs_ne_nil pf1 (lp ++ rp)
        (fun x hx => (List.mem_append.mp hx).elim (hlp x) (hrp x)) [] h0
        (lp.flatten ++ [] ++ rp.flatten).length (by simp)
      simpa using this
    unfold trimSpace
    rw [this]; decide +kernel
  · have hleft : stripOne spaceSeqs (t ++ rp.flatten) = none := by
      rw [stripOne_none_iff]
      intro x hx rest e
      rcases List.append_eq_append_iff.mp e with ⟨m, h1, h2⟩ | ⟨m, h1, _⟩
      · cases m with
        | nil =>
          rw [List.append_nil] at h1
          exact ht.1 x [] ((mem_spaceSeqs_iff x).mp hx) (by simp [h1])
        | cons c m =>
          have hc1 : ∀ x ∈ spaceSeqs, ∀ c ∈ x.tail, 0x80 ≤ c ∧ c < 0xC0 := by decide +kernel
          have hc2 : ∀ x ∈ spaceSeqs, ∀ c ∈ x.head?, ¬ (0x80 ≤ c ∧ c < 0xC0) := by decide +kernel
          have hcx : c ∈ x.tail := by
            cases t with
            | nil => exact absurd rfl ht0
            | cons d t => rw [h1]; simp
          cases rp with
          | nil => simp at h2
          | cons y rp =>
            have hy := hrp y (List.mem_cons_self ..)
            cases y with
            | nil => exact absurd rfl (spaceSeqs_ne_nil _ hy)
            | cons d y =>
              simp only [List.flatten_cons, List.cons_append, List.cons.injEq] at h2
              obtain ⟨rfl, _⟩ := h2
              exact hc2 _ hy d (by simp) (hc1 x hx d hcx)
      · exact ht.1 x m ((mem_spaceSeqs_iff x).mp hx) h1
    have h1 : trimLeftSpace (lp.flatten ++ t ++ rp.flatten) = t ++ rp.flatten := by
      unfold trimLeftSpace
      have := stripMany_flatten spaceSeqs_ne_nil pf1 lp hlp (t ++ rp.flatten) hleft
        (lp.flatten ++ t ++ rp.flatten).length (by simp)
      rw [List.append_assoc] at this ⊢
      exact this
    have h2 : trimRightSpace (t ++ rp.flatten) = t := by
      unfold trimRightSpace
      have hd : stripOne (spaceSeqs.map List.reverse) t.reverse = none := by
        rw [stripOne_none_iff]
        intro x hx rest e
        obtain ⟨y, hy, rfl⟩ := List.mem_map.mp hx
        refine ht.2 y rest.reverse ((mem_spaceSeqs_iff y).mp hy) ?_
        have := congrArg List.reverse e
        simpa using this
      have := stripMany_flatten ne2 pf2 (rp.map List.reverse).reverse ?_ t.reverse hd
        (t ++ rp.flatten).length (by
          rw [← List.reverse_flatten, List.length_append, List.length_append,
            List.length_reverse, List.length_reverse]; omega)
      · rw [List.reverse_append, List.reverse_flatten, this, List.reverse_reverse]
      · intro x hx
        simp only [List.mem_reverse, List.mem_map] at hx ⊢
        obtain ⟨y, hy, rfl⟩ := hx
        exact ⟨y, hrp y hy, rfl⟩
    unfold trimSpace
    rw [h1, h2]

end OAuth2

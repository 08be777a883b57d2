import Verif.Spec.Navigate
import Verif.Lemmas.Bytes
import Verif.Lemmas.Encoding
import Verif.Lemmas.Target
import Verif.Lemmas.UrlString

/-!
Paths of redirects: `net/url` against RFC 3986, section 5.2.4.
-/

namespace OAuth2

open Spec

/-! ### Segments -/

/-- Segments, each after a slash. -/
def slashed (l : List Str) : Str := l.flatMap fun s => 0x2F :: s

theorem slashed_append (a b : List Str) : slashed (a ++ b) = slashed a ++ slashed b := by
  simp [slashed]

theorem slashed_join {l : List Str} (h : l ≠ []) : slashed l = 0x2F :: joinStr [0x2F] l := by
  induction l with
  | nil => exact absurd rfl h
  | cons x l ih =>
    cases l with
    | nil => simp [slashed, joinStr]
    | cons y ys =>
      rw [joinStr_cons _ _ _ (by simp)]
      have := ih (by simp)
      rw [show slashed (x :: y :: ys) = 0x2F :: x ++ slashed (y :: ys) from by simp [slashed], this]
      simp

theorem joinStr_snoc {sep : Str} {l : List Str} (h : l ≠ []) (x : Str) :
    joinStr sep (l ++ [x]) = joinStr sep l ++ sep ++ x := by
  induction l with
  | nil => exact absurd rfl h
  | cons y l ih =>
    cases l with
    | nil => simp [joinStr]
    | cons z zs =>
      rw [List.cons_append, joinStr_cons sep y (z :: zs ++ [x]) (by simp), ih (by simp),
        joinStr_cons sep y (z :: zs) (by simp)]
      simp

/-- What is left after a segment. -/
def climb (stack : List Str) (s : Str) : List Str :=
  if s = b!"." then stack else if s = b!".." then stack.dropLast else stack ++ [s]

/-- A segment with something in it. -/
def Segment (s : Str) : Prop := s ≠ [] ∧ 0x2F ∉ s

theorem climb_segments {stack : List Str} {s : Str} (hs : Segment s) (h : ∀ x ∈ stack, Segment x) :
    ∀ x ∈ climb stack s, Segment x := by
  unfold climb
  split
  · exact h
  · split
    · exact fun x hx => h x (List.dropLast_subset _ hx)
    · intro x hx
      rcases List.mem_append.mp hx with hx | hx
      · exact h x hx
      · rw [List.mem_singleton.mp hx]; exact hs

/-- What the loop of `resolvePath` has written. -/
def Copied (st : Resolving) (stack : List Str) : Prop :=
  stack = [] ∧ st.dst = [] ∨
  stack ≠ [] ∧ st.first = false ∧
    (st.dst = joinStr [0x2F] stack ∨ st.dst = 0x2F :: joinStr [0x2F] stack)

theorem join_head {l : List Str} (h : ∀ x ∈ l, Segment x) : (joinStr [0x2F] l).head? ≠ some 0x2F := by
  cases l with
  | nil => simp [joinStr]
  | cons x l =>
    obtain ⟨hx, hx'⟩ := h x (by simp)
    cases x with
    | nil => exact absurd rfl hx
    | cons c cs =>
      have : c ≠ 0x2F := fun e => hx' (by simp [e])
      cases l with
      | nil => simpa [joinStr] using this
      | cons y ys => rw [joinStr_cons _ _ _ (by simp)]; simpa using this

theorem snoc_cases (l : List α) : l = [] ∨ ∃ a x, l = a ++ [x] := by
  rcases List.eq_nil_or_concat l with h | ⟨a, x, h⟩
  · exact Or.inl h
  · exact Or.inr ⟨a, x, by simpa using h⟩

theorem written_step {st : Resolving} {stack : List Str} {s : Str}
    (hst : ∀ x ∈ stack, Segment x) (h : Copied st stack) : Copied (st.step s) (climb stack s) := by
  unfold Resolving.step climb
  split
  · rcases h with ⟨h1, h2⟩ | ⟨h1, h2, h3⟩
    · exact Or.inl ⟨h1, h2⟩
    · exact Or.inr ⟨h1, rfl, h3⟩
  · split
    · rcases h with ⟨h1, h2⟩ | ⟨h1, h2, h3⟩
      · subst h1
        rw [h2]
        exact Or.inl ⟨rfl, rfl⟩
      · rcases snoc_cases stack with e | ⟨a, x, e⟩
        · exact absurd e h1
        · subst e
          rw [List.dropLast_concat]
          have hx := (hst x (by simp)).2
          rcases snoc_cases a with ea | ⟨b, y, ea⟩
          · subst ea
            have e1 : joinStr [0x2F] ([] ++ [x]) = x := rfl
            rw [e1] at h3
            rcases h3 with h3 | h3
            · rw [h3, (cutLastByte_none_iff _ _).mpr hx]
              exact Or.inl ⟨rfl, rfl⟩
            · rw [h3, show (0x2F : UInt8) :: x = [] ++ 0x2F :: x from rfl, cutLastByte_append _ hx]
              exact Or.inl ⟨rfl, rfl⟩
          · have hne : a ≠ [] := by rw [ea]; simp
            rw [joinStr_snoc hne] at h3
            rcases h3 with h3 | h3
            · rw [h3, List.append_assoc, List.singleton_append, cutLastByte_append _ hx]
              exact Or.inr ⟨hne, h2, Or.inl rfl⟩
            · rw [h3, ← List.cons_append, ← List.cons_append, List.append_assoc, List.singleton_append,
                cutLastByte_append _ hx]
              exact Or.inr ⟨hne, h2, Or.inr rfl⟩
    · refine Or.inr ⟨by simp, rfl, ?_⟩
      rcases h with ⟨h1, h2⟩ | ⟨h1, h2, h3⟩
      · subst h1
        rw [h2]
        cases st.first
        · exact Or.inr rfl
        · exact Or.inl rfl
      · rw [h2, joinStr_snoc h1]
        rcases h3 with h3 | h3
        · exact Or.inl (by rw [h3]; simp)
        · exact Or.inr (by rw [h3]; simp)

theorem written_fold {l : List Str} (hl : ∀ s ∈ l, Segment s) {st : Resolving} {stack : List Str}
    (hst : ∀ x ∈ stack, Segment x) (h : Copied st stack) :
    Copied (l.foldl Resolving.step st) (l.foldl climb stack) ∧
      ∀ x ∈ l.foldl climb stack, Segment x := by
  induction l generalizing st stack with
  | nil => exact ⟨h, hst⟩
  | cons s l ih =>
    have hs := hl s (by simp)
    exact ih (fun x hx => hl x (by simp [hx])) (climb_segments hs hst) (written_step hst h)

/-- What a path ends with. -/
def ending (stack : List Str) (s : Str) : Str :=
  slashed (if s = [] then stack else climb stack s) ++
    if s = [] ∨ s = b!"." ∨ s = b!".." then [0x2F] else []

theorem strip_cons (d : Str) : (stripPrefix [0x2F] (0x2F :: d)).getD (0x2F :: d) = d := by
  rw [show (0x2F : UInt8) :: d = [0x2F] ++ d from rfl, stripPrefix_append]; rfl

theorem strip_other {d : Str} (h : d.head? ≠ some 0x2F) : (stripPrefix [0x2F] d).getD d = d := by
  cases hs : stripPrefix [0x2F] d with
  | none => rfl
  | some r =>
    rw [stripPrefix_some_iff] at hs
    rw [hs] at h
    simp at h

/-- The library's path in terms of segments. -/
theorem resolveSegments_eq {l : List Str} (hl : ∀ s ∈ l, Segment s) {s : Str} (hs : 0x2F ∉ s)
    {full : Str} (hf : splitByte 0x2F full = l ++ [s] ∨ splitByte 0x2F full = [] :: (l ++ [s]))
    (hne : full ≠ []) :
    resolveSegments full = ending (l.foldl climb []) s := by
  -- the state before the last segment
  obtain ⟨st, hst, hfold, hlast⟩ : ∃ st : Resolving, Copied st (l.foldl climb []) ∧
      ((splitByte 0x2F full).foldl Resolving.step {}) = st.step s ∧
      (splitByte 0x2F full).getLast? = some s := by
    rcases hf with hf | hf
    · refine ⟨l.foldl Resolving.step {}, (written_fold hl (by simp) (Or.inl ⟨rfl, rfl⟩)).1, ?_, ?_⟩
      · rw [hf, List.foldl_append]; rfl
      · rw [hf]; simp
    · refine ⟨l.foldl Resolving.step (({} : Resolving).step []),
        (written_fold hl (by simp) (Or.inl ⟨rfl, by decide⟩)).1, ?_, ?_⟩
      · rw [hf, List.foldl_cons, List.foldl_append]; rfl
      · rw [hf, ← List.cons_append, List.getLast?_concat]
  have hseg := (written_fold hl (st := {}) (stack := []) (by simp) (Or.inl ⟨rfl, rfl⟩)).2
  generalize l.foldl climb [] = stack at hst hseg
  unfold resolveSegments
  rw [if_neg hne]
  simp only [hfold, hlast, Option.some.injEq]
  unfold ending
  by_cases h0 : s = []
  · subst h0
    rw [if_neg (by simp), if_pos rfl, if_pos (Or.inl rfl)]
    have e : (st.step []).dst = st.dst ++ (if st.first then [] else [0x2F]) := by
      simp [Resolving.step]
    rw [e]
    rcases hst with ⟨h1, h2⟩ | ⟨h1, h2, h3⟩
    · rw [h1, h2]
      cases st.first <;> decide
    · rw [h2, slashed_join h1]
      have hj := join_head hseg
      rcases h3 with h3 | h3
      · rw [h3, strip_other (by
          cases hjj : joinStr [0x2F] stack with
          | nil =>
            exfalso
            cases stack with
            | nil => exact h1 rfl
            | cons x xs =>
              have := (hseg x (by simp)).1
              cases xs with
              | nil => exact this (by simpa [joinStr] using hjj)
              | cons y ys => rw [joinStr_cons _ _ _ (by simp)] at hjj; simp at hjj
          | cons c cs => rw [hjj] at hj; simpa using hj)]
        rfl
      · rw [h3, List.cons_append, strip_cons]; rfl
  · have hs' : Segment s := ⟨h0, hs⟩
    have hw := written_step (s := s) hseg hst
    have hseg' := climb_segments hs' hseg
    rw [if_neg h0]
    by_cases hd : s = b!"." ∨ s = b!".."
    · rw [if_pos hd, if_pos (Or.inr hd)]
      rcases hw with ⟨h1, h2⟩ | ⟨h1, h2, h3⟩
      · rw [h1, h2]; decide
      · rw [slashed_join h1]
        have hj := join_head hseg'
        rcases h3 with h3 | h3
        · rw [h3, strip_other (by
            cases hjj : joinStr [0x2F] (climb stack s) with
            | nil =>
              exfalso
              generalize climb stack s = k at h1 hseg' hjj
              cases k with
              | nil => exact h1 rfl
              | cons x xs =>
                have := (hseg' x (by simp)).1
                cases xs with
                | nil => exact this (by simpa [joinStr] using hjj)
                | cons y ys => rw [joinStr_cons _ _ _ (by simp)] at hjj; simp at hjj
            | cons c cs => rw [hjj] at hj; simpa using hj)]
          rfl
        · rw [h3, List.cons_append, strip_cons]
    · rw [if_neg hd, if_neg (by
        rintro (h | h | h)
        · exact h0 h
        · exact hd (Or.inl h)
        · exact hd (Or.inr h)), List.append_nil]
      have hc : climb stack s = stack ++ [s] := by
        unfold climb
        rw [if_neg fun e => hd (Or.inl e), if_neg fun e => hd (Or.inr e)]
      rcases hw with ⟨h1, _⟩ | ⟨h1, h2, h3⟩
      · rw [hc] at h1; simp at h1
      · rw [slashed_join h1]
        rcases h3 with h3 | h3
        · rw [h3, strip_other (join_head hseg')]
        · rw [h3, strip_cons]

/-! ### RFC 3986 -/

theorem popped_slashed {l : List Str} (h : ∀ x ∈ l, Segment x) : Popped (slashed l) (slashed l.dropLast) := by
  rcases snoc_cases l with e | ⟨a, x, e⟩
  · subst e; exact .none (by simp [slashed])
  · subst e
    rw [List.dropLast_concat, slashed_append]
    have : slashed [x] = [0x2F] ++ x := by simp [slashed]
    rw [this, ← List.append_assoc]
    exact .slash (h x (by simp)).2

theorem slashed_start {l : List Str} : slashed l = [] ∨ (slashed l).head? = some 0x2F := by
  cases l with
  | nil => exact Or.inl rfl
  | cons x l => exact Or.inr rfl

/-- The path of RFC 3986 in terms of segments. -/
theorem removeDots_eq {l : List Str} (hl : ∀ s ∈ l, Segment s) {s : Str} (hs : 0x2F ∉ s)
    {stack : List Str} (hst : ∀ x ∈ stack, Segment x) :
    RemoveDots (slashed (l ++ [s])) (slashed stack) (ending (l.foldl climb stack) s) := by
  have hlast : ∀ out : Str, RemoveDots b!"/" out (out ++ [0x2F]) := by
    intro out
    refine RemoveDots.move (slash := b!"/") (s := []) (i := []) (Or.inr rfl) (by simp) (by decide)
      (by decide) (by decide) (Or.inl rfl) ?_
    simpa using RemoveDots.done
  induction l generalizing stack with
  | nil =>
    have e : slashed ([] ++ [s]) = 0x2F :: s := by simp [slashed]
    rw [e]
    unfold ending
    simp only [List.foldl_nil]
    by_cases h0 : s = []
    · subst h0
      rw [if_pos rfl, if_pos (Or.inl rfl)]
      exact hlast _
    · rw [if_neg h0]
      by_cases h1 : s = b!"."
      · subst h1
        rw [if_pos (Or.inr (Or.inl rfl))]
        refine RemoveDots.stayLast ?_
        have : climb stack b!"." = stack := by simp [climb]
        rw [this]
        exact hlast _
      · by_cases h2 : s = b!".."
        · subst h2
          rw [if_pos (Or.inr (Or.inr rfl))]
          have : climb stack b!".." = stack.dropLast := by
            unfold climb; rw [if_neg (by decide), if_pos rfl]
          rw [this]
          exact RemoveDots.backLast (popped_slashed hst) (hlast _)
        · rw [if_neg (by rintro (h | h | h); exact h0 h; exact h1 h; exact h2 h)]
          have : climb stack s = stack ++ [s] := by
            unfold climb; rw [if_neg h1, if_neg h2]
          rw [this, List.append_nil, slashed_append]
          have e2 : slashed [s] = [0x2F] ++ s := by simp [slashed]
          have := RemoveDots.move (slash := b!"/") (s := s) (i := []) (out := slashed stack)
            (Or.inr rfl) hs h1 h2 (by simp) (Or.inl rfl) RemoveDots.done
          rw [e2, ← List.append_assoc]
          simpa using this
  | cons x l ih =>
    have hx := hl x (by simp)
    have hl' : ∀ s ∈ l, Segment s := fun s h => hl s (by simp [h])
    have e : slashed (x :: l ++ [s]) = 0x2F :: (x ++ slashed (l ++ [s])) := by simp [slashed]
    have hr := ih hl' (climb_segments hx hst)
    rw [List.foldl_cons, e]
    -- the rest begins with a slash
    obtain ⟨t, ht⟩ : ∃ t, slashed (l ++ [s]) = 0x2F :: t := by
      rw [slashed_join (by simp)]; exact ⟨_, rfl⟩
    by_cases h1 : x = b!"."
    · subst h1
      have : climb stack b!"." = stack := by simp [climb]
      rw [this] at hr ⊢
      rw [ht] at hr ⊢
      exact RemoveDots.stay hr
    · by_cases h2 : x = b!".."
      · subst h2
        have : climb stack b!".." = stack.dropLast := by
          unfold climb; rw [if_neg (by decide), if_pos rfl]
        rw [this] at hr ⊢
        rw [ht] at hr ⊢
        exact RemoveDots.back (popped_slashed hst) hr
      · have : climb stack x = stack ++ [x] := by
          unfold climb; rw [if_neg h1, if_neg h2]
        rw [this] at hr ⊢
        rw [slashed_append stack [x]] at hr
        have e2 : slashed [x] = [0x2F] ++ x := by simp [slashed]
        rw [e2, ← List.append_assoc] at hr
        have := RemoveDots.move (slash := b!"/") (s := x) (Or.inr rfl) hx.2 h1 h2 (by simp)
          (by rw [ht]; exact Or.inr rfl) hr
        simpa using this

/-! ### Texts without two slashes in a row -/

theorem single_tail {c : UInt8} {p : Str} (h : Single (c :: p)) : Single p := by
  intro a b e
  exact h (c :: a) b (by rw [e]; simp)

theorem single_segments {p : Str} (h : Single (0x2F :: p)) :
    ∃ l s, splitByte 0x2F p = l ++ [s] ∧ (∀ x ∈ l, Segment x) ∧ 0x2F ∉ s := by
  rcases snoc_cases (splitByte 0x2F p) with e | ⟨l, s, e⟩
  · exact absurd e (splitByte_ne_nil _ _)
  · have hp := splitByte_parts 0x2F p
    refine ⟨l, s, e, ?_, hp s (by rw [e]; simp)⟩
    intro x hx
    refine ⟨?_, hp x (by rw [e]; simp [hx])⟩
    intro h0
    subst h0
    obtain ⟨a, b, rfl⟩ := List.append_of_mem hx
    have hj := joinStr_splitByte 0x2F p
    rw [e] at hj
    have e2 : slashed (a ++ [] :: b ++ [s]) = slashed a ++ b!"//" ++ joinStr [0x2F] (b ++ [s]) := by
      rw [List.append_assoc, slashed_append, List.cons_append,
        show slashed ([] :: (b ++ [s])) = [0x2F] ++ slashed (b ++ [s]) from by simp [slashed],
        slashed_join (l := b ++ [s]) (by simp)]
      simp
    rw [slashed_join (by simp), hj] at e2
    exact h _ _ e2

/-- The library removes dots as RFC 3986 says. -/
theorem resolveSegments_rfc {p : Str} (h : Single (0x2F :: p)) :
    RemoveDots (0x2F :: p) [] (resolveSegments (0x2F :: p)) ∧
    (p ≠ [] → resolveSegments p = resolveSegments (0x2F :: p)) := by
  obtain ⟨l, s, e, hl, hs⟩ := single_segments h
  have hsp : splitByte 0x2F (0x2F :: p) = [] :: (l ++ [s]) := by
    have := splitByte_append (sep := 0x2F) (a := []) p (by simp)
    rw [← e]; simpa using this
  have e1 := resolveSegments_eq hl hs (Or.inr hsp) (by simp)
  constructor
  · have := removeDots_eq hl hs (stack := []) (by simp)
    rw [slashed_join (by simp), ← e, joinStr_splitByte, ← e1] at this
    exact this
  · intro hp
    rw [e1]
    exact resolveSegments_eq hl hs (Or.inl e) hp

/-! ### What paths consist of -/

/-- All segments have the property. -/
def EachSegment (Q : Str → Prop) (p : Str) : Prop := ∀ x ∈ splitByte 0x2F p, Q x

theorem splitByte_append_sep (sep : UInt8) (a b : Str) :
    splitByte sep (a ++ sep :: b) = splitByte sep a ++ splitByte sep b := by
  induction a with
  | nil => simp [splitByte]
  | cons c a ih =>
    simp only [List.cons_append, splitByte]
    split
    · rw [ih]; rfl
    · rw [ih]
      cases hs : splitByte sep a with
      | nil => exact absurd hs (splitByte_ne_nil _ _)
      | cons h t => rfl

theorem each_append {Q : Str → Prop} {a b : Str} : EachSegment Q (a ++ 0x2F :: b) ↔ EachSegment Q a ∧ EachSegment Q b := by
  unfold EachSegment
  rw [splitByte_append_sep]
  constructor
  · exact fun h => ⟨fun x hx => h x (by simp [hx]), fun x hx => h x (by simp [hx])⟩
  · rintro ⟨h1, h2⟩ x hx
    rcases List.mem_append.mp hx with hx | hx
    · exact h1 x hx
    · exact h2 x hx

theorem each_nil {Q : Str → Prop} : EachSegment Q [] ↔ Q [] := by simp [EachSegment, splitByte]

theorem each_cons {Q : Str → Prop} {b : Str} : EachSegment Q (0x2F :: b) ↔ Q [] ∧ EachSegment Q b := by
  have := each_append (Q := Q) (a := []) (b := b)
  rwa [each_nil] at this

theorem each_segment {Q : Str → Prop} {x : Str} (h : 0x2F ∉ x) : EachSegment Q x ↔ Q x := by
  unfold EachSegment
  rw [splitByte_no_sep h]
  simp

theorem each_step {Q : Str → Prop} {st : Resolving} {x : Str} (hx : 0x2F ∉ x)
    (hQ : x ≠ b!"." → x ≠ b!".." → Q x) (h0 : Q [])
    (h : EachSegment Q st.dst ∧ (st.first = true → st.dst = [])) :
    EachSegment Q (st.step x).dst ∧ ((st.step x).first = true → (st.step x).dst = []) := by
  unfold Resolving.step
  split
  · exact ⟨h.1, fun e => nomatch e⟩
  · rename_i h1
    split
    · split
      · exact ⟨each_nil.mpr h0, fun _ => rfl⟩
      · rename_i before after hc
        obtain ⟨e, _⟩ := (cutLastByte_some_iff _ _ _ _).mp hc
        rw [e] at h
        refine ⟨(each_append.mp h.1).1, fun hf => ?_⟩
        have := h.2 hf
        simp at this
    · rename_i h2
      refine ⟨?_, fun e => nomatch e⟩
      simp only
      cases hf : st.first with
      | true =>
        rw [h.2 hf]
        simpa using (each_segment hx).mpr (hQ h1 h2)
      | false =>
        have := (each_append (Q := Q) (a := st.dst) (b := x)).mpr ⟨h.1, (each_segment hx).mpr (hQ h1 h2)⟩
        simpa using this

theorem each_resolve {Q : Str → Prop} (h0 : Q []) {full : Str}
    (h : EachSegment (fun x => x ≠ b!"." → x ≠ b!".." → Q x) full) : EachSegment Q (resolveSegments full) := by
  unfold resolveSegments
  by_cases hf : full = []
  · rw [if_pos hf]; exact each_nil.mpr h0
  rw [if_neg hf]
  have hfold : ∀ (l : List Str) (st : Resolving), (∀ x ∈ l, 0x2F ∉ x ∧ (x ≠ b!"." → x ≠ b!".." → Q x)) →
      EachSegment Q st.dst ∧ (st.first = true → st.dst = []) → EachSegment Q (l.foldl Resolving.step st).dst := by
    intro l
    induction l with
    | nil => exact fun st _ h => h.1
    | cons x l ih =>
      intro st hl hst
      have hx := hl x (by simp)
      exact ih _ (fun y hy => hl y (by simp [hy])) (each_step hx.1 hx.2 h0 hst)
  have hd := hfold (splitByte 0x2F full) {} (fun x hx => ⟨splitByte_parts _ _ x hx, h x hx⟩)
    ⟨each_nil.mpr h0, fun _ => rfl⟩
  simp only
  have hd' : ∀ d : Str, EachSegment Q d → EachSegment Q (0x2F :: (stripPrefix [0x2F] d).getD d) := by
    intro d hd
    rw [each_cons]
    refine ⟨h0, ?_⟩
    cases hs : stripPrefix [0x2F] d with
    | none => exact hd
    | some r =>
      rw [stripPrefix_some_iff] at hs
      subst hs
      exact (each_cons.mp hd).2
  split
  · refine hd' _ ?_
    rw [each_append]
    exact ⟨hd, each_nil.mpr h0⟩
  · exact hd' _ hd

/-- A path as it is written in requests. -/
def PathText (p : Str) : Prop := (∃ t, AnyPercent p t) ∧ validEncodedPath p = true

theorem percent_append {a b : Str} :
    (∃ t, AnyPercent (a ++ 0x2F :: b) t) ↔ (∃ t, AnyPercent a t) ∧ ∃ t, AnyPercent b t := by
  have hhex : ∀ n, ¬ HexDigit 0x2F n := by
    intro n h
    rw [hexDigit_iff] at h
    exact nomatch h
  constructor
  · rintro ⟨t, h⟩
    generalize e : a ++ 0x2F :: b = s at h
    induction h generalizing a with
    | nil => simp at e
    | @escape x y m n t s hx hy _ ht ih =>
      cases a with
      | nil => simp at e
      | cons c a =>
        cases a with
        | nil =>
          simp only [List.cons_append, List.nil_append, List.cons.injEq] at e
          rw [← e.2.1] at hx
          exact absurd hx (hhex _)
        | cons d a =>
          cases a with
          | nil =>
            simp only [List.cons_append, List.nil_append, List.cons.injEq] at e
            rw [← e.2.2.1] at hy
            exact absurd hy (hhex _)
          | cons f a =>
            simp only [List.cons_append, List.cons.injEq] at e
            obtain ⟨h1, h2, h3, h4⟩ := e
            obtain ⟨⟨u, hu⟩, hb⟩ := ih h4
            subst h1; subst h2; subst h3
            exact ⟨⟨_, .escape hx hy trivial hu⟩, hb⟩
    | @byte c t s hc _ ht ih =>
      cases a with
      | nil =>
        simp only [List.nil_append, List.cons.injEq] at e
        rw [← e.2] at ht
        exact ⟨⟨_, .nil⟩, _, ht⟩
      | cons d a =>
        simp only [List.cons_append, List.cons.injEq] at e
        obtain ⟨⟨u, hu⟩, hb⟩ := ih e.2
        rw [e.1]
        exact ⟨⟨_, .byte hc trivial hu⟩, hb⟩
  · rintro ⟨⟨t, ht⟩, u, hu⟩
    induction ht with
    | nil => exact ⟨_, .byte (by decide) trivial hu⟩
    | escape hx hy _ _ ih =>
      obtain ⟨v, hv⟩ := ih
      exact ⟨_, .escape hx hy trivial hv⟩
    | byte hc _ _ ih =>
      obtain ⟨v, hv⟩ := ih
      exact ⟨_, .byte hc trivial hv⟩

theorem pathText_append {a b : Str} : PathText (a ++ 0x2F :: b) ↔ PathText a ∧ PathText b := by
  unfold PathText
  rw [percent_append]
  have : validEncodedPath (a ++ 0x2F :: b) = (validEncodedPath a && validEncodedPath b) := by
    unfold validEncodedPath
    rw [List.all_append, List.all_cons]
    have : (b!"!$&'()*+,;=:@[]%".contains 0x2F || !shouldEscape 0x2F .path) = true := by decide
    rw [this, Bool.true_and]
  rw [this, Bool.and_eq_true]
  constructor
  · rintro ⟨⟨h1, h2⟩, h3, h4⟩; exact ⟨⟨h1, h3⟩, h2, h4⟩
  · rintro ⟨⟨h1, h3⟩, h2, h4⟩; exact ⟨⟨h1, h2⟩, h3, h4⟩

theorem pathText_nil : PathText [] := ⟨⟨_, .nil⟩, rfl⟩

theorem pathText_each (p : Str) : PathText p ↔ EachSegment PathText p := by
  have : ∀ l : List Str, l ≠ [] → (∀ x ∈ l, 0x2F ∉ x) →
      (PathText (joinStr [0x2F] l) ↔ ∀ x ∈ l, PathText x) := by
    intro l
    induction l with
    | nil => exact fun h => absurd rfl h
    | cons x l ih =>
      intro _ hl
      cases l with
      | nil => simp [joinStr]
      | cons y ys =>
        rw [joinStr_cons _ _ _ (by simp), List.append_assoc, List.singleton_append, pathText_append,
          ih (by simp) fun z hz => hl z (by simp [hz])]
        simp
  have h := this (splitByte 0x2F p) (splitByte_ne_nil _ _) (splitByte_parts _ _)
  rwa [joinStr_splitByte] at h

theorem pathText_escapedPath (u : URL) : PathText u.escapedPath := by
  have up : ∀ t s, unescape .path t = some s ↔ AnyPercent t s := unescape_any (by simp)
  unfold URL.escapedPath
  split
  · rename_i h
    exact ⟨⟨_, (up _ _).mp h.2.2⟩, h.2.1⟩
  · split
    · exact ⟨⟨_, (up _ [0x2A]).mp (by decide)⟩, by decide⟩
    · refine ⟨⟨_, (up _ _).mp (unescape_escape .path (by decide) (by decide) _)⟩, ?_⟩
      generalize u.path = s
      have hx : ∀ n : Fin 16, (b!"!$&'()*+,;=:@[]%".contains (hexUpper n.val) ||
          !shouldEscape (hexUpper n.val) .path) = true := by decide
      induction s with
      | nil => rfl
      | cons c s ih =>
        unfold validEncodedPath at ih ⊢
        unfold escape
        rw [if_neg (by simp)]
        split
        · rw [List.all_cons, List.all_cons, List.all_cons, ih,
            hx ⟨c.toNat / 16, by have := c.toNat_lt; omega⟩, hx ⟨c.toNat % 16, by omega⟩]
          decide
        · rename_i he
          rw [List.all_cons, ih]
          simp [he]

theorem pathText_full {base ref : Str} (hb : PathText base) (hr : PathText ref) :
    PathText (fullPath base ref) := by
  unfold fullPath
  split
  · exact hb
  · split
    · split
      · rename_i before after hc
        obtain ⟨e, _⟩ := (cutLastByte_some_iff _ _ _ _).mp hc
        rw [e] at hb
        rw [List.append_assoc]
        exact pathText_append.mpr ⟨(pathText_append.mp hb).1, hr⟩
      · exact hr
    · exact hr

/-- A path of a redirect is one that can be written in a request, and has no segments of dots. -/
theorem resolvePath_text {base ref : Str} (hb : PathText base) (hr : PathText ref) :
    PathText (resolvePath base ref) ∧
      EachSegment (fun x => x ≠ b!"." ∧ x ≠ b!"..") (resolvePath base ref) := by
  have hf := (pathText_each _).mp (pathText_full hb hr)
  exact ⟨(pathText_each _).mpr (each_resolve pathText_nil fun x hx _ _ => hf x hx),
    each_resolve (by decide) fun x _ h1 h2 => ⟨h1, h2⟩⟩

theorem resolvePath_start (base ref : Str) :
    resolvePath base ref = [] ∧ fullPath base ref = [] ∨ ∃ t, resolvePath base ref = 0x2F :: t := by
  unfold resolvePath resolveSegments
  by_cases h : fullPath base ref = []
  · rw [if_pos h]; exact Or.inl ⟨rfl, h⟩
  · rw [if_neg h]; exact Or.inr ⟨_, rfl⟩

/-- The path is set as it is written. -/
theorem withPath_eq {u : URL} {p : Str} (h : PathText p) (hp : p = [] ∨ ∃ t, p = 0x2F :: t) :
    (u.withPath p).escapedPath = p ∧ u.withPath p = { u with
      path := (u.withPath p).path, rawPath := (u.withPath p).rawPath } := by
  have up : ∀ t s, unescape .path t = some s ↔ AnyPercent t s := unescape_any (by simp)
  obtain ⟨⟨t, ht⟩, hv⟩ := h
  have hu := (up _ _).mpr ht
  have e : u.withPath p = { u with path := t, rawPath := if p = escape .path t then [] else p } := by
    unfold URL.withPath setPath
    rw [hu]
    rfl
  rw [e]
  refine ⟨?_, rfl⟩
  have hstar : t ≠ [0x2A] := by
    rintro rfl
    rcases hp with rfl | ⟨t, rfl⟩
    · rw [unescape_nil] at hu; simp at hu
    · rw [unescape_slash (by decide) (by decide)] at hu
      obtain ⟨o, _, ho⟩ := Option.map_eq_some_iff.mp hu
      simp at ho
  unfold URL.escapedPath
  by_cases he : p = escape .path t
  · simp only [if_pos he]
    rw [if_neg (by simp), if_neg hstar, he]
  · simp only [if_neg he]
    by_cases hn : p = []
    · subst hn
      rw [unescape_nil] at hu
      have : t = [] := (Option.some.inj hu).symm
      subst this
      exact absurd rfl he
    · rw [if_pos ⟨hn, hv, hu⟩]

end OAuth2

import Verif.Lemmas.Json
import Verif.Lemmas.Bytes
/-
Parsing a longer text: what the parser read from a text it also reads from the front of any
extension of it.
-/

namespace OAuth2

set_option linter.unusedSimpArgs false
set_option linter.unusedVariables false

theorem quote_not_cont (lo : UInt8) (h : 0x80 ≤ lo) (hi : UInt8) : inRange lo hi 0x22 = false := by
  unfold inRange
  have : ¬ lo ≤ (0x22 : UInt8) := by
    intro h'
    have h1 := UInt8.le_iff_toNat_le.mp h
    have h2 := UInt8.le_iff_toNat_le.mp h'
    have e1 : (0x80 : UInt8).toNat = 128 := rfl
    have e2 : (0x22 : UInt8).toNat = 34 := rfl
    omega
  simp [this]

/-- A text that holds a quote after its first byte has a complete first character. -/
theorem decodeRune_append {c : UInt8} {cs : Str} (h : (0x22 : UInt8) ∈ cs) (q : Str) :
    decodeRune (c :: (cs ++ q)) = decodeRune (c :: cs) := by
  have q1 : inRange 0x80 0xBF 0x22 = false := by decide
  have q2 : ∀ b : Bool, ∀ hi, inRange (if b then 0xA0 else 0x80) hi 0x22 = false := by
    intro b hi; cases b <;> exact quote_not_cont _ (by decide) _
  have q3 : ∀ b : Bool, ∀ hi, inRange (if b then 0x90 else 0x80) hi 0x22 = false := by
    intro b hi; cases b <;> exact quote_not_cont _ (by decide) _
  have q2' : ∀ hi, inRange (if c = 0xE0 then 0xA0 else 0x80) hi 0x22 = false := by
    intro hi; split <;> exact quote_not_cont _ (by decide) _
  have q3' : ∀ hi, inRange (if c = 0xF0 then 0x90 else 0x80) hi 0x22 = false := by
    intro hi; split <;> exact quote_not_cont _ (by decide) _
  match cs with
  | [] => cases h
  | [b1] =>
    have : b1 = 0x22 := (List.mem_singleton.mp h).symm
    subst this
    cases q with
    | nil => rfl
    | cons x q =>
      cases q with
      | nil => simp only [decodeRune, List.cons_append, List.nil_append, q1, q2', q3', Bool.false_and,
          Bool.false_eq_true, if_false]
      | cons y q => simp only [decodeRune, List.cons_append, List.nil_append, q1, q2', q3', Bool.false_and,
          Bool.false_eq_true, if_false]
  | [b1, b2] =>
    cases q with
    | nil => rfl
    | cons x q =>
      simp only [List.mem_cons, List.not_mem_nil, or_false] at h
      rcases h with h | h <;> subst h
      · simp only [decodeRune, List.cons_append, List.nil_append, q1, q2', q3', Bool.false_and,
          Bool.false_eq_true, if_false]
      · simp only [decodeRune, List.cons_append, List.nil_append, q1, q2', q3', Bool.false_and,
          Bool.and_false, Bool.false_eq_true, if_false]
  | b1 :: b2 :: b3 :: cs => rfl

theorem hex4_append {s r : Str} {v : Nat} (h : hex4 s = some (v, r)) (q : Str) :
    hex4 (s ++ q) = some (v, r ++ q) := by
  match s, h with
  | a :: b :: c :: d :: rest, h =>
    simp only [List.cons_append]
    unfold hex4 at h ⊢
    cases ha : unhex a <;> simp [ha] at h
    cases hb : unhex b <;> simp [hb] at h
    cases hc : unhex c <;> simp [hc] at h
    cases hd : unhex d <;> simp [hd] at h
    simp [ha, hb, hc, hd, h]

theorem hex4_some {s r : Str} {v : Nat} (h : hex4 s = some (v, r)) :
    ∃ a b c d, s = a :: b :: c :: d :: r ∧ unhex a ≠ none ∧ unhex b ≠ none ∧ unhex c ≠ none ∧
      unhex d ≠ none := by
  match s, h with
  | a :: b :: c :: d :: rest, h =>
    unfold hex4 at h
    cases ha : unhex a <;> simp [ha] at h
    cases hb : unhex b <;> simp [hb] at h
    cases hc : unhex c <;> simp [hc] at h
    cases hd : unhex d <;> simp [hd] at h
    exact ⟨a, b, c, d, by simp [h.2], by simp [ha], by simp [hb], by simp [hc], by simp [hd]⟩

theorem getu4_cons (a b : UInt8) (rest : Str) :
    getu4 (a :: b :: rest) = if a = 0x5C ∧ b = 0x75 then hex4 rest else none := rfl

theorem getu4_append_some {s r : Str} {v : Nat} (h : getu4 s = some (v, r)) (q : Str) :
    getu4 (s ++ q) = some (v, r ++ q) := by
  match s, h with
  | a :: b :: rest, h =>
    simp only [List.cons_append]
    rw [getu4_cons] at h ⊢
    split at h
    · rename_i hab
      rw [if_pos hab]
      exact hex4_append h q
    · cases h

theorem unhex_quote : unhex 0x22 = none := by decide

/-- A text that holds a quote does not end inside a `\uXXXX`. -/
theorem getu4_append_none {s : Str} (h : getu4 s = none) (hq : (0x22 : UInt8) ∈ s) (q : Str) :
    getu4 (s ++ q) = none := by
  cases hx : getu4 (s ++ q) with
  | none => rfl
  | some p =>
    exfalso
    obtain ⟨v, r⟩ := p
    have hform : ∃ a b c d, s ++ q = 0x5C :: 0x75 :: a :: b :: c :: d :: r ∧ unhex a ≠ none ∧
        unhex b ≠ none ∧ unhex c ≠ none ∧ unhex d ≠ none := by
      generalize s ++ q = t at hx
      match t, hx with
      | x :: y :: rest, hx =>
        rw [getu4_cons] at hx
        split at hx
        · rename_i hab
          obtain ⟨a, b, c, d, he, h1⟩ := hex4_some hx
          exact ⟨a, b, c, d, by rw [hab.1, hab.2, he], h1⟩
        · cases hx
    obtain ⟨a, b, c, d, he, ha, hb, hc, hd⟩ := hform
    by_cases hl : 6 ≤ s.length
    · match s, hl with
      | x1 :: x2 :: x3 :: x4 :: x5 :: x6 :: s', _ =>
        simp only [List.cons_append, List.cons.injEq] at he
        obtain ⟨rfl, rfl, rfl, rfl, rfl, rfl, _⟩ := he
        unfold getu4 at h
        simp only [and_self, if_true] at h
        unfold hex4 at h
        cases h1 : unhex x3 with
        | none => exact ha h1
        | some v1 =>
          cases h2 : unhex x4 with
          | none => exact hb h2
          | some v2 =>
            cases h3 : unhex x5 with
            | none => exact hc h3
            | some v3 =>
              cases h4 : unhex x6 with
              | none => exact hd h4
              | some v4 => simp [h1, h2, h3, h4] at h
    · have hpre : s <+: 0x5C :: 0x75 :: a :: b :: c :: d :: r := by
        rw [← he]; exact List.prefix_append _ _
      have hs : s = (0x5C :: 0x75 :: a :: b :: c :: d :: r).take s.length :=
        List.prefix_iff_eq_take.mp hpre
      have hmem : (0x22 : UInt8) ∈ [0x5C, 0x75, a, b, c, d] := by
        have h1 : s <+: [0x5C, 0x75, a, b, c, d] := by
          rw [hs]
          have : (0x5C :: 0x75 :: a :: b :: c :: d :: r) = [0x5C, 0x75, a, b, c, d] ++ r := rfl
          rw [this, List.take_append_of_le_length (by simp only [List.length_cons, List.length_nil]; omega)]
          exact List.take_prefix _ _
        exact h1.subset hq
      simp only [List.mem_cons, List.not_mem_nil, or_false] at hmem
      rcases hmem with h | h | h | h | h | h
      · revert h; decide
      · revert h; decide
      · exact ha (h ▸ unhex_quote)
      · exact hb (h ▸ unhex_quote)
      · exact hc (h ▸ unhex_quote)
      · exact hd (h ▸ unhex_quote)

theorem map_eq_some' {α β : Type} {f : α → β} {o : Option α} {b : β} (h : o.map f = some b) :
    ∃ a, o = some a ∧ f a = b := by
  cases o with
  | none => cases h
  | some a => exact ⟨a, rfl, Option.some.inj h⟩

/-- A parsed string literal has its closing quote. -/
theorem parseStr_quote (n : Nat) : ∀ (s : Str) (a t : Str), parseStr n s = some (a, t) →
    (0x22 : UInt8) ∈ s := by
  induction n with
  | zero => intro s a t h; simp [parseStr] at h
  | succ n ih =>
    intro s a t h
    cases s with
    | nil => simp [parseStr] at h
    | cons c cs =>
      unfold parseStr at h
      by_cases hq : c = 0x22
      · simp [hq]
      rw [if_neg hq] at h
      apply List.mem_cons_of_mem
      by_cases hb : c = 0x5C
      · rw [if_pos hb] at h
        cases cs with
        | nil => cases h
        | cons e rest =>
          apply List.mem_cons_of_mem
          simp only at h
          by_cases he : e = 0x75
          · rw [if_pos he] at h
            cases hx : hex4 rest with
            | none => simp [hx] at h
            | some p =>
              obtain ⟨r, rest'⟩ := p
              obtain ⟨x1, x2, x3, x4, hr, _⟩ := hex4_some hx
              have key : (0x22 : UInt8) ∈ rest' → (0x22 : UInt8) ∈ rest := by
                intro hm; rw [hr]; simp [hm]
              apply key
              simp only [hx] at h
              split at h
              · cases hg : getu4 rest' with
                | none =>
                  simp only [hg] at h
                  obtain ⟨p, hp, _⟩ := map_eq_some' h
                  exact ih _ _ _ hp
                | some p2 =>
                  obtain ⟨r2, rest''⟩ := p2
                  simp only [hg] at h
                  split at h
                  · obtain ⟨p, hp, _⟩ := map_eq_some' h
                    have := ih _ _ _ hp
                    have hsub : rest'' ⊆ rest' := by
                      match rest', hg with
                      | x :: y :: w, hg =>
                        rw [getu4_cons] at hg
                        split at hg
                        · obtain ⟨a', b', c', d', he', _⟩ := hex4_some hg
                          intro z hz
                          rw [he']; simp [hz]
                        · cases hg
                    exact hsub this
                  · obtain ⟨p, hp, _⟩ := map_eq_some' h
                    exact ih _ _ _ hp
              · obtain ⟨p, hp, _⟩ := map_eq_some' h
                exact ih _ _ _ hp
          · rw [if_neg he] at h
            cases hs : simpleEscape e with
            | none => simp [hs] at h
            | some x =>
              simp only [hs] at h
              obtain ⟨p, hp, _⟩ := map_eq_some' h
              exact ih _ _ _ hp
      · rw [if_neg hb] at h
        split at h
        · cases h
        · split at h
          · obtain ⟨p, hp, _⟩ := map_eq_some' h
            exact ih _ _ _ hp
          · simp only at h
            obtain ⟨p, hp, _⟩ := map_eq_some' h
            have := ih _ _ _ hp
            have h2 := List.drop_subset _ _ this
            rcases List.mem_cons.mp h2 with h3 | h3
            · exact absurd h3.symm hq
            · exact h3

theorem decodeRune_width (c : UInt8) (cs : Str) : (decodeRune (c :: cs)).2 ≤ (c :: cs).length := by
  rcases decodeRune_cases c cs with ⟨hd, _⟩ | ⟨r, hr, hd, he⟩
  · rw [hd]; simp
  · rw [hd]
    simp only
    have := congrArg List.length he
    simp only [List.length_append] at this
    omega

/-- **Strings**: more input and more fuel do not change the literal that was read. -/
theorem parseStr_append (n : Nat) : ∀ (s a t : Str) (m : Nat) (q : Str), n ≤ m →
    parseStr n s = some (a, t) → parseStr m (s ++ q) = some (a, t ++ q) := by
  induction n with
  | zero => intro s a t m q _ h; simp [parseStr] at h
  | succ n ih =>
    intro s a t m q hm h
    obtain ⟨m, rfl⟩ : ∃ m', m = m' + 1 := ⟨m - 1, by omega⟩
    have hm : n ≤ m := by omega
    have ihm : ∀ {s : Str} {f : Str → Str} {a t : Str},
        (parseStr n s).map (fun (x, t) => (f x, t)) = some (a, t) →
        (parseStr m (s ++ q)).map (fun (x, t) => (f x, t)) = some (a, t ++ q) := by
      intro s f a t h
      obtain ⟨⟨a', t'⟩, hp, hf⟩ := map_eq_some' h
      rw [ih _ _ _ m q hm hp]
      cases hf
      rfl
    cases s with
    | nil => simp [parseStr] at h
    | cons c cs =>
      rw [List.cons_append]
      unfold parseStr at h ⊢
      by_cases hq : c = 0x22
      · rw [if_pos hq] at h ⊢
        cases h
        rfl
      rw [if_neg hq] at h ⊢
      by_cases hb : c = 0x5C
      · rw [if_pos hb] at h ⊢
        cases cs with
        | nil => cases h
        | cons e rest =>
          simp only [List.cons_append] at h ⊢
          by_cases he : e = 0x75
          · rw [if_pos he] at h ⊢
            cases hx : hex4 rest with
            | none => simp [hx] at h
            | some p =>
              obtain ⟨r, rest'⟩ := p
              simp only [hx] at h
              simp only [hex4_append hx q]
              split at h
              · rename_i hsur
                rw [if_pos hsur]
                cases hg : getu4 rest' with
                | none =>
                  simp only [hg] at h
                  have hmem : (0x22 : UInt8) ∈ rest' := by
                    obtain ⟨⟨a', t'⟩, hp, _⟩ := map_eq_some' h
                    exact parseStr_quote _ _ _ _ hp
                  simp only [getu4_append_none hg hmem q]
                  exact ihm (f := fun x => encodeRune runeError ++ x) h
                | some p2 =>
                  obtain ⟨r2, rest''⟩ := p2
                  simp only [hg] at h
                  simp only [getu4_append_some hg q]
                  split at h
                  · rename_i hlow
                    rw [if_pos hlow]
                    exact ihm (f := fun x =>
                      encodeRune ((r - 0xD800) * 1024 + (r2 - 0xDC00) + 0x10000) ++ x) h
                  · rename_i hlow
                    rw [if_neg hlow]
                    exact ihm (f := fun x => encodeRune runeError ++ x) h
              · rename_i hsur
                rw [if_neg hsur]
                exact ihm (f := fun x => encodeRune r ++ x) h
          · rw [if_neg he] at h ⊢
            cases hs : simpleEscape e with
            | none => simp [hs] at h
            | some x =>
              simp only [hs] at h ⊢
              exact ihm (f := fun y => x :: y) h
      · rw [if_neg hb] at h ⊢
        split at h
        · cases h
        · rename_i hctl
          rw [if_neg hctl]
          split at h
          · rename_i has
            rw [if_pos has]
            exact ihm (f := fun y => c :: y) h
          · rename_i has
            rw [if_neg has]
            simp only at h ⊢
            have hmem : (0x22 : UInt8) ∈ cs := by
              obtain ⟨⟨a', t'⟩, hp, _⟩ := map_eq_some' h
              have h1 := List.drop_subset _ _ (parseStr_quote _ _ _ _ hp)
              rcases List.mem_cons.mp h1 with h2 | h2
              · exact absurd h2.symm hq
              · exact h2
            rw [decodeRune_append hmem q]
            have hdrop : (c :: (cs ++ q)).drop (decodeRune (c :: cs)).2 =
                (c :: cs).drop (decodeRune (c :: cs)).2 ++ q := by
              rw [← List.cons_append, List.drop_append_of_le_length (decodeRune_width c cs)]
            rw [hdrop]
            exact ihm (f := fun y => encodeRune (decodeRune (c :: cs)).1 ++ y) h

/-! ### Numbers -/

theorem takeWhile_append_of_ne {p : UInt8 → Bool} {s : Str} (h : s.dropWhile p ≠ []) (q : Str) :
    (s ++ q).takeWhile p = s.takeWhile p ∧ (s ++ q).dropWhile p = s.dropWhile p ++ q := by
  induction s with
  | nil => simp at h
  | cons c cs ih =>
    simp only [List.cons_append, List.takeWhile_cons, List.dropWhile_cons] at h ⊢
    split
    · rename_i hc
      rw [if_pos hc] at h
      obtain ⟨h1, h2⟩ := ih h
      exact ⟨by rw [h1], h2⟩
    · exact ⟨rfl, rfl⟩

theorem numInt_append {s a r : Str} (h : numInt s = some (a, r)) (hr : r ≠ []) (q : Str) :
    numInt (s ++ q) = some (a, r ++ q) := by
  cases s with
  | nil => cases h
  | cons c cs =>
    unfold numInt at h ⊢
    simp only [List.cons_append] at h ⊢
    split at h
    · rename_i hc
      rw [if_pos hc]
      cases h
      rfl
    · rename_i hc
      rw [if_neg hc]
      split at h
      · rename_i hd
        rw [if_pos hd]
        cases h
        obtain ⟨h1, h2⟩ := takeWhile_append_of_ne hr q
        rw [h1, h2]
      · cases h

theorem numFrac_append {s a r : Str} (h : numFrac s = some (a, r)) (hr : r ≠ []) (q : Str) :
    numFrac (s ++ q) = some (a, r ++ q) ∧ s ≠ [] := by
  cases s with
  | nil => cases h; exact absurd rfl hr
  | cons c cs =>
    refine ⟨?_, by simp⟩
    unfold numFrac at h ⊢
    simp only [List.cons_append] at h ⊢
    split at h
    · rename_i hc
      rw [if_pos hc]
      split at h
      · cases h
      · rename_i hd
        cases h
        obtain ⟨h1, h2⟩ := takeWhile_append_of_ne hr q
        rw [h1, if_neg hd, h2]
    · rename_i hc
      rw [if_neg hc]
      cases h
      rfl

theorem numExp_append {s a r : Str} (h : numExp s = some (a, r)) (hr : r ≠ []) (q : Str) :
    numExp (s ++ q) = some (a, r ++ q) ∧ s ≠ [] := by
  cases s with
  | nil => cases h; exact absurd rfl hr
  | cons c cs =>
    refine ⟨?_, by simp⟩
    unfold numExp at h ⊢
    simp only [List.cons_append] at h ⊢
    split at h
    · rename_i hc
      rw [if_pos hc]
      cases cs with
      | nil => simp at h
      | cons x xs =>
        simp only [List.cons_append] at h ⊢
        by_cases hx : x = 0x2B ∨ x = 0x2D
        · simp only [hx, if_true] at h ⊢
          split at h
          · cases h
          · rename_i hd
            cases h
            obtain ⟨h1, h2⟩ := takeWhile_append_of_ne hr q
            rw [h1, if_neg hd, h2]
        · simp only [hx, if_false] at h ⊢
          split at h
          · cases h
          · rename_i hd
            cases h
            obtain ⟨h1, h2⟩ := takeWhile_append_of_ne hr q
            rw [List.cons_append] at h1 h2
            rw [h1, if_neg hd, h2]
    · rename_i hc
      rw [if_neg hc]
      cases h
      rfl

theorem parseNum_append {s a r : Str} (h : parseNum s = some (a, r)) (hr : r ≠ []) (q : Str) :
    parseNum (s ++ q) = some (a, r ++ q) := by
  cases s with
  | nil => simp [parseNum, numInt] at h
  | cons c cs =>
    unfold parseNum at h ⊢
    simp only [List.cons_append] at h ⊢
    have key : ∀ (sign s : Str), (do
        let (i, s) ← numInt s
        let (f, s) ← numFrac s
        let (e, s) ← numExp s
        return (sign ++ i ++ f ++ e, s) : Option (Str × Str)) = some (a, r) → (do
        let (i, s) ← numInt (s ++ q)
        let (f, s) ← numFrac s
        let (e, s) ← numExp s
        return (sign ++ i ++ f ++ e, s) : Option (Str × Str)) = some (a, r ++ q) := by
      intro sign s h
      cases hi : numInt s with
      | none => simp [hi] at h
      | some p =>
        obtain ⟨i, s1⟩ := p
        cases hf : numFrac s1 with
        | none => simp [hi, hf] at h
        | some p =>
          obtain ⟨f, s2⟩ := p
          cases he : numExp s2 with
          | none => simp [hi, hf, he] at h
          | some p =>
            obtain ⟨e, s3⟩ := p
            simp [hi, hf, he] at h
            obtain ⟨h1, rfl⟩ := h
            obtain ⟨e1, n1⟩ := numExp_append he hr q
            obtain ⟨e2, n2⟩ := numFrac_append hf n1 q
            have e3 := numInt_append hi n2 q
            simp [e1, e2, e3, h1]
    split
    · rename_i hc
      subst hc
      simp only [if_true] at h
      exact key [0x2D] cs h
    · rename_i hc
      simp only [hc, if_false] at h
      exact key [] (c :: cs) h

/-! ### Values -/

theorem skipWs_append {s cs : Str} {c : UInt8} (h : skipWs s = c :: cs) (q : Str) :
    skipWs (s ++ q) = c :: (cs ++ q) := by
  unfold skipWs at h ⊢
  rw [(takeWhile_append_of_ne (by rw [h]; simp) q).2, h]
  rfl

theorem stripPrefix_append_some {p s r : Str} (h : stripPrefix p s = some r) (q : Str) :
    stripPrefix p (s ++ q) = some (r ++ q) := by
  rw [stripPrefix_some_iff] at h ⊢
  rw [h, List.append_assoc]

/-- The document is a number. -/
def JSON.isNum : JSON → Bool
  | .num _ => true
  | _ => false

theorem parse_append (n : Nat) :
    (∀ (m d : Nat) (s q r : Str) (v : JSON), n ≤ m → (r ≠ [] ∨ v.isNum = false) →
      parseValue n d s = some (v, r) → parseValue m d (s ++ q) = some (v, r ++ q)) ∧
    (∀ (m d : Nat) (s q r : Str) (l : List (Str × JSON)), n ≤ m →
      parseMembers n d s = some (l, r) → parseMembers m d (s ++ q) = some (l, r ++ q)) ∧
    (∀ (m d : Nat) (s q r : Str) (l : List JSON), n ≤ m →
      parseElems n d s = some (l, r) → parseElems m d (s ++ q) = some (l, r ++ q)) := by
  induction n with
  | zero =>
    refine ⟨?_, ?_, ?_⟩
    · intro m d s q r v _ _ h; simp [parseValue] at h
    · intro m d s q r v _ h; simp [parseMembers] at h
    · intro m d s q r v _ h; simp [parseElems] at h
  | succ n ih =>
    obtain ⟨ihv, ihm, ihe⟩ := ih
    refine ⟨?_, ?_, ?_⟩
    · intro m d s q r v hm hnum h
      obtain ⟨m, rfl⟩ : ∃ m', m = m' + 1 := ⟨m - 1, by omega⟩
      have hm : n ≤ m := by omega
      rw [parseValue.eq_def] at h ⊢
      simp only at h ⊢
      cases hs : skipWs s with
      | nil => simp [hs] at h
      | cons c cs =>
        simp only [hs] at h
        simp only [skipWs_append hs q]
        split at h
        · rename_i hc
          rw [if_pos hc]
          split at h
          · cases h
          · rename_i hd
            rw [if_neg hd]
            cases hs2 : skipWs cs with
            | nil => simp [hs2] at h
            | cons x xs =>
              simp only [hs2] at h
              simp only [skipWs_append hs2 q]
              split at h
              · rename_i hx
                rw [if_pos hx]
                cases h
                rfl
              · rename_i hx
                rw [if_neg hx]
                obtain ⟨⟨l, r'⟩, hp, hf⟩ := map_eq_some' h
                cases hf
                have := ihm m (d + 1) (x :: xs) q _ _ hm hp
                rw [List.cons_append] at this
                rw [this]
                rfl
        · rename_i hc
          rw [if_neg hc]
          split at h
          · rename_i hc
            rw [if_pos hc]
            split at h
            · cases h
            · rename_i hd
              rw [if_neg hd]
              cases hs2 : skipWs cs with
              | nil => simp [hs2] at h
              | cons x xs =>
                simp only [hs2] at h
                simp only [skipWs_append hs2 q]
                split at h
                · rename_i hx
                  rw [if_pos hx]
                  cases h
                  rfl
                · rename_i hx
                  rw [if_neg hx]
                  obtain ⟨⟨l, r'⟩, hp, hf⟩ := map_eq_some' h
                  cases hf
                  have := ihe m (d + 1) (x :: xs) q _ _ hm hp
                  rw [List.cons_append] at this
                  rw [this]
                  rfl
          · rename_i hc
            rw [if_neg hc]
            split at h
            · rename_i hc
              rw [if_pos hc]
              obtain ⟨⟨a, r'⟩, hp, hf⟩ := map_eq_some' h
              cases hf
              rw [parseStr_append _ _ _ _ ((cs ++ q).length + 1) q (by simp) hp]
              rfl
            · rename_i hc
              rw [if_neg hc]
              split at h
              · rename_i hc
                rw [if_pos hc]
                obtain ⟨r', hp, hf⟩ := map_eq_some' h
                cases hf
                rw [stripPrefix_append_some hp q]
                rfl
              · rename_i hc
                rw [if_neg hc]
                split at h
                · rename_i hc
                  rw [if_pos hc]
                  obtain ⟨r', hp, hf⟩ := map_eq_some' h
                  cases hf
                  rw [stripPrefix_append_some hp q]
                  rfl
                · rename_i hc
                  rw [if_neg hc]
                  split at h
                  · rename_i hc
                    rw [if_pos hc]
                    obtain ⟨r', hp, hf⟩ := map_eq_some' h
                    cases hf
                    rw [stripPrefix_append_some hp q]
                    rfl
                  · rename_i hc
                    rw [if_neg hc]
                    obtain ⟨⟨a, r'⟩, hp, hf⟩ := map_eq_some' h
                    cases hf
                    have hr : r' ≠ [] := by
                      rcases hnum with h | h
                      · exact h
                      · cases h
                    have := parseNum_append hp hr q
                    rw [List.cons_append] at this
                    rw [this]
                    rfl
    · intro m d s q r l hm h
      obtain ⟨m, rfl⟩ : ∃ m', m = m' + 1 := ⟨m - 1, by omega⟩
      have hm : n ≤ m := by omega
      rw [parseMembers.eq_def] at h ⊢
      simp only at h ⊢
      cases hs : skipWs s with
      | nil => simp [hs] at h
      | cons c s1 =>
        simp only [hs] at h
        simp only [skipWs_append hs q]
        split at h
        · cases h
        · rename_i hc
          rw [if_neg hc]
          cases hk : parseStr (s1.length + 1) s1 with
          | none => simp [hk] at h
          | some p =>
            obtain ⟨k, s2⟩ := p
            simp only [hk] at h
            simp only [parseStr_append _ _ _ _ ((s1 ++ q).length + 1) q (by simp) hk]
            cases hs2 : skipWs s2 with
            | nil => simp [hs2] at h
            | cons c2 s3 =>
              simp only [hs2] at h
              simp only [skipWs_append hs2 q]
              split at h
              · cases h
              · rename_i hc2
                rw [if_neg hc2]
                cases hv : parseValue n d s3 with
                | none => simp [hv] at h
                | some p =>
                  obtain ⟨v, s4⟩ := p
                  simp only [hv] at h
                  cases hs4 : skipWs s4 with
                  | nil => simp [hs4] at h
                  | cons e s5 =>
                    have hne : s4 ≠ [] := by rintro rfl; cases hs4
                    simp only [ihv m d s3 q s4 v hm (Or.inl hne) hv]
                    simp only [hs4] at h
                    simp only [skipWs_append hs4 q]
                    split at h
                    · rename_i he
                      rw [if_pos he]
                      cases h
                      rfl
                    · rename_i he
                      rw [if_neg he]
                      split at h
                      · rename_i he
                        rw [if_pos he]
                        obtain ⟨⟨l', r'⟩, hp, hf⟩ := map_eq_some' h
                        cases hf
                        rw [ihm m d s5 q _ _ hm hp]
                        rfl
                      · cases h
    · intro m d s q r l hm h
      obtain ⟨m, rfl⟩ : ∃ m', m = m' + 1 := ⟨m - 1, by omega⟩
      have hm : n ≤ m := by omega
      rw [parseElems.eq_def] at h ⊢
      simp only at h ⊢
      cases hv : parseValue n d s with
      | none => simp [hv] at h
      | some p =>
        obtain ⟨v, s4⟩ := p
        simp only [hv] at h
        cases hs4 : skipWs s4 with
        | nil => simp [hs4] at h
        | cons e s5 =>
          have hne : s4 ≠ [] := by rintro rfl; cases hs4
          simp only [ihv m d s q s4 v hm (Or.inl hne) hv]
          simp only [hs4] at h
          simp only [skipWs_append hs4 q]
          split at h
          · rename_i he
            rw [if_pos he]
            cases h
            rfl
          · rename_i he
            rw [if_neg he]
            split at h
            · rename_i he
              rw [if_pos he]
              obtain ⟨⟨l', r'⟩, hp, hf⟩ := map_eq_some' h
              cases hf
              rw [ihe m d s5 q _ _ hm hp]
              rfl
            · cases h

/-- **Prefixes**: if a text and an extension of it are both documents, and the shorter is not a
number, they are the same document. -/
theorem parseJSON_append {s q : Str} {v w : JSON} (h1 : parseJSON s = some v)
    (hn : v.isNum = false) (h2 : parseJSON (s ++ q) = some w) : v = w := by
  unfold parseJSON at h1 h2
  cases hv : parseValue (s.length + 1) 0 s with
  | none => simp [hv] at h1
  | some p =>
    obtain ⟨v', r⟩ := p
    simp only [hv] at h1
    split at h1
    · cases h1
      rw [(parse_append _).1 ((s ++ q).length + 1) 0 s q r v (by simp) (Or.inr hn) hv] at h2
      simp only at h2
      split at h2
      · cases h2; rfl
      · cases h2
    · cases h1

end OAuth2

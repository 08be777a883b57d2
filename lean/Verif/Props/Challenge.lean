import Verif.Spec.Challenge
import Verif.Props.Refusals
import Verif.Props.Answers
import Verif.Props.Bearer
import Verif.Lemmas.Decide

/-! C84. What challenges say, to a client that reads them as RFC 7235 defines. -/

namespace OAuth2

namespace Rfc7235

open Spec (param)

/-! ### Where the parts end -/

theorem tchar_not {b : UInt8} (h : Tchar b) :
    b ≠ 0x20 ∧ b ≠ 0x09 ∧ b ≠ 0x2C ∧ b ≠ 0x3D ∧ b ≠ 0x22 ∧ b ≠ 0x5C ∧ Plain b := by
  have : ∀ b ∈ b!"!#$%&'*+-.^_`|~0123456789ABCDEFGHIJKLMNOPQRSTUVWXYZabcdefghijklmnopqrstuvwxyz",
      b ≠ 0x20 ∧ b ≠ 0x09 ∧ b ≠ 0x2C ∧ b ≠ 0x3D ∧ b ≠ 0x22 ∧ b ≠ 0x5C ∧ Plain b := by decide +kernel
  exact this b h

/-- Two ways to cut the same text after bytes of a kind, if what comes next is not of the kind, are one. -/
theorem cut (P : UInt8 → Prop) {a a' r r' : Str} (h : a ++ r = a' ++ r') (ha : ∀ b ∈ a, P b)
    (ha' : ∀ b ∈ a', P b) (hr : ∀ b, r.head? = some b → ¬ P b) (hr' : ∀ b, r'.head? = some b → ¬ P b) :
    a = a' ∧ r = r' := by
  induction a generalizing a' with
  | nil =>
    cases a' with
    | nil => exact ⟨rfl, h⟩
    | cons b a' =>
      simp only [List.nil_append, List.cons_append] at h
      subst h
      exact absurd (ha' b (by simp)) (hr b (by simp))
  | cons b a ih =>
    cases a' with
    | nil =>
      simp only [List.nil_append, List.cons_append] at h
      subst h
      exact absurd (ha b (by simp)) (hr' b (by simp))
    | cons b' a' =>
      simp only [List.cons_append, List.cons.injEq] at h
      obtain ⟨rfl, h⟩ := h
      obtain ⟨rfl, rfl⟩ := ih h (fun x hx => ha x (by simp [hx])) (fun x hx => ha' x (by simp [hx]))
      exact ⟨rfl, rfl⟩

/-- The byte may follow the element of a list. -/
def Sep (b : UInt8) : Prop := b = 0x20 ∨ b = 0x09 ∨ b = 0x2C

theorem sep_not_tchar {b : UInt8} (h : Sep b) : ¬ Tchar b := by
  rcases h with rfl | rfl | rfl <;> decide

theorem head_append {a r : Str} (h : a ≠ []) : (a ++ r).head? = a.head? := by
  cases a with
  | nil => exact absurd rfl h
  | cons => rfl

theorem token_head {k : Str} (h : Token k) (r : Str) : ∃ b, (k ++ r).head? = some b ∧ Tchar b := by
  cases k with
  | nil => exact absurd rfl h.1
  | cons b k => exact ⟨b, rfl, h.2 b (by simp)⟩

theorem blank_head {w r : Str} {P : UInt8 → Prop} (h : Blank w) (h1 : P 0x20) (h2 : P 0x09)
    (h3 : ∀ b, r.head? = some b → P b) : ∀ b, (w ++ r).head? = some b → P b := by
  intro b hb
  cases w with
  | nil => exact h3 b hb
  | cons c w =>
    simp only [List.cons_append, List.head?_cons, Option.some.injEq] at hb
    subst hb
    rcases h c (by simp) with rfl | rfl
    · exact h1
    · exact h2

/-- What is left of a list begins with blanks and a comma. -/
theorem more_starts {α : Type} {E : Str → α → Prop} {s : Str} {l : List α} (h : More E s l) :
    (s = [] ∧ l = []) ∨ ∃ w t, Blank w ∧ s = w ++ 0x2C :: t := by
  cases h with
  | done => exact .inl ⟨rfl, rfl⟩
  | comma hw _ => exact .inr ⟨_, _, hw, by simp; rfl⟩
  | element hw _ _ _ => exact .inr ⟨_, _, hw, by simp; rfl⟩

theorem more_head {α : Type} {E : Str → α → Prop} {s : Str} {l : List α} (h : More E s l) :
    ∀ b, s.head? = some b → Sep b := by
  rcases more_starts h with ⟨rfl, _⟩ | ⟨w, t, hw, rfl⟩
  · intro b hb; cases hb
  · exact blank_head hw (.inl rfl) (.inr (.inl rfl)) fun b hb => by
      simp only [List.head?_cons, Option.some.injEq] at hb
      exact .inr (.inr hb.symm)

/-- After a blank and a name, no list goes on. -/
theorem not_starts {w t r : Str} (hw : Blank w) (h : w ++ 0x2C :: t = 0x20 :: r)
    (hr : ∃ b, r.head? = some b ∧ Tchar b) : False := by
  obtain ⟨b, hb, ht⟩ := hr
  have hnt := tchar_not ht
  obtain ⟨_, e⟩ := cut (fun b => b = 0x20 ∨ b = 0x09) (a := w) (a' := [0x20]) (r := 0x2C :: t) (r' := r) h hw
    (by simp) (by simp) (by
      intro c hc
      rw [hb] at hc
      cases hc
      rintro (h | h)
      · exact hnt.1 h
      · exact hnt.2.1 h)
  subst e
  cases hb
  exact hnt.2.2.1 rfl

theorem more_not {α β : Type} {E : Str → α → Prop} {F : Str → β → Prop} {s r t : Str} {l : List α} {l' : List β}
    (hs : More E s l) (hr : More F r l') (h : s ++ r = 0x20 :: t) (ht : ∃ b, t.head? = some b ∧ Tchar b) :
    False := by
  rcases more_starts hs with ⟨rfl, _⟩ | ⟨w, u, hw, rfl⟩
  · rcases more_starts hr with ⟨rfl, _⟩ | ⟨w, u, hw, rfl⟩
    · cases h
    · exact not_starts hw h ht
  · exact not_starts hw (by rw [← h, List.append_assoc, List.cons_append]) ht

/-! ### Parameters -/

theorem quoted_cut {t v' v a b : Str} (h : Quoted t v') (hv : ∀ c ∈ v, Plain c)
    (e : t ++ 0x22 :: a = v ++ 0x22 :: b) : t = v ∧ v' = v ∧ a = b := by
  induction h generalizing v with
  | nil =>
    cases v with
    | nil => simpa using e
    | cons c v =>
      simp only [List.nil_append, List.cons_append, List.cons.injEq] at e
      exact absurd e.1.symm (hv c (by simp)).2.1
  | @plain c t v' hc _ ih =>
    cases v with
    | nil =>
      simp only [List.nil_append, List.cons_append, List.cons.injEq] at e
      exact absurd e.1 hc.2.1
    | cons d v =>
      simp only [List.cons_append, List.cons.injEq] at e
      obtain ⟨rfl, e⟩ := e
      obtain ⟨rfl, rfl, rfl⟩ := ih (fun c h => hv c (by simp [h])) e
      exact ⟨rfl, rfl, rfl⟩
  | @pair c t v' hc _ ih =>
    cases v with
    | nil =>
      simp only [List.nil_append, List.cons_append, List.cons.injEq] at e
      exact absurd e.1 (by decide)
    | cons d v =>
      simp only [List.cons_append, List.cons.injEq] at e
      exact absurd e.1.symm (hv d (by simp)).2.2.1

/-- A key, blanks and an equality sign. -/
theorem key_cut {k k' w r r' : Str} (hk : Token k) (hk' : Token k') (hw : Blank w)
    (h : k' ++ w ++ [0x3D] ++ r' = k ++ 0x3D :: r) : k' = k ∧ w = [] ∧ r' = r := by
  obtain ⟨rfl, h1⟩ := cut Tchar (a := k') (a' := k) (r := w ++ 0x3D :: r') (r' := 0x3D :: r)
    (by simpa using h) hk'.2 hk.2
    (blank_head hw (by decide) (by decide) fun b hb => by cases hb; decide) fun b hb => by cases hb; decide
  obtain ⟨rfl, h2⟩ := cut (fun b => b = 0x20 ∨ b = 0x09) (a := w) (a' := []) h1 hw (by simp)
    (fun b hb => by cases hb; decide) (fun b hb => by cases hb; decide)
  simp only [List.cons.injEq, true_and] at h2
  exact ⟨rfl, rfl, h2⟩

theorem param_cut {p k v r r' : Str} {x : Str × Str} (h : AuthParam p x) (hk : Token k)
    (hv : ∀ b ∈ v, Plain b) (e : p ++ r = param k v ++ r') : x = (k, v) ∧ r = r' := by
  have e' : p ++ r = k ++ 0x3D :: (0x22 :: (v ++ 0x22 :: r')) := by
    rw [e]; simp [param]
  cases h with
  | @token k' w w' v' hk' hw hw' hv' =>
    obtain ⟨rfl, rfl, h1⟩ := key_cut (r' := w' ++ v' ++ r) hk hk' hw (by simpa using e')
    obtain ⟨rfl, h2⟩ := cut (fun b => b = 0x20 ∨ b = 0x09) (a := w') (a' := []) (r := v' ++ r)
      (by simpa using h1) hw' (by simp)
      (fun b hb => by
        obtain ⟨c, hc, ht⟩ := token_head hv' r
        rw [hc] at hb
        cases hb
        rintro (h | h)
        · exact (tchar_not ht).1 h
        · exact (tchar_not ht).2.1 h) (fun b hb => by cases hb; decide)
    obtain ⟨c, hc, ht⟩ := token_head hv' r
    rw [h2] at hc
    cases hc
    exact absurd ht (by decide)
  | @quoted k' w w' t v' hk' hw hw' hq =>
    obtain ⟨rfl, rfl, h1⟩ := key_cut (r' := w' ++ 0x22 :: (t ++ 0x22 :: r)) hk hk' hw (by simpa using e')
    obtain ⟨rfl, h2⟩ := cut (fun b => b = 0x20 ∨ b = 0x09) (a := w') (a' := []) h1 hw' (by simp)
      (fun b hb => by cases hb; decide) (fun b hb => by cases hb; decide)
    simp only [List.cons.injEq, true_and] at h2
    obtain ⟨rfl, rfl, rfl⟩ := quoted_cut hq hv h2
    exact ⟨rfl, rfl⟩

/-- A parameter begins with its key. -/
theorem param_head {p : Str} {x : Str × Str} (h : AuthParam p x) (r : Str) :
    ∃ b, (p ++ r).head? = some b ∧ Tchar b := by
  cases h with
  | token hk _ _ _ => simp only [List.append_assoc]; exact token_head hk _
  | quoted hk _ _ _ => simp only [List.append_assoc]; exact token_head hk _

/-- A challenge is its scheme and something that begins with a space. -/
theorem challenge_cut {c : Str} {x : Challenge} (h : OneChallenge c x) :
    ∃ k r, Token k ∧ c = k ++ r ∧ ∀ b, r.head? = some b → b = 0x20 := by
  cases h with
  | bare hk => exact ⟨_, [], hk, by simp, fun b hb => by cases hb⟩
  | token68 hk _ => exact ⟨_, _, hk, by rw [List.append_assoc], fun b hb => by
      rw [List.replicate_succ] at hb; cases hb; rfl⟩
  | params hk _ => exact ⟨_, _, hk, by rw [List.append_assoc], fun b hb => by
      rw [List.replicate_succ] at hb; cases hb; rfl⟩

/-- All parameters but the first. -/
def tail (ps : List (Str × Str)) : Str := ps.flatMap fun p => b!", " ++ param p.1 p.2

theorem join_tail (p : Str × Str) (ps : List (Str × Str)) :
    joinStr b!", " ((p :: ps).map fun p => param p.1 p.2) = param p.1 p.2 ++ tail ps := by
  induction ps generalizing p with
  | nil => simp [joinStr, tail]
  | cons q ps ih =>
    rw [List.map_cons, joinStr_cons _ _ _ (by simp), ih q]
    simp [tail]

/-- The parameters and values can be read. -/
def Good (ps : List (Str × Str)) : Prop := ∀ p ∈ ps, Token p.1 ∧ ∀ b ∈ p.2, Plain b

theorem blank_nil {w t r : Str} (hw : Blank w) (h : w ++ 0x2C :: t = 0x2C :: r) : w = [] ∧ t = r := by
  obtain ⟨rfl, e⟩ := cut (fun b => b = 0x20 ∨ b = 0x09) (a := w) (a' := []) h hw (by simp)
    (fun b hb => by cases hb; decide) (fun b hb => by cases hb; decide)
  exact ⟨rfl, (List.cons.inj e).2⟩

theorem blank_one {w t r : Str} (hw : Blank w) (ht : ∃ b, t.head? = some b ∧ Tchar b)
    (hr : ∃ b, r.head? = some b ∧ Tchar b) (h : w ++ t = 0x20 :: r) : w = [0x20] ∧ t = r := by
  have no : ∀ {t : Str}, (∃ b, t.head? = some b ∧ Tchar b) → ∀ b, t.head? = some b → ¬ (b = 0x20 ∨ b = 0x09) := by
    rintro t ⟨b, hb, ht⟩ c hc
    rw [hb] at hc
    cases hc
    rintro (h | h)
    · exact (tchar_not ht).1 h
    · exact (tchar_not ht).2.1 h
  exact cut (fun b => b = 0x20 ∨ b = 0x09) (a := w) (a' := [0x20]) h hw (by simp) (no ht) (no hr)

theorem tail_cut {s r : Str} {l ps : List (Str × Str)} {l' : List Challenge} (hs : More AuthParam s l)
    (hr : More OneChallenge r l') (h : s ++ r = tail ps) (hp : Good ps) : l = ps ∧ l' = [] := by
  induction ps generalizing s l with
  | nil =>
    have hn : s = [] ∧ r = [] := by simpa [tail] using h
    obtain ⟨rfl, rfl⟩ := hn
    rcases more_starts hs with ⟨_, rfl⟩ | ⟨w, t, _, e⟩
    · rcases more_starts hr with ⟨_, rfl⟩ | ⟨w, t, _, e⟩
      · exact ⟨rfl, rfl⟩
      · cases w <;> cases e
    · cases w <;> cases e
  | cons p ps ih =>
    obtain ⟨hk, hv⟩ := hp p (by simp)
    have hp' : Good ps := fun q hq => hp q (by simp [hq])
    have h' : s ++ r = 0x2C :: 0x20 :: (param p.1 p.2 ++ tail ps) := by rw [h]; simp [tail]
    have hhead : ∃ b, (param p.1 p.2 ++ tail ps).head? = some b ∧ Tchar b := by
      simpa [param] using token_head hk (b!"=\"" ++ p.2 ++ b!"\"" ++ tail ps)
    cases hs with
    | done =>
      exfalso
      rw [List.nil_append] at h'
      cases hr with
      | done => cases h'
      | comma hw hr =>
        obtain ⟨rfl, e⟩ := blank_nil hw (by simpa using h')
        exact more_not hr (.done (element := AuthParam)) (by rw [List.append_nil, e]) hhead
      | @element w w' c s x l hw hw' hc hr =>
        obtain ⟨rfl, e⟩ := blank_nil (t := w' ++ c ++ s) hw (by simpa using h')
        obtain ⟨k, u, hk', rfl, hu⟩ := challenge_cut hc
        obtain ⟨_, e2⟩ := blank_one (t := k ++ (u ++ s)) hw' (token_head hk' _) hhead (by simpa using e)
        have hsep : ∀ b, (u ++ s).head? = some b → Sep b := by
          intro b hb
          cases u with
          | nil => exact more_head hr b hb
          | cons d u => exact .inl (hu b hb)
        obtain ⟨_, e3⟩ := cut Tchar (a := k) (a' := p.1) (r := u ++ s) (r' := 0x3D :: (b!"\"" ++ p.2 ++ b!"\"" ++ tail ps))
          (by rw [e2]; simp [param]) hk'.2 hk.2
          (fun b hb => sep_not_tchar (hsep b hb)) fun b hb => by cases hb; decide
        rw [e3] at hsep
        exact absurd (hsep 0x3D rfl) (by unfold Sep; decide)
    | comma hw hs =>
      obtain ⟨rfl, e⟩ := blank_nil hw (by simpa using h')
      exact (more_not hs hr e hhead).elim
    | @element w w' e s x l hw hw' he hs =>
      obtain ⟨rfl, h1⟩ := blank_nil (t := w' ++ e ++ s ++ r) hw (by simpa using h')
      obtain ⟨_, h2⟩ := blank_one (t := e ++ (s ++ r)) hw' (param_head he _) hhead (by simpa using h1)
      obtain ⟨rfl, h3⟩ := param_cut he hk hv h2
      obtain ⟨rfl, rfl⟩ := ih hs h3 hp'
      exact ⟨rfl, rfl⟩

/-! ### Challenges -/

/-- Nothing else can be read into a challenge with readable parameters. -/
theorem unique {scheme : Str} {p : Str × Str} {ps : List (Str × Str)} {l : List Challenge}
    (hs : Token scheme) (hp : Good (p :: ps))
    (h : Challenges (scheme ++ 0x20 :: joinStr b!", " ((p :: ps).map fun p => param p.1 p.2)) l) :
    l = [⟨scheme, .params (p :: ps)⟩] := by
  rw [join_tail] at h
  obtain ⟨hk, hv⟩ := hp p (by simp)
  have hp' : Good ps := fun q hq => hp q (by simp [hq])
  have hhead : ∃ b, (param p.1 p.2 ++ tail ps).head? = some b ∧ Tchar b := by
    simpa [param] using token_head hk (b!"=\"" ++ p.2 ++ b!"\"" ++ tail ps)
  have space : ∀ {k n t s}, Token k → (∃ b, (t ++ s).head? = some b ∧ b ≠ 0x20) →
      k ++ List.replicate (n + 1) 0x20 ++ t ++ s = scheme ++ 0x20 :: (param p.1 p.2 ++ tail ps) →
      k = scheme ∧ t ++ s = param p.1 p.2 ++ tail ps := by
    intro k n t s hk' ht e
    obtain ⟨rfl, e⟩ := cut Tchar (a := k) (a' := scheme) (r := List.replicate (n + 1) 0x20 ++ (t ++ s))
      (r' := 0x20 :: (param p.1 p.2 ++ tail ps)) (by simpa using e) hk'.2 hs.2
      (fun b hb => by rw [List.replicate_succ] at hb; cases hb; decide) (fun b hb => by cases hb; decide)
    obtain ⟨b, hb, hne⟩ := ht
    obtain ⟨c, hc, hct⟩ := hhead
    obtain ⟨_, e⟩ := cut (fun b => b = 0x20) (a := List.replicate (n + 1) 0x20) (a' := [0x20]) (r := t ++ s)
      (r' := param p.1 p.2 ++ tail ps) (by simpa using e) (fun b hb => List.eq_of_mem_replicate hb)
      (by simp) (fun d hd => by rw [hb] at hd; cases hd; exact hne)
      (fun d hd => by rw [hc] at hd; cases hd; exact (tchar_not hct).1)
    exact ⟨rfl, e⟩
  generalize htext : scheme ++ 0x20 :: (param p.1 p.2 ++ tail ps) = text at h
  cases h with
  | comma _ _ =>
    obtain ⟨b, hb, ht⟩ := token_head hs (0x20 :: (param p.1 p.2 ++ tail ps))
    rw [htext] at hb
    cases hb
    exact absurd ht (by decide)
  | @some c s x l hc hm =>
    have hsep := more_head hm
    cases hc with
    | bare hk' =>
      exfalso
      obtain ⟨_, e⟩ := cut Tchar (a := c) (a' := scheme) htext.symm hk'.2 hs.2
        (fun b hb => sep_not_tchar (hsep b hb)) (fun b hb => by cases hb; decide)
      exact more_not hm (.done (element := AuthParam)) (by rw [List.append_nil, e]) hhead
    | @token68 k t n hk' ht =>
      exfalso
      have hne : ∀ b ∈ t, b ≠ 0x22 ∧ b ≠ 0x20 ∧ b ≠ 0x09 ∧ b ≠ 0x2C := by
        obtain ⟨u, m, rfl, _, hu⟩ := ht
        intro b hb
        rcases List.mem_append.mp hb with hb | hb
        · have := hu b hb
          revert this
          generalize b = b
          revert b
          decide +kernel
        · cases List.eq_of_mem_replicate hb
          decide
      have htne : t ≠ [] := by
        obtain ⟨u, m, rfl, hu, _⟩ := ht
        simp [hu]
      obtain ⟨_, e⟩ := space (t := t) hk' (by
        cases t with
        | nil => exact absurd rfl htne
        | cons b t => exact ⟨b, rfl, (hne b (by simp)).2.1⟩) (by simpa using htext.symm)
      obtain ⟨_, e⟩ := cut (fun b => b ≠ 0x22 ∧ b ≠ 0x20 ∧ b ≠ 0x09 ∧ b ≠ 0x2C) (a := t) (a' := p.1 ++ [0x3D])
        (r := s) (r' := 0x22 :: (p.2 ++ b!"\"" ++ tail ps)) (by rw [e]; simp [param]) hne
        (by
          intro b hb
          rcases List.mem_append.mp hb with hb | hb
          · have := tchar_not (hk.2 b hb)
            exact ⟨this.2.2.2.2.1, this.1, this.2.1, this.2.2.1⟩
          · cases List.mem_singleton.mp hb
            decide)
        (fun b hb hn => by
          rcases hsep b hb with rfl | rfl | rfl
          · exact hn.2.1 rfl
          · exact hn.2.2.1 rfl
          · exact hn.2.2.2 rfl) (fun b hb => by cases hb; decide)
      rw [e] at hsep
      exact absurd (hsep 0x22 rfl) (by unfold Sep; decide)
    | @params k q n l hk' hq =>
      have hall : k ++ List.replicate (n + 1) 0x20 ++ q ++ s = scheme ++ 0x20 :: (param p.1 p.2 ++ tail ps) := by
        rw [htext]
      cases hq with
      | none =>
        exfalso
        obtain ⟨_, e⟩ := cut Tchar (a := k) (a' := scheme) (r := List.replicate (n + 1) 0x20 ++ s)
          (r' := 0x20 :: (param p.1 p.2 ++ tail ps)) (by simpa using hall) hk'.2 hs.2
          (fun b hb => by rw [List.replicate_succ] at hb; cases hb; decide) (fun b hb => by cases hb; decide)
        rcases more_starts hm with ⟨rfl, _⟩ | ⟨w, u, hw, rfl⟩
        · obtain ⟨c, hc, hct⟩ := hhead
          have : c ∈ List.replicate (n + 1) (0x20 : UInt8) := by
            rw [List.append_nil] at e
            rw [e]
            exact List.mem_cons_of_mem _ (List.mem_of_mem_head? hc)
          exact (tchar_not hct).1 (List.eq_of_mem_replicate this)
        · refine not_starts (w := List.replicate (n + 1) 0x20 ++ w) (t := u) ?_ (by simpa using e) hhead
          intro b hb
          rcases List.mem_append.mp hb with hb | hb
          · exact .inl (List.eq_of_mem_replicate hb)
          · exact hw b hb
      | @comma q l hq =>
        exfalso
        obtain ⟨_, e⟩ := space (t := 0x2C :: q) hk' ⟨0x2C, rfl, by decide⟩ hall
        obtain ⟨c, hc, hct⟩ := hhead
        rw [← e] at hc
        cases hc
        exact absurd hct (by decide)
      | @some a q x l ha hq =>
        obtain ⟨rfl, e⟩ := space (t := a ++ q) hk' (by
          obtain ⟨b, hb, ht⟩ := param_head ha (q ++ s)
          exact ⟨b, by rw [List.append_assoc, hb], (tchar_not ht).1⟩) hall
        obtain ⟨rfl, e⟩ := param_cut ha hk hv (by simpa using e)
        obtain ⟨rfl, rfl⟩ := tail_cut hq hm e hp'
        rfl

/-- A text of plain bytes stands for itself. -/
theorem quoted_plain {v : Str} (h : ∀ b ∈ v, Plain b) : Quoted v v := by
  induction v with
  | nil => exact .nil
  | cons b v ih => exact .plain (h b (by simp)) (ih fun c hc => h c (by simp [hc]))

theorem param_reads {k v : Str} (hk : Token k) (hv : ∀ b ∈ v, Plain b) : AuthParam (param k v) (k, v) := by
  have := AuthParam.quoted (w := []) (w' := []) hk (fun b hb => by cases hb) (fun b hb => by cases hb) (quoted_plain hv)
  have e : param k v = k ++ [] ++ [0x3D] ++ [] ++ [0x22] ++ v ++ [0x22] := by simp [param]
  rw [e]
  exact this

theorem tail_reads {ps : List (Str × Str)} (hp : Good ps) : More AuthParam (tail ps) ps := by
  induction ps with
  | nil => exact .done
  | cons p ps ih =>
    have := More.element (w := []) (w' := [0x20]) (fun b hb => by cases hb) (fun b hb => .inl (by simpa using hb))
      (param_reads (hp p (by simp)).1 (hp p (by simp)).2) (ih fun q hq => hp q (by simp [hq]))
    have e : tail (p :: ps) = [] ++ [0x2C] ++ [0x20] ++ param p.1 p.2 ++ tail ps := by simp [tail]
    rw [e]
    exact this

/-- A challenge with readable parameters says what it is meant to say. -/
theorem reads {scheme : Str} {p : Str × Str} {ps : List (Str × Str)} (hs : Token scheme) (hp : Good (p :: ps)) :
    Challenges (scheme ++ 0x20 :: joinStr b!", " ((p :: ps).map fun p => param p.1 p.2))
      [⟨scheme, .params (p :: ps)⟩] := by
  rw [join_tail]
  have := Challenges.some (.params (n := 0) hs
    (.some (param_reads (hp p (by simp)).1 (hp p (by simp)).2)
      (tail_reads (ps := ps) fun q hq => hp q (by simp [hq])))) .done
  simpa using this

/-! ### Values that cannot be read -/

/-- How many backslashes there are. -/
def slashes (s : Str) : Nat := s.count 0x5C

theorem slashes_append (a b : Str) : slashes (a ++ b) = slashes a + slashes b := List.count_append

theorem slashes_zero {s : Str} (h : ∀ b ∈ s, b ≠ 0x5C) : slashes s = 0 :=
  List.count_eq_zero.mpr fun hm => h _ hm rfl

theorem quoted_slashes {t v : Str} (h : Quoted t v) :
    slashes v ≤ slashes t ∧ (slashes t = slashes v → ∀ b ∈ v, Plain b) := by
  induction h with
  | nil => exact ⟨Nat.le_refl _, fun _ b hb => by cases hb⟩
  | @plain b t v hb _ ih =>
    unfold slashes at ih ⊢
    rw [List.count_cons_of_ne hb.2.2.1, List.count_cons_of_ne hb.2.2.1]
    refine ⟨ih.1, fun h c hc => ?_⟩
    rcases List.mem_cons.mp hc with rfl | hc
    · exact hb
    · exact ih.2 h c hc
  | @pair b t v hb _ ih =>
    unfold slashes at ih ⊢
    rw [List.count_cons_self, List.count_cons, List.count_cons]
    exact ⟨by omega, fun h => by omega⟩

theorem token_slashes {k : Str} (h : Token k) : slashes k = 0 :=
  slashes_zero fun b hb => (tchar_not (h.2 b hb)).2.2.2.2.2.1

theorem blank_slashes {w : Str} (h : Blank w) : slashes w = 0 :=
  slashes_zero fun b hb => by rcases h b hb with rfl | rfl <;> decide

theorem param_slashes {p : Str} {x : Str × Str} (h : AuthParam p x) :
    slashes x.2 ≤ slashes p ∧ (slashes p = slashes x.2 → ∀ b ∈ x.2, Plain b) := by
  cases h with
  | token hk hw hw' hv =>
    simp only [slashes_append, token_slashes hv]
    exact ⟨Nat.zero_le _, fun _ b hb => (tchar_not (hv.2 b hb)).2.2.2.2.2.2⟩
  | quoted hk hw hw' hq =>
    have := quoted_slashes hq
    simp only [slashes_append, token_slashes hk, blank_slashes hw, blank_slashes hw']
    have e1 : slashes [0x3D] = 0 := rfl
    have e2 : slashes [0x22] = 0 := rfl
    rw [e1, e2]
    exact ⟨by omega, fun h => this.2 (by omega)⟩

theorem more_slashes {s : Str} {l : List (Str × Str)} (h : More AuthParam s l) :
    (l.map fun x => slashes x.2).sum ≤ slashes s ∧
      (slashes s = (l.map fun x => slashes x.2).sum → ∀ x ∈ l, ∀ b ∈ x.2, Plain b) := by
  have e1 : slashes [0x2C] = 0 := rfl
  induction h with
  | done => exact ⟨Nat.le_refl _, fun _ b hb => by cases hb⟩
  | comma hw _ ih =>
    simp only [slashes_append, blank_slashes hw, e1]
    exact ⟨by omega, fun h => ih.2 (by omega)⟩
  | element hw hw' he _ ih =>
    have := param_slashes he
    simp only [slashes_append, blank_slashes hw, blank_slashes hw', e1, List.map_cons, List.sum_cons]
    refine ⟨by omega, fun h x hx => ?_⟩
    rcases List.mem_cons.mp hx with rfl | hx
    · exact this.2 (by omega)
    · exact ih.2 (by omega) x hx

theorem tail_slashes {ps : List (Str × Str)} (hp : ∀ p ∈ ps, Token p.1) :
    slashes (tail ps) = (ps.map fun x => slashes x.2).sum := by
  induction ps with
  | nil => rfl
  | cons p ps ih =>
    have e : tail (p :: ps) = b!", " ++ param p.1 p.2 ++ tail ps := by simp [tail]
    rw [e, slashes_append, slashes_append, ih fun q hq => hp q (by simp [hq])]
    simp only [param, slashes_append, token_slashes (hp p (by simp)), List.map_cons, List.sum_cons]
    have e1 : slashes b!", " = 0 := rfl
    have e2 : slashes b!"=\"" = 0 := rfl
    have e3 : slashes b!"\"" = 0 := rfl
    omega

/-- A challenge that says what it is meant to say has readable parameters. -/
theorem readable {scheme : Str} {p : Str × Str} {ps : List (Str × Str)} (hs : Token scheme)
    (hp : ∀ q ∈ p :: ps, Token q.1)
    (h : Challenges (scheme ++ 0x20 :: joinStr b!", " ((p :: ps).map fun p => param p.1 p.2))
      [⟨scheme, .params (p :: ps)⟩]) : ∀ q ∈ p :: ps, ∀ b ∈ q.2, Plain b := by
  have key : ∀ {text : Str} {cs : List Challenge}, Challenges text cs → cs = [⟨scheme, .params (p :: ps)⟩] →
      slashes text = ((p :: ps).map fun x => slashes x.2).sum → ∀ q ∈ p :: ps, ∀ b ∈ q.2, Plain b := by
    intro text cs h
    induction h with
    | comma hw _ ih =>
      intro e h1
      refine ih e ?_
      rw [slashes_append, slashes_append, blank_slashes hw] at h1
      have : slashes [0x2C] = 0 := rfl
      omega
    | some hc hm =>
      intro e h1
      simp only [List.cons.injEq] at e
      obtain ⟨rfl, rfl⟩ := e
      cases hc with
      | params hk hq =>
        cases hq with
        | @comma q _ hq =>
          have := more_slashes hq
          refine this.2 ?_
          have e1 : slashes (0x2C :: q) = slashes q := List.count_cons_of_ne (by decide)
          rw [slashes_append, slashes_append, e1] at h1
          omega
        | some ha hq =>
          have h2 := param_slashes ha
          have h3 := more_slashes hq
          simp only [slashes_append, List.map_cons, List.sum_cons] at h1
          intro q hq'
          rcases List.mem_cons.mp hq' with rfl | hq'
          · exact h2.2 (by omega)
          · exact h3.2 (by omega) q hq'
  refine key h rfl ?_
  rw [join_tail, slashes_append, token_slashes hs]
  have e : (0x20 : UInt8) :: (param p.1 p.2 ++ tail ps) = [0x20] ++ param p.1 p.2 ++ tail ps := by simp
  rw [e, slashes_append, slashes_append, tail_slashes fun q hq => hp q (by simp [hq])]
  simp only [param, slashes_append, token_slashes (hp p (by simp)), List.map_cons, List.sum_cons]
  have e0 : slashes [0x20] = 0 := rfl
  have e2 : slashes b!"=\"" = 0 := rfl
  have e3 : slashes b!"\"" = 0 := rfl
  omega

end Rfc7235

open Spec Rfc7235

/-- The parameters that are written for an error: its fields that are set, or else a realm. -/
def Spec.shown (e : Error) : List (Str × Str) :=
  if parameters e = [] then [(b!"realm", b!"OAuth2")] else parameters e

theorem shown_token (e : Error) : ∀ p ∈ shown e, Rfc7235.Token p.1 := by
  intro p hp
  have hk : p.1 ∈ paramKeys := by
    unfold shown at hp
    split at hp
    · cases List.mem_singleton.mp hp
      decide
    · exact (parameters_keys e).subset (List.mem_map.mpr ⟨p, hp, rfl⟩)
  revert hk
  generalize p.1 = k
  revert k
  unfold Rfc7235.Token
  decide +kernel

theorem shown_cons (e : Error) : ∃ p ps, shown e = p :: ps := by
  unfold shown
  split
  · exact ⟨_, _, rfl⟩
  · cases h : parameters e with
    | nil => contradiction
    | cons p ps => exact ⟨p, ps, rfl⟩

theorem bearer_token : Rfc7235.Token b!"Bearer" := by
  unfold Rfc7235.Token
  decide +kernel

theorem says_shown {scheme : Str} (hs : Rfc7235.Token scheme) {l : List (Str × Str)} (hne : l ≠ [])
    (ht : ∀ p ∈ l, Rfc7235.Token p.1) (hv : ∀ p ∈ l, ∀ b ∈ p.2, Rfc7235.Plain b) :
    Says (scheme ++ b!" " ++ joinStr b!", " (l.map fun p => param p.1 p.2)) [⟨scheme, .params l⟩] := by
  cases l with
  | nil => exact absurd rfl hne
  | cons p ps =>
    have hg : Good (p :: ps) := fun q hq => ⟨ht q hq, hv q hq⟩
    have e : scheme ++ b!" " ++ joinStr b!", " ((p :: ps).map fun p => param p.1 p.2) =
        scheme ++ 0x20 :: joinStr b!", " ((p :: ps).map fun p => param p.1 p.2) := by simp
    rw [e]
    exact fun l => ⟨fun h => unique hs hg h, fun h => h ▸ reads hs hg⟩

/-- C84: from the challenge that `WriteBearerError` writes for an error, a client that reads it as RFC 7235
defines can read the error's parameters, with their values, exactly if all values consist of bytes that
stand for themselves between quotes; and then it can read nothing else. -/
theorem C84_bearer {σ : Type} (e : Error) (h500 : e.status ≠ 500) (h1 : 100 ≤ e.status)
    (h2 : e.status ≤ 999) (s : Shared σ) (l : Local) (hw : l.w.Fresh) :
    ∃ l' h text, exec (writeBearerError (.oauth e)) s l = (.ret true, s, l') ∧
      l'.w.sent = some (e.status.toNat, h) ∧ h.all b!"WWW-Authenticate" = [text] ∧
      (Challenges text [⟨b!"Bearer", .params (shown e)⟩] ↔ ∀ p ∈ shown e, ∀ b ∈ p.2, Rfc7235.Plain b) ∧
      ((∀ p ∈ shown e, ∀ b ∈ p.2, Rfc7235.Plain b) → Says text [⟨b!"Bearer", .params (shown e)⟩]) := by
  obtain ⟨l', h, hx, hs, _, _, ht, _⟩ := C10_challenge e h500 h1 h2 s l hw
  have says : (∀ p ∈ shown e, ∀ b ∈ p.2, Rfc7235.Plain b) →
      Says (b!"Bearer " ++ joinStr b!", " ((shown e).map fun p => param p.1 p.2))
        [⟨b!"Bearer", .params (shown e)⟩] := fun hv =>
    says_shown bearer_token (by obtain ⟨p, ps, e⟩ := shown_cons e; rw [e]; simp) (shown_token e) hv
  refine ⟨l', h, _, hx, hs, ht, ⟨fun hc => ?_, fun hv => (says hv _).mpr rfl⟩, says⟩
  have hc : Challenges (b!"Bearer" ++ 0x20 :: joinStr b!", " ((shown e).map fun p => param p.1 p.2))
    [⟨b!"Bearer", .params (shown e)⟩] := hc
  have ht := shown_token e
  obtain ⟨p, ps, he⟩ := shown_cons e
  rw [he] at hc ht ⊢
  exact readable bearer_token ht hc

/-- C84: quotes and backslashes are not escaped. An error whose realm contains quotes is read as another
one, whose realm is shorter and which has a scope; and of a backslash nothing is left. -/
theorem C84_bearer_misread :
    (∃ e : Error, parameters e = [(b!"realm", b!"a\", scope=\"b")] ∧
      Says (b!"Bearer " ++ e.params) [⟨b!"Bearer", .params [(b!"realm", b!"a"), (b!"scope", b!"b")]⟩]) ∧
    ∃ e : Error, parameters e = [(b!"realm", b!"a\\b")] ∧
      Challenges (b!"Bearer " ++ e.params) [⟨b!"Bearer", .params [(b!"realm", b!"ab")]⟩] := by
  refine ⟨⟨{ realm := b!"a\", scope=\"b" }, by decide +kernel, ?_⟩,
    ⟨{ realm := b!"a\\b" }, by decide +kernel, ?_⟩⟩
  · have := says_shown bearer_token (l := [(b!"realm", b!"a"), (b!"scope", b!"b")]) (by simp)
      (by unfold Rfc7235.Token; decide +kernel) (by decide +kernel)
    have e : b!"Bearer " ++ Error.params { realm := b!"a\", scope=\"b" } =
        b!"Bearer" ++ b!" " ++ joinStr b!", " ([(b!"realm", b!"a"), (b!"scope", b!"b")].map fun p => param p.1 p.2) := by
      decide +kernel
    rw [e]
    exact this
  · have h : AuthParam (b!"realm" ++ [] ++ [0x3D] ++ [] ++ [0x22] ++ b!"a\\b" ++ [0x22]) (b!"realm", b!"ab") :=
      .quoted (by unfold Rfc7235.Token; decide +kernel) (fun b hb => by cases hb) (fun b hb => by cases hb)
        (.plain (by decide) (.pair (by decide) .nil))
    have := Challenges.some (.params (n := 0) bearer_token (.some h .done)) .done
    have e : b!"Bearer " ++ Error.params { realm := b!"a\\b" } =
        b!"Bearer" ++ List.replicate (0 + 1) 0x20 ++
          (b!"realm" ++ [] ++ [0x3D] ++ [] ++ [0x22] ++ b!"a\\b" ++ [0x22] ++ []) ++ [] := by
      decide +kernel
    rw [e]
    exact this

/-- C84: what the endpoints of the bundled server demand, if they answer with 401, can be read in one way
only: Basic authentication for the realm OAuth2. -/
theorem C84_serve {s : Server} {c : Call} {r : Request} {res : Response} (hop : c.op = .serve r)
    (h : (step ⟨false, s⟩ c).1 = .answered res) (h401 : res.statusCode = 401) :
    ∃ text, res.header.all b!"WWW-Authenticate" = [text] ∧
      Says text [⟨b!"Basic", .params [(b!"realm", b!"OAuth2")]⟩] := by
  refine ⟨_, (C68_challenge hop h).2 h401, ?_⟩
  exact says_shown (scheme := b!"Basic") (l := [(b!"realm", b!"OAuth2")])
    (by unfold Rfc7235.Token; decide +kernel) (by simp) (by unfold Rfc7235.Token; decide +kernel) (by decide +kernel)

/-- The ways in which `Authorize` refuses: the status, and the parameters of the challenge. -/
inductive Spec.KeptOut (required : Scope) : Nat → List (Str × Str) → Prop
  | missing : KeptOut required 401 [(b!"realm", b!"OAuth2")]
  | request : KeptOut required 400
      [(b!"error", b!"invalid_request"), (b!"error_description", b!"malformed authorization header")]
  | token (why : Str) : why ∈ [b!"malformed token", b!"unknown token", b!"expired token"] →
      KeptOut required 401 [(b!"error", b!"invalid_token"), (b!"error_description", why)]
  | scope : KeptOut required 403 [(b!"error", b!"insufficient_scope"), (b!"scope", required.string)]

/-- C84: whatever the request and whatever is stored, what `Authorize` demands can be read in one way only,
if the scope that the program requires consists of bytes that stand for themselves between quotes. -/
theorem C84_authorize {s : Server} {c : Call} {r : Request} {required : Scope} {res : Response}
    (hop : c.op = .authorize r required) (h : (step ⟨false, s⟩ c).1 = .rejected res)
    (hq : ∀ b ∈ required.string, Rfc7235.Plain b) :
    ∃ text ps, res.header.all b!"WWW-Authenticate" = [text] ∧ KeptOut required res.statusCode ps ∧
      Says text [⟨b!"Bearer", .params ps⟩] := by
  rw [step_authorize hop] at h
  cases ha : s.authorizes r required (c.clock 0) with
  | none => rw [ha] at h; cases h
  | some e =>
    rw [ha] at h
    cases h
    obtain ⟨h1, h2, _⟩ := challenge_result e
    have key : ∀ {ps}, KeptOut required e.status.toNat ps → shown e = ps →
        (∀ p ∈ ps, ∀ b ∈ p.2, Rfc7235.Plain b) →
        ∃ text ps, (Server.challenge {} e).result.header.all b!"WWW-Authenticate" = [text] ∧
          KeptOut required (Server.challenge {} e).result.statusCode ps ∧ Says text [⟨b!"Bearer", .params ps⟩] := by
      rintro ps hk rfl hv
      refine ⟨_, _, h2, h1 ▸ hk, ?_⟩
      have := says_shown bearer_token (by obtain ⟨p, ps, e⟩ := shown_cons e; rw [e]; simp) (shown_token e) hv
      have e1 : (if e.params = [] then b!"realm=\"OAuth2\"" else e.params) =
          joinStr b!", " ((shown e).map fun p => param p.1 p.2) := by
        unfold Error.params
        rw [C11_params_exact e e.map (List.Perm.refl _)]
        unfold shown
        cases hl : parameters e with
        | nil => rfl
        | cons p ps =>
          rw [join_tail, if_neg, if_neg (by simp), join_tail]
          simp [param]
      rw [e1]
      exact this
    unfold Server.authorizes at ha
    split at ha
    · rename_i hp
      cases ha
      unfold parseBearerToken at hp
      simp only at hp
      repeat' split at hp
      all_goals first
        | (cases hp; done)
        | (cases hp; exact key .missing (by decide +kernel) (by decide +kernel))
        | (cases hp; exact key .request (by decide +kernel) (by decide +kernel))
    · split at ha
      · cases ha
        exact key (.token b!"malformed token" (by simp)) (by decide +kernel) (by decide +kernel)
      · split at ha
        · cases ha
          exact key (.token b!"unknown token" (by simp)) (by decide +kernel) (by decide +kernel)
        · split at ha
          · cases ha
            exact key (.token b!"expired token" (by simp)) (by decide +kernel) (by decide +kernel)
          · split at ha
            · rename_i x hx _ hsc
              cases ha
              refine key .scope ?_ ?_
              · have hr : required.items ≠ [] := by
                  intro h0
                  rw [(C07_includes _ _).mpr fun i hi => by rw [h0] at hi; cases hi] at hsc
                  cases hsc
                unfold shown parameters insufficientScope
                simp [hr]
              · intro p hp b hb
                simp only [List.mem_cons, List.not_mem_nil, or_false] at hp
                rcases hp with rfl | rfl
                · revert b; decide +kernel
                · exact hq b hb
            · cases ha

/-! ### Non-vacuity -/

/-- An error with four readable parameters. -/
def fourParams : Error :=
  { name := b!"insufficient_scope", scope := some [b!"a", b!"b"], realm := b!"it's, a = b", state := b!"s" }

/-- What is written for it says just that. -/
example : Says (b!"Bearer " ++ fourParams.params)
    [⟨b!"Bearer", .params [(b!"error", b!"insufficient_scope"), (b!"realm", b!"it's, a = b"),
      (b!"scope", b!"a b"), (b!"state", b!"s")]⟩] := by
  have := says_shown bearer_token (l := [(b!"error", b!"insufficient_scope"), (b!"realm", b!"it's, a = b"),
      (b!"scope", b!"a b"), (b!"state", b!"s")]) (by simp)
      (by unfold Rfc7235.Token; decide +kernel) (by decide +kernel)
  have e : b!"Bearer " ++ fourParams.params = b!"Bearer" ++ b!" " ++ joinStr b!", "
        ([(b!"error", b!"insufficient_scope"), (b!"realm", b!"it's, a = b"),
          (b!"scope", b!"a b"), (b!"state", b!"s")].map fun p => param p.1 p.2) := by decide +kernel
  rw [e]
  exact this

/-- An unknown token is refused, with a scope that can be read. -/
example : ∃ res, (step ⟨false, Demo.server⟩ (Demo.present Demo.a1.string (some [b!"foo"]) 1100)).1 =
      .rejected res ∧ ∀ b ∈ Scope.string (some [b!"foo"]), Rfc7235.Plain b :=
  ⟨(step ⟨false, Demo.server⟩ (Demo.present Demo.a1.string (some [b!"foo"]) 1100)).1.response, by decide +kernel,
    by decide +kernel⟩

end OAuth2

import Verif.Spec.Flaky
import Verif.Lemmas.Concurrent
import Verif.Props.Writer

/-!
The invariant of concurrent runs with response writers that need not work. The proofs are those of
Lemmas/Concurrent.lean.
-/

namespace OAuth2.Flaky

open Spec (Op Call History Event Answer Started step)
open Spec.Flaky
open Prog

/-! ### Calls made one after the other with such writers -/

/-- A call and what its caller observed. -/
structure Ev where
  call : Attempt
  answer : Answer

/-- Making one call. -/
def stepW (s : Shared Server) (c : Attempt) : Answer × Shared Server :=
  (c.call.op.answer (exec c.program s c.call.local).1 (exec c.program s c.call.local).2.2,
    (exec c.program s c.call.local).2.1)

theorem stepW_program (st : Server) (c : Attempt) :
    stepW ⟨false, st⟩ c =
      (c.call.op.answer (exec c.program ⟨false, st⟩ c.call.local).1
        (exec c.program ⟨false, st⟩ c.call.local).2.2,
        (exec c.program ⟨false, st⟩ c.call.local).2.1) := rfl

theorem withWriter_plain {σ α : Type} {p : Prog σ α} (hp : p.Plain) (b : WriterBehaviour) :
    (p.withWriter b).Plain := by
  induction p generalizing b with
  | ret a => trivial
  | panic => trivial
  | lock k _ => exact hp.elim
  | unlock k _ => exact hp.elim
  | get k ih => exact fun s => ih s (hp s) b
  | modify g k ih => exact ih hp b
  | now k ih => exact fun t => ih t (hp t) b
  | rand n k ih => exact fun x => ih x (hp x) b
  | resp g k ih =>
    simp only [withWriter]
    split
    · trivial
    · exact ih hp _

/-- Every call is a program that holds the mutex from its start to its end. -/
theorem program_eq (c : Attempt) :
    ∃ body : Handler c.call.op.Result, c.program = .lock (.deferUnlock body) ∧ body.Plain := by
  obtain ⟨⟨op, coins, clock⟩, b⟩ := c
  cases op with
  | serve r => exact ⟨_, rfl, withWriter_plain (Server.plain_serveLocked r) b⟩
  | authorize r required => exact ⟨_, rfl, withWriter_plain (Server.plain_authorizeLocked r required) b⟩
  | configure clients users => exact ⟨_, rfl, trivial⟩

theorem stepW_unlocked (st : Server) (c : Attempt) : (stepW ⟨false, st⟩ c).2.locked = false := by
  rw [stepW_program]
  obtain ⟨body, h, hb⟩ := program_eq c
  rw [h]
  simp only [exec, Bool.false_eq_true, if_false]
  rw [exec_deferUnlock]
  have := plain_exec hb ⟨true, st⟩ c.call.local
  rcases hx : exec body ⟨true, st⟩ c.call.local with ⟨o, s', l'⟩
  rw [hx] at this
  cases o with
  | ret a => rfl
  | panic => rfl
  | deadlock => exact absurd rfl this

/-- Calls made one after the other. -/
inductive HistoryW (s₀ : Server) : List Ev → Shared Server → Prop
  | start : HistoryW s₀ [] ⟨false, s₀⟩
  | next {h : List Ev} {s : Shared Server} (c : Attempt) : HistoryW s₀ h s →
      HistoryW s₀ (⟨c, (stepW s c).1⟩ :: h) (stepW s c).2

/-- The run looks as if the calls in `order` had been made one after the other. -/
structure Lin (s₀ : Server) (tr : List Act) (order : List (Nat × Ev)) (s : Shared Server) :
    Prop where
  history : HistoryW s₀ (order.map (·.2)) s
  once : (order.map (·.1)).Nodup
  invoked : ∀ x ∈ order, .invoke x.1 x.2.call ∈ tr
  answered : ∀ i a, .answer i a ∈ tr → ∃ e, (i, e) ∈ order ∧ e.answer = a
  realtime : ∀ i j, Precedes tr i j → j ∈ order.map (·.1) →
    ∃ new old, order.map (·.1) = new ++ j :: old ∧ i ∈ old

/-! ### The invariant -/

/-- The call has not got the mutex yet. -/
structure Waiting (order : List (Nat × Ev)) (i : Nat) (t : Thread) : Prop where
  prog : t.prog = t.call.program
  loc : t.loc = t.call.call.local
  answered : t.answered = false
  fresh : i ∉ order.map (·.1)

/-- The call has released the mutex. -/
structure Finished (order : List (Nat × Ev)) (i : Nat) (t : Thread) : Prop where
  ended : ∃ o, t.prog.ended = some o ∧ (i, ⟨t.call, t.call.call.op.answer o t.loc⟩) ∈ order

/-- The call holds the mutex. -/
structure Inside (order : List (Nat × Ev)) (shared s : Shared Server) (i : Nat) (t : Thread) :
    Prop where
  prog : ∃ p : Handler t.call.call.op.Result, t.prog = p.deferUnlock ∧ p.Plain
  locked : shared.locked = true
  answered : t.answered = false
  exec : ∃ o l, exec t.prog shared t.loc = (o, s, l) ∧
    (i, ⟨t.call, t.call.call.op.answer o l⟩) ∈ order

/-- Who holds the mutex. -/
def Holder (w : World) (order : List (Nat × Ev)) (s : Shared Server) : Option Nat → Prop
  | none => w.shared = s ∧ ∀ i t, w.threads i = some t → Waiting order i t ∨ Finished order i t
  | some k => (∃ t, w.threads k = some t ∧ Inside order w.shared s k t) ∧
      ∀ i t, w.threads i = some t → i ≠ k → Waiting order i t ∨ Finished order i t

structure Invariant (s₀ : Server) (tr : List Act) (w : World) (order : List (Nat × Ev))
    (s : Shared Server) : Prop where
  lin : Lin s₀ tr order s
  unlocked : s.locked = false
  threads : ∀ i t, w.threads i = some t → .invoke i t.call ∈ tr
  calls : ∀ i c, .invoke i c ∈ tr → ∃ t, w.threads i = some t ∧ t.call = c
  replies : ∀ i t, w.threads i = some t → (t.answered = true ↔ ∃ a, .answer i a ∈ tr)
  answers : ∀ i a, .answer i a ∈ tr → ∃ t, w.threads i = some t
  holder : ∃ k, Holder w order s k

theorem precedes_cons {tr : List Act} {act : Act} {i j : Nat} (h : Precedes (act :: tr) i j) :
    Precedes tr i j ∨ ∃ c a, act = .invoke j c ∧ .answer i a ∈ tr := by
  obtain ⟨later, earlier, c, a, h1, h2⟩ := h
  cases later with
  | nil => cases h1; exact .inr ⟨c, a, rfl, h2⟩
  | cons x later => cases h1; exact .inl ⟨later, earlier, c, a, rfl, h2⟩

theorem put_same (w : World) (i : Nat) (t : Thread) : (w.put i t).threads i = some t := if_pos rfl

theorem put_other (w : World) {i j : Nat} (t : Thread) (h : j ≠ i) :
    (w.put i t).threads j = w.threads j := if_neg h

theorem put_cases {w : World} {i j : Nat} {t t' : Thread} (h : (w.put i t).threads j = some t') :
    (j = i ∧ t' = t) ∨ (j ≠ i ∧ w.threads j = some t') := by
  by_cases hj : j = i
  · subst hj
    rw [put_same] at h
    exact .inl ⟨rfl, (Option.some.inj h).symm⟩
  · rw [put_other w t hj] at h
    exact .inr ⟨hj, h⟩

/-- The same linearization after a step. -/
theorem lin_step {s₀ : Server} {tr : List Act} {order : List (Nat × Ev)}
    {s : Shared Server} (h : Lin s₀ tr order s) (i : Nat) :
    Lin s₀ (.step i :: tr) order s where
  history := h.history
  once := h.once
  invoked := fun x hx => List.mem_cons_of_mem _ (h.invoked x hx)
  answered := fun j a hj => by
    rcases List.mem_cons.mp hj with hj | hj
    · cases hj
    · exact h.answered j a hj
  realtime := fun j k hp hk => by
    rcases precedes_cons hp with hp | ⟨_, _, hp, _⟩
    · exact h.realtime j k hp hk
    · cases hp

theorem finished_mono {order order' : List (Nat × Ev)} {i : Nat} {t : Thread}
    (h : Finished order i t) (hs : ∀ x ∈ order, x ∈ order') : Finished order' i t := by
  obtain ⟨o, h1, h2⟩ := h.ended
  exact ⟨o, h1, hs _ h2⟩

theorem invariant_start (s₀ : Server) :
    Invariant s₀ [] { shared := ⟨false, s₀⟩, threads := fun _ => none } [] ⟨false, s₀⟩ where
  lin := {
    history := .start
    once := List.nodup_nil
    invoked := fun _ hx => nomatch hx
    answered := fun _ _ hx => nomatch hx
    realtime := fun _ _ _ hx => nomatch hx }
  unlocked := rfl
  threads := fun _ _ h => nomatch h
  calls := fun _ _ h => nomatch h
  replies := fun _ _ h => nomatch h
  answers := fun _ _ h => nomatch h
  holder := ⟨none, rfl, fun _ _ h => nomatch h⟩

theorem invariant_invoke {s₀ : Server} {tr : List Act} {w : World} {order : List (Nat × Ev)}
    {s : Shared Server} (inv : Invariant s₀ tr w order s) {i : Nat} (c : Attempt)
    (hi : w.threads i = none) :
    Invariant s₀ (.invoke i c :: tr)
      (w.put i { call := c, prog := c.program, loc := c.call.local }) order s := by
  have hfresh : i ∉ order.map (·.1) := by
    intro h
    obtain ⟨x, h1, h2⟩ := List.mem_map.mp h
    have := inv.lin.invoked x h1
    rw [h2] at this
    obtain ⟨t, h3, _⟩ := inv.calls _ _ this
    rw [hi] at h3
    cases h3
  have hnew : Waiting order i { call := c, prog := c.program, loc := c.call.local } :=
    ⟨rfl, rfl, rfl, hfresh⟩
  have hnoans : ∀ a, .answer i a ∉ tr := by
    intro a ha
    obtain ⟨t, ht⟩ := inv.answers i a ha
    rw [hi] at ht
    cases ht
  refine { lin := ?_, unlocked := inv.unlocked, threads := ?_, calls := ?_, replies := ?_,
           answers := ?_, holder := ?_ }
  · refine { history := inv.lin.history, once := inv.lin.once, invoked := ?_, answered := ?_,
             realtime := ?_ }
    · exact fun x hx => List.mem_cons_of_mem _ (inv.lin.invoked x hx)
    · intro j a hj
      rcases List.mem_cons.mp hj with hj | hj
      · cases hj
      · exact inv.lin.answered j a hj
    · intro j k hp hk
      rcases precedes_cons hp with hp | ⟨_, _, hp, _⟩
      · exact inv.lin.realtime j k hp hk
      · cases hp
        exact absurd hk hfresh
  · intro j t hj
    rcases put_cases hj with ⟨rfl, rfl⟩ | ⟨_, hj⟩
    · exact List.mem_cons_self
    · exact List.mem_cons_of_mem _ (inv.threads j t hj)
  · intro j c' hj
    rcases List.mem_cons.mp hj with hj | hj
    · cases hj
      exact ⟨_, put_same _ _ _, rfl⟩
    · obtain ⟨t, h1, h2⟩ := inv.calls j c' hj
      refine ⟨t, ?_, h2⟩
      rw [put_other _ _ (fun h => by rw [h, hi] at h1; cases h1)]
      exact h1
  · intro j t hj
    rcases put_cases hj with ⟨rfl, rfl⟩ | ⟨_, hj⟩
    · constructor
      · intro h; cases h
      · rintro ⟨a, ha⟩
        rcases List.mem_cons.mp ha with ha | ha
        · cases ha
        · exact absurd ha (hnoans a)
    · rw [inv.replies j t hj]
      simp
  · intro j a hj
    rcases List.mem_cons.mp hj with hj | hj
    · cases hj
    · obtain ⟨t, ht⟩ := inv.answers j a hj
      refine ⟨t, ?_⟩
      rw [put_other _ _ (fun h => by rw [h, hi] at ht; cases ht)]
      exact ht
  · obtain ⟨k, hk⟩ := inv.holder
    refine ⟨k, ?_⟩
    cases k with
    | none =>
      refine ⟨hk.1, fun j t hj => ?_⟩
      rcases put_cases hj with ⟨rfl, rfl⟩ | ⟨_, hj⟩
      · exact .inl hnew
      · exact hk.2 j t hj
    | some k =>
      obtain ⟨⟨t, h1, h2⟩, h3⟩ := hk
      refine ⟨⟨t, ?_, h2⟩, fun j t hj hjk => ?_⟩
      · rw [put_other _ _ (fun h => by rw [h, hi] at h1; cases h1)]
        exact h1
      · rcases put_cases hj with ⟨rfl, rfl⟩ | ⟨_, hj⟩
        · exact .inl hnew
        · exact h3 j t hj hjk

theorem invariant_answer {s₀ : Server} {tr : List Act} {w : World} {order : List (Nat × Ev)}
    {s : Shared Server} (inv : Invariant s₀ tr w order s) {i : Nat} {t : Thread}
    (hi : w.threads i = some t) (ha : t.answered = false) {o : Outcome t.call.call.op.Result}
    (ho : t.prog.ended = some o) :
    Invariant s₀ (.answer i (t.call.call.op.answer o t.loc) :: tr)
      (w.put i { t with answered := true }) order s := by
  have hout : ∀ k, Holder w order s k → k ≠ some i := by
    rintro k hk rfl
    obtain ⟨⟨t', h1, h2⟩, _⟩ := hk
    rw [hi] at h1
    cases h1
    obtain ⟨p, hp, hpl⟩ := h2.prog
    obtain ⟨x, hx⟩ := inside_step hpl w.shared t.loc
    rw [← hp, ended_no_step ho] at hx
    cases hx
  have hfin : Finished order i t := by
    have hnw : ¬ Waiting order i t := by
      intro h
      obtain ⟨b, hb, _⟩ := program_eq t.call
      rw [h.prog, hb] at ho
      cases ho
    obtain ⟨k, hk⟩ := inv.holder
    have hne := hout k hk
    cases k with
    | none => exact (hk.2 i t hi).resolve_left hnw
    | some k => exact (hk.2 i t hi (fun h => hne (by rw [h]))).resolve_left hnw
  have hmem : (i, (⟨t.call, t.call.call.op.answer o t.loc⟩ : Ev)) ∈ order := by
    obtain ⟨o', h1, h2⟩ := hfin.ended
    rw [ho] at h1
    cases h1
    exact h2
  have hnew : Finished order i { t with answered := true } := ⟨o, ho, hmem⟩
  refine { lin := ?_, unlocked := inv.unlocked, threads := ?_, calls := ?_, replies := ?_,
           answers := ?_, holder := ?_ }
  · refine { history := inv.lin.history, once := inv.lin.once, invoked := ?_, answered := ?_,
             realtime := ?_ }
    · exact fun x hx => List.mem_cons_of_mem _ (inv.lin.invoked x hx)
    · intro j a hj
      rcases List.mem_cons.mp hj with hj | hj
      · cases hj
        exact ⟨_, hmem, rfl⟩
      · exact inv.lin.answered j a hj
    · intro j k hp hk
      rcases precedes_cons hp with hp | ⟨_, _, hp, _⟩
      · exact inv.lin.realtime j k hp hk
      · cases hp
  · intro j t' hj
    rcases put_cases hj with ⟨rfl, rfl⟩ | ⟨_, hj⟩
    · exact List.mem_cons_of_mem _ (inv.threads _ t hi)
    · exact List.mem_cons_of_mem _ (inv.threads _ _ hj)
  · intro j c' hj
    rcases List.mem_cons.mp hj with hj | hj
    · cases hj
    · obtain ⟨t', h1, h2⟩ := inv.calls j c' hj
      by_cases hji : j = i
      · subst hji
        rw [hi] at h1
        cases h1
        exact ⟨_, put_same _ _ _, h2⟩
      · exact ⟨t', by rw [put_other _ _ hji]; exact h1, h2⟩
  · intro j t' hj
    rcases put_cases hj with ⟨rfl, rfl⟩ | ⟨hji, hj⟩
    · exact ⟨fun _ => ⟨_, List.mem_cons_self⟩, fun _ => rfl⟩
    · rw [inv.replies j t' hj]
      constructor
      · rintro ⟨a, h⟩; exact ⟨a, List.mem_cons_of_mem _ h⟩
      · rintro ⟨a, h⟩
        rcases List.mem_cons.mp h with h | h
        · cases h; exact absurd rfl hji
        · exact ⟨a, h⟩
  · intro j a hj
    by_cases hji : j = i
    · subst hji; exact ⟨_, put_same _ _ _⟩
    · rcases List.mem_cons.mp hj with hj | hj
      · cases hj; exact absurd rfl hji
      · obtain ⟨t', ht⟩ := inv.answers j a hj
        exact ⟨t', by rw [put_other _ _ hji]; exact ht⟩
  · obtain ⟨k, hk⟩ := inv.holder
    have hne := hout k hk
    refine ⟨k, ?_⟩
    cases k with
    | none =>
      refine ⟨hk.1, fun j t' hj => ?_⟩
      rcases put_cases hj with ⟨rfl, rfl⟩ | ⟨_, hj⟩
      · exact .inr hnew
      · exact hk.2 j t' hj
    | some k =>
      obtain ⟨⟨t', h1, h2⟩, h3⟩ := hk
      refine ⟨⟨t', ?_, h2⟩, fun j t'' hj hjk => ?_⟩
      · rw [put_other _ _ (fun h => hne (by rw [h]))]
        exact h1
      · rcases put_cases hj with ⟨rfl, rfl⟩ | ⟨_, hj⟩
        · exact .inr hnew
        · exact h3 j t'' hj hjk

/-- The parts of the invariant that do not change when a goroutine takes a step. -/
theorem invariant_step_frame {s₀ : Server} {tr : List Act} {w w' : World}
    {order order' : List (Nat × Ev)} {s s' : Shared Server} (inv : Invariant s₀ tr w order s)
    {i : Nat} {t t' : Thread} (hi : w.threads i = some t)
    (hw : w'.threads = (w.put i t').threads) (hc : t'.call = t.call)
    (ha : t'.answered = t.answered) (lin : Lin s₀ (.step i :: tr) order' s')
    (unlocked : s'.locked = false) (holder : ∃ k, Holder w' order' s' k) :
    Invariant s₀ (.step i :: tr) w' order' s' := by
  refine { lin := lin, unlocked := unlocked, threads := ?_, calls := ?_, replies := ?_,
           answers := ?_, holder := holder }
  · intro j x hj
    rw [hw] at hj
    rcases put_cases hj with ⟨rfl, rfl⟩ | ⟨_, hj⟩
    · rw [hc]; exact List.mem_cons_of_mem _ (inv.threads _ _ hi)
    · exact List.mem_cons_of_mem _ (inv.threads _ _ hj)
  · intro j c' hj
    rw [hw]
    rcases List.mem_cons.mp hj with hj | hj
    · cases hj
    · obtain ⟨x, h1, h2⟩ := inv.calls j c' hj
      by_cases hji : j = i
      · subst hji
        rw [hi] at h1
        cases h1
        exact ⟨_, put_same _ _ _, hc.trans h2⟩
      · exact ⟨x, by rw [put_other _ _ hji]; exact h1, h2⟩
  · intro j x hj
    rw [hw] at hj
    have key : (∃ a, .answer j a ∈ (Act.step i :: tr)) ↔ ∃ a, .answer j a ∈ tr := by simp
    rw [key]
    rcases put_cases hj with ⟨rfl, rfl⟩ | ⟨_, hj⟩
    · rw [ha]; exact inv.replies _ _ hi
    · exact inv.replies _ _ hj
  · intro j a hj
    rw [hw]
    rcases List.mem_cons.mp hj with hj | hj
    · cases hj
    · by_cases hji : j = i
      · subst hji; exact ⟨_, put_same _ _ _⟩
      · obtain ⟨x, hx⟩ := inv.answers j a hj
        exact ⟨x, by rw [put_other _ _ hji]; exact hx⟩

/-- Taking a step. -/
theorem invariant_step {s₀ : Server} {tr : List Act} {w : World} {order : List (Nat × Ev)}
    {s : Shared Server} (inv : Invariant s₀ tr w order s) {i : Nat} {t : Thread}
    (hi : w.threads i = some t) {p : Handler t.call.call.op.Result} {sh : Shared Server} {l : Local}
    (hs : t.prog.step w.shared t.loc = some (p, sh, l)) :
    ∃ order' s', Invariant s₀ (.step i :: tr)
      ({ w with shared := sh }.put i { t with prog := p, loc := l }) order' s' := by
  obtain ⟨k, hk⟩ := inv.holder
  have hfin : ¬ Finished order i t := by
    intro h
    obtain ⟨o, h1, _⟩ := h.ended
    rw [ended_no_step h1] at hs
    cases hs
  have hwait : Waiting order i t → k = none := by
    intro h
    obtain ⟨b, hb, _⟩ := program_eq t.call
    rw [h.prog, hb] at hs
    simp only [Prog.step] at hs
    cases k with
    | none => rfl
    | some k =>
      obtain ⟨⟨t', _, h2⟩, _⟩ := hk
      rw [h2.locked] at hs
      cases hs
  by_cases hki : k = some i
  · -- the holder of the mutex
    subst hki
    obtain ⟨⟨t', h1, h2⟩, h3⟩ := hk
    rw [hi] at h1
    cases h1
    refine ⟨order, s, ?_⟩
    obtain ⟨b, hb, hpl⟩ := h2.prog
    obtain ⟨o, l', hx, hm⟩ := h2.exec
    rw [exec_step hs] at hx
    refine invariant_step_frame inv hi rfl rfl rfl (lin_step inv.lin i) inv.unlocked ?_
    rw [hb] at hs
    rcases step_inside hpl hs with ⟨o', h4, h5⟩ | ⟨b', rfl, h4, h5⟩
    · rw [exec_ended h4] at hx
      obtain ⟨rfl, rfl, rfl⟩ : o' = o ∧ sh = s ∧ l = l' := by
        simpa only [Prod.mk.injEq] using hx
      refine ⟨none, rfl, fun j x hj => ?_⟩
      rcases put_cases hj with ⟨rfl, rfl⟩ | ⟨hji, hj⟩
      · exact .inr ⟨o', h4, hm⟩
      · exact h3 j x hj hji
    · refine ⟨some i, ⟨_, put_same _ _ _, ⟨b', rfl, h4⟩, h5.trans h2.locked, h2.answered, o, l', hx, hm⟩,
        fun j x hj hji => ?_⟩
      rcases put_cases hj with ⟨rfl, rfl⟩ | ⟨_, hj⟩
      · exact absurd rfl hji
      · exact h3 j x hj hji
  · have hw : Waiting order i t := by
      cases k with
      | none => exact (hk.2 i t hi).resolve_right hfin
      | some k => exact (hk.2 i t hi (fun h => hki (by rw [h]))).resolve_right hfin
    have := hwait hw
    subst this
    obtain ⟨hsh, hrest⟩ := hk
    obtain ⟨b, hb, hpl⟩ := program_eq t.call
    have hu := inv.unlocked
    obtain ⟨locked, st⟩ := s
    simp only at hu
    subst hu
    rw [hw.prog, hb, hsh, hw.loc] at hs
    simp only [Prog.step, Bool.false_eq_true, if_false] at hs
    cases hs
    -- the call takes effect now
    have hp := stepW_program st t.call
    have hex : exec t.call.program ⟨false, st⟩ t.call.call.local =
        exec b.deferUnlock ⟨true, st⟩ t.call.call.local := by
      rw [hb]; rfl
    rw [hex] at hp
    refine ⟨(i, ⟨t.call, (stepW ⟨false, st⟩ t.call).1⟩) :: order, (stepW ⟨false, st⟩ t.call).2, ?_⟩
    have hmono : ∀ x ∈ order, x ∈ ((i, ⟨t.call, (stepW ⟨false, st⟩ t.call).1⟩) :: order : List (Nat × Ev)) :=
      fun x hx => List.mem_cons_of_mem _ hx
    refine invariant_step_frame inv hi rfl rfl rfl ?_ (stepW_unlocked st t.call) ?_
    · refine { history := ?_, once := ?_, invoked := ?_, answered := ?_, realtime := ?_ }
      · exact .next t.call inv.lin.history
      · exact List.nodup_cons.mpr ⟨hw.fresh, inv.lin.once⟩
      · intro x hx
        rcases List.mem_cons.mp hx with rfl | hx
        · exact List.mem_cons_of_mem _ (inv.threads i t hi)
        · exact List.mem_cons_of_mem _ (inv.lin.invoked x hx)
      · intro j a hj
        rcases List.mem_cons.mp hj with hj | hj
        · cases hj
        · obtain ⟨e, h1, h2⟩ := inv.lin.answered j a hj
          exact ⟨e, hmono _ h1, h2⟩
      · intro j m hpre hm
        rcases precedes_cons hpre with hpre' | ⟨_, _, hpre', _⟩
        · rcases List.mem_cons.mp hm with rfl | hm
          · obtain ⟨_, earlier, _, a, h0, h1⟩ := hpre'
            obtain ⟨e, h2, _⟩ := inv.lin.answered j a
              (by rw [h0]; exact List.mem_append_right _ (List.mem_cons_of_mem _ h1))
            exact ⟨[], _, rfl, List.mem_map.mpr ⟨_, h2, rfl⟩⟩
          · obtain ⟨new, old, h1, h2⟩ := inv.lin.realtime j m hpre' hm
            exact ⟨i :: new, old, by rw [List.map_cons, h1]; rfl, h2⟩
        · cases hpre'
    · refine ⟨some i, ⟨_, put_same _ _ _, ⟨b, rfl, hpl⟩, rfl, hw.answered,
        (exec b.deferUnlock ⟨true, st⟩ t.call.call.local).1,
        (exec b.deferUnlock ⟨true, st⟩ t.call.call.local).2.2, ?_, ?_⟩, fun j x hj hji => ?_⟩
      · rw [hp]; rfl
      · rw [hp]; exact List.mem_cons_self
      · rcases put_cases hj with ⟨rfl, rfl⟩ | ⟨_, hj⟩
        · exact absurd rfl hji
        · rcases hrest j x hj with h | h
          · refine .inl ⟨h.prog, h.loc, h.answered, ?_⟩
            simp only [List.map_cons, List.mem_cons, not_or]
            exact ⟨hji, h.fresh⟩
          · exact .inr (finished_mono h hmono)

theorem run_invariant {s₀ : Server} {tr : List Act} {w : World} (h : Run s₀ tr w) :
    ∃ order s, Invariant s₀ tr w order s := by
  induction h with
  | start => exact ⟨_, _, invariant_start s₀⟩
  | next _ hn ih =>
    obtain ⟨order, s, inv⟩ := ih
    cases hn with
    | invoke i c hi => exact ⟨_, _, invariant_invoke inv c hi⟩
    | step i t hi hs => exact invariant_step inv hi hs
    | answer i t hi ha ho => exact ⟨_, _, invariant_answer inv hi ha ho⟩

/-! ### Termination -/

/-- A goroutine closer to its end. -/
inductive Closer : Thread → Thread → Prop
  | step (t : Thread) (p : Handler t.call.call.op.Result) (l : Local) (h : Prog.Child p t.prog) :
      Closer { t with prog := p, loc := l } t
  | answer (t : Thread) (h : t.answered = false) : Closer { t with answered := true } t

theorem closer_acc (t : Thread) : Acc Closer t := by
  obtain ⟨call, prog, loc, answered⟩ := t
  have hp := child_acc prog
  induction hp generalizing loc answered with
  | intro prog _ ih =>
    have h1 : ∀ loc, Acc Closer ⟨call, prog, loc, true⟩ := by
      intro loc
      refine ⟨_, fun t' h => ?_⟩
      cases h with
      | step _ p l h => exact ih _ h _ _
      | answer _ h => cases h
    cases answered with
    | true => exact h1 loc
    | false =>
      refine ⟨_, fun t' h => ?_⟩
      cases h with
      | step _ p l h => exact ih _ h _ _
      | answer _ h => exact h1 _

/-- A goroutine closer to its end, or none. -/
inductive CloserOpt : Option Thread → Option Thread → Prop
  | some {t t' : Thread} (h : Closer t t') : CloserOpt (some t) (some t')

theorem closerOpt_acc (x : Option Thread) : Acc CloserOpt x := by
  cases x with
  | none => exact ⟨_, fun _ h => nomatch h⟩
  | some t =>
    induction closer_acc t with
    | intro t _ ih =>
      refine ⟨_, fun y h => ?_⟩
      cases h with
      | some h => exact ih _ h

theorem next_closer {w w' : World} {act : Act} (h : Next w act w') (hc : act.continues) :
    ∃ i, (∃ t, w.threads i = some t) ∧ CloserOpt (w'.threads i) (w.threads i) ∧
      ∀ j, j ≠ i → w'.threads j = w.threads j := by
  cases h with
  | invoke i c _ => exact hc.elim
  | step i t hi hs =>
    refine ⟨i, ⟨t, hi⟩, ?_, fun j hj => put_other _ _ hj⟩
    rw [put_same, hi]
    exact .some (.step t _ _ (step_child hs))
  | answer i t hi ha ho =>
    refine ⟨i, ⟨t, hi⟩, ?_, fun j hj => put_other _ _ hj⟩
    rw [put_same, hi]
    exact .some (.answer t ha)

theorem run_finite {s₀ : Server} {tr : List Act} {w : World} (h : Run s₀ tr w) :
    ∃ ids : List Nat, ids.Nodup ∧ ∀ i t, w.threads i = some t → i ∈ ids := by
  induction h with
  | start => exact ⟨[], List.nodup_nil, fun _ _ h => nomatch h⟩
  | next _ hn ih =>
    obtain ⟨ids, h1, h2⟩ := ih
    cases hn with
    | invoke i c hi =>
      by_cases hm : i ∈ ids
      · refine ⟨ids, h1, fun j t hj => ?_⟩
        rcases put_cases hj with ⟨rfl, _⟩ | ⟨_, hj⟩
        · exact hm
        · exact h2 j t hj
      · refine ⟨i :: ids, List.nodup_cons.mpr ⟨hm, h1⟩, fun j t hj => ?_⟩
        rcases put_cases hj with ⟨rfl, _⟩ | ⟨_, hj⟩
        · exact List.mem_cons_self
        · exact List.mem_cons_of_mem _ (h2 j t hj)
    | step i t hi hs =>
      refine ⟨ids, h1, fun j t' hj => ?_⟩
      rcases put_cases hj with ⟨rfl, _⟩ | ⟨_, hj⟩
      · exact h2 _ t hi
      · exact h2 j t' hj
    | answer i t hi ha ho =>
      refine ⟨ids, h1, fun j t' hj => ?_⟩
      rcases put_cases hj with ⟨rfl, _⟩ | ⟨_, hj⟩
      · exact h2 _ t hi
      · exact h2 j t' hj

/-- The world after going on without a new call. -/
def GoesOn (w' w : World) : Prop := ∃ act : Act, act.continues ∧ Next w act w'

theorem goesOn_acc {ids : List Nat} (hn : ids.Nodup) {w : World}
    (hw : ∀ i t, w.threads i = some t → i ∈ ids) : Acc GoesOn w := by
  have ha := oneLess_acc (r := CloserOpt) (ids.map w.threads) (fun x _ => closerOpt_acc x)
  generalize hx : ids.map w.threads = x at ha
  induction ha generalizing w with
  | intro x _ ih =>
    refine ⟨_, fun w' h => ?_⟩
    obtain ⟨act, hc, hnext⟩ := h
    obtain ⟨i, ⟨t, hi⟩, h1, h2⟩ := next_closer hnext hc
    subst hx
    refine ih _ (oneLess_map hn (hw i t hi) h1 h2) ?_ rfl
    intro j t' hj
    by_cases hji : j = i
    · subst hji; exact hw _ t hi
    · rw [h2 j hji] at hj; exact hw j t' hj

theorem run_acc {s₀ : Server} {tr : List Act} {w : World} (h : Run s₀ tr w) : Acc GoesOn w := by
  obtain ⟨ids, h1, h2⟩ := run_finite h
  exact goesOn_acc h1 h2

end OAuth2.Flaky

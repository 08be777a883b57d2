import Verif.Lemmas.Flaky
import Verif.Props.Concurrent

/-!
C69: calls made at the same time with response writers that fail, misbehave or panic, for every
number of goroutines and every schedule.
-/

namespace OAuth2

namespace Flaky

open Spec (Op Call History Event Answer Started step)
open Spec.Flaky

/-- With a writer that works, the program is the one of the call. -/
theorem program_reliable (c : Call) : Attempt.program ⟨c, .reliable⟩ = c.op.program := by
  obtain ⟨op, coins, clock⟩ := c
  cases op with
  | serve r =>
    show Prog.lock (.deferUnlock ((Server.serveLocked r).withWriter .reliable)) = _
    rw [Prog.withWriter_reliable]
    rfl
  | authorize r required =>
    show Prog.lock (.deferUnlock ((Server.authorizeLocked r required).withWriter .reliable)) = _
    rw [Prog.withWriter_reliable]
    rfl
  | configure clients users => rfl

theorem passes_outcome {op : Op} {b : WriterBehaviour} {o o' : Outcome op.Result} {l l' : Local}
    (ho : o = o' ∨ o = .panic ∧ ∃ n, b n = none) (hd : o' ≠ .deadlock)
    (hrel : b = .reliable → op.answer o l = op.answer o' l') :
    Passes b (op.answer o' l') (op.answer o l) := by
  refine ⟨hrel, ?_⟩
  rcases ho with rfl | ⟨rfl, hn⟩
  · cases o with
    | deadlock => exact absurd rfl hd
    | panic =>
      refine .inl ?_
      cases op <;> exact ⟨⟨_, rfl⟩, .inr ⟨_, rfl⟩⟩
    | ret a =>
      refine .inr ?_
      cases op with
      | serve r => exact .inr (.inr (.inr ⟨_, _, rfl, rfl⟩))
      | authorize r required =>
        cases a with
        | true => exact .inr (.inl ⟨rfl, rfl⟩)
        | false => exact .inr (.inr (.inl ⟨_, _, rfl, rfl⟩))
      | configure clients users => exact .inl ⟨rfl, rfl⟩
  · refine .inl ?_
    cases op <;> exact ⟨⟨_, rfl⟩, .inl hn⟩

theorem program_no_deadlock (st : Server) (c : Call) :
    (exec c.op.program ⟨false, st⟩ c.local).1 ≠ .deadlock := by
  obtain ⟨body, h, hb⟩ := OAuth2.program_eq c.op
  rw [h]
  simp only [exec, Bool.false_eq_true, if_false]
  rw [exec_deferUnlock]
  have := plain_exec hb ⟨true, st⟩ c.local
  rcases hx : exec body ⟨true, st⟩ c.local with ⟨o, s', l'⟩
  rw [hx] at this
  cases o with
  | ret a => exact nofun
  | panic => exact nofun
  | deadlock => exact absurd rfl this

/-- What happens to the server does not depend on the writer, and what the caller observes is what
the writer makes of the answer. -/
theorem stepW_step (st : Server) (c : Attempt) :
    (stepW ⟨false, st⟩ c).2 = (step ⟨false, st⟩ c.call).2 ∧
      Passes c.writer (step ⟨false, st⟩ c.call).1 (stepW ⟨false, st⟩ c).1 := by
  have hrel : c.writer = .reliable → (stepW ⟨false, st⟩ c).1 = (step ⟨false, st⟩ c.call).1 := by
    obtain ⟨c, b⟩ := c
    rintro rfl
    rw [step_program]
    unfold stepW
    rw [program_reliable]
  have hd := program_no_deadlock st c.call
  rw [step_program] at hrel ⊢
  have key : (exec c.program ⟨false, st⟩ c.call.local).2.1 =
      (exec c.call.op.program ⟨false, st⟩ c.call.local).2.1 ∧
      ((exec c.program ⟨false, st⟩ c.call.local).1 = (exec c.call.op.program ⟨false, st⟩ c.call.local).1 ∨
        (exec c.program ⟨false, st⟩ c.call.local).1 = .panic ∧ ∃ n, c.writer n = none) := by
    clear hrel hd
    obtain ⟨⟨op, coins, clock⟩, b⟩ := c
    cases op with
    | serve r =>
      obtain ⟨h1, _, h2⟩ := C60_serve b r st { coins := coins, clock := clock }
      exact ⟨h1, h2⟩
    | authorize r required =>
      obtain ⟨h1, _, h2⟩ := with_tidy (Server.authorizeLocked_still r required).tidy b st
        { coins := coins, clock := clock }
      exact ⟨h1, h2⟩
    | configure clients users => exact ⟨rfl, .inl rfl⟩
  exact ⟨key.1, passes_outcome key.2 hd hrel⟩

theorem historyW_unlocked {s₀ : Server} {h : List Ev} {s : Shared Server} (hh : HistoryW s₀ h s) :
    s.locked = false := by
  induction hh with
  | start => rfl
  | @next h s c _ ih =>
    obtain ⟨locked, st⟩ := s
    cases ih
    exact stepW_unlocked st c

/-- The same calls with writers that work. -/
theorem historyW_history {s₀ : Server} {order : List (Nat × Ev)} {s : Shared Server}
    (hh : HistoryW s₀ (order.map (·.2)) s) :
    ∃ good : List (Nat × Event), good.map (·.1) = order.map (·.1) ∧
      History s₀ (good.map (·.2)) s ∧
      (∀ x ∈ good, ∃ e, (x.1, e) ∈ order ∧ e.call.call = x.2.call) ∧
      ∀ x ∈ order, ∃ a, (x.1, ⟨x.2.call.call, a⟩) ∈ good ∧ Passes x.2.call.writer a x.2.answer := by
  induction order generalizing s with
  | nil =>
    cases hh
    exact ⟨[], rfl, .start, nofun, nofun⟩
  | cons x order ih =>
    obtain ⟨i, c, a⟩ := x
    cases hh with
    | @next _ s _ hh =>
      obtain ⟨good, h1, h2, h3, h4⟩ := ih hh
      have hu := historyW_unlocked hh
      obtain ⟨locked, st⟩ := s
      cases hu
      obtain ⟨h5, h6⟩ := stepW_step st c
      refine ⟨(i, ⟨c.call, (step ⟨false, st⟩ c.call).1⟩) :: good, by rw [List.map_cons, List.map_cons, h1], ?_, ?_, ?_⟩
      · rw [h5]
        exact .next c.call h2
      · intro x hx
        rcases List.mem_cons.mp hx with rfl | hx
        · exact ⟨_, List.mem_cons_self, rfl⟩
        · obtain ⟨e, h7, h8⟩ := h3 x hx
          exact ⟨e, List.mem_cons_of_mem _ h7, h8⟩
      · intro x hx
        rcases List.mem_cons.mp hx with rfl | hx
        · exact ⟨_, List.mem_cons_self, h6⟩
        · obtain ⟨a, h7, h8⟩ := h4 x hx
          exact ⟨a, List.mem_cons_of_mem _ h7, h8⟩

theorem lin_linearizes {s₀ : Server} {tr : List Act} {order : List (Nat × Ev)} {s : Shared Server}
    (h : Lin s₀ tr order s) : ∃ good, Linearizes s₀ tr good s := by
  obtain ⟨good, h1, h2, h3, h4⟩ := historyW_history h.history
  refine ⟨good, h2, by rw [h1]; exact h.once, ?_, ?_, ?_⟩
  · intro x hx
    obtain ⟨e, h5, h6⟩ := h3 x hx
    refine ⟨e.call.writer, ?_⟩
    rw [← h6]
    exact h.invoked _ h5
  · intro i a ha
    obtain ⟨e, h5, rfl⟩ := h.answered i a ha
    obtain ⟨a, h6, h7⟩ := h4 _ h5
    exact ⟨_, e.call.writer, h6, h.invoked _ h5, h7⟩
  · rw [h1]
    exact h.realtime

end Flaky

open Spec Flaky

variable {s₀ : Server} {tr : List Spec.Flaky.Act} {w : Spec.Flaky.World}

/-- **C69.** Whatever the response writers of concurrent calls do, also when they panic in the middle
of an answer, every run looks to the server as if calls had been made one after the other with
writers that work: there is an order of calls of the run, with all that are over, in which each
takes its effect, those with a working writer get the answer that they got, the others return what
they should unless their writer panicked, and calls that did not overlap are in the order of the
run. When the mutex is free the server is as after the calls in that order. -/
theorem C69_linearizable (h : Spec.Flaky.Run s₀ tr w) :
    ∃ order s, Spec.Flaky.Linearizes s₀ tr order s ∧ (w.shared.locked = false → w.shared = s) := by
  obtain ⟨order, s, inv⟩ := Flaky.run_invariant h
  obtain ⟨good, hl⟩ := lin_linearizes inv.lin
  refine ⟨good, s, hl, ?_⟩
  obtain ⟨k, hk⟩ := inv.holder
  cases k with
  | none => exact fun _ => hk.1
  | some k =>
    obtain ⟨⟨t, _, hin⟩, _⟩ := hk
    intro hl
    rw [hin.locked] at hl
    cases hl

/-- **C69.** A call that panicked does not leave the mutex locked: while a call is not over, the run
can go on without new calls. -/
theorem C69_progress (h : Spec.Flaky.Run s₀ tr w) (hd : ¬ w.Done) :
    ∃ act w', act.continues ∧ Spec.Flaky.Next w act w' := by
  obtain ⟨order, s, inv⟩ := Flaky.run_invariant h
  obtain ⟨k, hk⟩ := inv.holder
  cases k with
  | some k =>
    obtain ⟨⟨t, ht, hin⟩, _⟩ := hk
    obtain ⟨p, hp, hpl⟩ := hin.prog
    obtain ⟨⟨q, s', l'⟩, hx⟩ := inside_step hpl w.shared t.loc
    rw [← hp] at hx
    exact ⟨.step k, _, trivial, .step k t ht hx⟩
  | none =>
    have : ∃ i t, w.threads i = some t ∧ t.answered = false := by
      apply Classical.byContradiction
      intro hn
      apply hd
      intro i t ht
      cases ha : t.answered with
      | true => rfl
      | false => exact absurd ⟨i, t, ht, ha⟩ hn
    obtain ⟨i, t, ht, ha⟩ := this
    rcases hk.2 i t ht with hx | hx
    · obtain ⟨b, hb, _⟩ := Flaky.program_eq t.call
      have hu : w.shared.locked = false := by rw [hk.1]; exact inv.unlocked
      have hs : t.prog.step w.shared t.loc =
          some (b.deferUnlock, { w.shared with locked := true }, t.loc) := by
        rw [hx.prog, hb]
        simp only [Prog.step, hu, Bool.false_eq_true, if_false]
      exact ⟨.step i, _, trivial, .step i t ht hs⟩
    · obtain ⟨o, ho, _⟩ := hx.ended
      exact ⟨.answer i _, _, trivial, .answer i t ht ha ho⟩

/-- **C69.** Hence every run goes on, without new calls, to one in which every call is over, the
mutex is free and the server is as after the calls in some order that the run allows. -/
theorem C69_completes (h : Spec.Flaky.Run s₀ tr w) :
    ∃ acts w', Spec.Flaky.Proceeds w acts w' ∧ w'.Done ∧ w'.shared.locked = false ∧
      ∃ order, Spec.Flaky.Linearizes s₀ (acts ++ tr) order w'.shared := by
  have key : ∃ acts w', Spec.Flaky.Proceeds w acts w' ∧ w'.Done := by
    have ha := Flaky.run_acc h
    induction ha generalizing tr with
    | intro w _ ih =>
      by_cases hd : w.Done
      · exact ⟨[], w, .refl, hd⟩
      · obtain ⟨act, w', hc, hn⟩ := C69_progress h hd
        obtain ⟨acts, w'', h1, h2⟩ := ih w' ⟨act, hc, hn⟩ (.next h hn)
        refine ⟨acts ++ [act], w'', ?_, h2⟩
        clear ih h2
        induction h1 with
        | refl => exact .next .refl hc hn
        | next _ hc' hn' ih' => exact .next ih' hc' hn'
  obtain ⟨acts, w', hp, hd⟩ := key
  have hr : Spec.Flaky.Run s₀ (acts ++ tr) w' := by
    clear hd
    induction hp with
    | refl => exact h
    | next _ _ hn ih => exact .next ih hn
  obtain ⟨order, s, inv⟩ := Flaky.run_invariant hr
  have hs : w'.shared = s := by
    obtain ⟨k, hk⟩ := inv.holder
    cases k with
    | none => exact hk.1
    | some k =>
      obtain ⟨⟨t, ht, hin⟩, _⟩ := hk
      have := hd k t ht
      rw [hin.answered] at this
      cases this
  obtain ⟨good, hl⟩ := lin_linearizes inv.lin
  exact ⟨acts, w', hp, hd, by rw [hs]; exact inv.unlocked, good, by rw [hs]; exact hl⟩

/-- **C69.** A run does not go on for ever without new calls. -/
theorem C69_terminates (h : Spec.Flaky.Run s₀ tr w) :
    ¬ ∃ ws : Nat → Spec.Flaky.World, ws 0 = w ∧
      ∀ n, ∃ act, act.continues ∧ Spec.Flaky.Next (ws n) act (ws (n + 1)) := by
  rintro ⟨ws, h0, hn⟩
  have key : ∀ w, Acc Flaky.GoesOn w → ∀ n, ws n = w → False := by
    intro w ha
    induction ha with
    | intro w _ ih =>
      intro n hw
      exact ih (ws (n + 1)) (by rw [← hw]; exact hn n) (n + 1) rfl
  exact key w (Flaky.run_acc h) 0 h0

/-! ### A schedule, for the examples -/

namespace Flaky.Demo

open Spec.Flaky

/-- The choices of a scheduler. -/
inductive Choice where
  | invoke (i : Nat) (c : Attempt)
  | step (i : Nat)
  | answer (i : Nat)

/-- Follow one choice, if it can be followed. -/
def choose (w : Spec.Flaky.World) : Choice → Option (Spec.Flaky.Act × Spec.Flaky.World)
  | .invoke i c =>
    match w.threads i with
    | none => some (.invoke i c, w.put i { call := c, prog := c.program, loc := c.call.local })
    | some _ => none
  | .step i =>
    match w.threads i with
    | none => none
    | some t =>
      match t.prog.step w.shared t.loc with
      | none => none
      | some (p, s, l) => some (.step i, { w with shared := s }.put i { t with prog := p, loc := l })
  | .answer i =>
    match w.threads i with
    | none => none
    | some t =>
      match t.answered, t.prog.ended with
      | false, some o => some (.answer i (t.call.call.op.answer o t.loc), w.put i { t with answered := true })
      | _, _ => none

/-- Follow the choices that can be followed, skipping the others. -/
def follow (w : Spec.Flaky.World) (tr : List Spec.Flaky.Act) :
    List Choice → List Spec.Flaky.Act × Spec.Flaky.World
  | [] => (tr, w)
  | c :: cs =>
    match choose w c with
    | some (act, w') => follow w' (act :: tr) cs
    | none => follow w tr cs

theorem choose_next {w w' : Spec.Flaky.World} {act : Spec.Flaky.Act} {c : Choice}
    (h : choose w c = some (act, w')) : Spec.Flaky.Next w act w' := by
  cases c with
  | invoke i c =>
    simp only [choose] at h
    split at h
    · rename_i hi; cases h; exact .invoke i c hi
    · cases h
  | step i =>
    simp only [choose] at h
    split at h
    · cases h
    · rename_i t hi
      split at h
      · cases h
      · rename_i hs; cases h; exact .step i t hi hs
  | answer i =>
    simp only [choose] at h
    split at h
    · cases h
    · rename_i t hi
      split at h
      · rename_i ha ho; cases h; exact .answer i t hi ha ho
      · cases h

theorem follow_run {s₀ : Server} {tr : List Spec.Flaky.Act} {w : Spec.Flaky.World}
    (cs : List Choice) (h : Spec.Flaky.Run s₀ tr w) :
    Spec.Flaky.Run s₀ (follow w tr cs).1 (follow w tr cs).2 := by
  induction cs generalizing tr w with
  | nil => exact h
  | cons c cs ih =>
    simp only [follow]
    split
    · rename_i hc; exact ih (.next h (choose_next hc))
    · exact ih h

/-- The calls that are over: their numbers, and whether they panicked or what status they have. -/
def statuses : List Spec.Flaky.Act → List (Nat × Option Nat)
  | [] => []
  | .answer i (.answered res) :: tr => (i, some res.statusCode) :: statuses tr
  | .answer i _ :: tr => (i, none) :: statuses tr
  | _ :: tr => statuses tr

/-- A user logs in; then two goroutines refresh with the same token. The writer of the first panics
in the middle of the answer, while the second waits for the mutex. -/
def refreshTwice : List Spec.Flaky.Act × Spec.Flaky.World :=
  let again (coins : Str) := OAuth2.Demo.post b!"/token" []
    (b!"grant_type=refresh_token&client_id=c2&refresh_token=" ++ OAuth2.Demo.r1.string) coins 1
  follow { shared := ⟨false, OAuth2.Demo.server⟩, threads := fun _ => none } [] (
    [.invoke 0 ⟨OAuth2.Demo.post b!"/token" [] b!"grant_type=password&client_id=c2&username=u1&password=p1" [1, 2, 3, 4] 0, .reliable⟩] ++
    List.replicate 40 (.step 0) ++
    [.answer 0, .invoke 1 ⟨again [11, 12, 13, 14], fun n => if n < 2 then some id else none⟩] ++
    List.replicate 5 (.step 1) ++ [.invoke 2 ⟨again [21, 22, 23, 24], .reliable⟩, .step 2, .step 1, .step 2] ++
    List.replicate 40 (.step 1) ++ List.replicate 40 (.step 2) ++ [.answer 2, .answer 1])

end Flaky.Demo

/-- Non-vacuity: the first refresh request panics while it is answered; the token it presented is
used up and the mutex is free, so that the second is refused. -/
example : Spec.Flaky.Run Demo.server Flaky.Demo.refreshTwice.1 Flaky.Demo.refreshTwice.2 ∧
    Flaky.Demo.statuses Flaky.Demo.refreshTwice.1 = [(1, none), (2, some 400), (0, some 200)] ∧
    Flaky.Demo.refreshTwice.2.shared.locked = false :=
  ⟨Flaky.Demo.follow_run _ .start, by decide +kernel, by decide +kernel⟩

/-- Non-vacuity: a run in which a call is not over. -/
example : ∃ tr w, Spec.Flaky.Run Demo.server tr w ∧ ¬ w.Done := by
  refine ⟨_, _, .next .start (.invoke 0 ⟨Demo.c1, fun _ => none⟩ rfl), fun h => ?_⟩
  exact absurd (h 0 _ (Flaky.put_same _ _ _)) (by decide)

end OAuth2

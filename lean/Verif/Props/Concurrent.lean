import Verif.Lemmas.Concurrent
import Verif.Props.Grants

/-!
C47: calls made at the same time, for every number of goroutines and every schedule.
-/

namespace OAuth2

open Spec

variable {s₀ : Server} {tr : List Act} {w : World}

/-! ### Schedules, for the examples -/

namespace Demo

/-- The choices of a scheduler. -/
inductive Choice where
  | invoke (i : Nat) (c : Call)
  | step (i : Nat)
  | answer (i : Nat)

/-- Follow one choice, if it can be followed. -/
def choose (w : World) : Choice → Option (Act × World)
  | .invoke i c =>
    match w.threads i with
    | none => some (.invoke i c, w.put i { call := c, prog := c.op.program, loc := c.local })
    | some _ => none
  | .step i =>
    match w.threads i with
    | none => none
    | some t =>
      match t.prog.step w.shared t.loc with
      | none => none
      | some (p, s, l) => some (.step i, { w with shared := s }.put i { t with prog := p, loc := l })
  | .answer i =>
    match w.threads i with
    | none => none
    | some t =>
      match t.answered, t.prog.ended with
      | false, some o => some (.answer i (t.call.op.answer o t.loc), w.put i { t with answered := true })
      | _, _ => none

/-- Follow the choices that can be followed, skipping the others. -/
def follow (w : World) (tr : List Act) : List Choice → List Act × World
  | [] => (tr, w)
  | c :: cs =>
    match choose w c with
    | some (act, w') => follow w' (act :: tr) cs
    | none => follow w tr cs

theorem choose_next {w w' : World} {act : Act} {c : Choice} (h : choose w c = some (act, w')) :
    Next w act w' := by
  cases c with
  | invoke i c =>
    simp only [choose] at h
    split at h
    · rename_i hi; cases h; exact .invoke i c hi
    · cases h
  | step i =>
    simp only [choose] at h
    split at h
    · cases h
    · rename_i t hi
      split at h
      · cases h
      · rename_i hs; cases h; exact .step i t hi hs
  | answer i =>
    simp only [choose] at h
    split at h
    · cases h
    · rename_i t hi
      split at h
      · rename_i ha ho; cases h; exact .answer i t hi ha ho
      · cases h

theorem follow_run {s₀ : Server} {tr : List Act} {w : World} (cs : List Choice) (h : Run s₀ tr w) :
    Run s₀ (follow w tr cs).1 (follow w tr cs).2 := by
  induction cs generalizing tr w with
  | nil => exact h
  | cons c cs ih =>
    simp only [follow]
    split
    · rename_i hc; exact ih (.next h (choose_next hc))
    · exact ih h

/-- The world before any call. -/
def world (s : Server) : World := { shared := ⟨false, s⟩, threads := fun _ => none }

/-- The calls in a run. -/
def calls : List Act → List (Nat × Call)
  | [] => []
  | .invoke i c :: tr => (i, c) :: calls tr
  | _ :: tr => calls tr

/-- The answers in a run. -/
def answers : List Act → List (Nat × Answer)
  | [] => []
  | .answer i a :: tr => (i, a) :: answers tr
  | _ :: tr => answers tr

/-- The steps in a run. -/
def steps : List Act → List Nat
  | [] => []
  | .step i :: tr => i :: steps tr
  | _ :: tr => steps tr

/-- The calls of a run with their answers. -/
def events (tr : List Act) : List (Nat × Event) :=
  (calls tr).flatMap fun x => ((answers tr).filter fun y => y.1 = x.1).map fun y => (x.1, ⟨x.2, y.2⟩)

theorem mem_calls {tr : List Act} {i : Nat} {c : Call} : (i, c) ∈ calls tr ↔ .invoke i c ∈ tr := by
  induction tr with
  | nil => simp [calls]
  | cons act tr ih => cases act <;> simp [calls, ih]

theorem mem_answers {tr : List Act} {i : Nat} {a : Answer} :
    (i, a) ∈ answers tr ↔ .answer i a ∈ tr := by
  induction tr with
  | nil => simp [answers]
  | cons act tr ih => cases act <;> simp [answers, ih]

theorem mem_events {tr : List Act} {i : Nat} {e : Event} : (i, e) ∈ events tr ↔ Observed tr i e := by
  obtain ⟨c, a⟩ := e
  unfold events Observed
  simp only [List.mem_flatMap, List.mem_map, List.mem_filter, decide_eq_true_eq, Prod.mk.injEq,
    Event.mk.injEq]
  constructor
  · rintro ⟨⟨i', c'⟩, h1, ⟨j, a'⟩, ⟨h2, h3⟩, rfl, rfl, rfl⟩
    simp only at h3
    subst h3
    exact ⟨mem_calls.mp h1, mem_answers.mp h2⟩
  · rintro ⟨h1, h2⟩
    exact ⟨(i, c), mem_calls.mpr h1, (i, a), ⟨mem_answers.mpr h2, rfl⟩, rfl, rfl, rfl⟩

theorem run_calls {s₀ : Server} {tr : List Act} {w : World} (h : Run s₀ tr w) {i : Nat} {t : Thread}
    (ht : w.threads i = some t) : (i, t.call) ∈ calls tr := by
  obtain ⟨_, _, inv⟩ := run_invariant h
  exact mem_calls.mpr (inv.threads i t ht)

/-- Checking that every call is answered. -/
theorem done_of {s₀ : Server} {tr : List Act} {w : World} (h : Run s₀ tr w)
    (hc : ∀ x ∈ calls tr, (w.threads x.1).all (·.answered) = true) : w.Done := by
  intro i t ht
  have := hc _ (run_calls h ht)
  simp only at this
  rw [ht] at this
  exact this

/-- Checking that at most one call hands out a refresh token with this signature. -/
theorem fresh_of {tr : List Act} {t : HS256Token} (n : Nat) (others : List HS256Token)
    (hc : ∀ x ∈ events tr, ∀ str ∈ handed x.2 .refresh, x.1 = n ∨
      ∃ t' ∈ others, str = t'.string ∧ t'.signatureString ≠ t.signatureString) :
    ∀ i j e e' t₁ t₂, Observed tr i e → Observed tr j e' → Hands e .refresh t₁ →
      Hands e' .refresh t₂ → t₁.signatureString = t.signatureString →
      t₂.signatureString = t.signatureString → i = j := by
  have key : ∀ i e t₁, Observed tr i e → Hands e .refresh t₁ →
      t₁.signatureString = t.signatureString → i = n := by
    intro i e t₁ h1 h2 h3
    rcases hc _ (mem_events.mpr h1) _ (hands_handed h2) with h | ⟨t', _, h4, h5⟩
    · exact h
    · rw [string_injective h4] at h3
      exact absurd h3 h5
  intro i j e e' t₁ t₂ h1 h2 h3 h4 h5 h6
  rw [key i e t₁ h1 h3 h5, key j e' t₂ h2 h4 h6]

/-- Checking that at most one call hands out a code with this signature. -/
theorem fresh_code_of {tr : List Act} {x : HS256Token} (n : Nat)
    (hc : ∀ y ∈ events tr, handedCodes y.2 = [] ∨ y.1 = n) :
    ∀ i j e e' x₁ x₂, Observed tr i e → Observed tr j e' → HandsCode e x₁ →
      HandsCode e' x₂ → x₁.signatureString = x.signatureString →
      x₂.signatureString = x.signatureString → i = j := by
  have key : ∀ i e x₁, Observed tr i e → HandsCode e x₁ → i = n := by
    intro i e x₁ h1 h2
    rcases hc _ (mem_events.mpr h1) with h | h
    · exact (handsCode_none h h2).elim
    · exact h
  intro i j e e' x₁ x₂ h1 h2 h3 h4 _ _
  rw [key i e x₁ h1 h3, key j e' x₂ h2 h4]

/-- A user logs in; then two goroutines refresh with the same token. The second call is made, and
waits for the mutex, while the first is served. -/
def refreshTwice : List Act × World :=
  let again (coins : Str) := post b!"/token" []
    (b!"grant_type=refresh_token&client_id=c2&refresh_token=" ++ r1.string) coins 1
  follow (world server) [] (
    [.invoke 0 (post b!"/token" [] b!"grant_type=password&client_id=c2&username=u1&password=p1" [1, 2, 3, 4] 0)] ++
    List.replicate 40 (.step 0) ++ [.answer 0, .invoke 1 (again [11, 12, 13, 14])] ++
    List.replicate 5 (.step 1) ++ [.invoke 2 (again [21, 22, 23, 24]), .step 2, .step 1, .step 2] ++
    List.replicate 40 (.step 1) ++ List.replicate 40 (.step 2) ++ [.answer 2, .answer 1])

theorem refreshTwice_run : Run server refreshTwice.1 refreshTwice.2 := follow_run _ .start

theorem refreshTwice_done : refreshTwice.2.Done := done_of refreshTwice_run (by decide +kernel)

/-- A code is handed out; then two goroutines exchange it at the same time. -/
def redeemTwice : List Act × World :=
  let redeem (coins : Str) := post b!"/token" b!"c1:s1"
    (b!"grant_type=authorization_code&redirect_uri=http%3A%2F%2Fexample.com%2Fcb&code=" ++ x2.string)
    coins 1
  follow (world server) [] (
    [.invoke 0 (post b!"/authorize" []
      (b!"response_type=code&client_id=c1&username=u1&password=p1" ++
      b!"&redirect_uri=http%3A%2F%2Fexample.com%2Fcb") [5, 6] 0)] ++
    List.replicate 40 (.step 0) ++ [.answer 0, .invoke 1 (redeem [11, 12, 13, 14])] ++
    List.replicate 5 (.step 1) ++ [.invoke 2 (redeem [21, 22, 23, 24]), .step 2, .step 1, .step 2] ++
    List.replicate 40 (.step 1) ++ List.replicate 40 (.step 2) ++ [.answer 2, .answer 1])

theorem redeemTwice_run : Run server redeemTwice.1 redeemTwice.2 := follow_run _ .start

theorem redeemTwice_done : redeemTwice.2.Done := done_of redeemTwice_run (by decide +kernel)

end Demo

/-! ### Linearizability -/

/-- **C47.** Every run looks as if calls had been made one after the other: there is an order of
calls of the run, with all that were answered, in which each gets the answer that it got, and calls
that did not overlap are in the order of the run. When the mutex is free the server is as after the
calls in that order. -/
theorem C47_linearizable (h : Run s₀ tr w) :
    ∃ order s, Linearizes s₀ tr order s ∧ (w.shared.locked = false → w.shared = s) := by
  obtain ⟨order, s, inv⟩ := run_invariant h
  refine ⟨order, s, inv.lin, ?_⟩
  obtain ⟨k, hk⟩ := inv.holder
  cases k with
  | none => exact fun _ => hk.1
  | some k =>
    obtain ⟨⟨t, _, hin⟩, _⟩ := hk
    intro hl
    rw [hin.locked] at hl
    cases hl

/-- Non-vacuity: in this run the second refresh request is made while the first is served, and
its answer comes before that of the first. -/
example : Run Demo.server Demo.refreshTwice.1 Demo.refreshTwice.2 ∧
    (Demo.answers Demo.refreshTwice.1).map (·.1) = [1, 2, 0] ∧
    (Demo.calls Demo.refreshTwice.1).map (·.1) = [2, 1, 0] :=
  ⟨Demo.refreshTwice_run, by decide +kernel, by decide +kernel⟩

theorem pair_unique {order : List (Nat × Event)} (hn : (order.map (·.1)).Nodup) {i : Nat}
    {e e' : Event} (h : (i, e) ∈ order) (h' : (i, e') ∈ order) : e = e' := by
  induction order with
  | nil => cases h
  | cons x order ih =>
    rw [List.map_cons, List.nodup_cons] at hn
    rcases List.mem_cons.mp h with rfl | h1
    · rcases List.mem_cons.mp h' with h2 | h2
      · exact (congrArg Prod.snd h2).symm
      · exact absurd (List.mem_map.mpr ⟨_, h2, rfl⟩) hn.1
    · rcases List.mem_cons.mp h' with rfl | h2
      · exact absurd (List.mem_map.mpr ⟨_, h1, rfl⟩) hn.1
      · exact ih hn.2 h1 h2


/-- **C47.** When every call is answered, the calls with their answers are a history of calls made
one after the other, in an order in which calls that did not overlap are in the order of the run,
and the server is as after that history. Hence every theorem about histories is one about
concurrent runs. -/
theorem C47_sequential (h : Run s₀ tr w) (hd : w.Done) :
    ∃ order : List (Nat × Event), History s₀ (order.map (·.2)) w.shared ∧
      (order.map (·.1)).Nodup ∧ (∀ i e, Observed tr i e ↔ (i, e) ∈ order) ∧
      ∀ i j, Precedes tr i j → ∃ later mid earlier e e',
        order = later ++ (j, e') :: (mid ++ (i, e) :: earlier) := by
  obtain ⟨order, s, inv⟩ := run_invariant h
  have hs : w.shared = s := by
    obtain ⟨k, hk⟩ := inv.holder
    cases k with
    | none => exact hk.1
    | some k =>
      obtain ⟨⟨t, ht, hin⟩, _⟩ := hk
      have := hd k t ht
      rw [hin.answered] at this
      cases this
  have hobs : ∀ i e, Observed tr i e ↔ (i, e) ∈ order := by
    intro i e
    constructor
    · rintro ⟨h1, h2⟩
      obtain ⟨e', h3, h4⟩ := inv.lin.answered i _ h2
      obtain ⟨t, h5, h6⟩ := inv.calls _ _ (inv.lin.invoked _ h3)
      obtain ⟨t', h7, h8⟩ := inv.calls _ _ h1
      simp only at h5
      rw [h5] at h7
      cases h7
      have : e' = e := by
        obtain ⟨c, a⟩ := e
        obtain ⟨c', a'⟩ := e'
        simp only at h4 h6 h8
        rw [← h4, ← h8, h6]
      rw [← this]
      exact h3
    · intro hm
      have h1 := inv.lin.invoked _ hm
      refine ⟨h1, ?_⟩
      obtain ⟨t, h2, h3⟩ := inv.calls _ _ h1
      obtain ⟨a, ha⟩ := (inv.replies _ t h2).mp (hd _ t h2)
      obtain ⟨e', h4, h5⟩ := inv.lin.answered _ _ ha
      rw [pair_unique inv.lin.once hm h4, h5]
      exact ha
  refine ⟨order, hs ▸ inv.lin.history, inv.lin.once, hobs, ?_⟩
  intro i j hp
  have hj : j ∈ order.map (·.1) := by
    obtain ⟨later, earlier, c, a, h1, _⟩ := hp
    have hi : .invoke j c ∈ tr := by rw [h1]; simp
    obtain ⟨t, h2, _⟩ := inv.calls _ _ hi
    obtain ⟨a, ha⟩ := (inv.replies _ t h2).mp (hd _ t h2)
    obtain ⟨e', h4, _⟩ := inv.lin.answered _ _ ha
    exact List.mem_map.mpr ⟨_, h4, rfl⟩
  obtain ⟨new, old, h1, h2⟩ := inv.lin.realtime i j hp hj
  obtain ⟨later, rest, rfl, h3, h4⟩ := List.map_eq_append_iff.mp h1
  obtain ⟨⟨j', e'⟩, rest', rfl, rfl, rfl⟩ := List.map_eq_cons_iff.mp h4
  obtain ⟨⟨i', e⟩, h5, rfl⟩ := List.mem_map.mp h2
  obtain ⟨mid, earlier, rfl⟩ := List.append_of_mem h5
  exact ⟨later, mid, earlier, e, e', rfl⟩

/-- Non-vacuity: in this run every call is answered, and the first call was answered before the
other two were made. -/
example : Run Demo.server Demo.refreshTwice.1 Demo.refreshTwice.2 ∧ Demo.refreshTwice.2.Done ∧
    (Demo.events Demo.refreshTwice.1).length = 3 ∧
    (Demo.calls (Demo.refreshTwice.1.take 36)).map (·.1) = [2, 1] ∧
    (Demo.answers (Demo.refreshTwice.1.drop 36)).map (·.1) = [0] :=
  ⟨Demo.refreshTwice_run, Demo.refreshTwice_done, by decide +kernel, by decide +kernel,
    by decide +kernel⟩

/-! ### No data races, no deadlock -/

/-- **C47.** No two calls are ever about to access the state of the server at the same time. -/
theorem C47_race_free (h : Run s₀ tr w) {i j : Nat} {t u : Thread} (hi : w.threads i = some t)
    (hj : w.threads j = some u) (ht : t.prog.accesses = true) (hu : u.prog.accesses = true) :
    i = j := by
  obtain ⟨order, s, inv⟩ := run_invariant h
  obtain ⟨k, hk⟩ := inv.holder
  have key : ∀ (i : Nat) (t : Thread), t.prog.accesses = true →
      ¬ (Waiting order i t ∨ Finished order i t) := by
    intro i t ht hx
    rcases hx with hx | hx
    · obtain ⟨b, hb, _⟩ := program_eq t.call.op
      rw [hx.prog, hb] at ht
      cases ht
    · obtain ⟨o, ho, _⟩ := hx.ended
      cases hp : t.prog <;> rw [hp] at ho ht <;> first | (cases ht; done) | (cases ho; done)
  cases k with
  | none => exact absurd (hk.2 i t hi) (key i t ht)
  | some k =>
    by_cases h1 : i = k
    · by_cases h2 : j = k
      · rw [h1, h2]
      · exact absurd (hk.2 j u hj h2) (key j u hu)
    · exact absurd (hk.2 i t hi h1) (key i t ht)

/-- Non-vacuity: there are runs in which a call is about to access the state while another one
waits. -/
example : ∃ tr w t u, Run Demo.server tr w ∧ w.threads 1 = some t ∧ w.threads 2 = some u ∧
    t.prog.accesses = true ∧ u.answered = false := by
  let c := Demo.post b!"/token" [] b!"grant_type=password&client_id=c2&username=u1&password=p1" [1, 2, 3, 4] 0
  let x := Demo.follow (Demo.world Demo.server) [] [.invoke 1 c, .invoke 2 c, .step 1, .step 2]
  have h : ((x.2.threads 1).map (·.prog.accesses), (x.2.threads 2).map (·.answered)) =
      (some true, some false) := by decide +kernel
  obtain ⟨h1, h2⟩ := Prod.mk.inj h
  obtain ⟨t, ht, h3⟩ := Option.map_eq_some_iff.mp h1
  obtain ⟨u, hu, h4⟩ := Option.map_eq_some_iff.mp h2
  exact ⟨x.1, x.2, t, u, Demo.follow_run _ .start, ht, hu, h3, h4⟩

/-- **C47.** And an effect that is no such access neither reads nor writes the state: it does the same
whatever the state is, and leaves it as it is. -/
theorem C47_no_access {σ α : Type} (p : Prog σ α) (h : p.accesses = false) (s : Shared σ) (l : Local) (st : σ) :
    p.step { s with st := st } l = (p.step s l).map fun r => (r.1, { r.2.1 with st := st }, r.2.2) := by
  cases p with
  | get k => cases h
  | modify f k => cases h
  | ret a => rfl
  | panic => rfl
  | lock k => obtain ⟨b, s⟩ := s; cases b <;> rfl
  | unlock k => rfl
  | now k => rfl
  | rand n k => simp only [Prog.step]; split <;> rfl
  | resp f k => rfl

/-- Non-vacuity: there are such effects, and the others do read and write. -/
example : (Prog.now (σ := Nat) fun t => .ret t).accesses = false ∧
    (Prog.get (σ := Nat) fun n => .ret n).step ⟨false, 1⟩ { coins := [], clock := fun _ => 0 } ≠
      ((Prog.get (σ := Nat) fun n => .ret n).step ⟨false, 0⟩ { coins := [], clock := fun _ => 0 }).map
        fun r => (r.1, { r.2.1 with st := 1 }, r.2.2) := by
  refine ⟨rfl, fun h => ?_⟩
  have := (Prod.mk.inj (Option.some.inj h)).1
  cases this

/-- **C47.** While a call is not answered, the run can go on without new calls. -/
theorem C47_progress (h : Run s₀ tr w) (hd : ¬ w.Done) :
    ∃ act w', act.continues ∧ Next w act w' := by
  obtain ⟨order, s, inv⟩ := run_invariant h
  obtain ⟨k, hk⟩ := inv.holder
  cases k with
  | some k =>
    obtain ⟨⟨t, ht, hin⟩, _⟩ := hk
    obtain ⟨p, hp, hpl⟩ := hin.prog
    obtain ⟨⟨q, s', l'⟩, hx⟩ := inside_step hpl w.shared t.loc
    rw [← hp] at hx
    exact ⟨.step k, _, trivial, .step k t ht hx⟩
  | none =>
    have : ∃ i t, w.threads i = some t ∧ t.answered = false := by
      apply Classical.byContradiction
      intro hn
      apply hd
      intro i t ht
      cases ha : t.answered with
      | true => rfl
      | false => exact absurd ⟨i, t, ht, ha⟩ hn
    obtain ⟨i, t, ht, ha⟩ := this
    rcases hk.2 i t ht with hx | hx
    · obtain ⟨b, hb, _⟩ := program_eq t.call.op
      have hu : w.shared.locked = false := by rw [hk.1]; exact inv.unlocked
      have hs : t.prog.step w.shared t.loc =
          some (b.deferUnlock, { w.shared with locked := true }, t.loc) := by
        rw [hx.prog, hb]
        simp only [Prog.step, hu, Bool.false_eq_true, if_false]
      exact ⟨.step i, _, trivial, .step i t ht hs⟩
    · obtain ⟨o, ho, _⟩ := hx.ended
      exact ⟨.answer i _, _, trivial, .answer i t ht ha ho⟩

/-- Non-vacuity: a run in which a call is not answered. -/
example : ∃ tr w, Run Demo.server tr w ∧ ¬ w.Done := by
  refine ⟨_, _, .next .start (.invoke 0 Demo.c1 rfl), fun h => ?_⟩
  exact absurd (h 0 _ (put_same _ _ _)) (by decide)

/-- **C47.** A run does not go on for ever without new calls: there is no infinite sequence of
acts, under any scheduler. -/
theorem C47_terminates (h : Run s₀ tr w) :
    ¬ ∃ ws : Nat → World, ws 0 = w ∧ ∀ n, ∃ act, act.continues ∧ Next (ws n) act (ws (n + 1)) := by
  rintro ⟨ws, h0, hn⟩
  have key : ∀ w, Acc GoesOn w → ∀ n, ws n = w → False := by
    intro w ha
    induction ha with
    | intro w _ ih =>
      intro n hw
      exact ih (ws (n + 1)) (by rw [← hw]; exact hn n) (n + 1) rfl
  exact key w (run_acc h) 0 h0

/-- **C47.** Hence every run goes on, without new calls, to one in which every call is answered,
and nothing can stop it: wherever it has gone in the meantime, it still goes on to such a run. -/
theorem C47_completes (h : Run s₀ tr w) : ∃ acts w', Proceeds w acts w' ∧ w'.Done := by
  have ha := run_acc h
  induction ha generalizing tr with
  | intro w _ ih =>
    by_cases hd : w.Done
    · exact ⟨[], w, .refl, hd⟩
    · obtain ⟨act, w', hc, hn⟩ := C47_progress h hd
      obtain ⟨acts, w'', h1, h2⟩ := ih w' ⟨act, hc, hn⟩ (.next h hn)
      refine ⟨acts ++ [act], w'', ?_, h2⟩
      clear ih h2
      induction h1 with
      | refl => exact .next .refl hc hn
      | next _ hc' hn' ih' => exact .next ih' hc' hn'

/-- Going on is going on with the run. -/
theorem Proceeds.run {acts : List Act} {w' : World} (h : Run s₀ tr w) (hp : Proceeds w acts w') :
    Run s₀ (acts ++ tr) w' := by
  induction hp with
  | refl => exact h
  | next _ _ hn ih => exact .next ih hn

/-! ### What holds one after the other holds at the same time -/

/-- A refresh token that is used up was handed out before. -/
theorem used_handed {s : Shared Server} (h0 : Started s₀) {new old : List Event} {e : Event}
    (hh : History s₀ (new ++ e :: old) s) {t : HS256Token} (hu : UsesUp s₀.config e t) :
    ∃ x ∈ old, ∃ t', Hands x .refresh t' ∧ t'.signatureString = t.signatureString := by
  obtain ⟨st, _, ex, _, hseen⟩ := history_seen h0 hh
  have hno : ∀ {a b c red rev}, Obs s₀.config e a b c red none rev → False := by
    intro a b c red rev o
    rw [o.usesUp] at hu
    cases hu
  cases hseen with
  | quiet q => exact (hno q).elim
  | revoke sig o => exact (hno o).elim
  | implicit _ _ _ _ _ _ _ _ _ _ _ o => exact (hno o).elim
  | code _ _ _ _ _ _ _ _ _ _ _ o => exact (hno o).elim
  | password _ _ _ _ _ _ _ _ _ _ _ o _ => exact (hno o).elim
  | client _ _ _ _ _ _ _ _ _ _ _ o _ => exact (hno o).elim
  | exchange _ _ _ _ _ _ _ _ _ _ _ _ _ _ _ _ o _ => exact (hno o).elim
  | refresh _ _ _ _ _ y g _ _ _ hy _ _ _ _ _ o _ =>
    rw [o.usesUp] at hu
    obtain ⟨a, x, b, rfl, h1, _⟩ := inForce_hands hy
    exact ⟨x, by simp, y, h1.hands, Option.some.inj hu⟩

/-- A code that is redeemed was handed out before. -/
theorem redeemed_handed {s : Shared Server} (h0 : Started s₀) {new old : List Event} {e : Event}
    (hh : History s₀ (new ++ e :: old) s) {x : HS256Token} (hr : Redeems s₀.config e x) :
    ∃ z ∈ old, ∃ x', HandsCode z x' ∧ x'.signatureString = x.signatureString := by
  obtain ⟨st, _, ex, _, hseen⟩ := history_seen h0 hh
  have hno : ∀ {a b c use rev}, Obs s₀.config e a b c none use rev → False := by
    intro a b c use rev o
    rw [o.redeems] at hr
    cases hr
  cases hseen with
  | quiet q => exact (hno q).elim
  | revoke sig o => exact (hno o).elim
  | implicit _ _ _ _ _ _ _ _ _ _ _ o => exact (hno o).elim
  | code _ _ _ _ _ _ _ _ _ _ _ o => exact (hno o).elim
  | password _ _ _ _ _ _ _ _ _ _ _ o _ => exact (hno o).elim
  | client _ _ _ _ _ _ _ _ _ _ _ o _ => exact (hno o).elim
  | refresh _ _ _ _ _ _ _ _ _ _ _ _ _ _ _ _ o _ => exact (hno o).elim
  | exchange _ _ _ _ _ y g _ _ _ hy _ _ _ _ _ o _ =>
    rw [o.redeems] at hr
    obtain ⟨a, z, b, _, _, _, rfl, _, _, h1, _⟩ := C35_code_origin hy
    exact ⟨z, by simp, y, h1, Option.some.inj hr⟩

theorem order_pair {order : List (Nat × Event)} {i j : Nat} {e e' : Event} (hi : (i, e) ∈ order)
    (hj : (j, e') ∈ order) (hij : i ≠ j) :
    (∃ later mid earlier, order = later ++ (j, e') :: (mid ++ (i, e) :: earlier)) ∨
    (∃ later mid earlier, order = later ++ (i, e) :: (mid ++ (j, e') :: earlier)) := by
  obtain ⟨a, b, rfl⟩ := List.append_of_mem hi
  rcases List.mem_append.mp hj with h | h
  · obtain ⟨c, d, rfl⟩ := List.append_of_mem h
    exact .inl ⟨c, d, b, by simp⟩
  · rcases List.mem_cons.mp h with h | h
    · cases h; exact absurd rfl hij
    · obtain ⟨c, d, rfl⟩ := List.append_of_mem h
      exact .inr ⟨a, c, d, rfl⟩

/-- **C47, C31.** Of any number of refresh requests made at the same time with the same refresh
token, at most one succeeds, if no two calls of the run hand out refresh tokens with its
signature. -/
theorem C47_refresh_once (h0 : Started s₀) (h : Run s₀ tr w) (hd : w.Done) {t : HS256Token}
    (hfresh : ∀ i j e e' t₁ t₂, Observed tr i e → Observed tr j e' → Hands e .refresh t₁ →
      Hands e' .refresh t₂ → t₁.signatureString = t.signatureString →
      t₂.signatureString = t.signatureString → i = j)
    {i j : Nat} {e e' : Event} (hi : Observed tr i e) (hj : Observed tr j e')
    (hu : UsesUp s₀.config e t) (hu' : UsesUp s₀.config e' t) : i = j := by
  obtain ⟨order, hh, hn, hobs, _⟩ := C47_sequential h hd
  apply Classical.byContradiction
  intro hij
  have key : ∀ {i j : Nat} {e e' : Event}, UsesUp s₀.config e t → UsesUp s₀.config e' t →
      (∃ later mid earlier, order = later ++ (j, e') :: (mid ++ (i, e) :: earlier)) → False := by
    rintro i j e e' hu hu' ⟨later, mid, earlier, rfl⟩
    simp only [List.map_append, List.map_cons] at hh
    obtain ⟨x, hx, t₁, h1, h2⟩ := C31_between_uses h0 hh hu hu'
    obtain ⟨y, hy, t₂, h3, h4⟩ := used_handed h0
      (new := later.map (·.2) ++ e' :: mid.map (·.2)) (by simpa using hh) hu
    obtain ⟨⟨k, x⟩, hk, rfl⟩ := List.mem_map.mp hx
    obtain ⟨⟨m, y⟩, hm, rfl⟩ := List.mem_map.mp hy
    have := hfresh k m x y t₁ t₂ ((hobs k x).mpr (by simp [hk])) ((hobs m y).mpr (by simp [hm]))
      h1 h3 h2 h4
    subst this
    have hnn : ((mid ++ (i, e) :: earlier).map (·.1)).Nodup := by
      rw [List.map_append, List.map_cons] at hn
      exact (List.nodup_cons.mp (List.nodup_append.mp hn).2.1).2
    rw [List.map_append, List.nodup_append] at hnn
    exact hnn.2.2 k (List.mem_map.mpr ⟨_, hk, rfl⟩) k
      (List.mem_map.mpr ⟨_, List.mem_cons_of_mem _ hm, rfl⟩) rfl
  rcases order_pair ((hobs _ _).mp hi) ((hobs _ _).mp hj) hij with hx | hx
  · exact key hu hu' hx
  · exact key hu' hu hx

/-- Non-vacuity: the run in which two refresh requests with the same token overlap. The first of
them succeeds. -/
example : Run Demo.server Demo.refreshTwice.1 Demo.refreshTwice.2 ∧ Demo.refreshTwice.2.Done ∧
    (∀ i j e e' t₁ t₂, Observed Demo.refreshTwice.1 i e → Observed Demo.refreshTwice.1 j e' →
      Hands e .refresh t₁ → Hands e' .refresh t₂ →
      t₁.signatureString = Demo.r1.signatureString →
      t₂.signatureString = Demo.r1.signatureString → i = j) ∧
    (Demo.events Demo.refreshTwice.1).map (fun x =>
      (x.1, decide (UsesUp Demo.server.config x.2 Demo.r1))) = [(2, false), (1, true), (0, false)] :=
  ⟨Demo.refreshTwice_run, Demo.refreshTwice_done,
    Demo.fresh_of 0 [HS256Token.fromKey Demo.server.config.secret [13, 14]] (by decide +kernel),
    by decide +kernel⟩

/-- **C47, C33.** Of any number of requests made at the same time that exchange the same
authorization code, at most one succeeds, if no two calls of the run hand out codes with its
signature. -/
theorem C47_code_once (h0 : Started s₀) (h : Run s₀ tr w) (hd : w.Done) {x : HS256Token}
    (hfresh : ∀ i j e e' x₁ x₂, Observed tr i e → Observed tr j e' → HandsCode e x₁ →
      HandsCode e' x₂ → x₁.signatureString = x.signatureString →
      x₂.signatureString = x.signatureString → i = j)
    {i j : Nat} {e e' : Event} (hi : Observed tr i e) (hj : Observed tr j e')
    (hr : Redeems s₀.config e x) (hr' : Redeems s₀.config e' x) : i = j := by
  obtain ⟨order, hh, hn, hobs, _⟩ := C47_sequential h hd
  apply Classical.byContradiction
  intro hij
  have key : ∀ {i j : Nat} {e e' : Event}, Redeems s₀.config e x → Redeems s₀.config e' x →
      (∃ later mid earlier, order = later ++ (j, e') :: (mid ++ (i, e) :: earlier)) → False := by
    rintro i j e e' hr hr' ⟨later, mid, earlier, rfl⟩
    simp only [List.map_append, List.map_cons] at hh
    obtain ⟨z, hz, x₁, h1, h2⟩ := C33_redeemed_once h0 hh hr hr'
    obtain ⟨y, hy, x₂, h3, h4⟩ := redeemed_handed h0
      (new := later.map (·.2) ++ e' :: mid.map (·.2)) (by simpa using hh) hr
    obtain ⟨⟨k, z⟩, hk, rfl⟩ := List.mem_map.mp hz
    obtain ⟨⟨m, y⟩, hm, rfl⟩ := List.mem_map.mp hy
    have := hfresh k m z y x₁ x₂ ((hobs k z).mpr (by simp [hk])) ((hobs m y).mpr (by simp [hm]))
      h1 h3 h2 h4
    subst this
    have hnn : ((mid ++ (i, e) :: earlier).map (·.1)).Nodup := by
      rw [List.map_append, List.map_cons] at hn
      exact (List.nodup_cons.mp (List.nodup_append.mp hn).2.1).2
    rw [List.map_append, List.nodup_append] at hnn
    exact hnn.2.2 k (List.mem_map.mpr ⟨_, hk, rfl⟩) k
      (List.mem_map.mpr ⟨_, List.mem_cons_of_mem _ hm, rfl⟩) rfl
  rcases order_pair ((hobs _ _).mp hi) ((hobs _ _).mp hj) hij with hx | hx
  · exact key hr hr' hx
  · exact key hr' hr hx

/-- Non-vacuity: the run in which two requests that exchange the same code overlap. The first of
them succeeds. -/
example : Run Demo.server Demo.redeemTwice.1 Demo.redeemTwice.2 ∧ Demo.redeemTwice.2.Done ∧
    (∀ i j e e' x₁ x₂, Observed Demo.redeemTwice.1 i e → Observed Demo.redeemTwice.1 j e' →
      HandsCode e x₁ → HandsCode e' x₂ → x₁.signatureString = Demo.x2.signatureString →
      x₂.signatureString = Demo.x2.signatureString → i = j) ∧
    (Demo.events Demo.redeemTwice.1).map (fun x =>
      (x.1, decide (Redeems Demo.server.config x.2 Demo.x2))) = [(2, false), (1, true), (0, false)] :=
  ⟨Demo.redeemTwice_run, Demo.redeemTwice_done, Demo.fresh_code_of 0 (by decide +kernel),
    by decide +kernel⟩

end OAuth2

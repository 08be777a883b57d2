import Verif.Spec.Fair
import Verif.Props.Slow

/-!
C97: every call is answered, however many others are made.
-/

namespace OAuth2

open Spec Fair

variable {s₀ : Server}

/-! ### Moments of a run -/

theorem moment (run : Forever s₀) (n : Nat) : ∃ tr, Slow.Run s₀ tr (run.world n) ∧
    (∀ a ∈ tr, ∃ m, m < n ∧ run.act m = some a) := by
  induction n with
  | zero => rw [run.start]; exact ⟨[], .start, nofun⟩
  | succ n ih =>
    obtain ⟨tr, h, ha⟩ := ih
    rcases run.next n with ⟨_, h2⟩ | ⟨a, h1, h2⟩
    · rw [h2]
      exact ⟨tr, h, fun a hm => by obtain ⟨m, h3, h4⟩ := ha a hm; exact ⟨m, by omega, h4⟩⟩
    · refine ⟨a :: tr, .next h h2, fun b hm => ?_⟩
      rcases List.mem_cons.mp hm with rfl | hm
      · exact ⟨n, by omega, h1⟩
      · obtain ⟨m, h3, h4⟩ := ha b hm
        exact ⟨m, by omega, h4⟩

/-- A call stays as it is while others act. -/
theorem undisturbed {w w' : Slow.World} {a : Slow.Act} (h : Slow.Next w a w') {i : Nat} {t : Thread}
    (ht : w.world.threads i = some t) (hb : ¬ By i a) : w'.world.threads i = some t := by
  cases h with
  | arrive j => exact ht
  | act hn hw =>
    cases hn with
    | invoke j c hj =>
      have : i ≠ j := fun e => by rw [e, hj] at ht; cases ht
      dsimp only
      rw [put_other _ _ this]
      exact ht
    | step j t' hj hs =>
      have : i ≠ j := fun e => hb (by rw [e]; exact .inl rfl)
      dsimp only
      rw [put_other _ _ this]
      exact ht
    | answer j t' hj ha ho =>
      have : i ≠ j := fun e => hb (by rw [e]; exact .inr ⟨_, rfl⟩)
      dsimp only
      rw [put_other _ _ this]
      exact ht

theorem undisturbed_until (run : Forever s₀) {i n : Nat} {t : Thread}
    (ht : (run.world n).world.threads i = some t) (d : Nat)
    (hb : ∀ m, n ≤ m → m < n + d → ∀ a, run.act m = some a → ¬ By i a) :
    (run.world (n + d)).world.threads i = some t := by
  induction d with
  | zero => exact ht
  | succ d ih =>
    have h := ih fun m h1 h2 => hb m h1 (by omega)
    rcases run.next (n + d) with ⟨_, h2⟩ | ⟨a, h1, h2⟩
    · rw [show n + (d + 1) = n + d + 1 from rfl, h2]; exact h
    · exact undisturbed h2 h (hb (n + d) (by omega) (by omega) a h1)

/-- The first act of a call from a moment on. -/
theorem first_act (run : Forever s₀) {i n : Nat}
    (h : ∃ m, n ≤ m ∧ ∃ a, run.act m = some a ∧ By i a) :
    ∃ d a, run.act (n + d) = some a ∧ By i a ∧
      ∀ m, n ≤ m → m < n + d → ∀ a, run.act m = some a → ¬ By i a := by
  obtain ⟨m, hm, a, ha, hb⟩ := h
  obtain ⟨d, rfl⟩ := Nat.le.dest hm
  clear hm
  induction d using Nat.strongRecOn generalizing a with
  | _ d ih =>
    by_cases hx : ∃ e, e < d ∧ ∃ a, run.act (n + e) = some a ∧ By i a
    · obtain ⟨e, he, a', ha', hb'⟩ := hx
      exact ih e he a' hb' ha'
    · refine ⟨d, a, ha, hb, fun m h1 h2 a' ha' hb' => hx ⟨m - n, by omega, a', ?_, hb'⟩⟩
      rw [show n + (m - n) = m by omega]
      exact ha'

theorem arrived_later (run : Forever s₀) {i m : Nat} (h : (run.world m).arrived i = true) (d : Nat) :
    (run.world (m + d)).arrived i = true := by
  induction d with
  | zero => exact h
  | succ d ih =>
    rcases run.next (m + d) with ⟨_, h2⟩ | ⟨a, _, h2⟩
    · rw [show m + (d + 1) = m + d + 1 from rfl, h2]; exact ih
    · rw [show m + (d + 1) = m + d + 1 from rfl]
      generalize run.world (m + d + 1) = w' at h2
      cases h2 with
      | act _ _ => exact ih
      | arrive j => simp [ih]

theorem arrived_after (run : Forever s₀) {i m : Nat} (h : run.act m = some (.arrive i)) :
    (run.world (m + 1)).arrived i = true := by
  rcases run.next m with ⟨h1, _⟩ | ⟨a, h1, h2⟩
  · rw [h] at h1; cases h1
  · rw [h] at h1
    injection h1 with h1
    subst h1
    generalize run.world (m + 1) = w' at h2
    cases h2
    simp

/-! ### Where a call is -/

/-- A call that has the mutex can go on, unless it waits for its body. -/
theorem holding_able {tr : List Slow.Act} {w : Slow.World} (h : Slow.Run s₀ tr w) {i : Nat}
    {t : Thread} (ht : w.world.threads i = some t) (hl : t.prog.isLock = false)
    (he : t.prog.ended = none) (ha : ¬ Slow.Awaits w i) : Able w i := by
  obtain ⟨order, s, inv⟩ := run_invariant (slow_plain h)
  obtain ⟨k, hk⟩ := inv.holder
  have no : ¬ (Waiting order i t ∨ Finished order i t) := by
    rintro (h | h)
    · rw [h.prog, program_isLock] at hl; cases hl
    · obtain ⟨o, ho, _⟩ := h.ended
      rw [he] at ho; cases ho
  cases k with
  | none => exact absurd (hk.2 i t ht) no
  | some k =>
    have hik : i = k := Decidable.byContradiction fun hne => no (hk.2 i t ht hne)
    subst hik
    obtain ⟨⟨t', ht', hin⟩, _⟩ := hk
    rw [ht] at ht'
    cases ht'
    obtain ⟨p, hp, hpl⟩ := hin.prog
    obtain ⟨⟨q, s', l'⟩, hx⟩ := inside_step hpl w.world.shared t.loc
    rw [← hp] at hx
    exact ⟨_, _, .inl rfl, .act (.step i t ht hx) fun j hj => by cases hj; exact ha⟩

/-- Who has the mutex when it is taken. -/
theorem locked_holder {tr : List Slow.Act} {w : Slow.World} (h : Slow.Run s₀ tr w)
    (hl : w.world.shared.locked = true) : ∃ k t, w.world.threads k = some t ∧
      t.prog.isLock = false ∧ t.prog.ended = none ∧
      ∀ j t', w.world.threads j = some t' → j ≠ k →
        t'.prog.isLock = true ∨ t'.prog.ended.isSome = true := by
  obtain ⟨order, s, inv⟩ := run_invariant (slow_plain h)
  obtain ⟨k, hk⟩ := inv.holder
  cases k with
  | none =>
    rw [hk.1, inv.unlocked] at hl
    cases hl
  | some k =>
    obtain ⟨⟨t, ht, hin⟩, hrest⟩ := hk
    obtain ⟨p, hp, hpl⟩ := hin.prog
    obtain ⟨x, hx⟩ := inside_step hpl w.world.shared t.loc
    refine ⟨k, t, ht, ?_, ?_, fun j t' hj hne => ?_⟩
    · rw [hp]
      cases p <;> first | exact hpl.elim | rfl
    · rw [hp]; exact ended_step hx
    · rcases hrest j t' hj hne with h | h
      · left; rw [h.prog]; exact program_isLock _
      · right
        obtain ⟨o, ho, _⟩ := h.ended
        rw [ho]; rfl

/-- What an act of a call makes of it. -/
theorem acts_closer {w w' : Slow.World} {a : Slow.Act} (h : Slow.Next w a w') {i : Nat} {t : Thread}
    (ht : w.world.threads i = some t) (hb : By i a) :
    (∃ answer, a = .act (.answer i answer)) ∨
      (a = .act (.step i) ∧ t.prog.ended = none ∧
        ∃ t', w'.world.threads i = some t' ∧ Closer t' t ∧ t'.answered = t.answered) := by
  rcases hb with rfl | hb
  · right
    cases h with
    | act hn hw =>
      cases hn with
      | step _ t' hi hs =>
        rw [ht] at hi
        cases hi
        exact ⟨rfl, ended_step hs, _, put_same _ _ _, .step t _ _ (step_child hs), rfl⟩
  · exact .inl hb

/-- A call that is there was made. -/
theorem thread_invoked (run : Forever s₀) {n i : Nat} {t : Thread}
    (h : (run.world n).world.threads i = some t) :
    ∃ m, run.act m = some (.act (.invoke i t.call)) := by
  obtain ⟨tr, hr, ha⟩ := moment run n
  obtain ⟨_, _, inv⟩ := run_invariant (slow_plain hr)
  have hm := inv.threads i t h
  have hplain : ∀ {tr : List Slow.Act} {a : Spec.Act}, a ∈ Slow.plain tr → .act a ∈ tr := by
    intro tr a ha
    induction tr with
    | nil => cases ha
    | cons x tr ih =>
      cases x with
      | act b =>
        rcases List.mem_cons.mp ha with rfl | ha
        · exact List.mem_cons_self
        · exact List.mem_cons_of_mem _ (ih ha)
      | arrive k => exact List.mem_cons_of_mem _ (ih ha)
  obtain ⟨m, _, hm⟩ := ha _ (hplain hm)
  exact ⟨m, hm⟩

/-! ### Everybody gets their turn -/

/-- A call that has the mutex acts. -/
theorem holding_acts {run : Forever s₀} (hs : Schedules run) (hd : Delivers run) {n i : Nat}
    {t : Thread} (ht : (run.world n).world.threads i = some t) (hl : t.prog.isLock = false)
    (he : t.prog.ended = none) : ∃ m, n ≤ m ∧ ∃ a, run.act m = some a ∧ By i a := by
  apply Classical.byContradiction
  intro hno
  have hkeep : ∀ m, n ≤ m → (run.world m).world.threads i = some t := by
    intro m hm
    obtain ⟨d, rfl⟩ := Nat.le.dest hm
    exact undisturbed_until run ht d fun k h1 _ a h3 h4 => hno ⟨k, h1, a, h3, h4⟩
  have harr : ∃ n', n ≤ n' ∧ ∀ m, n' ≤ m → ¬ Slow.Awaits (run.world m) i := by
    by_cases hx : ∃ r, t.call.op = .serve r ∧ Server.readsBody r = true
    · obtain ⟨r, hop, hb⟩ := hx
      obtain ⟨k, hk⟩ := thread_invoked run ht
      obtain ⟨m, hm⟩ := hd i k t.call r hk hop hb
      refine ⟨max n (m + 1), by omega, fun m' hm' => ?_⟩
      rintro ⟨t', r', _, _, _, _, har⟩
      obtain ⟨d, rfl⟩ := Nat.le.dest (show m + 1 ≤ m' by omega)
      rw [arrived_later run (arrived_after run hm) d] at har
      cases har
    · refine ⟨n, Nat.le_refl _, fun m hm => ?_⟩
      rintro ⟨t', r, ht', hop, hb, _⟩
      rw [hkeep m hm] at ht'
      cases ht'
      exact hx ⟨r, hop, hb⟩
  obtain ⟨n', hn', hna⟩ := harr
  obtain ⟨m, hm, a, ha, hb⟩ := hs i n' fun m hm => by
    obtain ⟨tr, hr, _⟩ := moment run m
    exact holding_able hr (hkeep m (by omega)) hl he (hna m hm)
  exact hno ⟨m, by omega, a, ha, hb⟩

/-- The mutex becomes free again and again. -/
theorem unlocked_again {run : Forever s₀} (hs : Schedules run) (hd : Delivers run) (n : Nat) :
    ∃ m, n ≤ m ∧ (run.world m).world.shared.locked = false := by
  by_cases hl : (run.world n).world.shared.locked = false
  · exact ⟨n, Nat.le_refl _, hl⟩
  · obtain ⟨k, t, ht, h1, h2⟩ : ∃ k t, (run.world n).world.threads k = some t ∧
        t.prog.isLock = false ∧ t.prog.ended = none := by
      obtain ⟨tr, hr, _⟩ := moment run n
      obtain ⟨k, t, ht, h1, h2, _⟩ := locked_holder hr (by simpa using hl)
      exact ⟨k, t, ht, h1, h2⟩
    clear hl
    have hacc := closer_acc t
    induction hacc generalizing n with
    | intro t _ ih =>
      obtain ⟨d, a, ha, hb, hfirst⟩ := first_act run (holding_acts hs hd ht h1 h2)
      have htd := undisturbed_until run ht d hfirst
      obtain ⟨tr, hr, _⟩ := moment run (n + d)
      obtain ⟨tr', hr', _⟩ := moment run (n + d + 1)
      rcases run.next (n + d) with ⟨h3, _⟩ | ⟨a', h3, h4⟩
      · rw [ha] at h3; cases h3
      rw [ha] at h3
      injection h3 with h3
      subst h3
      rcases acts_closer h4 htd hb with ⟨answer, rfl⟩ | ⟨rfl, _, t', ht', hc, _⟩
      · generalize run.world (n + d + 1) = w' at h4
        cases h4 with
        | act hn _ =>
          cases hn with
          | answer _ t'' hi _ ho =>
            rw [htd] at hi
            cases hi
            rw [h2] at ho
            cases ho
      · by_cases hl : (run.world (n + d + 1)).world.shared.locked = false
        · exact ⟨_, by omega, hl⟩
        · have hl : (run.world (n + d + 1)).world.shared.locked = true := by simpa using hl
          obtain ⟨k', t'', ht'', g1, g2, _⟩ := locked_holder hr' hl
          have hk : k' = k := by
            apply Decidable.byContradiction
            intro hne
            have hlk : (run.world (n + d)).world.shared.locked = true := by
              obtain ⟨order, s, inv⟩ := run_invariant (slow_plain hr)
              obtain ⟨o, ho⟩ := inv.holder
              have no : ¬ (Waiting order k t ∨ Finished order k t) := by
                rintro (h | h)
                · rw [h.prog, program_isLock] at h1; cases h1
                · obtain ⟨o, ho, _⟩ := h.ended
                  rw [h2] at ho; cases ho
              cases o with
              | none => exact absurd (ho.2 k t htd) no
              | some o =>
                obtain ⟨⟨_, _, hin⟩, _⟩ := ho
                exact hin.locked
            obtain ⟨k2, t2, g3, g4, g5, g6⟩ := locked_holder hr hlk
            have hk2 : k = k2 := Decidable.byContradiction fun hne2 => by
              rcases g6 k t htd hne2 with h | h
              · rw [h1] at h; cases h
              · rw [h2] at h; cases h
            subst hk2
            -- the other call has not changed
            have hsame : (run.world (n + d)).world.threads k' = some t'' := by
              generalize run.world (n + d + 1) = w' at h4 ht''
              cases h4 with
              | act hn _ =>
                cases hn with
                | step _ _ _ _ =>
                  dsimp only at ht''
                  rw [put_other _ _ hne] at ht''
                  exact ht''
            rcases g6 k' t'' hsame hne with h | h
            · rw [g1] at h; cases h
            · rw [g2] at h; cases h
          subst hk
          rw [ht'] at ht''
          cases ht''
          obtain ⟨m, hm, hm'⟩ := ih t' hc (n + d + 1) ht' g1 g2
          exact ⟨m, by omega, hm'⟩

theorem canLock_able {w : Slow.World} {i : Nat} (h : CanLock w i) : Able w i := by
  obtain ⟨t, ht, hl, hu⟩ := h
  have : ∃ x, t.prog.step w.world.shared t.loc = some x := by
    generalize t.prog = p at hl
    cases p <;> try cases hl
    simp only [Prog.step, hu, Bool.false_eq_true, if_false]
    exact ⟨_, rfl⟩
  obtain ⟨⟨p, s, l⟩, hx⟩ := this
  refine ⟨_, _, .inl rfl, .act (.step i t ht hx) fun j hj => ?_⟩
  cases hj
  rintro ⟨t', _, ht', _, _, hl', _⟩
  rw [ht] at ht'
  cases ht'
  rw [hl] at hl'
  cases hl'

/-- **C97.** Every call is answered some time, however many other calls are made, and although calls
wait for the mutex and for bodies: if the scheduler lets goroutines go on, the mutex lets nobody
starve, and no body fails to arrive for ever. -/
theorem C97_answered {run : Forever s₀} (hs : Schedules run) (hu : Unlocks run) (hd : Delivers run)
    {n i : Nat} {c : Call} (hc : run.act n = some (.act (.invoke i c))) :
    ∃ m answer, n < m ∧ run.act m = some (.act (.answer i answer)) := by
  obtain ⟨t, ht, hna⟩ : ∃ t, (run.world (n + 1)).world.threads i = some t ∧ t.answered = false := by
    rcases run.next n with ⟨h1, _⟩ | ⟨a, h1, h2⟩
    · rw [hc] at h1; cases h1
    · rw [hc] at h1
      injection h1 with h1
      subst h1
      generalize run.world (n + 1) = w' at h2
      cases h2 with
      | act hn _ =>
        cases hn with
        | invoke => exact ⟨_, put_same _ _ _, rfl⟩
  suffices H : ∀ n' t, (run.world n').world.threads i = some t → t.answered = false →
      ∃ m answer, n' ≤ m ∧ run.act m = some (.act (.answer i answer)) by
    obtain ⟨m, answer, h1, h2⟩ := H (n + 1) t ht hna
    exact ⟨m, answer, by omega, h2⟩
  clear ht hna hc n
  intro n t ht hna
  have hacc := closer_acc t
  induction hacc generalizing n with
  | intro t _ ih =>
    have hacts : ∃ m, n ≤ m ∧ ∃ a, run.act m = some a ∧ By i a := by
      cases he : t.prog.ended with
      | none =>
        cases hl : t.prog.isLock with
        | false => exact holding_acts hs hd ht hl he
        | true =>
          apply Classical.byContradiction
          intro hno
          have hkeep : ∀ m, n ≤ m → (run.world m).world.threads i = some t := by
            intro m hm
            obtain ⟨d, rfl⟩ := Nat.le.dest hm
            exact undisturbed_until run ht d fun k h1 _ a h3 h4 => hno ⟨k, h1, a, h3, h4⟩
          have hcan : ∀ k, ∃ m, k ≤ m ∧ CanLock (run.world m) i := by
            intro k
            obtain ⟨m, hm, hm'⟩ := unlocked_again hs hd (max n k)
            exact ⟨m, by omega, t, hkeep m (by omega), hl, hm'⟩
          obtain ⟨m, hm, hm'⟩ := hu i n hcan
          exact hno ⟨m, hm, _, hm', .inl rfl⟩
      | some o =>
        apply Classical.byContradiction
        intro hno
        obtain ⟨m, hm, a, ha, hb⟩ := hs i n fun m hm => by
          have hk : (run.world m).world.threads i = some t := by
            obtain ⟨d, rfl⟩ := Nat.le.dest hm
            exact undisturbed_until run ht d fun k h1 _ a h3 h4 => hno ⟨k, h1, a, h3, h4⟩
          exact ⟨_, _, .inr ⟨_, rfl⟩, .act (.answer i t hk hna he) nofun⟩
        exact hno ⟨m, hm, a, ha, hb⟩
    obtain ⟨d, a, ha, hb, hfirst⟩ := first_act run hacts
    have htd := undisturbed_until run ht d hfirst
    rcases run.next (n + d) with ⟨h3, _⟩ | ⟨a', h3, h4⟩
    · rw [ha] at h3; cases h3
    rw [ha] at h3
    injection h3 with h3
    subst h3
    rcases acts_closer h4 htd hb with ⟨answer, rfl⟩ | ⟨rfl, _, t', ht', hcl, hans⟩
    · exact ⟨n + d, answer, by omega, ha⟩
    · obtain ⟨m, answer, h5, h6⟩ := ih t' hcl (n + d + 1) ht' (by rw [hans]; exact hna)
      exact ⟨m, answer, by omega, h6⟩

/-! ### One call after the other -/

/-- Makes the calls one after the other: what happens next, when it is the turn of call `k`. With
`skip` call 0 is made, and left alone. -/
def turn (calls : Nat → Call) (skip : Bool) (w : Slow.World) (k : Nat) :
    Option Slow.Act × Slow.World × Nat :=
  match w.world.threads k with
  | none =>
    if w.arrived k then
      (some (.act (.invoke k (calls k))), ⟨w.world.put k
        { call := calls k, prog := (calls k).op.program, loc := (calls k).local }, w.arrived⟩, k)
    else (some (.arrive k), { w with arrived := fun j => j = k || w.arrived j }, k)
  | some t =>
    if skip = true ∧ k = 0 then (none, w, 1)
    else match t.prog.step w.world.shared t.loc with
      | some (p, s, l) => (some (.act (.step k)), ⟨{ w.world with
          shared := s }.put k { t with prog := p, loc := l }, w.arrived⟩, k)
      | none =>
        match t.prog.ended with
        | none => (none, w, k)
        | some o =>
          if t.answered then (none, w, k + 1)
          else (some (.act (.answer k (t.call.op.answer o t.loc))), ⟨w.world.put k
            { t with answered := true }, w.arrived⟩, k)

def turns (calls : Nat → Call) (skip : Bool) (s₀ : Server) : Nat → Slow.World × Nat
  | 0 => (⟨{ shared := ⟨false, s₀⟩, threads := fun _ => none }, fun _ => false⟩, 0)
  | n + 1 => (turn calls skip (turns calls skip s₀ n).1 (turns calls skip s₀ n).2).2

/-- Calls whose turn is over or has not come. -/
structure InTurn (skip : Bool) (w : Slow.World) (k : Nat) : Prop where
  later : ∀ j, k < j → w.world.threads j = none
  before : ∀ j, j < k → ∃ t, w.world.threads j = some t ∧
    ((t.prog.ended.isSome = true ∧ t.answered = true) ∨
      (skip = true ∧ j = 0 ∧ t.prog.isLock = true))
  arrived : ∀ t, w.world.threads k = some t → w.arrived k = true
  skips : ∀ t, skip = true → k = 0 → w.world.threads k = some t → t.prog.isLock = true

theorem turn_next (calls : Nat → Call) (skip : Bool) {w : Slow.World} {k : Nat}
    (h : InTurn skip w k) :
    InTurn skip (turn calls skip w k).2.1 (turn calls skip w k).2.2 ∧
    (((turn calls skip w k).1 = none ∧ (turn calls skip w k).2.1 = w) ∨
      ∃ a, (turn calls skip w k).1 = some a ∧ Slow.Next w a (turn calls skip w k).2.1) := by
  unfold turn
  split
  · rename_i hk
    split
    · rename_i ha
      refine ⟨⟨fun j hj => ?_, fun j hj => ?_, fun t _ => ha, fun t _ _ ht => ?_⟩,
        .inr ⟨_, rfl, .act (.invoke k (calls k) hk) nofun⟩⟩
      · dsimp only at hj ⊢
        rw [put_other _ _ (by omega)]; exact h.later j hj
      · dsimp only at hj ⊢
        rw [put_other _ _ (by omega)]; exact h.before j hj
      · dsimp only at ht
        rw [put_same] at ht
        cases ht
        exact program_isLock _
    · exact ⟨⟨h.later, h.before, fun t ht => by simp, h.skips⟩, .inr ⟨_, rfl, .arrive k⟩⟩
  · rename_i t hk
    split
    · rename_i hs
      obtain ⟨hs, rfl⟩ := hs
      refine ⟨⟨fun j hj => h.later j (by dsimp only at hj; omega), fun j hj => ?_, fun t ht => ?_, nofun⟩,
        .inl ⟨rfl, rfl⟩⟩
      · dsimp only at hj
        obtain rfl : j = 0 := by omega
        exact ⟨t, hk, .inr ⟨hs, rfl, h.skips t hs rfl hk⟩⟩
      · dsimp only at ht
        rw [h.later 1 (by omega)] at ht
        cases ht
    · rename_i hs
      have har := h.arrived t hk
      split
      · rename_i p s l hx
        refine ⟨⟨fun j hj => ?_, fun j hj => ?_, fun t _ => har, fun t h1 h2 _ => absurd ⟨h1, h2⟩ hs⟩,
          .inr ⟨_, rfl, .act (.step k t hk hx) fun i hi => ?_⟩⟩
        · dsimp only at hj ⊢
          rw [put_other _ _ (by omega)]; exact h.later j hj
        · dsimp only at hj ⊢
          rw [put_other _ _ (by omega)]; exact h.before j hj
        · cases hi
          rintro ⟨_, _, _, _, _, _, hf⟩
          rw [har] at hf
          cases hf
      · split
        · exact ⟨h, .inl ⟨rfl, rfl⟩⟩
        · rename_i o ho
          split
          · rename_i hans
            refine ⟨⟨fun j hj => h.later j (by dsimp only at hj; omega), fun j hj => ?_,
              fun t ht => ?_, fun _ _ h2 _ => by cases h2⟩, .inl ⟨rfl, rfl⟩⟩
            · dsimp only at hj ⊢
              by_cases hjk : j = k
              · subst hjk; exact ⟨t, hk, .inl ⟨by rw [ho]; rfl, hans⟩⟩
              · exact h.before j (by omega)
            · dsimp only at ht
              rw [h.later _ (by omega)] at ht
              cases ht
          · rename_i hans
            refine ⟨⟨fun j hj => ?_, fun j hj => ?_, fun t _ => har,
              fun t h1 h2 _ => absurd ⟨h1, h2⟩ hs⟩,
              .inr ⟨_, rfl, .act (.answer k t hk (by simpa using hans) ho) nofun⟩⟩
            · dsimp only at hj ⊢
              rw [put_other _ _ (by omega)]; exact h.later j hj
            · dsimp only at hj ⊢
              rw [put_other _ _ (by omega)]; exact h.before j hj

theorem inTurn (calls : Nat → Call) (skip : Bool) (s₀ : Server) (n : Nat) :
    InTurn skip (turns calls skip s₀ n).1 (turns calls skip s₀ n).2 := by
  induction n with
  | zero => exact ⟨fun _ _ => rfl, nofun, nofun, nofun⟩
  | succ n ih => exact (turn_next calls skip ih).1

/-- The run in which the calls are made one after the other. -/
def inOrder (calls : Nat → Call) (skip : Bool) (s₀ : Server) : Forever s₀ where
  world n := (turns calls skip s₀ n).1
  act n := (turn calls skip (turns calls skip s₀ n).1 (turns calls skip s₀ n).2).1
  start := rfl
  next n := (turn_next calls skip (inTurn calls skip s₀ n)).2

theorem ended_stuck {t : Thread} {s : Shared Server} (h : t.prog.ended.isSome = true) :
    t.prog.step s t.loc = none := by
  cases hx : t.prog.step s t.loc with
  | none => rfl
  | some x => rw [ended_step hx] at h; cases h

/-- Who can go on, has its turn, or was skipped. -/
theorem inOrder_able (calls : Nat → Call) (skip : Bool) (s₀ : Server) {n i : Nat}
    (h : Able ((inOrder calls skip s₀).world n) i) :
    (∃ a, (inOrder calls skip s₀).act n = some a ∧ By i a) ∨ (skip = true ∧ i = 0) := by
  have hi := inTurn calls skip s₀ n
  show (∃ a, (turn calls skip (turns calls skip s₀ n).1 (turns calls skip s₀ n).2).1 = some a ∧ _) ∨ _
  change Able (turns calls skip s₀ n).1 i at h
  generalize (turns calls skip s₀ n).1 = w at h hi
  generalize (turns calls skip s₀ n).2 = k at hi
  by_cases hsk : skip = true ∧ i = 0
  · exact .inr hsk
  left
  obtain ⟨t, ht, hcan⟩ : ∃ t, w.world.threads i = some t ∧
      ((∃ x, t.prog.step w.world.shared t.loc = some x) ∨
        ∃ o, t.prog.ended = some o ∧ t.answered = false) := by
    obtain ⟨a, w', hb, hn⟩ := h
    rcases hb with rfl | ⟨_, rfl⟩
    · cases hn with
      | act hn _ => cases hn with
        | step _ t ht hs => exact ⟨t, ht, .inl ⟨_, hs⟩⟩
    · cases hn with
      | act hn _ => cases hn with
        | answer _ t ht ha ho => exact ⟨t, ht, .inr ⟨_, ho, ha⟩⟩
  have hik : i = k := by
    rcases Nat.lt_trichotomy i k with hlt | rfl | hgt
    · obtain ⟨t', ht', h'⟩ := hi.before i hlt
      rw [ht] at ht'
      cases ht'
      rcases h' with ⟨h1, h2⟩ | ⟨h1, h2, _⟩
      · rcases hcan with ⟨x, hx⟩ | ⟨o, _, ha⟩
        · rw [ended_stuck h1] at hx; cases hx
        · rw [h2] at ha; cases ha
      · exact absurd ⟨h1, h2⟩ hsk
    · rfl
    · rw [hi.later i hgt] at ht; cases ht
  subst hik
  unfold turn
  rw [ht]
  dsimp only
  rw [if_neg hsk]
  rcases hcan with ⟨⟨p, s, l⟩, hx⟩ | ⟨o, ho, ha⟩
  · rw [hx]
    exact ⟨_, rfl, .inl rfl⟩
  · rw [ended_stuck (by rw [ho]; rfl), ho]
    dsimp only
    rw [ha]
    exact ⟨_, rfl, .inr ⟨_, rfl⟩⟩

/-- Whose body has arrived, had it arrive. -/
theorem arrived_by (run : Forever s₀) {n i : Nat} (h : (run.world n).arrived i = true) :
    ∃ m, run.act m = some (.arrive i) := by
  induction n with
  | zero => rw [run.start] at h; cases h
  | succ n ih =>
    rcases run.next n with ⟨_, h2⟩ | ⟨a, h1, h2⟩
    · rw [h2] at h; exact ih h
    · generalize run.world (n + 1) = w' at h h2
      cases h2 with
      | act => exact ih h
      | arrive j =>
        by_cases hj : i = j
        · subst hj; exact ⟨n, h1⟩
        · simp [hj] at h; exact ih h

theorem inOrder_delivers (calls : Nat → Call) (skip : Bool) (s₀ : Server) :
    Delivers (inOrder calls skip s₀) := by
  intro i n c r hc _ _
  apply arrived_by (n := n)
  change (turn calls skip (turns calls skip s₀ n).1 (turns calls skip s₀ n).2).1 = _ at hc
  show (turns calls skip s₀ n).1.arrived i = true
  revert hc
  unfold turn
  split
  · split
    · rename_i ha
      intro hc
      injection hc with hc
      injection hc with hc
      injection hc with hc
      subst hc
      exact ha
    · intro hc; cases hc
  · split
    · intro hc; cases hc
    · split
      · intro hc; cases hc
      · split
        · intro hc; cases hc
        · split <;> (intro hc; cases hc)

theorem inOrder_cur (calls : Nat → Call) (skip : Bool) (s₀ : Server) {n i : Nat} {a : Slow.Act}
    (ha : (inOrder calls skip s₀).act n = some a) (hb : By i a) : (turns calls skip s₀ n).2 = i := by
  change (turn calls skip (turns calls skip s₀ n).1 (turns calls skip s₀ n).2).1 = _ at ha
  revert ha
  unfold turn
  split
  · split
    · intro ha; injection ha with ha; subst ha; rcases hb with hb | ⟨_, hb⟩ <;> cases hb
    · intro ha; injection ha with ha; subst ha; rcases hb with hb | ⟨_, hb⟩ <;> cases hb
  · split
    · intro ha; cases ha
    · split
      · intro ha; injection ha with ha; subst ha
        rcases hb with hb | ⟨_, hb⟩
        · injection hb with hb; injection hb
        · cases hb
      · split
        · intro ha; cases ha
        · split
          · intro ha; cases ha
          · intro ha; injection ha with ha; subst ha
            rcases hb with hb | ⟨_, hb⟩
            · cases hb
            · injection hb with hb; injection hb

/-- A call whose turn comes is made within two moments. -/
theorem inOrder_made (calls : Nat → Call) (skip : Bool) (s₀ : Server) {n : Nat}
    (hk : (turns calls skip s₀ n).1.world.threads (turns calls skip s₀ n).2 = none) :
    ∃ m, n ≤ m ∧ (turns calls skip s₀ m).2 = (turns calls skip s₀ n).2 ∧
      (turns calls skip s₀ m).1.world.shared = (turns calls skip s₀ n).1.world.shared ∧
      (turns calls skip s₀ m).1.world.threads (turns calls skip s₀ n).2 = none ∧
      (turns calls skip s₀ m).1.arrived (turns calls skip s₀ n).2 = true := by
  by_cases ha : (turns calls skip s₀ n).1.arrived (turns calls skip s₀ n).2 = true
  · exact ⟨n, Nat.le_refl _, rfl, rfl, hk, ha⟩
  · refine ⟨n + 1, by omega, ?_⟩
    have : turns calls skip s₀ (n + 1) =
        ({ (turns calls skip s₀ n).1 with arrived := fun j => j = (turns calls skip s₀ n).2 ||
          (turns calls skip s₀ n).1.arrived j }, (turns calls skip s₀ n).2) := by
      show (turn _ _ _ _).2 = _
      unfold turn
      rw [hk]
      dsimp only
      rw [if_neg ha]
    rw [this]
    exact ⟨rfl, rfl, hk, by simp⟩

/-- The turn in which a call is made. -/
theorem turn_invoke (calls : Nat → Call) (skip : Bool) {w : Slow.World} {k : Nat}
    (hk : w.world.threads k = none) (ha : w.arrived k = true) :
    turn calls skip w k = (some (.act (.invoke k (calls k))), ⟨w.world.put k
        { call := calls k, prog := (calls k).op.program, loc := (calls k).local }, w.arrived⟩, k) := by
  unfold turn
  rw [hk]
  dsimp only
  rw [if_pos ha]

/-- After the answer it is the turn of the next call. -/
theorem inOrder_after (calls : Nat → Call) (skip : Bool) (s₀ : Server) {m i : Nat} {answer : Answer}
    (hm : (inOrder calls skip s₀).act m = some (.act (.answer i answer))) :
    (turns calls skip s₀ (m + 2)).2 = i + 1 ∧
      (turns calls skip s₀ (m + 2)).1.world.threads (i + 1) = none := by
  have hcur := inOrder_cur calls skip s₀ hm (.inr ⟨_, rfl⟩)
  have hk1 : ¬ (skip = true ∧ i = 0) ∧ (turns calls skip s₀ (m + 1)).2 = i ∧ ∃ t o,
      (turns calls skip s₀ (m + 1)).1.world.threads i = some t ∧ t.prog.ended = some o ∧
        t.answered = true := by
    change (turn calls skip (turns calls skip s₀ m).1 (turns calls skip s₀ m).2).1 = _ at hm
    show _ ∧ (turn calls skip (turns calls skip s₀ m).1 (turns calls skip s₀ m).2).2.2 = i ∧
      ∃ t o, (turn calls skip (turns calls skip s₀ m).1
        (turns calls skip s₀ m).2).2.1.world.threads i = some t ∧ _
    rw [hcur] at hm ⊢
    revert hm
    unfold turn
    split
    · split <;> (intro hm; cases hm)
    · rename_i t _
      split
      · intro hm; cases hm
      · rename_i hs
        split
        · intro hm; cases hm
        · split
          · intro hm; cases hm
          · rename_i o ho
            split
            · intro hm; cases hm
            · intro _
              refine ⟨hs, rfl, { t with answered := true }, o, put_same _ _ _, ho, rfl⟩
  obtain ⟨hsk, hk1, t, o, ht, ho, hans⟩ := hk1
  have h2 : turns calls skip s₀ (m + 2) = ((turns calls skip s₀ (m + 1)).1, i + 1) := by
    show (turn _ _ _ _).2 = _
    rw [hk1]
    unfold turn
    rw [ht]
    dsimp only
    rw [if_neg hsk, ended_stuck (by rw [ho]; rfl), ho]
    dsimp only
    rw [if_pos hans]
  rw [h2]
  have hin := inTurn calls skip s₀ (m + 1)
  rw [hk1] at hin
  exact ⟨rfl, hin.later (i + 1) (by omega)⟩

/-- A call whose turn has come is made. -/
theorem inOrder_invokes (calls : Nat → Call) (skip : Bool) (s₀ : Server) {n i : Nat}
    (hi : (turns calls skip s₀ n).2 = i) (hn : (turns calls skip s₀ n).1.world.threads i = none) :
    ∃ m, n ≤ m ∧ (inOrder calls skip s₀).act m = some (.act (.invoke i (calls i))) ∧
      (turns calls skip s₀ (m + 1)).2 = i ∧
      (turns calls skip s₀ (m + 1)).1.world.threads i =
        some { call := calls i, prog := (calls i).op.program, loc := (calls i).local } := by
  subst hi
  obtain ⟨m, hm, h1, _, h3, h4⟩ := inOrder_made calls skip s₀ hn
  refine ⟨m, hm, ?_⟩
  show (turn _ _ _ _).1 = _ ∧ (turn _ _ _ _).2.2 = _ ∧ (turn _ _ _ _).2.1.world.threads _ = _
  rw [h1, turn_invoke calls skip h3 h4]
  exact ⟨rfl, rfl, put_same _ _ _⟩

/-- **C97.** The assumptions can be met, whatever calls are made: there is such a run in which all of
infinitely many calls are made. -/
theorem C97_possible (s₀ : Server) (calls : Nat → Call) : ∃ run : Forever s₀,
    Schedules run ∧ Unlocks run ∧ Delivers run ∧
    ∀ i, ∃ n, run.act n = some (.act (.invoke i (calls i))) := by
  have hs : Schedules (inOrder calls false s₀) := by
    intro i n h
    rcases inOrder_able calls false s₀ (h n (Nat.le_refl _)) with h | ⟨h, _⟩
    · exact ⟨n, Nat.le_refl _, h⟩
    · cases h
  have hu : Unlocks (inOrder calls false s₀) := by
    intro i n h
    obtain ⟨m, hm, hc⟩ := h n
    rcases inOrder_able calls false s₀ (canLock_able hc) with ⟨a, ha, hb⟩ | ⟨h, _⟩
    · refine ⟨m, hm, ?_⟩
      rcases hb with rfl | ⟨_, rfl⟩
      · exact ha
      · rcases (inOrder calls false s₀).next m with ⟨h3, _⟩ | ⟨a', h3, h4⟩
        · rw [ha] at h3; cases h3
        · rw [ha] at h3
          injection h3 with h3
          subst h3
          obtain ⟨t, ht, hl, _⟩ := hc
          generalize (inOrder calls false s₀).world (m + 1) = w' at h4
          cases h4 with
          | act hn _ => cases hn with
            | answer _ t' ht' _ ho =>
              rw [ht] at ht'
              cases ht'
              rw [isLock_ended hl] at ho
              cases ho
    · cases h
  have hd := inOrder_delivers calls false s₀
  refine ⟨_, hs, hu, hd, fun i => ?_⟩
  induction i with
  | zero =>
    obtain ⟨m, _, h, _⟩ := inOrder_invokes calls false s₀ (n := 0) rfl rfl
    exact ⟨m, h⟩
  | succ i ih =>
    obtain ⟨n, hn⟩ := ih
    obtain ⟨m, answer, _, hm⟩ := C97_answered hs hu hd hn
    obtain ⟨h1, h2⟩ := inOrder_after calls false s₀ hm
    obtain ⟨m', _, h, _⟩ := inOrder_invokes calls false s₀ h1 h2
    exact ⟨m', h⟩

/-! ### What the assumptions are needed for -/

/-- The holder of the mutex has locked it. -/
theorem holding_locked {tr : List Slow.Act} {w : Slow.World} (h : Slow.Run s₀ tr w) {i : Nat}
    {t : Thread} (ht : w.world.threads i = some t) (hl : t.prog.isLock = false)
    (he : t.prog.ended = none) : w.world.shared.locked = true := by
  obtain ⟨order, s, inv⟩ := run_invariant (slow_plain h)
  obtain ⟨o, ho⟩ := inv.holder
  cases o with
  | none =>
    rcases ho.2 i t ht with h | h
    · rw [h.prog, program_isLock] at hl; cases hl
    · obtain ⟨o, ho, _⟩ := h.ended
      rw [he] at ho; cases ho
  | some o =>
    obtain ⟨⟨_, _, hin⟩, _⟩ := ho
    exact hin.locked

/-- Who has its turn goes on. -/
theorem inOrder_goes (calls : Nat → Call) (skip : Bool) (s₀ : Server) {n k : Nat} {t : Thread}
    (hk : (turns calls skip s₀ n).2 = k) (hs : ¬ (skip = true ∧ k = 0))
    (ht : (turns calls skip s₀ n).1.world.threads k = some t) (ha : t.answered = false) :
    ∃ a, (inOrder calls skip s₀).act n = some a ∧ By k a := by
  have hin := inTurn calls skip s₀ n
  have hable : Able ((inOrder calls skip s₀).world n) k := by
    obtain ⟨tr, hr, _⟩ := moment (inOrder calls skip s₀) n
    cases he : t.prog.ended with
    | some o => exact ⟨_, _, .inr ⟨_, rfl⟩, .act (.answer k t ht ha he) nofun⟩
    | none =>
      cases hl : t.prog.isLock with
      | false =>
        refine holding_able hr ht hl he ?_
        rintro ⟨_, _, _, _, _, _, hf⟩
        rw [hk] at hin
        change (turns calls skip s₀ n).1.arrived k = false at hf
        rw [hin.arrived t ht] at hf
        cases hf
      | true =>
        refine canLock_able ⟨t, ht, hl, ?_⟩
        apply Classical.byContradiction
        intro hlk
        obtain ⟨j, t', hj, h1, h2, _⟩ := locked_holder hr (by simpa using hlk)
        change (turns calls skip s₀ n).1.world.threads j = some t' at hj
        rcases Nat.lt_trichotomy j k with hlt | rfl | hgt
        · obtain ⟨t'', ht'', h⟩ := hin.before j (by omega)
          rw [hj] at ht''
          cases ht''
          rcases h with ⟨h, _⟩ | ⟨_, _, h⟩
          · rw [h2] at h; cases h
          · rw [h1] at h; cases h
        · rw [ht] at hj
          cases hj
          rw [hl] at h1
          cases h1
        · rw [hin.later j (by omega)] at hj
          cases hj
  rcases inOrder_able calls skip s₀ hable with h | h
  · exact h
  · exact absurd h hs

/-- Who has its turn is answered. -/
theorem inOrder_answered (calls : Nat → Call) (skip : Bool) (s₀ : Server) {n k : Nat} {t : Thread}
    (hk : (turns calls skip s₀ n).2 = k) (hs : ¬ (skip = true ∧ k = 0))
    (ht : (turns calls skip s₀ n).1.world.threads k = some t) (ha : t.answered = false) :
    ∃ m answer, (inOrder calls skip s₀).act m = some (.act (.answer k answer)) := by
  have hacc := closer_acc t
  induction hacc generalizing n with
  | intro t _ ih =>
    obtain ⟨a, h1, h2⟩ := inOrder_goes calls skip s₀ hk hs ht ha
    rcases (inOrder calls skip s₀).next n with ⟨h3, _⟩ | ⟨a', h3, h4⟩
    · rw [h1] at h3; cases h3
    rw [h1] at h3
    injection h3 with h3
    subst h3
    rcases acts_closer h4 ht h2 with ⟨answer, rfl⟩ | ⟨rfl, _, t', ht', hc, hans⟩
    · exact ⟨n, answer, h1⟩
    · refine ih t' hc (n := n + 1) ?_ ht' (by rw [hans]; exact ha)
      change (turn calls skip (turns calls skip s₀ n).1 (turns calls skip s₀ n).2).1 = _ at h1
      show (turn calls skip (turns calls skip s₀ n).1 (turns calls skip s₀ n).2).2.2 = k
      rw [hk] at h1 ⊢
      revert h1
      unfold turn
      rw [ht]
      dsimp only
      rw [if_neg hs]
      split
      · intro _; rfl
      · split
        · intro h; cases h
        · split
          · intro h; cases h
          · intro _; rfl

theorem inOrder_bound (calls : Nat → Call) (skip : Bool) (s₀ : Server) (n : Nat) :
    (turns calls skip s₀ n).2 ≤ n := by
  induction n with
  | zero => exact Nat.le_refl _
  | succ n ih =>
    show (turn calls skip (turns calls skip s₀ n).1 (turns calls skip s₀ n).2).2.2 ≤ n + 1
    unfold turn
    split
    · split <;> (dsimp only; omega)
    · split
      · dsimp only; omega
      · split
        · dsimp only; omega
        · split
          · dsimp only; omega
          · split <;> (dsimp only; omega)

theorem inOrder_mono (calls : Nat → Call) (skip : Bool) (s₀ : Server) (n d : Nat) :
    (turns calls skip s₀ n).2 ≤ (turns calls skip s₀ (n + d)).2 := by
  induction d with
  | zero => exact Nat.le_refl _
  | succ d ih =>
    refine Nat.le_trans ih ?_
    show _ ≤ (turn calls skip (turns calls skip s₀ (n + d)).1 (turns calls skip s₀ (n + d)).2).2.2
    unfold turn
    split
    · split <;> (dsimp only; omega)
    · split
      · dsimp only; omega
      · split
        · dsimp only; omega
        · split
          · dsimp only; omega
          · split <;> (dsimp only; omega)

/-- Call 0 is skipped, the others have their turns. -/
theorem inOrder_skipping (calls : Nat → Call) (s₀ : Server) (i : Nat) :
    ∃ m, (turns calls true s₀ m).2 = i + 1 ∧
      (turns calls true s₀ m).1.world.threads (i + 1) = none := by
  induction i with
  | zero =>
    obtain ⟨m, _, _, h1, h2⟩ := inOrder_invokes calls true s₀ (n := 0) (i := 0) rfl rfl
    have h : turns calls true s₀ (m + 2) = ((turns calls true s₀ (m + 1)).1, 1) := by
      show (turn _ _ _ _).2 = _
      rw [h1]
      unfold turn
      rw [h2]
      dsimp only
      rw [if_pos ⟨rfl, rfl⟩]
    have hin := inTurn calls true s₀ (m + 1)
    rw [h1] at hin
    refine ⟨m + 2, by rw [h], ?_⟩
    rw [h]
    exact hin.later 1 (by omega)
  | succ i ih =>
    obtain ⟨n, h1, h2⟩ := ih
    obtain ⟨m, _, _, h3, h4⟩ := inOrder_invokes calls true s₀ h1 h2
    obtain ⟨m', answer, hm'⟩ := inOrder_answered calls true s₀ h3 (by simp) h4 rfl
    exact ⟨_, inOrder_after calls true s₀ hm'⟩

/-- **C97.** A mutex that does not see to it that nobody starves would not do: a call could wait for
ever, although the mutex is free again and again, while all others are made and answered. -/
theorem C97_mutex_needed (s₀ : Server) (calls : Nat → Call) : ∃ run : Forever s₀,
    Schedules run ∧ Delivers run ∧
    (∀ i, ∃ n, run.act n = some (.act (.invoke i (calls i)))) ∧
    (∀ i, i ≠ 0 → ∃ n a, run.act n = some (.act (.answer i a))) ∧
    ∀ n a, run.act n ≠ some (.act (.answer 0 a)) := by
  have hmade : ∀ i, ∃ n, i ≤ n ∧
      (inOrder calls true s₀).act n = some (.act (.invoke i (calls i))) ∧
      (turns calls true s₀ (n + 1)).2 = i ∧
      (turns calls true s₀ (n + 1)).1.world.threads i =
        some { call := calls i, prog := (calls i).op.program, loc := (calls i).local } := by
    intro i
    cases i with
    | zero =>
      obtain ⟨m, _, h⟩ := inOrder_invokes calls true s₀ (n := 0) (i := 0) rfl rfl
      exact ⟨m, Nat.zero_le _, h⟩
    | succ i =>
      obtain ⟨n, h1, h2⟩ := inOrder_skipping calls s₀ i
      obtain ⟨m, hm, h⟩ := inOrder_invokes calls true s₀ h1 h2
      have := inOrder_bound calls true s₀ n
      exact ⟨m, by omega, h⟩
  refine ⟨inOrder calls true s₀, ?_, inOrder_delivers calls true s₀, fun i => ?_, fun i hi => ?_, ?_⟩
  · intro i n h
    rcases inOrder_able calls true s₀ (h n (Nat.le_refl _)) with h' | ⟨_, rfl⟩
    · exact ⟨n, Nat.le_refl _, h'⟩
    exfalso
    -- another call takes the mutex
    obtain ⟨m, hm, _, h1, h2⟩ := hmade (n + 1)
    have hlocked : ∃ m', m + 1 ≤ m' ∧ (turns calls true s₀ m').1.world.shared.locked = true := by
      by_cases hl : (turns calls true s₀ (m + 1)).1.world.shared.locked = true
      · exact ⟨_, Nat.le_refl _, hl⟩
      · refine ⟨m + 2, by omega, ?_⟩
        show (turn _ _ _ _).2.1.world.shared.locked = true
        rw [h1]
        unfold turn
        rw [h2]
        dsimp only
        rw [if_neg (by simp)]
        obtain ⟨b, hb, _⟩ := program_eq (calls (n + 1)).op
        rw [hb]
        simp only [Prog.step, hl, Bool.false_eq_true, if_false]
        rfl
    obtain ⟨m', hm', hl⟩ := hlocked
    obtain ⟨a, w', hb, hn⟩ := h m' (by omega)
    change Slow.Next (turns calls true s₀ m').1 a w' at hn
    have hin := inTurn calls true s₀ m'
    have hpos : 0 < (turns calls true s₀ m').2 := by
      obtain ⟨d, rfl⟩ := Nat.le.dest hm'
      have := inOrder_mono calls true s₀ (m + 1) d
      omega
    obtain ⟨t, ht, h5⟩ := hin.before 0 hpos
    rcases hb with rfl | ⟨_, rfl⟩
    · cases hn with
      | act hn _ => cases hn with
        | step _ t' ht' hs =>
          rw [ht] at ht'
          cases ht'
          rcases h5 with ⟨h5, _⟩ | ⟨_, _, h5⟩
          · rw [ended_stuck h5] at hs; cases hs
          · generalize t.prog = p at hs h5
            cases p <;> try cases h5
            simp [Prog.step, hl] at hs
    · cases hn with
      | act hn _ => cases hn with
        | answer _ t' ht' ha ho =>
          rw [ht] at ht'
          cases ht'
          rcases h5 with ⟨_, h5⟩ | ⟨_, _, h5⟩
          · rw [h5] at ha; cases ha
          · rw [isLock_ended h5] at ho; cases ho
  · obtain ⟨n, _, h, _⟩ := hmade i
    exact ⟨n, h⟩
  · obtain ⟨n, _, _, h1, h2⟩ := hmade i
    exact inOrder_answered calls true s₀ h1 (by simp [hi]) h2 rfl
  · intro n a h
    have hcur := inOrder_cur calls true s₀ h (.inr ⟨_, rfl⟩)
    change (turn calls true (turns calls true s₀ n).1 (turns calls true s₀ n).2).1 = _ at h
    rw [hcur] at h
    revert h
    unfold turn
    split
    · split <;> (intro h; cases h)
    · rw [if_pos ⟨rfl, rfl⟩]
      intro h; cases h

/-- A run can come to a stop. -/
theorem stops {tr : List Slow.Act} {w : Slow.World} (h : Slow.Run s₀ tr w) : ∃ run : Forever s₀,
    (∀ n, tr.length ≤ n → run.world n = w ∧ run.act n = none) ∧
    ∀ a, a ∈ tr ↔ ∃ n, run.act n = some a := by
  induction h with
  | start =>
    exact ⟨⟨_, fun _ => none, rfl, fun _ => .inl ⟨rfl, rfl⟩⟩, fun _ _ => ⟨rfl, rfl⟩,
      fun a => ⟨nofun, nofun⟩⟩
  | @next tr w w' act hr hn ih =>
    obtain ⟨run, h1, h2⟩ := ih
    refine ⟨⟨fun n => if n ≤ tr.length then run.world n else w',
      fun n => if n = tr.length then some act else run.act n, by simp [run.start], fun n => ?_⟩, ?_, ?_⟩
    · rcases Nat.lt_trichotomy n tr.length with hlt | rfl | hgt
      · rw [if_neg (by omega), if_pos (by omega), if_pos (by omega)]
        exact run.next n
      · rw [if_pos rfl, if_pos (Nat.le_refl _), if_neg (by omega), (h1 _ (Nat.le_refl _)).1]
        exact .inr ⟨act, rfl, hn⟩
      · rw [if_neg (by omega), if_neg (by omega), if_neg (by omega)]
        exact .inl ⟨(h1 n (by omega)).2, rfl⟩
    · intro n hlen
      simp only [List.length_cons] at hlen
      dsimp only
      rw [if_neg (by omega), if_neg (by omega)]
      exact ⟨rfl, (h1 n (by omega)).2⟩
    · intro a
      dsimp only
      constructor
      · intro hm
        rcases List.mem_cons.mp hm with rfl | hm
        · exact ⟨tr.length, by rw [if_pos rfl]⟩
        · obtain ⟨n, hna⟩ := (h2 a).mp hm
          refine ⟨n, ?_⟩
          rw [if_neg, hna]
          intro e
          rw [(h1 n (by omega)).2] at hna
          cases hna
      · rintro ⟨n, hna⟩
        split at hna
        · injection hna with hna
          rw [hna]
          exact List.mem_cons_self
        · exact List.mem_cons_of_mem _ ((h2 a).mpr ⟨n, hna⟩)

/-- If nobody can go on, that is fair. -/
theorem stops_fair {tr : List Slow.Act} {w : Slow.World} (h : Slow.Run s₀ tr w)
    (hw : ∀ i, ¬ Able w i) : ∃ run : Forever s₀, Schedules run ∧ Unlocks run ∧
      ∀ a, a ∈ tr ↔ ∃ n, run.act n = some a := by
  obtain ⟨run, h1, h2⟩ := stops h
  refine ⟨run, fun i n h => ?_, fun i n h => ?_, h2⟩
  · have := h (max n tr.length) (by omega)
    rw [(h1 _ (by omega)).1] at this
    exact absurd this (hw i)
  · obtain ⟨m, hm, hc⟩ := h tr.length
    rw [(h1 m hm).1] at hc
    exact absurd (canLock_able hc) (hw i)

/-- While a call waits for its body the others that wait cannot go on, and neither can it. -/
theorem awaits_stuck {tr : List Slow.Act} {w : Slow.World} (h : Slow.Run s₀ tr w) {i : Nat}
    (ha : Slow.Awaits w i)
    (ho : ∀ j t, w.world.threads j = some t → j ≠ i → t.prog.isLock = true) (j : Nat) :
    ¬ Able w j := by
  have hlock := (awaits_holder h ha).1
  rintro ⟨a, w', hb, hn⟩
  by_cases hj : j = i
  · subst hj
    rcases hb with rfl | ⟨_, rfl⟩
    · cases hn with
      | act hn hw => exact hw j rfl ha
    · obtain ⟨t, r, ht, hop, hrb, hl, har⟩ := ha
      have he := slow_early h j t r ht hop hrb har
      cases hn with
      | act hn _ => cases hn with
        | answer _ t' ht' _ ho =>
          rw [ht] at ht'
          cases ht'
          rw [he] at ho
          cases ho
  · rcases hb with rfl | ⟨_, rfl⟩
    · cases hn with
      | act hn hw => cases hn with
        | step _ t ht hs =>
          have hl := ho j t ht hj
          generalize t.prog = p at hs hl
          cases p <;> try cases hl
          simp [Prog.step, hlock] at hs
    · cases hn with
      | act hn _ => cases hn with
        | answer _ t ht _ he =>
          rw [isLock_ended (ho j t ht hj)] at he
          cases he

/-- **C97.** One body that never arrives is enough: nobody is answered, for ever, although the
scheduler and the mutex are fair. -/
theorem C97_bodies_needed (s₀ : Server) {c : Call} {r : Request} (hop : c.op = .serve r)
    (hb : Server.readsBody r = true) (c' : Call) : ∃ run : Forever s₀,
    Schedules run ∧ Unlocks run ∧
    (∃ n, run.act n = some (.act (.invoke 0 c))) ∧ (∃ n, run.act n = some (.act (.invoke 1 c'))) ∧
    ∀ n i a, run.act n ≠ some (.act (.answer i a)) := by
  obtain ⟨w, h1, h2⟩ := C96_anyone (w := ⟨{ shared := ⟨false, s₀⟩, threads := fun _ => none },
    fun _ => false⟩) (i := 0) rfl rfl rfl hop hb
  have hr := leads_run (.start (s₀ := s₀)) h1
  have hnone : ∀ j, j ≠ 0 → w.world.threads j = none := by
    intro j hj
    cases h1 with
    | next h1 hn =>
      cases h1 with
      | next h1 hn1 =>
        cases h1
        cases hn1 with
        | act hn1 _ =>
          cases hn1 with
          | invoke _ _ _ =>
            cases hn with
            | act hn _ =>
              cases hn with
              | step k t hk hs =>
                dsimp only
                rw [put_other _ _ hj, put_other _ _ hj]
  have hn : Slow.Next w (.act (.invoke 1 c')) ⟨w.world.put 1
      { call := c', prog := c'.op.program, loc := c'.local }, w.arrived⟩ :=
    .act (.invoke 1 c' (hnone 1 (by decide))) nofun
  have h3 := (C96_held hr h2 (.next .refl hn) (by simp)).1
  obtain ⟨run, hs, hu, hm⟩ := stops_fair (.next hr hn) (awaits_stuck (.next hr hn) h3 (by
    intro j t ht hj
    rcases put_cases ht with ⟨_, rfl⟩ | ⟨_, ht⟩
    · exact program_isLock _
    · rw [hnone j hj] at ht; cases ht))
  refine ⟨run, hs, hu, (hm _).mp (by simp), (hm _).mp (by simp), fun n i a h => ?_⟩
  have := (hm _).mpr ⟨n, h⟩
  simp at this

/-- **C97.** And so is a scheduler that forgets the call that has the mutex. -/
theorem C97_scheduler_needed (s₀ : Server) (c : Call) : ∃ run : Forever s₀,
    Unlocks run ∧ Delivers run ∧ (∃ n, run.act n = some (.act (.invoke 0 c))) ∧
    ∀ n i a, run.act n ≠ some (.act (.answer i a)) := by
  obtain ⟨b, hb, _⟩ := program_eq c.op
  have h0 : Slow.Next ⟨{ shared := ⟨false, s₀⟩, threads := fun _ => none }, fun _ => false⟩
      (.arrive 0) _ := .arrive 0
  have h1 := Slow.Next.act (Next.invoke (w := ⟨⟨false, s₀⟩, fun _ => none⟩) 0 c rfl)
    (w := ⟨⟨⟨false, s₀⟩, fun _ => none⟩, fun j => j = 0 || false⟩) nofun
  have hs : c.op.program.step (⟨false, s₀⟩ : Shared Server) c.local =
      some (b.deferUnlock, ⟨true, s₀⟩, c.local) := by
    rw [hb]
    simp only [Prog.step, Bool.false_eq_true, if_false]
  have h2 := Slow.Next.act (w := ⟨World.put ⟨⟨false, s₀⟩, fun _ => none⟩ 0
      { call := c, prog := c.op.program, loc := c.local }, fun j => j = 0 || false⟩)
    (Next.step 0 _ (put_same _ _ _) hs) (by
      rintro i hi ⟨_, _, _, _, _, _, hf⟩
      cases hi
      cases hf)
  obtain ⟨run, g1, g2⟩ := stops (.next (.next (.next .start h0) h1) h2)
  refine ⟨run, fun i n h => ?_, fun i n c' r hc _ _ => ?_, (g2 _).mp (by simp), fun n i a h => ?_⟩
  · obtain ⟨m, hm, t, _, _, hl⟩ := h 3
    rw [(g1 m hm).1] at hl
    cases hl
  · have := (g2 _).mpr ⟨n, hc⟩
    simp only [List.mem_cons, Slow.Act.act.injEq, Act.invoke.injEq, reduceCtorEq, List.not_mem_nil,
      or_false, false_or] at this
    obtain ⟨rfl, rfl⟩ := this
    exact (g2 _).mp (by simp)
  · have := (g2 _).mpr ⟨n, h⟩
    simp at this

/-- Token requests without end, each of which reads its body, and each is answered. -/
example : ∃ run : Forever Demo.server, Schedules run ∧ Unlocks run ∧ Delivers run ∧
    Server.readsBody plainPost = true ∧
    ∀ i, ∃ n m a, n < m ∧
      run.act n = some (.act (.invoke i { Demo.c1 with op := .serve plainPost })) ∧
      run.act m = some (.act (.answer i a)) := by
  obtain ⟨run, hs, hu, hd, h⟩ := C97_possible Demo.server
    fun _ => { Demo.c1 with op := .serve plainPost }
  refine ⟨run, hs, hu, hd, by decide +kernel, fun i => ?_⟩
  obtain ⟨n, hn⟩ := h i
  obtain ⟨m, a, hm, ha⟩ := C97_answered hs hu hd hn
  exact ⟨n, m, a, hm, hn, ha⟩

/-- A body that does not arrive. -/
example : ∃ run : Forever Demo.s1, Schedules run ∧ Unlocks run ∧
    (∃ n, run.act n = some (.act (.invoke 1 (Demo.present Demo.a1.string [b!"foo"] 1)))) ∧
    ∀ n a, run.act n ≠ some (.act (.answer 1 a)) := by
  obtain ⟨run, hs, hu, _, h1, h2⟩ := C97_bodies_needed Demo.s1 (c := Demo.c1) (r := plainPost) rfl
    (by decide +kernel) (Demo.present Demo.a1.string [b!"foo"] 1)
  exact ⟨run, hs, hu, h1, fun n => h2 n 1⟩

end OAuth2

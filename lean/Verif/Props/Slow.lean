import Verif.Spec.Slow
import Verif.Props.Concurrent
import Verif.Props.Parsed

/-!
C96: clients that are slow to send their bodies.
-/

namespace OAuth2

open Spec

variable {s₀ : Server} {tr : List Slow.Act} {w w' : Slow.World}

/-! ### What is read -/

theorem formReads_false {r : Request} (h : r.formReads = false) {body : Option Str}
    (hb : body.isSome = r.body.isSome) (bodyErr : Bool) :
    ({ r with body := body, bodyErr := bodyErr } : Request).parseForm =
      ({ r.parseForm.1 with body := body, bodyErr := bodyErr }, r.parseForm.2) := by
  have hpp : r.postForm = none → (r.method = b!"POST" ∨ r.method = b!"PUT" ∨ r.method = b!"PATCH") →
      parsePostForm { r with body := body, bodyErr := bodyErr } = parsePostForm r := by
    intro h1 h2
    unfold Request.formReads at h
    have h2' : (r.method = b!"POST" || r.method = b!"PUT" || r.method = b!"PATCH") = true := by
      rcases h2 with h2 | h2 | h2 <;> simp [h2]
    rw [h1, h2'] at h
    unfold parsePostForm
    cases hr : r.body with
    | none =>
      rw [hr] at hb
      cases body with
      | none => rfl
      | some _ => cases hb
    | some data =>
      rw [hr] at hb h
      cases body with
      | none => cases hb
      | some data' =>
        have h3 : (parseMediaType (if r.header.get b!"Content-Type" = [] then
            b!"application/octet-stream" else r.header.get b!"Content-Type")).1 ≠
              b!"application/x-www-form-urlencoded" := by simpa using h
        dsimp only
        rw [if_neg h3, if_neg h3]
  unfold Request.parseForm
  dsimp only
  cases hp : r.postForm with
  | some pf => cases hf : r.form <;> simp
  | none =>
    by_cases hm : r.method = b!"POST" ∨ r.method = b!"PUT" ∨ r.method = b!"PATCH"
    · have := hpp hp hm
      rw [hp] at this
      cases hf : r.form <;> simp only [hm, if_true] <;> rw [hf] at this <;> simp [this]
    · cases hf : r.form <;> simp [hm]

/-- **C96.** A body that is not waited for is not used: the answer and the effect are the same
whatever it is. -/
theorem C96_unread {r r' : Request} (h : Server.readsBody r = false) {body : Option Str}
    {bodyErr : Bool} (hr : r' = { r with body := body, bodyErr := bodyErr })
    (hb : body.isSome = r.body.isSome) (s : Server) (coins : Str) (clock : Nat → Time) :
    step ⟨false, s⟩ { op := .serve r', coins := coins, clock := clock } =
    step ⟨false, s⟩ { op := .serve r, coins := coins, clock := clock } := by
  subst hr
  rw [step_serve rfl, step_serve rfl]
  show ((s.handle { r with body := body, bodyErr := bodyErr } _).1.answer, _) =
    ((s.handle r _).1.answer, _)
  have key : ∀ l, s.handle { r with body := body, bodyErr := bodyErr } l = s.handle r l := by
    intro l
    by_cases hf : r.formReads = false
    · have e := formReads_false hf hb bodyErr
      unfold Server.handle
      dsimp only
      have e1 : parseTokenRequest { r with body := body, bodyErr := bodyErr } =
          parseTokenRequest r := by
        unfold parseTokenRequest; rw [e]; rfl
      have e2 : parseAuthorizationRequest { r with body := body, bodyErr := bodyErr } =
          parseAuthorizationRequest r := by
        unfold parseAuthorizationRequest; rw [e]
      have e3 : parseIntrospectionRequest { r with body := body, bodyErr := bodyErr } =
          parseIntrospectionRequest r := by
        unfold parseIntrospectionRequest; rw [e]; rfl
      have e4 : parseRevocationRequest { r with body := body, bodyErr := bodyErr } =
          parseRevocationRequest r := by
        unfold parseRevocationRequest; rw [e]; rfl
      unfold Server.authorizeReply Server.tokenReply Server.introspectReply Server.revokeReply
      rw [e1, e2, e3, e4, e]
    · have hf : r.formReads = true := by simpa using hf
      unfold Server.readsBody at h
      rw [hf] at h
      unfold Server.handle
      dsimp only at h ⊢
      split
      · rename_i hp
        rw [if_pos hp] at h
        have hm : r.method ≠ b!"GET" ∧ r.method ≠ b!"POST" := by simpa using h
        unfold Server.authorizeReply parseAuthorizationRequest
        simp only [hm, ne_eq, not_false_eq_true, and_self, if_true]
      · rename_i hp
        rw [if_neg hp] at h
        have hm : Server.lastSegment r.path = b!"token" ∨
            Server.lastSegment r.path = b!"introspect" ∨ Server.lastSegment r.path = b!"revoke" →
            r.method ≠ b!"POST" := by
          intro h'
          rw [if_pos h'] at h
          simpa using h
        split
        · rename_i hp
          have hm := hm (.inl hp)
          unfold Server.tokenReply parseTokenRequest
          simp only [hm, ne_eq, not_false_eq_true, if_true]
        · split
          · rename_i hp
            have hm := hm (.inr (.inl hp))
            unfold Server.introspectReply parseIntrospectionRequest
            simp only [hm, ne_eq, not_false_eq_true, if_true]
          · split
            · rename_i hp
              have hm := hm (.inr (.inr hp))
              unfold Server.revokeReply parseRevocationRequest
              simp only [hm, ne_eq, not_false_eq_true, if_true]
            · rfl
  rw [key]
  rfl

/-- **C96.** A request whose form the program has parsed itself is not waited for. (What becomes of
its answer is said by C95.) -/
theorem C96_parsed (r : Request) : Server.readsBody r.parseForm.1 = false := by
  obtain ⟨posted, all, hk⟩ := parseForm_knows r
  have : r.parseForm.1.formReads = false := by
    unfold Request.formReads
    rw [hk.posted]
    rfl
  unfold Server.readsBody
  rw [this]
  simp

/-! ### Slow runs are runs -/

theorem slow_plain (h : Slow.Run s₀ tr w) : Run s₀ (Slow.plain tr) w.world := by
  induction h with
  | start => exact .start
  | next _ hn ih =>
    cases hn with
    | act hn _ => exact .next ih hn
    | arrive i => exact ih

/-- **C96.** However slowly bodies arrive, what is answered looks as if the calls had been made one
after the other (C47), and everything that is proved about histories holds. -/
theorem C96_linearizable (h : Slow.Run s₀ tr w) :
    ∃ order s, Linearizes s₀ (Slow.plain tr) order s ∧
      (w.world.shared.locked = false → w.world.shared = s) :=
  C47_linearizable (slow_plain h)

theorem ended_step {σ α : Type} {p : Prog σ α} {s : Shared σ} {l : Local} {x}
    (h : p.step s l = some x) : p.ended = none := by
  cases p <;> first | rfl | cases h

theorem isLock_ended {σ α : Type} {p : Prog σ α} (h : p.isLock = true) : p.ended = none := by
  cases p <;> first | rfl | cases h

/-- A call whose body is read and has not arrived has at most taken the mutex. -/
def Early (w : Slow.World) : Prop :=
  ∀ i t r, w.world.threads i = some t → t.call.op = .serve r → Server.readsBody r = true →
    w.arrived i = false → t.prog.ended = none

theorem program_isLock (o : Op) : o.program.isLock = true := by
  obtain ⟨b, hb, _⟩ := program_eq o
  rw [hb]
  rfl

theorem slow_early (h : Slow.Run s₀ tr w) : Early w := by
  induction h with
  | start => intro i t r ht; cases ht
  | @next tr w w' act hr hn ih =>
    cases hn with
    | arrive i =>
      intro j t r ht hop hb ha
      have : w.arrived j = false := by
        simp only [Bool.or_eq_false_iff] at ha
        exact ha.2
      exact ih j t r ht hop hb this
    | act hn hw =>
      intro j t r ht hop hb ha
      dsimp only at ht ha
      cases hn with
      | invoke i c hi =>
        rcases put_cases ht with ⟨rfl, rfl⟩ | ⟨_, ht⟩
        · exact isLock_ended (program_isLock _)
        · exact ih j t r ht hop hb ha
      | @step i t' hi p s l hs =>
        rcases put_cases ht with ⟨rfl, rfl⟩ | ⟨_, ht⟩
        · cases hl : t'.prog.isLock with
          | false => exact absurd ⟨t', r, hi, hop, hb, hl, ha⟩ (hw j rfl)
          | true =>
            obtain ⟨order, sh, inv⟩ := run_invariant (slow_plain hr)
            -- taking the mutex leads inside
            have hx : t'.prog = t'.call.op.program := by
              obtain ⟨k, hk⟩ := inv.holder
              have other : Waiting order j t' ∨ Finished order j t' → t'.prog = t'.call.op.program := by
                rintro (h | h)
                · exact h.prog
                · obtain ⟨o, ho, _⟩ := h.ended
                  rw [isLock_ended hl] at ho
                  cases ho
              cases k with
              | none => exact other (hk.2 j t' hi)
              | some k =>
                by_cases hjk : j = k
                · subst hjk
                  obtain ⟨⟨t'', h1, hin⟩, _⟩ := hk
                  rw [hi] at h1
                  cases h1
                  obtain ⟨p', hp', hpl⟩ := hin.prog
                  rw [hp'] at hl
                  cases p' <;> first | exact hpl.elim | cases hl
                · exact other (hk.2 j t' hi hjk)
            obtain ⟨b, hb', hpl⟩ := program_eq t'.call.op
            rw [hx, hb'] at hs
            simp only [Prog.step] at hs
            split at hs
            · cases hs
            · injection hs with hs
              have : b.deferUnlock = p := (Prod.mk.inj hs).1
              subst this
              obtain ⟨x, hx'⟩ := inside_step hpl w.world.shared t'.loc
              exact ended_step hx'
        · exact ih j t r ht hop hb ha
      | @answer i t' hi hans o ho =>
        rcases put_cases ht with ⟨rfl, rfl⟩ | ⟨_, ht⟩
        · exact ih j t' r hi hop hb ha
        · exact ih j t r ht hop hb ha

/-- The call that waits for its body has the mutex, and the others have not begun or are over. -/
theorem awaits_holder (h : Slow.Run s₀ tr w) {i : Nat} (ha : Slow.Awaits w i) :
    w.world.shared.locked = true ∧ ∀ j t, w.world.threads j = some t → j ≠ i →
      t.prog.isLock = true ∨ t.prog.ended.isSome = true := by
  obtain ⟨t, r, ht, hop, hb, hl, har⟩ := ha
  have he := slow_early h i t r ht hop hb har
  obtain ⟨order, sh, inv⟩ := run_invariant (slow_plain h)
  obtain ⟨k, hk⟩ := inv.holder
  have other : ∀ {j t}, Waiting order j t ∨ Finished order j t →
      t.prog.isLock = true ∨ t.prog.ended.isSome = true := by
    rintro j t (h | h)
    · left; rw [h.prog]; exact program_isLock _
    · right
      obtain ⟨o, ho, _⟩ := h.ended
      rw [ho]; rfl
  have no : ¬ (Waiting order i t ∨ Finished order i t) := by
    intro hx
    rcases other hx with h | h
    · rw [hl] at h; cases h
    · rw [he] at h; cases h
  cases k with
  | none => exact absurd (hk.2 i t ht) no
  | some k =>
    have hik : i = k := Decidable.byContradiction fun hne => no (hk.2 i t ht hne)
    subst hik
    obtain ⟨⟨t', ht', hin⟩, hrest⟩ := hk
    exact ⟨hin.locked, fun j t hj hne => other (hrest j t hj hne)⟩

/-! ### One slow client holds up everybody -/

/-- **C96.** While a call waits for the body of its request nobody is served: whatever calls are made
and whatever bodies arrive, but that one, the server does not change, and the only calls that are
answered are those that were over before. This concerns every endpoint, and `Authorize` too. -/
theorem C96_held (h : Slow.Run s₀ tr w) {i : Nat} (ha : Slow.Awaits w i) {acts : List Slow.Act}
    (hl : Slow.Leads w acts w') (hi : .arrive i ∉ acts) :
    Slow.Awaits w' i ∧ w'.world.shared = w.world.shared ∧
    ∀ j a, .act (.answer j a) ∈ acts →
      ∃ t, w.world.threads j = some t ∧ t.prog.ended.isSome = true := by
  obtain ⟨hlock, hothers⟩ := awaits_holder h ha
  obtain ⟨t, r, ht, hop, hb, hnl, har⟩ := ha
  have he := slow_early h i t r ht hop hb har
  suffices H : (w'.world.threads i = some t ∧ w'.arrived i = false ∧
      w'.world.shared = w.world.shared ∧
      ∀ j t', w'.world.threads j = some t' → j ≠ i → t'.prog.isLock = true ∨
        (t'.prog.ended.isSome = true ∧
          ∃ t, w.world.threads j = some t ∧ t.prog.ended.isSome = true)) ∧
      ∀ j a, .act (.answer j a) ∈ acts →
        ∃ t, w.world.threads j = some t ∧ t.prog.ended.isSome = true by
    obtain ⟨⟨h1, h2, h3, h4⟩, h5⟩ := H
    exact ⟨⟨t, r, h1, hop, hb, hnl, h2⟩, h3, h5⟩
  induction hl with
  | refl =>
    refine ⟨⟨ht, har, rfl, fun j t' hj hne => ?_⟩, nofun⟩
    rcases hothers j t' hj hne with h | h
    · exact .inl h
    · exact .inr ⟨h, t', hj, h⟩
  | @next acts w1 w2 act hl hn ih =>
    obtain ⟨⟨h1, h2, h3, h4⟩, h5⟩ := ih fun hm => hi (List.mem_cons_of_mem _ hm)
    cases hn with
    | arrive k =>
      refine ⟨⟨h1, ?_, h3, h4⟩, fun j a hm => h5 j a (by simpa using hm)⟩
      have : i ≠ k := fun e => hi (by rw [e]; exact List.mem_cons_self)
      simp [this, h2]
    | act hn hw =>
      cases hn with
      | invoke k c hk =>
        have hki : i ≠ k := fun e => by rw [← e, h1] at hk; cases hk
        refine ⟨⟨?_, h2, h3, fun j t' hj hne => ?_⟩, fun j a hm => h5 j a (by simpa using hm)⟩
        · dsimp only; rw [put_other _ _ hki]; exact h1
        · rcases put_cases hj with ⟨rfl, rfl⟩ | ⟨_, hj⟩
          · exact .inl (program_isLock _)
          · exact h4 j t' hj hne
      | @step k t' hk p s l hs =>
        exfalso
        by_cases hki : k = i
        · subst hki
          exact hw k rfl ⟨t, r, h1, hop, hb, hnl, h2⟩
        · rcases h4 k t' hk hki with h | ⟨h, _⟩
          · have hlk : w1.world.shared.locked = true := by rw [h3]; exact hlock
            generalize t'.prog = q at hs h
            cases q <;> try cases h
            simp only [Prog.step, hlk, if_true] at hs
            cases hs
          · rw [ended_step hs] at h
            cases h
      | @answer k t' hk hans o ho =>
        have hki : k ≠ i := fun e => by
          rw [e, h1] at hk
          cases hk
          rw [he] at ho
          cases ho
        rcases h4 k t' hk hki with h | ⟨h, h6⟩
        · rw [isLock_ended h] at ho; cases ho
        refine ⟨⟨?_, h2, h3, fun j t'' hj hne => ?_⟩, fun j a hm => ?_⟩
        · dsimp only; rw [put_other _ _ (Ne.symm hki)]; exact h1
        · rcases put_cases hj with ⟨rfl, rfl⟩ | ⟨_, hj⟩
          · exact .inr ⟨h, h6⟩
          · exact h4 j t'' hj hne
        · rcases List.mem_cons.mp hm with hm | hm
          · cases hm
            exact h6
          · exact h5 j a hm

/-- **C96.** Anybody can bring this about: whenever the mutex is free, a request to one of the
endpoints that announces a form and does not send it is enough. It needs no credentials. -/
theorem C96_anyone {i : Nat} (hfree : w.world.shared.locked = false)
    (hnew : w.world.threads i = none) (harr : w.arrived i = false) {c : Call} {r : Request}
    (hop : c.op = .serve r) (hb : Server.readsBody r = true) :
    ∃ w', Slow.Leads w [.act (.step i), .act (.invoke i c)] w' ∧ Slow.Awaits w' i := by
  obtain ⟨b, hb', hpl⟩ := program_eq c.op
  have h1 : Slow.Next w (.act (.invoke i c))
      ⟨w.world.put i { call := c, prog := c.op.program, loc := c.local }, w.arrived⟩ :=
    .act (.invoke i c hnew) nofun
  have hs : c.op.program.step w.world.shared c.local =
      some (b.deferUnlock, { w.world.shared with locked := true }, c.local) := by
    rw [hb']
    simp only [Prog.step, hfree, Bool.false_eq_true, if_false]
  have hna : ¬ Slow.Awaits
      ⟨w.world.put i { call := c, prog := c.op.program, loc := c.local }, w.arrived⟩ i := by
    rintro ⟨t, r', ht, _, _, hl, _⟩
    dsimp only at ht
    rw [put_same] at ht
    cases ht
    rw [program_isLock] at hl
    cases hl
  refine ⟨_, .next (.next .refl h1) (.act (.step i _ (put_same _ _ _) hs)
    (fun j hj => by cases hj; exact hna)), ?_⟩
  refine ⟨_, r, put_same _ _ _, hop, hb, ?_, harr⟩
  obtain ⟨x, hx⟩ := inside_step hpl w.world.shared c.local
  cases b with
  | lock k => exact hpl.elim
  | _ => rfl

/-! ### Nothing else does -/

/-- **C96.** Nothing else holds up the server: while a call is not answered the run can go on without
new calls and without the arrival of bodies, unless the call that has the mutex waits for its
body. -/
theorem C96_progress (h : Slow.Run s₀ tr w) (hd : ¬ w.world.Done) :
    (∃ act w', act.continues ∧ Slow.Next w (.act act) w') ∨ ∃ i, Slow.Awaits w i := by
  obtain ⟨act, w', hc, hn⟩ := C47_progress (slow_plain h) hd
  by_cases ha : ∃ i, Slow.Awaits w i
  · exact .inr ha
  · exact .inl ⟨act, _, hc, .act hn fun i _ hi => ha ⟨i, hi⟩⟩

theorem leads_trans {w w₁ w₂ : Slow.World} {a b : List Slow.Act} (h : Slow.Leads w a w₁)
    (h' : Slow.Leads w₁ b w₂) : Slow.Leads w (b ++ a) w₂ := by
  induction h' with
  | refl => exact h
  | next _ hn ih => exact .next ih hn

theorem leads_run {acts : List Slow.Act} (h : Slow.Run s₀ tr w) (hl : Slow.Leads w acts w') :
    Slow.Run s₀ (acts ++ tr) w' := by
  induction hl with
  | refl => exact h
  | next _ hn ih => exact .next ih hn

/-- No call turns up without being made. -/
theorem continues_calls {w w' : World} {act : Spec.Act} (hc : act.continues) (hn : Next w act w')
    {i : Nat} {t' : Thread} (h : w'.threads i = some t') :
    ∃ t, w.threads i = some t ∧ t.call = t'.call := by
  cases hn with
  | invoke => exact hc.elim
  | step k t hk hs =>
    rcases put_cases h with ⟨rfl, rfl⟩ | ⟨_, h⟩
    · exact ⟨t, hk, rfl⟩
    · exact ⟨t', h, rfl⟩
  | answer k t hk =>
    rcases put_cases h with ⟨rfl, rfl⟩ | ⟨_, h⟩
    · exact ⟨t, hk, rfl⟩
    · exact ⟨t', h, rfl⟩

/-- **C96.** Once all bodies that are read have arrived, every call is answered, without any more
from outside. -/
theorem C96_completes (h : Slow.Run s₀ tr w) (hcomp : w.Complete) :
    ∃ acts w', Slow.Leads w acts w' ∧ (∀ x ∈ acts, ∃ a : Spec.Act, x = .act a ∧ a.continues) ∧
      w'.world.Done := by
  have ha := run_acc (slow_plain h)
  obtain ⟨world, arrived⟩ := w
  dsimp only at ha
  induction ha generalizing tr with
  | intro world _ ih =>
    by_cases hd : world.Done
    · exact ⟨[], _, .refl, nofun, hd⟩
    · have hno : ∀ i, ¬ Slow.Awaits ⟨world, arrived⟩ i := by
        rintro i ⟨t, r, ht, hop, hb, _, har⟩
        rw [hcomp i t r ht hop hb] at har
        cases har
      rcases C96_progress h hd with ⟨act, w', hc, hn⟩ | ⟨i, hi⟩
      · cases hn with
        | act hn hw =>
          rename_i world'
          have hcomp' : Slow.World.Complete ⟨world', arrived⟩ := by
            intro i t' r ht hop hb
            obtain ⟨t, ht0, hcall⟩ := continues_calls hc hn ht
            exact hcomp i t r ht0 (by rw [hcall]; exact hop) hb
          have hn' : Slow.Next ⟨world, arrived⟩ (.act act) ⟨world', arrived⟩ := .act hn hw
          obtain ⟨acts, w'', h1, h2, h3⟩ := ih world' ⟨act, hc, hn⟩ (.next h hn') hcomp'
          refine ⟨acts ++ [.act act], w'', leads_trans (.next .refl hn') h1, ?_, h3⟩
          intro x hx
          rcases List.mem_append.mp hx with hx | hx
          · exact h2 x hx
          · rw [List.mem_singleton.mp hx]
            exact ⟨act, rfl, hc⟩
      · exact absurd hi (hno i)

/-- **C96.** In particular a server whose program parses all forms itself before it calls the server
is never held up: no call ever waits for a body. -/
theorem C96_workaround (h : Slow.Run s₀ tr w)
    (hparsed : ∀ i c r, .act (.invoke i c) ∈ tr → c.op = .serve r →
      ∃ r' : Request, r = r'.parseForm.1) :
    (∀ i, ¬ Slow.Awaits w i) ∧ w.Complete := by
  have key : ∀ i t r, w.world.threads i = some t → t.call.op = .serve r →
      Server.readsBody r = false := by
    intro i t r ht hop
    obtain ⟨_, _, inv⟩ := run_invariant (slow_plain h)
    have hm := inv.threads i t ht
    have hplain : ∀ {tr : List Slow.Act} {a : Spec.Act}, a ∈ Slow.plain tr → .act a ∈ tr := by
      intro tr a ha
      induction tr with
      | nil => cases ha
      | cons x tr ih =>
        cases x with
        | act b =>
          rcases List.mem_cons.mp ha with rfl | ha
          · exact List.mem_cons_self
          · exact List.mem_cons_of_mem _ (ih ha)
        | arrive k => exact List.mem_cons_of_mem _ (ih ha)
    obtain ⟨r', rfl⟩ := hparsed i t.call r (hplain hm) hop
    exact C96_parsed r'
  refine ⟨?_, fun i t r ht hop hb => ?_⟩
  · rintro i ⟨t, r, ht, hop, hb, _⟩
    rw [key i t r ht hop] at hb
    cases hb
  · rw [key i t r ht hop] at hb
    cases hb

/-- **C96.** It cannot be avoided by answering early: what is to be answered to a form, which is
otherwise in order, is not known before its body has arrived. -/
theorem C96_must {r : Request} {body : Str → Request}
    (hbody : ∀ data, body data = { r with body := some data, bodyErr := false })
    (hfresh : r.postForm = none ∧ r.form = none) (hm : r.method = b!"POST")
    (hct : parseMediaType (r.header.get b!"Content-Type") =
      (b!"application/x-www-form-urlencoded", false))
    (hq : (parseQuery r.rawQuery).2 = false) :
    ∃ data data', parseTokenRequest (body data) ≠ parseTokenRequest (body data') ∧
      parseAuthorizationRequest (body data) ≠ parseAuthorizationRequest (body data') ∧
      parseIntrospectionRequest (body data) ≠ parseIntrospectionRequest (body data') ∧
      parseRevocationRequest (body data) ≠ parseRevocationRequest (body data') := by
  have good : FormPost (body []) [] := by
    rw [hbody]
    exact ⟨hm, hfresh, hct, ⟨[], rfl, rfl, Nat.zero_le _, by decide +kernel⟩, hq⟩
  have hne : r.header.get b!"Content-Type" ≠ [] := by
    intro h
    rw [h] at hct
    exact absurd hct (by decide +kernel)
  have bad : (body b!"%").parseForm.2 = true := by
    have : parsePostForm (body b!"%") = (some [], true) := by
      rw [hbody]
      unfold parsePostForm
      simp only [hne, if_false, hct, Bool.false_and, Bool.false_eq_true]
      decide +kernel
    have h1 : (body b!"%").postForm = none ∧ (body b!"%").form = none ∧
        (body b!"%").method = b!"POST" := by
      rw [hbody]; exact ⟨hfresh.1, hfresh.2, hm⟩
    unfold Request.parseForm
    simp only [h1, true_or, if_true, this, Bool.true_or]
  have hgood := parseForm_formPost good
  have hmb : ∀ data, (body data).method = b!"POST" := fun data => by rw [hbody]; exact hm
  refine ⟨b!"%", [], ?_, ?_, ?_, ?_⟩
  · have h1 : parseTokenRequest (body b!"%") =
        .error (invalidRequest b!"malformed query parameters or body form") := by
      unfold parseTokenRequest
      simp only [hmb, bad, ne_eq, not_true_eq_false, if_false, if_true]
    have h2 : parseTokenRequest (body []) = .error (invalidRequest b!"missing grant type") := by
      unfold parseTokenRequest
      simp only [hmb, hgood, ne_eq, not_true_eq_false, if_false, Bool.false_eq_true]
      rfl
    rw [h1, h2]
    decide +kernel
  · have h1 : parseAuthorizationRequest (body b!"%") =
        .error (invalidRequest b!"malformed query parameters or form data") := by
      unfold parseAuthorizationRequest
      simp only [hmb, bad, if_true]
      rfl
    rw [h1]
    unfold parseAuthorizationRequest
    simp only [hmb, hgood, Bool.false_eq_true, if_false]
    intro h
    repeat' split at h
    all_goals first | cases h | (revert h; decide +kernel)
  · have h1 : parseIntrospectionRequest (body b!"%") =
        .error (invalidRequest b!"malformed query parameters or body form") := by
      unfold parseIntrospectionRequest
      simp only [hmb, bad, ne_eq, not_true_eq_false, if_false, if_true]
    have h2 : parseIntrospectionRequest (body []) = .error (invalidRequest b!"missing token") := by
      unfold parseIntrospectionRequest
      simp only [hmb, hgood, ne_eq, not_true_eq_false, if_false, Bool.false_eq_true]
      rfl
    rw [h1, h2]
    decide +kernel
  · have h1 : parseRevocationRequest (body b!"%") =
        .error (invalidRequest b!"malformed query parameters or body form") := by
      unfold parseRevocationRequest
      simp only [hmb, bad, ne_eq, not_true_eq_false, if_false, if_true]
    have h2 : parseRevocationRequest (body []) = .error (invalidRequest b!"missing token") := by
      unfold parseRevocationRequest
      simp only [hmb, hgood, ne_eq, not_true_eq_false, if_false, Bool.false_eq_true]
      rfl
    rw [h1, h2]
    decide +kernel

/-! ### The hypotheses can be met -/

/-- A call at the token endpoint whose body is read: the first one of `Verif.Lemmas.Demo`. -/
example : Demo.c1.op = .serve plainPost ∧ Server.readsBody plainPost = true :=
  ⟨rfl, by decide +kernel⟩

/-- Requests whose bodies are not read: the wrong method, no form, no endpoint, and a form that is
known. -/
example : Server.readsBody { plainPost with method := b!"PUT" } = false ∧
    Server.readsBody { plainPost with header := [(b!"Content-Type", [b!"application/json"])] } = false ∧
    Server.readsBody { plainPost with path := b!"/tokens" } = false ∧
    Server.readsBody elsewhere = false := by decide +kernel

/-- A form of which the body decides what is answered. -/
example : ∃ data data', parseTokenRequest { plainPost with body := some data } ≠
    parseTokenRequest { plainPost with body := some data' } := by
  obtain ⟨data, data', h, _⟩ := C96_must (r := plainPost)
    (body := fun data => { plainPost with body := some data }) (fun _ => rfl) plainPost_form.fresh
    plainPost_form.method plainPost_form.contentType plainPost_form.query
  exact ⟨data, data', h⟩

/-- One client does not send its body, and nobody is answered any more: not even somebody with an
access token in force who wants to use it. -/
example : ∃ tr w t, Slow.Run Demo.s1 tr w ∧ Slow.Awaits w 0 ∧
    w.world.threads 1 = some t ∧ t.call = Demo.present Demo.a1.string [b!"foo"] 1 ∧
    (step ⟨false, Demo.s1⟩ t.call).1 = .admitted ∧
    ∀ acts w', Slow.Leads w acts w' → .arrive 0 ∉ acts → ∀ a, .act (.answer 1 a) ∉ acts := by
  obtain ⟨w, h1, h2⟩ := C96_anyone (w := ⟨{ shared := ⟨false, Demo.s1⟩, threads := fun _ => none },
    fun _ => false⟩) (i := 0) rfl rfl rfl (c := Demo.c1) (r := plainPost) rfl (by decide +kernel)
  have hr := leads_run (.start (s₀ := Demo.s1)) h1
  have hnone : w.world.threads 1 = none := by
    cases h1 with
    | next h1 hn =>
      cases h1 with
      | next h1 hn1 =>
        cases h1
        cases hn1 with
        | act hn1 _ =>
          cases hn1 with
          | invoke _ _ _ =>
            cases hn with
            | act hn _ =>
              cases hn with
              | step k t hk hs =>
                dsimp only
                rw [put_other _ _ (by decide), put_other _ _ (by decide)]
  generalize hc : Demo.present Demo.a1.string [b!"foo"] 1 = c
  have hn : Slow.Next w (.act (.invoke 1 c)) ⟨w.world.put 1
      { call := c, prog := c.op.program, loc := c.local }, w.arrived⟩ :=
    .act (.invoke 1 c hnone) nofun
  have h3 := (C96_held hr h2 (.next .refl hn) (by simp)).1
  refine ⟨_, _, _, .next hr hn, h3, put_same _ _ _, rfl, ?_, fun acts w' hl hi a ha => ?_⟩
  · dsimp only
    rw [← hc]
    decide +kernel
  · obtain ⟨t, h4, h5⟩ := (C96_held (.next hr hn) h3 hl hi).2.2 1 a ha
    dsimp only at h4
    rw [put_same] at h4
    cases h4
    rw [isLock_ended (program_isLock _)] at h5
    cases h5

/-- A run of calls whose forms were parsed beforehand. -/
example : ∃ tr w, Slow.Run Demo.server tr w ∧ ¬ w.world.Done ∧
    ∀ i c r, .act (.invoke i c) ∈ tr → c.op = .serve r → ∃ r' : Request, r = r'.parseForm.1 := by
  refine ⟨_, _, .next .start (.act (.invoke 0 { Demo.c1 with op := .serve plainPost.parseForm.1 } rfl)
    nofun), fun h => absurd (h 0 _ (put_same _ _ _)) (by decide), ?_⟩
  intro i c r hm hop
  simp only [List.mem_singleton, Slow.Act.act.injEq, Act.invoke.injEq] at hm
  obtain ⟨rfl, rfl⟩ := hm
  cases hop
  exact ⟨plainPost, rfl⟩

end OAuth2

import Verif.Spec.Concurrent
import Verif.Lemmas.Exec

namespace OAuth2

open Spec

/-! ### Programs without lock operations -/

/-- The program neither locks nor unlocks. -/
def Prog.Plain {σ α : Type} : Prog σ α → Prop
  | .ret _ => True
  | .panic => True
  | .lock _ => False
  | .unlock _ => False
  | .get k => ∀ s, (k s).Plain
  | .modify _ k => k.Plain
  | .now k => ∀ t, (k t).Plain
  | .rand _ k => ∀ b, (k b).Plain
  | .resp _ k => k.Plain

section
variable {σ α β : Type}

theorem plain_bind {p : Prog σ α} {f : α → Prog σ β} (hp : p.Plain) (hf : ∀ a, (f a).Plain) :
    (p >>= f).Plain := by
  show (Prog.bind p f).Plain
  induction p with
  | ret a => exact hf a
  | panic => trivial
  | lock k _ => exact hp.elim
  | unlock k _ => exact hp.elim
  | get k ih => exact fun s => ih s (hp s)
  | modify g k ih => exact ih hp
  | now k ih => exact fun t => ih t (hp t)
  | rand n k ih => exact fun b => ih b (hp b)
  | resp g k ih => exact ih hp

theorem plain_pure (a : α) : (pure a : Prog σ α).Plain := trivial
theorem plain_getS : (Prog.getS : Prog σ σ).Plain := fun _ => trivial
theorem plain_modifyS (f : σ → σ) : (Prog.modifyS f).Plain := trivial
theorem plain_timeNow : (Prog.timeNow : Prog σ Time).Plain := fun _ => trivial
theorem plain_readFull (n : Nat) : (Prog.readFull n : Prog σ (Option Str)).Plain := fun _ => trivial
theorem plain_respond (f : Recorder → Recorder) : (Prog.respond f : Prog σ Unit).Plain := trivial
theorem plain_panic : (Prog.panic : Prog σ α).Plain := trivial

theorem plain_writeHeader (code : Int) : (Prog.writeHeader code : Prog σ Unit).Plain := by
  unfold Prog.writeHeader
  split <;> trivial

end

/-- Goes through a program. -/
macro "plain" : tactic => `(tactic| repeat' first
  | exact plain_pure _ | exact plain_getS | exact plain_modifyS _ | exact plain_timeNow
  | exact plain_readFull _ | exact plain_respond _ | exact plain_panic | exact plain_writeHeader _
  | assumption
  | apply plain_bind | intro _ | split)

theorem plain_write {σ : Type} (json : Str) (status : Int) :
    (write json status : Prog σ Bool).Plain := by unfold write; plain
theorem plain_writeUnencodable {σ : Type} (status : Int) :
    (writeUnencodable status : Prog σ Bool).Plain := by unfold writeUnencodable; plain


theorem plain_writeRedirect {σ : Type} (uri : Str) (params : GoMap Str) (f : Bool) :
    (writeRedirect uri params f : Prog σ Bool).Plain := by unfold writeRedirect; plain

theorem plain_writeError {σ : Type} (e : GoErr) : (writeError e : Prog σ Bool).Plain := by
  unfold writeError
  refine plain_bind (plain_respond _) fun _ => ?_
  split
  · exact plain_writeRedirect _ _ _
  · exact plain_write _ _

theorem plain_writeBearerError {σ : Type} (e : GoErr) :
    (writeBearerError e : Prog σ Bool).Plain := by unfold writeBearerError; plain

theorem plain_mustGenerate {σ : Type} (c : ServerConfig) :
    (c.mustGenerate : Prog σ HS256Token).Plain := by
  unfold ServerConfig.mustGenerate HS256Token.mustGenerate HS256Token.generate; plain

namespace Server

theorem plain_ignore {p : Handler Bool} (h : p.Plain) : (ignore p).Plain := by unfold ignore; plain

theorem plain_fail (e : Error) : (fail e).Plain := plain_ignore (plain_writeError _)

theorem plain_failBearer (e : Error) : (failBearer e).Plain :=
  plain_ignore (plain_writeBearerError _)

theorem plain_token (t : TokenResponse) : (ignore (writeTokenResponse t)).Plain := by
  apply plain_ignore
  unfold writeTokenResponse
  split
  · exact plain_writeRedirect _ _ _
  · exact plain_write _ _

theorem plain_code (c : CodeResponse) : (ignore (writeCodeResponse c)).Plain :=
  plain_ignore (plain_writeRedirect _ _ _)

theorem plain_introspection (i : IntrospectionResponse) :
    (ignore (writeIntrospectionResponse i)).Plain := by
  apply plain_ignore
  unfold writeIntrospectionResponse
  split
  · exact plain_pure _
  · split
    · exact plain_write _ _
    · exact plain_writeUnencodable _

theorem plain_issueTokens (b : Bool) (sc : Scope) (c u x : Str) : (issueTokens b sc c u x).Plain := by
  unfold issueTokens
  repeat' first
    | exact plain_mustGenerate _ | exact plain_pure _ | exact plain_getS | exact plain_modifyS _
    | exact plain_timeNow | apply plain_bind | intro _ | split

theorem plain_revokeToken (c : Str) (a : Bool) (sig : Str) : (revokeToken c a sig).Plain := by
  unfold revokeToken; plain

theorem plain_ite {c : Prop} [Decidable c] {p q : Handler Unit} (hp : p.Plain) (hq : q.Plain) :
    (if c then p else q).Plain := by split <;> assumption

/-- Goes through a handler. -/
macro "plain'" : tactic => `(tactic| repeat' first
  | exact plain_fail _ | exact plain_failBearer _ | exact plain_token _ | exact plain_code _
  | exact plain_introspection _ | exact plain_issueTokens _ _ _ _ _ | exact plain_mustGenerate _
  | exact plain_revokeToken _ _ _
  | exact plain_pure _ | exact plain_getS | exact plain_modifyS _ | exact plain_timeNow
  | exact plain_readFull _ | exact plain_respond _ | exact plain_panic | exact plain_writeHeader _
  | apply plain_bind | intro _ | apply plain_ite | split)

theorem plain_authorization (r : Request) : (authorizationEndpoint r).Plain := by
  unfold authorizationEndpoint
  plain'

theorem plain_tokenEndpoint (r : Request) : (tokenEndpoint r).Plain := by
  unfold tokenEndpoint
  plain'

theorem plain_introspectionEndpoint (r : Request) : (introspectionEndpoint r).Plain := by
  unfold introspectionEndpoint
  plain'

theorem plain_revocation (r : Request) : (revocationEndpoint r).Plain := by
  unfold revocationEndpoint
  plain'

theorem plain_serveLocked (r : Request) : (serveLocked r).Plain := by
  unfold serveLocked
  simp only
  split
  · exact plain_authorization r
  split
  · exact plain_tokenEndpoint r
  split
  · exact plain_introspectionEndpoint r
  split
  · exact plain_revocation r
  · unfold notFound
    plain'

theorem plain_authorizeLocked (r : Request) (required : Scope) :
    (authorizeLocked r required).Plain := by
  unfold authorizeLocked; plain'

end Server

/-! ### One step at a time -/

theorem exec_step {σ α : Type} {p p' : Prog σ α} {s s' : Shared σ} {l l' : Local}
    (h : p.step s l = some (p', s', l')) : exec p s l = exec p' s' l' := by
  cases p with
  | ret a => cases h
  | panic => cases h
  | lock k =>
    simp only [Prog.step] at h
    split at h
    · cases h
    · rename_i hl
      cases h
      simp only [exec, hl]
      rfl
  | unlock k => cases h; rfl
  | get k => cases h; rfl
  | modify f k => cases h; rfl
  | now k => cases h; rfl
  | rand n k =>
    simp only [Prog.step] at h
    split at h
    · rename_i hl
      cases h
      simp only [exec, if_pos hl]
    · rename_i hl
      cases h
      simp only [exec, if_neg hl]
  | resp f k => cases h; rfl

theorem exec_ended {σ α : Type} {p : Prog σ α} {o : Outcome α} (h : p.ended = some o)
    (s : Shared σ) (l : Local) : exec p s l = (o, s, l) := by
  cases p <;> cases h <;> rfl

theorem ended_no_step {σ α : Type} {p : Prog σ α} {o : Outcome α} (h : p.ended = some o)
    (s : Shared σ) (l : Local) : p.step s l = none := by
  cases p <;> cases h <;> rfl

/-- A step of a program that holds the mutex until its end. -/
theorem step_inside {σ α : Type} {p : Prog σ α} (hp : p.Plain) {q : Prog σ α} {s s' : Shared σ}
    {l l' : Local} (h : p.deferUnlock.step s l = some (q, s', l')) :
    (∃ o, q.ended = some o ∧ s'.locked = false) ∨
    (∃ p' : Prog σ α, q = p'.deferUnlock ∧ p'.Plain ∧ s'.locked = s.locked) := by
  cases p with
  | ret a => cases h; exact .inl ⟨_, rfl, rfl⟩
  | panic => cases h; exact .inl ⟨_, rfl, rfl⟩
  | lock k => exact hp.elim
  | unlock k => exact hp.elim
  | get k => cases h; exact .inr ⟨_, rfl, hp _, rfl⟩
  | modify f k => cases h; exact .inr ⟨_, rfl, hp, rfl⟩
  | now k => cases h; exact .inr ⟨_, rfl, hp _, rfl⟩
  | rand n k =>
    simp only [Prog.deferUnlock, Prog.step] at h
    split at h <;> cases h <;> exact .inr ⟨_, rfl, hp _, rfl⟩
  | resp f k => cases h; exact .inr ⟨_, rfl, hp, rfl⟩

/-- A program that holds the mutex can take a step. -/
theorem inside_step {σ α : Type} {p : Prog σ α} (hp : p.Plain) (s : Shared σ) (l : Local) :
    ∃ x, p.deferUnlock.step s l = some x := by
  cases p with
  | ret a => exact ⟨_, rfl⟩
  | panic => exact ⟨_, rfl⟩
  | lock k => exact hp.elim
  | unlock k => exact hp.elim
  | get k => exact ⟨_, rfl⟩
  | modify f k => exact ⟨_, rfl⟩
  | now k => exact ⟨_, rfl⟩
  | rand n k =>
    simp only [Prog.deferUnlock, Prog.step]
    split <;> exact ⟨_, rfl⟩
  | resp f k => exact ⟨_, rfl⟩

/-- Every call is a program that holds the mutex from its start to its end. -/
theorem program_eq (o : Op) : ∃ body, o.program = .lock (.deferUnlock body) ∧ body.Plain := by
  cases o with
  | serve r => exact ⟨_, rfl, Server.plain_serveLocked r⟩
  | authorize r required => exact ⟨_, rfl, Server.plain_authorizeLocked r required⟩
  | configure clients users => exact ⟨_, rfl, trivial⟩

/-- Making a call is running its program. -/
theorem step_program (st : Server) (c : Call) :
    step ⟨false, st⟩ c =
      (c.op.answer (exec c.op.program ⟨false, st⟩ c.local).1 (exec c.op.program ⟨false, st⟩ c.local).2.2,
        (exec c.op.program ⟨false, st⟩ c.local).2.1) := by
  obtain ⟨op, coins, clock⟩ := c
  cases op with
  | serve r =>
    simp only [step]
    generalize hl : Call.local _ = l
    show _ = (Op.answer (.serve r) (exec (Server.serveHTTP r) ⟨false, st⟩ l).1
      (exec (Server.serveHTTP r) ⟨false, st⟩ l).2.2, (exec (Server.serveHTTP r) ⟨false, st⟩ l).2.1)
    generalize exec (Server.serveHTTP r) ⟨false, st⟩ l = x
    obtain ⟨o, s', l'⟩ := x
    cases o <;> rfl
  | authorize r required =>
    simp only [step]
    generalize hl : Call.local _ = l
    show _ = (Op.answer (.authorize r required) (exec (Server.authorize r required) ⟨false, st⟩ l).1
      (exec (Server.authorize r required) ⟨false, st⟩ l).2.2,
      (exec (Server.authorize r required) ⟨false, st⟩ l).2.1)
    generalize exec (Server.authorize r required) ⟨false, st⟩ l = x
    obtain ⟨o, s', l'⟩ := x
    rcases o with (_ | _) | _ | _ <;> rfl
  | configure clients users => rfl

/-- A call that is made alone leaves the mutex free. -/
theorem plain_exec {σ α : Type} {p : Prog σ α} (hp : p.Plain) (s : Shared σ) (l : Local) :
    (exec p s l).1 ≠ .deadlock := by
  induction p generalizing s l with
  | ret a => intro h; cases h
  | panic => intro h; cases h
  | lock k _ => exact hp.elim
  | unlock k _ => exact hp.elim
  | get k ih => exact ih _ (hp _) _ _
  | modify f k ih => exact ih hp _ _
  | now k ih => exact ih _ (hp _) _ _
  | rand n k ih =>
    simp only [exec]
    split <;> exact ih _ (hp _) _ _
  | resp f k ih => exact ih hp _ _

theorem step_unlocked (st : Server) (c : Call) : (step ⟨false, st⟩ c).2.locked = false := by
  rw [step_program]
  obtain ⟨body, h, hb⟩ := program_eq c.op
  rw [h]
  simp only [exec, Bool.false_eq_true, if_false]
  rw [exec_deferUnlock]
  have := plain_exec hb ⟨true, st⟩ c.local
  rcases hx : exec body ⟨true, st⟩ c.local with ⟨o, s', l'⟩
  rw [hx] at this
  cases o with
  | ret a => rfl
  | panic => rfl
  | deadlock => exact absurd rfl this

/-! ### The invariant -/

/-- The call has not got the mutex yet. -/
structure Waiting (order : List (Nat × Event)) (i : Nat) (t : Thread) : Prop where
  prog : t.prog = t.call.op.program
  loc : t.loc = t.call.local
  answered : t.answered = false
  fresh : i ∉ order.map (·.1)

/-- The call has released the mutex. -/
structure Finished (order : List (Nat × Event)) (i : Nat) (t : Thread) : Prop where
  ended : ∃ o, t.prog.ended = some o ∧ (i, ⟨t.call, t.call.op.answer o t.loc⟩) ∈ order

/-- The call holds the mutex. -/
structure Inside (order : List (Nat × Event)) (shared s : Shared Server) (i : Nat) (t : Thread) :
    Prop where
  prog : ∃ p : Handler t.call.op.Result, t.prog = p.deferUnlock ∧ p.Plain
  locked : shared.locked = true
  answered : t.answered = false
  exec : ∃ o l, exec t.prog shared t.loc = (o, s, l) ∧
    (i, ⟨t.call, t.call.op.answer o l⟩) ∈ order

/-- Who holds the mutex. -/
def Holder (w : World) (order : List (Nat × Event)) (s : Shared Server) : Option Nat → Prop
  | none => w.shared = s ∧ ∀ i t, w.threads i = some t → Waiting order i t ∨ Finished order i t
  | some k => (∃ t, w.threads k = some t ∧ Inside order w.shared s k t) ∧
      ∀ i t, w.threads i = some t → i ≠ k → Waiting order i t ∨ Finished order i t

structure Invariant (s₀ : Server) (tr : List Act) (w : World) (order : List (Nat × Event))
    (s : Shared Server) : Prop where
  lin : Linearizes s₀ tr order s
  unlocked : s.locked = false
  threads : ∀ i t, w.threads i = some t → .invoke i t.call ∈ tr
  calls : ∀ i c, .invoke i c ∈ tr → ∃ t, w.threads i = some t ∧ t.call = c
  replies : ∀ i t, w.threads i = some t → (t.answered = true ↔ ∃ a, .answer i a ∈ tr)
  answers : ∀ i a, .answer i a ∈ tr → ∃ t, w.threads i = some t
  holder : ∃ k, Holder w order s k

theorem precedes_cons {tr : List Act} {act : Act} {i j : Nat} (h : Precedes (act :: tr) i j) :
    Precedes tr i j ∨ ∃ c a, act = .invoke j c ∧ .answer i a ∈ tr := by
  obtain ⟨later, earlier, c, a, h1, h2⟩ := h
  cases later with
  | nil => cases h1; exact .inr ⟨c, a, rfl, h2⟩
  | cons x later => cases h1; exact .inl ⟨later, earlier, c, a, rfl, h2⟩

theorem put_same (w : World) (i : Nat) (t : Thread) : (w.put i t).threads i = some t := if_pos rfl

theorem put_other (w : World) {i j : Nat} (t : Thread) (h : j ≠ i) :
    (w.put i t).threads j = w.threads j := if_neg h

theorem put_cases {w : World} {i j : Nat} {t t' : Thread} (h : (w.put i t).threads j = some t') :
    (j = i ∧ t' = t) ∨ (j ≠ i ∧ w.threads j = some t') := by
  by_cases hj : j = i
  · subst hj
    rw [put_same] at h
    exact .inl ⟨rfl, (Option.some.inj h).symm⟩
  · rw [put_other w t hj] at h
    exact .inr ⟨hj, h⟩

/-- The same linearization after a step. -/
theorem linearizes_step {s₀ : Server} {tr : List Act} {order : List (Nat × Event)}
    {s : Shared Server} (h : Linearizes s₀ tr order s) (i : Nat) :
    Linearizes s₀ (.step i :: tr) order s where
  history := h.history
  once := h.once
  invoked := fun x hx => List.mem_cons_of_mem _ (h.invoked x hx)
  answered := fun j a hj => by
    rcases List.mem_cons.mp hj with hj | hj
    · cases hj
    · exact h.answered j a hj
  realtime := fun j k hp hk => by
    rcases precedes_cons hp with hp | ⟨_, _, hp, _⟩
    · exact h.realtime j k hp hk
    · cases hp

theorem finished_mono {order order' : List (Nat × Event)} {i : Nat} {t : Thread}
    (h : Finished order i t) (hs : ∀ x ∈ order, x ∈ order') : Finished order' i t := by
  obtain ⟨o, h1, h2⟩ := h.ended
  exact ⟨o, h1, hs _ h2⟩

theorem invariant_start (s₀ : Server) :
    Invariant s₀ [] { shared := ⟨false, s₀⟩, threads := fun _ => none } [] ⟨false, s₀⟩ where
  lin := {
    history := .start
    once := List.nodup_nil
    invoked := fun x hx => nomatch hx
    answered := fun i a hx => nomatch hx
    realtime := fun i j _ hx => nomatch hx }
  unlocked := rfl
  threads := fun i t h => nomatch h
  calls := fun i c h => nomatch h
  replies := fun i t h => nomatch h
  answers := fun i a h => nomatch h
  holder := ⟨none, rfl, fun i t h => nomatch h⟩

theorem invariant_invoke {s₀ : Server} {tr : List Act} {w : World} {order : List (Nat × Event)}
    {s : Shared Server} (inv : Invariant s₀ tr w order s) {i : Nat} (c : Call)
    (hi : w.threads i = none) :
    Invariant s₀ (.invoke i c :: tr)
      (w.put i { call := c, prog := c.op.program, loc := c.local }) order s := by
  have hfresh : i ∉ order.map (·.1) := by
    intro h
    obtain ⟨x, h1, h2⟩ := List.mem_map.mp h
    have := inv.lin.invoked x h1
    rw [h2] at this
    obtain ⟨t, h3, _⟩ := inv.calls _ _ this
    rw [hi] at h3
    cases h3
  have hnew : Waiting order i { call := c, prog := c.op.program, loc := c.local } :=
    ⟨rfl, rfl, rfl, hfresh⟩
  have hnoans : ∀ a, .answer i a ∉ tr := by
    intro a ha
    obtain ⟨t, ht⟩ := inv.answers i a ha
    rw [hi] at ht
    cases ht
  refine { lin := ?_, unlocked := inv.unlocked, threads := ?_, calls := ?_, replies := ?_,
           answers := ?_, holder := ?_ }
  · refine { history := inv.lin.history, once := inv.lin.once, invoked := ?_, answered := ?_,
             realtime := ?_ }
    · exact fun x hx => List.mem_cons_of_mem _ (inv.lin.invoked x hx)
    · intro j a hj
      rcases List.mem_cons.mp hj with hj | hj
      · cases hj
      · exact inv.lin.answered j a hj
    · intro j k hp hk
      rcases precedes_cons hp with hp | ⟨_, _, hp, _⟩
      · exact inv.lin.realtime j k hp hk
      · cases hp
        exact absurd hk hfresh
  · intro j t hj
    rcases put_cases hj with ⟨rfl, rfl⟩ | ⟨_, hj⟩
    · exact List.mem_cons_self
    · exact List.mem_cons_of_mem _ (inv.threads j t hj)
  · intro j c' hj
    rcases List.mem_cons.mp hj with hj | hj
    · cases hj
      exact ⟨_, put_same _ _ _, rfl⟩
    · obtain ⟨t, h1, h2⟩ := inv.calls j c' hj
      refine ⟨t, ?_, h2⟩
      rw [put_other _ _ (fun h => by rw [h, hi] at h1; cases h1)]
      exact h1
  · intro j t hj
    rcases put_cases hj with ⟨rfl, rfl⟩ | ⟨_, hj⟩
    · constructor
      · intro h; cases h
      · rintro ⟨a, ha⟩
        rcases List.mem_cons.mp ha with ha | ha
        · cases ha
        · exact absurd ha (hnoans a)
    · rw [inv.replies j t hj]
      simp
  · intro j a hj
    rcases List.mem_cons.mp hj with hj | hj
    · cases hj
    · obtain ⟨t, ht⟩ := inv.answers j a hj
      refine ⟨t, ?_⟩
      rw [put_other _ _ (fun h => by rw [h, hi] at ht; cases ht)]
      exact ht
  · obtain ⟨k, hk⟩ := inv.holder
    refine ⟨k, ?_⟩
    cases k with
    | none =>
      refine ⟨hk.1, fun j t hj => ?_⟩
      rcases put_cases hj with ⟨rfl, rfl⟩ | ⟨_, hj⟩
      · exact .inl hnew
      · exact hk.2 j t hj
    | some k =>
      obtain ⟨⟨t, h1, h2⟩, h3⟩ := hk
      refine ⟨⟨t, ?_, h2⟩, fun j t hj hjk => ?_⟩
      · rw [put_other _ _ (fun h => by rw [h, hi] at h1; cases h1)]
        exact h1
      · rcases put_cases hj with ⟨rfl, rfl⟩ | ⟨_, hj⟩
        · exact .inl hnew
        · exact h3 j t hj hjk

theorem invariant_answer {s₀ : Server} {tr : List Act} {w : World} {order : List (Nat × Event)}
    {s : Shared Server} (inv : Invariant s₀ tr w order s) {i : Nat} {t : Thread}
    (hi : w.threads i = some t) (ha : t.answered = false) {o : Outcome t.call.op.Result}
    (ho : t.prog.ended = some o) :
    Invariant s₀ (.answer i (t.call.op.answer o t.loc) :: tr)
      (w.put i { t with answered := true }) order s := by
  have hout : ∀ k, Holder w order s k → k ≠ some i := by
    rintro k hk rfl
    obtain ⟨⟨t', h1, h2⟩, _⟩ := hk
    rw [hi] at h1
    cases h1
    obtain ⟨p, hp, hpl⟩ := h2.prog
    obtain ⟨x, hx⟩ := inside_step hpl w.shared t.loc
    rw [← hp, ended_no_step ho] at hx
    cases hx
  have hfin : Finished order i t := by
    have hnw : ¬ Waiting order i t := by
      intro h
      obtain ⟨b, hb, _⟩ := program_eq t.call.op
      rw [h.prog, hb] at ho
      cases ho
    obtain ⟨k, hk⟩ := inv.holder
    have hne := hout k hk
    cases k with
    | none => exact (hk.2 i t hi).resolve_left hnw
    | some k => exact (hk.2 i t hi (fun h => hne (by rw [h]))).resolve_left hnw
  have hmem : (i, (⟨t.call, t.call.op.answer o t.loc⟩ : Event)) ∈ order := by
    obtain ⟨o', h1, h2⟩ := hfin.ended
    rw [ho] at h1
    cases h1
    exact h2
  have hnew : Finished order i { t with answered := true } := ⟨o, ho, hmem⟩
  refine { lin := ?_, unlocked := inv.unlocked, threads := ?_, calls := ?_, replies := ?_,
           answers := ?_, holder := ?_ }
  · refine { history := inv.lin.history, once := inv.lin.once, invoked := ?_, answered := ?_,
             realtime := ?_ }
    · exact fun x hx => List.mem_cons_of_mem _ (inv.lin.invoked x hx)
    · intro j a hj
      rcases List.mem_cons.mp hj with hj | hj
      · cases hj
        exact ⟨_, hmem, rfl⟩
      · exact inv.lin.answered j a hj
    · intro j k hp hk
      rcases precedes_cons hp with hp | ⟨_, _, hp, _⟩
      · exact inv.lin.realtime j k hp hk
      · cases hp
  · intro j t' hj
    rcases put_cases hj with ⟨rfl, rfl⟩ | ⟨_, hj⟩
    · exact List.mem_cons_of_mem _ (inv.threads _ t hi)
    · exact List.mem_cons_of_mem _ (inv.threads _ _ hj)
  · intro j c' hj
    rcases List.mem_cons.mp hj with hj | hj
    · cases hj
    · obtain ⟨t', h1, h2⟩ := inv.calls j c' hj
      by_cases hji : j = i
      · subst hji
        rw [hi] at h1
        cases h1
        exact ⟨_, put_same _ _ _, h2⟩
      · exact ⟨t', by rw [put_other _ _ hji]; exact h1, h2⟩
  · intro j t' hj
    rcases put_cases hj with ⟨rfl, rfl⟩ | ⟨hji, hj⟩
    · exact ⟨fun _ => ⟨_, List.mem_cons_self⟩, fun _ => rfl⟩
    · rw [inv.replies j t' hj]
      constructor
      · rintro ⟨a, h⟩; exact ⟨a, List.mem_cons_of_mem _ h⟩
      · rintro ⟨a, h⟩
        rcases List.mem_cons.mp h with h | h
        · cases h; exact absurd rfl hji
        · exact ⟨a, h⟩
  · intro j a hj
    by_cases hji : j = i
    · subst hji; exact ⟨_, put_same _ _ _⟩
    · rcases List.mem_cons.mp hj with hj | hj
      · cases hj; exact absurd rfl hji
      · obtain ⟨t', ht⟩ := inv.answers j a hj
        exact ⟨t', by rw [put_other _ _ hji]; exact ht⟩
  · obtain ⟨k, hk⟩ := inv.holder
    have hne := hout k hk
    refine ⟨k, ?_⟩
    cases k with
    | none =>
      refine ⟨hk.1, fun j t' hj => ?_⟩
      rcases put_cases hj with ⟨rfl, rfl⟩ | ⟨_, hj⟩
      · exact .inr hnew
      · exact hk.2 j t' hj
    | some k =>
      obtain ⟨⟨t', h1, h2⟩, h3⟩ := hk
      refine ⟨⟨t', ?_, h2⟩, fun j t'' hj hjk => ?_⟩
      · rw [put_other _ _ (fun h => hne (by rw [h]))]
        exact h1
      · rcases put_cases hj with ⟨rfl, rfl⟩ | ⟨_, hj⟩
        · exact .inr hnew
        · exact h3 j t'' hj hjk

/-- The parts of the invariant that do not change when a goroutine takes a step. -/
theorem invariant_step_frame {s₀ : Server} {tr : List Act} {w w' : World}
    {order order' : List (Nat × Event)} {s s' : Shared Server} (inv : Invariant s₀ tr w order s)
    {i : Nat} {t t' : Thread} (hi : w.threads i = some t)
    (hw : w'.threads = (w.put i t').threads) (hc : t'.call = t.call)
    (ha : t'.answered = t.answered) (lin : Linearizes s₀ (.step i :: tr) order' s')
    (unlocked : s'.locked = false) (holder : ∃ k, Holder w' order' s' k) :
    Invariant s₀ (.step i :: tr) w' order' s' := by
  refine { lin := lin, unlocked := unlocked, threads := ?_, calls := ?_, replies := ?_,
           answers := ?_, holder := holder }
  · intro j x hj
    rw [hw] at hj
    rcases put_cases hj with ⟨rfl, rfl⟩ | ⟨_, hj⟩
    · rw [hc]; exact List.mem_cons_of_mem _ (inv.threads _ _ hi)
    · exact List.mem_cons_of_mem _ (inv.threads _ _ hj)
  · intro j c' hj
    rw [hw]
    rcases List.mem_cons.mp hj with hj | hj
    · cases hj
    · obtain ⟨x, h1, h2⟩ := inv.calls j c' hj
      by_cases hji : j = i
      · subst hji
        rw [hi] at h1
        cases h1
        exact ⟨_, put_same _ _ _, hc.trans h2⟩
      · exact ⟨x, by rw [put_other _ _ hji]; exact h1, h2⟩
  · intro j x hj
    rw [hw] at hj
    have key : (∃ a, .answer j a ∈ (Act.step i :: tr)) ↔ ∃ a, .answer j a ∈ tr := by simp
    rw [key]
    rcases put_cases hj with ⟨rfl, rfl⟩ | ⟨_, hj⟩
    · rw [ha]; exact inv.replies _ _ hi
    · exact inv.replies _ _ hj
  · intro j a hj
    rw [hw]
    rcases List.mem_cons.mp hj with hj | hj
    · cases hj
    · by_cases hji : j = i
      · subst hji; exact ⟨_, put_same _ _ _⟩
      · obtain ⟨x, hx⟩ := inv.answers j a hj
        exact ⟨x, by rw [put_other _ _ hji]; exact hx⟩

/-- Taking a step. -/
theorem invariant_step {s₀ : Server} {tr : List Act} {w : World} {order : List (Nat × Event)}
    {s : Shared Server} (inv : Invariant s₀ tr w order s) {i : Nat} {t : Thread}
    (hi : w.threads i = some t) {p : Handler t.call.op.Result} {sh : Shared Server} {l : Local}
    (hs : t.prog.step w.shared t.loc = some (p, sh, l)) :
    ∃ order' s', Invariant s₀ (.step i :: tr)
      ({ w with shared := sh }.put i { t with prog := p, loc := l }) order' s' := by
  obtain ⟨k, hk⟩ := inv.holder
  have hfin : ¬ Finished order i t := by
    intro h
    obtain ⟨o, h1, _⟩ := h.ended
    rw [ended_no_step h1] at hs
    cases hs
  have hwait : Waiting order i t → k = none := by
    intro h
    obtain ⟨b, hb, _⟩ := program_eq t.call.op
    rw [h.prog, hb] at hs
    simp only [Prog.step] at hs
    cases k with
    | none => rfl
    | some k =>
      obtain ⟨⟨t', _, h2⟩, _⟩ := hk
      rw [h2.locked] at hs
      cases hs
  by_cases hki : k = some i
  · -- the holder of the mutex
    subst hki
    obtain ⟨⟨t', h1, h2⟩, h3⟩ := hk
    rw [hi] at h1
    cases h1
    refine ⟨order, s, ?_⟩
    obtain ⟨b, hb, hpl⟩ := h2.prog
    obtain ⟨o, l', hx, hm⟩ := h2.exec
    rw [exec_step hs] at hx
    refine invariant_step_frame inv hi rfl rfl rfl (linearizes_step inv.lin i) inv.unlocked ?_
    rw [hb] at hs
    rcases step_inside hpl hs with ⟨o', h4, h5⟩ | ⟨b', rfl, h4, h5⟩
    · rw [exec_ended h4] at hx
      obtain ⟨rfl, rfl, rfl⟩ : o' = o ∧ sh = s ∧ l = l' := by
        simpa only [Prod.mk.injEq] using hx
      refine ⟨none, rfl, fun j x hj => ?_⟩
      rcases put_cases hj with ⟨rfl, rfl⟩ | ⟨hji, hj⟩
      · exact .inr ⟨o', h4, hm⟩
      · exact h3 j x hj hji
    · refine ⟨some i, ⟨_, put_same _ _ _, ⟨b', rfl, h4⟩, h5.trans h2.locked, h2.answered, o, l', hx, hm⟩,
        fun j x hj hji => ?_⟩
      rcases put_cases hj with ⟨rfl, rfl⟩ | ⟨_, hj⟩
      · exact absurd rfl hji
      · exact h3 j x hj hji
  · have hw : Waiting order i t := by
      cases k with
      | none => exact (hk.2 i t hi).resolve_right hfin
      | some k => exact (hk.2 i t hi (fun h => hki (by rw [h]))).resolve_right hfin
    have := hwait hw
    subst this
    obtain ⟨hsh, hrest⟩ := hk
    obtain ⟨b, hb, hpl⟩ := program_eq t.call.op
    have hu := inv.unlocked
    obtain ⟨locked, st⟩ := s
    simp only at hu
    subst hu
    rw [hw.prog, hb, hsh, hw.loc] at hs
    simp only [Prog.step, Bool.false_eq_true, if_false] at hs
    cases hs
    -- the call takes effect now
    have hp := step_program st t.call
    have hex : exec t.call.op.program ⟨false, st⟩ t.call.local =
        exec b.deferUnlock ⟨true, st⟩ t.call.local := by
      rw [hb]; rfl
    rw [hex] at hp
    refine ⟨(i, ⟨t.call, (step ⟨false, st⟩ t.call).1⟩) :: order, (step ⟨false, st⟩ t.call).2, ?_⟩
    have hmono : ∀ x ∈ order, x ∈ ((i, ⟨t.call, (step ⟨false, st⟩ t.call).1⟩) :: order : List (Nat × Event)) :=
      fun x hx => List.mem_cons_of_mem _ hx
    refine invariant_step_frame inv hi rfl rfl rfl ?_ (step_unlocked st t.call) ?_
    · refine { history := ?_, once := ?_, invoked := ?_, answered := ?_, realtime := ?_ }
      · exact .next t.call inv.lin.history
      · exact List.nodup_cons.mpr ⟨hw.fresh, inv.lin.once⟩
      · intro x hx
        rcases List.mem_cons.mp hx with rfl | hx
        · exact List.mem_cons_of_mem _ (inv.threads i t hi)
        · exact List.mem_cons_of_mem _ (inv.lin.invoked x hx)
      · intro j a hj
        rcases List.mem_cons.mp hj with hj | hj
        · cases hj
        · obtain ⟨e, h1, h2⟩ := inv.lin.answered j a hj
          exact ⟨e, hmono _ h1, h2⟩
      · intro j m hpre hm
        rcases precedes_cons hpre with hpre' | ⟨_, _, hpre', _⟩
        · rcases List.mem_cons.mp hm with rfl | hm
          · obtain ⟨_, earlier, _, a, h0, h1⟩ := hpre'
            obtain ⟨e, h2, _⟩ := inv.lin.answered j a
              (by rw [h0]; exact List.mem_append_right _ (List.mem_cons_of_mem _ h1))
            exact ⟨[], _, rfl, List.mem_map.mpr ⟨_, h2, rfl⟩⟩
          · obtain ⟨new, old, h1, h2⟩ := inv.lin.realtime j m hpre' hm
            exact ⟨i :: new, old, by rw [List.map_cons, h1]; rfl, h2⟩
        · cases hpre'
    · refine ⟨some i, ⟨_, put_same _ _ _, ⟨b, rfl, hpl⟩, rfl, hw.answered,
        (exec b.deferUnlock ⟨true, st⟩ t.call.local).1,
        (exec b.deferUnlock ⟨true, st⟩ t.call.local).2.2, ?_, ?_⟩, fun j x hj hji => ?_⟩
      · rw [hp]; rfl
      · rw [hp]; exact List.mem_cons_self
      · rcases put_cases hj with ⟨rfl, rfl⟩ | ⟨_, hj⟩
        · exact absurd rfl hji
        · rcases hrest j x hj with h | h
          · refine .inl ⟨h.prog, h.loc, h.answered, ?_⟩
            simp only [List.map_cons, List.mem_cons, not_or]
            exact ⟨hji, h.fresh⟩
          · exact .inr (finished_mono h hmono)

theorem run_invariant {s₀ : Server} {tr : List Act} {w : World} (h : Run s₀ tr w) :
    ∃ order s, Invariant s₀ tr w order s := by
  induction h with
  | start => exact ⟨_, _, invariant_start s₀⟩
  | next _ hn ih =>
    obtain ⟨order, s, inv⟩ := ih
    cases hn with
    | invoke i c hi => exact ⟨_, _, invariant_invoke inv c hi⟩
    | step i t hi hs => exact invariant_step inv hi hs
    | answer i t hi ha ho => exact ⟨_, _, invariant_answer inv hi ha ho⟩

/-! ### Termination -/

/-- The program left after one effect. -/
inductive Prog.Child {σ α : Type} : Prog σ α → Prog σ α → Prop
  | lock (k : Prog σ α) : Prog.Child k (.lock k)
  | unlock (k : Prog σ α) : Prog.Child k (.unlock k)
  | get (k : σ → Prog σ α) (s : σ) : Prog.Child (k s) (.get k)
  | modify (f : σ → σ) (k : Prog σ α) : Prog.Child k (.modify f k)
  | now (k : Time → Prog σ α) (t : Time) : Prog.Child (k t) (.now k)
  | rand (n : Nat) (k : Option Str → Prog σ α) (c : Option Str) : Prog.Child (k c) (.rand n k)
  | resp (f : Recorder → Recorder) (k : Prog σ α) : Prog.Child k (.resp f k)

theorem child_acc {σ α : Type} (p : Prog σ α) : Acc Prog.Child p := by
  induction p with
  | ret a => exact ⟨_, fun q h => nomatch h⟩
  | panic => exact ⟨_, fun q h => nomatch h⟩
  | lock k ih => exact ⟨_, fun q h => by cases h; exact ih⟩
  | unlock k ih => exact ⟨_, fun q h => by cases h; exact ih⟩
  | get k ih => exact ⟨_, fun q h => by cases h; exact ih _⟩
  | modify f k ih => exact ⟨_, fun q h => by cases h; exact ih⟩
  | now k ih => exact ⟨_, fun q h => by cases h; exact ih _⟩
  | rand n k ih => exact ⟨_, fun q h => by cases h; exact ih _⟩
  | resp f k ih => exact ⟨_, fun q h => by cases h; exact ih⟩

theorem step_child {σ α : Type} {p p' : Prog σ α} {s s' : Shared σ} {l l' : Local}
    (h : p.step s l = some (p', s', l')) : Prog.Child p' p := by
  cases p with
  | ret a => cases h
  | panic => cases h
  | lock k =>
    simp only [Prog.step] at h
    split at h
    · cases h
    · cases h; exact .lock _
  | unlock k => cases h; exact .unlock _
  | get k => cases h; exact .get _ _
  | modify f k => cases h; exact .modify _ _
  | now k => cases h; exact .now _ _
  | rand n k =>
    simp only [Prog.step] at h
    split at h <;> cases h <;> exact .rand _ _ _
  | resp f k => cases h; exact .resp _ _

/-- A goroutine closer to its end. -/
inductive Closer : Thread → Thread → Prop
  | step (t : Thread) (p : Handler t.call.op.Result) (l : Local) (h : Prog.Child p t.prog) :
      Closer { t with prog := p, loc := l } t
  | answer (t : Thread) (h : t.answered = false) : Closer { t with answered := true } t

theorem closer_acc (t : Thread) : Acc Closer t := by
  obtain ⟨call, prog, loc, answered⟩ := t
  have hp := child_acc prog
  induction hp generalizing loc answered with
  | intro prog _ ih =>
    have h1 : ∀ loc, Acc Closer ⟨call, prog, loc, true⟩ := by
      intro loc
      refine ⟨_, fun t' h => ?_⟩
      cases h with
      | step _ p l h => exact ih _ h _ _
      | answer _ h => cases h
    cases answered with
    | true => exact h1 loc
    | false =>
      refine ⟨_, fun t' h => ?_⟩
      cases h with
      | step _ p l h => exact ih _ h _ _
      | answer _ h => exact h1 _

/-- One element of the list is smaller. -/
inductive OneLess {α : Type} (r : α → α → Prop) : List α → List α → Prop
  | head {a b : α} {l : List α} (h : r a b) : OneLess r (a :: l) (b :: l)
  | tail {a : α} {l l' : List α} (h : OneLess r l l') : OneLess r (a :: l) (a :: l')

theorem oneLess_acc {α : Type} {r : α → α → Prop} (l : List α) (h : ∀ a ∈ l, Acc r a) :
    Acc (OneLess r) l := by
  induction l with
  | nil => exact ⟨_, fun l' h => nomatch h⟩
  | cons a l ih =>
    have hl := ih (fun x hx => h x (List.mem_cons_of_mem _ hx))
    have ha := h a List.mem_cons_self
    clear h ih
    induction ha generalizing l with
    | intro a _ iha =>
      induction hl with
      | intro l hl' ihl =>
        refine ⟨_, fun l' h => ?_⟩
        cases h with
        | head h => exact iha _ h _ ⟨_, hl'⟩
        | tail h => exact ihl _ h

theorem oneLess_map {ι α : Type} {r : α → α → Prop} {f g : ι → α} {i : ι} {ids : List ι}
    (hn : ids.Nodup) (hi : i ∈ ids) (h : r (f i) (g i)) (he : ∀ j, j ≠ i → f j = g j) :
    OneLess r (ids.map f) (ids.map g) := by
  induction ids with
  | nil => cases hi
  | cons a ids ih =>
    obtain ⟨h1, h2⟩ := List.nodup_cons.mp hn
    by_cases ha : i = a
    · subst ha
      have : ids.map f = ids.map g :=
        List.map_congr_left (fun x hx => he x (fun hxi => h1 (hxi ▸ hx)))
      rw [List.map_cons, List.map_cons, this]
      exact .head h
    · rw [List.map_cons, List.map_cons, he a (fun hh => ha hh.symm)]
      refine .tail (ih h2 ?_)
      rcases List.mem_cons.mp hi with hi | hi
      · exact absurd hi ha
      · exact hi

/-- A goroutine closer to its end, or none. -/
inductive CloserOpt : Option Thread → Option Thread → Prop
  | some {t t' : Thread} (h : Closer t t') : CloserOpt (some t) (some t')

theorem closerOpt_acc (x : Option Thread) : Acc CloserOpt x := by
  cases x with
  | none => exact ⟨_, fun y h => nomatch h⟩
  | some t =>
    induction closer_acc t with
    | intro t _ ih =>
      refine ⟨_, fun y h => ?_⟩
      cases h with
      | some h => exact ih _ h

theorem next_closer {w w' : World} {act : Act} (h : Next w act w') (hc : act.continues) :
    ∃ i, (∃ t, w.threads i = some t) ∧ CloserOpt (w'.threads i) (w.threads i) ∧
      ∀ j, j ≠ i → w'.threads j = w.threads j := by
  cases h with
  | invoke i c _ => exact hc.elim
  | step i t hi hs =>
    refine ⟨i, ⟨t, hi⟩, ?_, fun j hj => put_other _ _ hj⟩
    rw [put_same, hi]
    exact .some (.step t _ _ (step_child hs))
  | answer i t hi ha ho =>
    refine ⟨i, ⟨t, hi⟩, ?_, fun j hj => put_other _ _ hj⟩
    rw [put_same, hi]
    exact .some (.answer t ha)

theorem run_finite {s₀ : Server} {tr : List Act} {w : World} (h : Run s₀ tr w) :
    ∃ ids : List Nat, ids.Nodup ∧ ∀ i t, w.threads i = some t → i ∈ ids := by
  induction h with
  | start => exact ⟨[], List.nodup_nil, fun i t h => nomatch h⟩
  | next _ hn ih =>
    obtain ⟨ids, h1, h2⟩ := ih
    cases hn with
    | invoke i c hi =>
      by_cases hm : i ∈ ids
      · refine ⟨ids, h1, fun j t hj => ?_⟩
        rcases put_cases hj with ⟨rfl, _⟩ | ⟨_, hj⟩
        · exact hm
        · exact h2 j t hj
      · refine ⟨i :: ids, List.nodup_cons.mpr ⟨hm, h1⟩, fun j t hj => ?_⟩
        rcases put_cases hj with ⟨rfl, _⟩ | ⟨_, hj⟩
        · exact List.mem_cons_self
        · exact List.mem_cons_of_mem _ (h2 j t hj)
    | step i t hi hs =>
      refine ⟨ids, h1, fun j t' hj => ?_⟩
      rcases put_cases hj with ⟨rfl, _⟩ | ⟨_, hj⟩
      · exact h2 _ t hi
      · exact h2 j t' hj
    | answer i t hi ha ho =>
      refine ⟨ids, h1, fun j t' hj => ?_⟩
      rcases put_cases hj with ⟨rfl, _⟩ | ⟨_, hj⟩
      · exact h2 _ t hi
      · exact h2 j t' hj

/-- The world after going on without a new call. -/
def GoesOn (w' w : World) : Prop := ∃ act : Act, act.continues ∧ Next w act w'

theorem goesOn_acc {ids : List Nat} (hn : ids.Nodup) {w : World}
    (hw : ∀ i t, w.threads i = some t → i ∈ ids) : Acc GoesOn w := by
  have ha := oneLess_acc (r := CloserOpt) (ids.map w.threads) (fun x _ => closerOpt_acc x)
  generalize hx : ids.map w.threads = x at ha
  induction ha generalizing w with
  | intro x _ ih =>
    refine ⟨_, fun w' h => ?_⟩
    obtain ⟨act, hc, hnext⟩ := h
    obtain ⟨i, ⟨t, hi⟩, h1, h2⟩ := next_closer hnext hc
    subst hx
    refine ih _ (oneLess_map hn (hw i t hi) h1 h2) ?_ rfl
    intro j t' hj
    by_cases hji : j = i
    · subst hji; exact hw _ t hi
    · rw [h2 j hji] at hj; exact hw j t' hj

theorem run_acc {s₀ : Server} {tr : List Act} {w : World} (h : Run s₀ tr w) : Acc GoesOn w := by
  obtain ⟨ids, h1, h2⟩ := run_finite h
  exact goesOn_acc h1 h2

end OAuth2

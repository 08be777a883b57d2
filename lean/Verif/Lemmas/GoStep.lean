import Verif.Lemmas.GoServer
import Verif.Lemmas.Serve
import Verif.Lemmas.Observe

namespace OAuth2

open Spec

variable {c : Clocks} {cfg : GoConfig} {V : TimeView} {g : GoServer}

theorem lift_locked {α : Type} {p : Prog GoServer α} {q : Prog Server α} (h : Lift cfg V p q)
    (hg : V.Good cfg g) {l : Local} (hl : ∀ n, V.reads (l.clock n)) :
    ∃ o b' g' l', exec (.lock (.deferUnlock p)) ⟨false, g⟩ l = (o, ⟨b', g'⟩, l') ∧ V.Good cfg g' ∧
      exec (.lock (.deferUnlock q)) ⟨false, g.seen V.see⟩ (l.seen V.now) =
        (o, ⟨b', g'.seen V.see⟩, l'.seen V.now) := by
  show ∃ o b' g' l', exec (.deferUnlock p) ⟨true, g⟩ l = _ ∧ _ ∧
    exec (.deferUnlock q) ⟨true, g.seen V.see⟩ (l.seen V.now) = _
  rw [exec_deferUnlock, exec_deferUnlock]
  obtain ⟨o, b', g', l', h1, h2, -, h4⟩ := h true g l hg hl
  rw [h1, h4]
  cases o with
  | ret a => exact ⟨_, false, g', l', rfl, h2, rfl⟩
  | panic => exact ⟨_, false, g', l', rfl, h2, rfl⟩
  | deadlock => exact ⟨_, b', g', l', rfl, h2, rfl⟩

/-- What one call does in both models. -/
theorem goStep_seen (call : Call) (hg : V.Good cfg g) (hl : ∀ n, V.reads (call.clock n))
    (hs : ∀ r, call.op = .serve r → Lift cfg V (GoServer.serveLocked c r) (Server.serveLocked r))
    (ha : ∀ r required, call.op = .authorize r required →
      Lift cfg V (GoServer.authorizeLocked c r required) (Server.authorizeLocked r required)) :
    (goStep c ⟨false, g⟩ call).1 = (step ⟨false, g.seen V.see⟩ (call.seen V.now)).1 ∧
      V.Good cfg (goStep c ⟨false, g⟩ call).2.st ∧
      (goStep c ⟨false, g⟩ call).2.locked =
        (step ⟨false, g.seen V.see⟩ (call.seen V.now)).2.locked ∧
      (goStep c ⟨false, g⟩ call).2.st.seen V.see =
        (step ⟨false, g.seen V.see⟩ (call.seen V.now)).2.st := by
  obtain ⟨op, coins, clock⟩ := call
  cases op with
  | serve rq =>
    obtain ⟨o, b', g', l', h1, h2, h3⟩ := lift_locked (hs rq rfl) hg
      (l := { coins := coins, clock := clock }) hl
    unfold goStep step Call.seen Call.local
    simp only
    rw [show exec (GoServer.serveHTTP c rq) ⟨false, g⟩ _ = _ from h1,
      show exec (Server.serveHTTP rq) ⟨false, g.seen V.see⟩
        { coins := coins, clock := fun n => V.now (clock n) } = _ from h3]
    cases o <;> exact ⟨rfl, h2, rfl, rfl⟩
  | authorize rq required =>
    obtain ⟨o, b', g', l', h1, h2, h3⟩ := lift_locked (ha rq required rfl) hg
      (l := { coins := coins, clock := clock }) hl
    unfold goStep step Call.seen Call.local
    simp only
    rw [show exec (GoServer.authorize c rq required) ⟨false, g⟩ _ = _ from h1,
      show exec (Server.authorize rq required) ⟨false, g.seen V.see⟩
        { coins := coins, clock := fun n => V.now (clock n) } = _ from h3]
    cases o with
    | ret a => cases a <;> exact ⟨rfl, h2, rfl, rfl⟩
    | panic => exact ⟨rfl, h2, rfl, rfl⟩
    | deadlock => exact ⟨rfl, h2, rfl, rfl⟩
  | configure clients users =>
    exact ⟨rfl, ⟨hg.config, hg.times.access, hg.times.refresh, hg.times.codes⟩, rfl, rfl⟩

/-! ### The wall clock -/

/-- Times as the wall clock says, while both clocks are `δ` apart. -/
def wallView (c : Clocks) (δ : Int) : TimeView where
  see := GoTime.instant
  now := c.wall
  ok := GoTime.Together δ
  reads := c.Steady δ

theorem wallView_fits (c : Clocks) (cfg : GoConfig) (δ : Int) : (wallView c δ).Fits c cfg where
  add := by
    intro t d ht _
    obtain ⟨ho, hδ⟩ := ht
    obtain ⟨n1, n2, n3, n4, n5, n6, n7⟩ := now_spec ho
    have hy := ho.year
    have hn := ho.nsec
    have hw : c.wall t = (c.read t).sec.toInt * 1000000000 + (c.read t).nsec.toInt := rfl
    have hd := i64_range d
    show GoTime.Together δ ((c.now t).add d) ∧ ((c.now t).add d).instant = c.wall t + d.toInt
    generalize c.now t = x at n1 n2 n3 n4 n5 n6 n7
    generalize c.read t = r at *
    obtain ⟨a1, a2, a3, -⟩ := GoTime.add_spec x d n4 (by omega) (by omega)
    generalize x.add d = y at a1 a2 a3
    refine ⟨⟨⟨a2, ?_⟩, fun hm => ?_⟩, by rw [a1, n3]⟩
    · have hi := a1
      rw [n3] at hi
      unfold GoTime.instant GoTime.epoch at hi
      have hn := GoTime.nsec_toInt y
      unfold GoTime.epoch
      omega
    · show y.ext.toInt = _
      rw [a3 hm, n2, a1, n3]
      omega
  before := by
    intro g t hg ht
    obtain ⟨ho, hδ⟩ := ht
    obtain ⟨n1, n2, n3, n4, n5, n6, n7⟩ := now_spec ho
    show g.before (c.now t) = decide (g.instant < c.wall t)
    cases hm : g.isMonotonic with
    | true =>
      rw [GoTime.before_mono hm n1, show g.ext.toInt = _ from hg.mono hm, n2, decide_eq_decide, hδ]
      omega
    | false =>
      rw [GoTime.before_wall (by simp [hm]) hg.proper.nsec n4, n3]

/-! ### The monotonic clock -/

/-- Times as the monotonic clock says. -/
def monoView (c : Clocks) (cfg : GoConfig) : TimeView where
  see := GoTime.reading
  now := c.mono
  ok := GoTime.Monotonic
  reads := c.Serves cfg

theorem monoView_fits (c : Clocks) (cfg : GoConfig) : (monoView c cfg).Fits c cfg where
  add := by
    intro t d ht hd
    obtain ⟨ho, hl⟩ := ht
    obtain ⟨l1, l2, l3⟩ := hl d hd
    obtain ⟨n1, n2, n3, n4, n5, n6, n7⟩ := now_spec ho
    have hy := ho.year
    have hr := i64_range d
    have hm := ho.mono
    have hw : c.wall t = (c.read t).sec.toInt * 1000000000 + (c.read t).nsec.toInt := rfl
    show ((c.now t).add d).isMonotonic = true ∧ ((c.now t).add d).ext.toInt = c.mono t + d.toInt
    generalize c.now t = x at n1 n2 n3 n4 n5 n6 n7
    generalize c.read t = r at *
    obtain ⟨a1, a2, a3, a4⟩ := GoTime.add_spec x d n4 (by omega) (by omega)
    have h := a4 n1 (by rw [n6, n7]; omega) (by rw [n6, n7]; omega) (by omega) (by omega)
    exact ⟨h, by rw [a3 h, n2]⟩
  before := by
    intro g t hg ht
    obtain ⟨n1, n2, -⟩ := now_spec ht.1
    show g.before (c.now t) = decide (g.ext.toInt < c.mono t)
    rw [GoTime.before_mono hg n1, n2]

/-! ### Introspection -/

/-- Times as the wall clock says; nothing is said about reading the clocks. -/
def storeView : TimeView where
  see := GoTime.instant
  now := id
  ok := GoTime.Proper
  reads _ := True

/-- The program leaves the state alone, and does not wait for ever. -/
def Still {σ α : Type} (p : Prog σ α) : Prop :=
  ∀ s l, (exec p s l).2.1 = s ∧ (exec p s l).1 ≠ .deadlock

theorem Still.bind {σ α β : Type} {p : Prog σ α} {f : α → Prog σ β} (h : Still p)
    (hf : ∀ a, Still (f a)) : Still (p >>= f) := by
  intro s l
  obtain ⟨h1, h3⟩ := h s l
  rw [exec_bind]
  rcases h2 : exec p s l with ⟨o, s', l'⟩
  rw [h2] at h1 h3
  obtain rfl : s' = s := h1
  cases o with
  | ret a => exact hf a s' l'
  | panic => exact ⟨rfl, fun h => nomatch h⟩
  | deadlock => exact absurd rfl h3

theorem Still.plain {σ α : Type} {p : Prog σ α} (h : Plain p p) : Still p := by
  intro s l
  obtain ⟨b, s⟩ := s
  obtain ⟨o, l', h1, -⟩ := h.exec id b s s l
  rw [h1]
  refine ⟨rfl, ?_⟩
  have hd : ∀ {q : Prog σ α}, Plain p q → ∀ s l, (exec p s l).1 ≠ .deadlock := by
    intro q hq
    clear h h1
    induction hq with
    | ret a => intro _ _ h; cases h
    | panic => intro _ _ h; cases h
    | rand n _ ih =>
      intro s l
      simp only [OAuth2.exec]
      split
      · exact ih _ _ _
      · exact ih _ _ _
    | resp f _ ih => intro s l; exact ih _ _
  have := hd h ⟨b, s⟩ l
  rw [h1] at this
  exact this

theorem Still.getS {σ : Type} : Still (.getS : Prog σ σ) := fun _ _ => ⟨rfl, fun h => nomatch h⟩

theorem still_fail (e : OAuth2.Error) : Still (GoServer.fail e) :=
  .plain (.bind (.writeError (.oauth e)) fun _ => .pure _)

theorem still_introspection (r : Request) : Still (GoServer.introspectionEndpoint r) := by
  unfold GoServer.introspectionEndpoint
  split
  · exact still_fail _
  split
  · exact still_fail _
  refine .bind .getS fun g => ?_
  split
  · exact still_fail _
  split
  · exact still_fail _
  refine .bind .getS fun g => ?_
  split
  · exact still_fail _
  extract_lets refresh
  have hr : ∀ res, Still (refresh res) := by
    intro res
    refine .bind .getS fun g => ?_
    split
    · split
      · exact still_fail _
      · exact .plain (.bind (.writeIntrospectionResponse _) fun _ => .pure _)
    · exact .plain (.bind (.writeIntrospectionResponse _) fun _ => .pure _)
  refine .bind .getS fun g => ?_
  split
  · split
    · exact still_fail _
    · exact hr _
  · exact hr _

theorem serveLocked_introspect {c : Clocks} {r : Request} (h : LastSegment r.path b!"introspect") :
    GoServer.serveLocked c r = GoServer.introspectionEndpoint r := by
  unfold GoServer.serveLocked
  rw [(lastSegment_iff _ _).mp h]
  rfl

theorem serverLocked_introspect {r : Request} (h : LastSegment r.path b!"introspect") :
    Server.serveLocked r = Server.introspectionEndpoint r := by
  unfold Server.serveLocked
  rw [(lastSegment_iff _ _).mp h]
  rfl

/-- Introspection leaves the server alone. -/
theorem goStep_introspects {c : Clocks} {call : Call} (h : IntrospectCall call) (g : GoServer) :
    (goStep c ⟨false, g⟩ call).2 = ⟨false, g⟩ := by
  obtain ⟨r, ho, hp⟩ := h
  have h1 : (exec (GoServer.serveHTTP c r) ⟨false, g⟩ call.local).2.1 = ⟨false, g⟩ := by
    show (exec (.deferUnlock (GoServer.serveLocked c r)) ⟨true, g⟩ call.local).2.1 = _
    rw [exec_deferUnlock, serveLocked_introspect hp]
    obtain ⟨h2, h4⟩ := still_introspection r ⟨true, g⟩ call.local
    rcases h3 : exec (GoServer.introspectionEndpoint r) ⟨true, g⟩ call.local with ⟨o, s', l'⟩
    rw [h3] at h2 h4
    obtain rfl : s' = _ := h2
    cases o with
    | ret a => rfl
    | panic => rfl
    | deadlock => exact absurd rfl h4
  unfold goStep
  rw [ho]
  simp only
  rcases h3 : exec (GoServer.serveHTTP c r) ⟨false, g⟩ call.local with ⟨o, s', l'⟩
  rw [h3] at h1
  obtain rfl : s' = _ := h1
  cases o <;> rfl

end OAuth2

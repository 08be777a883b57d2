import Verif.Lemmas.GoStep
import Verif.Lemmas.Concurrent
import Verif.Props.Access
import Verif.Props.Changes
/-
C81: the server with the times of Go: words of 64 bits, a wall clock that may be set at any time, and a
monotonic clock.
-/

namespace OAuth2

open Spec

variable {c : Clocks} {g₀ : GoServer} {h : List Event} {g : Shared GoServer}

/-! ### One lifetime -/

/-- **C81.** While both clocks go on together, what is valid from one instant for any duration that
Go can express has expired at another instant exactly if the clocks show that more than the duration
has passed. Neither the sum nor the comparison overflows. -/
theorem C81_expired_iff {δ : Int} {t u : Time} (ht : c.Steady δ t) (hu : c.Steady δ u) (d : Int64) :
    ((c.now t).add d).before (c.now u) = true ↔ d.toInt < c.wall u - c.wall t := by
  have f := wallView_fits c ⟨[], 0, none, d, d, d⟩ δ
  obtain ⟨a1, a2⟩ := f.add t d ht (by simp)
  have b := f.before _ u a1 hu
  rw [a2] at b
  rw [b]
  unfold Time.before
  rw [decide_eq_true_eq]
  show c.wall t + d.toInt < c.wall u ↔ _
  omega

/-- **C81.** If the end of the duration can be said with a reading of the monotonic clock, then the
monotonic clock alone decides, however the wall clock is set in between. -/
theorem C81_expired_monotonic {t u : Time} {d : Int64} (ht : c.Ordinary t) (hd : c.Lasts t d)
    (hu : c.Ordinary u) :
    ((c.now t).add d).before (c.now u) = true ↔ d.toInt < c.mono u - c.mono t := by
  have f := monoView_fits c ⟨[], 0, none, d, d, d⟩
  obtain ⟨a1, a2⟩ := f.add t d ⟨ht, by simpa using hd⟩ (by simp)
  obtain ⟨n1, n2, -⟩ := now_spec hu
  rw [GoTime.before_mono a1 n1, n2, show ((c.now t).add d).ext.toInt = _ from a2, decide_eq_true_eq]
  show c.mono t + d.toInt < _ ↔ _
  omega

/-- **C81.** Otherwise the wall clock alone decides, however the clocks differ. -/
theorem C81_expired_wall {t u : Time} {d : Int64} (ht : c.Ordinary t)
    (hd : c.wall t + d.toInt < -2682288000 * 1000000000 ∨
      5907646592 * 1000000000 ≤ c.wall t + d.toInt ∨ 2 ^ 63 ≤ c.mono t + d.toInt)
    (hu : c.Ordinary u) :
    ((c.now t).add d).before (c.now u) = true ↔ d.toInt < c.wall u - c.wall t := by
  obtain ⟨n1, n2, n3, n4, n5, -, -⟩ := now_spec ht
  obtain ⟨-, -, m3, m4, -⟩ := now_spec hu
  have hy := ht.year
  generalize c.now t = x at n1 n2 n3 n4 n5
  obtain ⟨a1, a2, a3, -⟩ := GoTime.add_spec x d n4 (by omega) (by omega)
  generalize x.add d = y at a1 a2 a3
  have hx : ¬ y.isMonotonic = true := by
    intro hm
    have h1 := a3 hm
    have h2 := GoTime.sec_mono hm
    have h3 := i64_range y.ext
    have h4 := GoTime.nsec_toInt y
    rw [n3] at a1
    unfold GoTime.instant GoTime.epoch at a1
    omega
  rw [GoTime.before_wall (fun k => hx k.1) a2 m4, m3, a1, n3, decide_eq_true_eq]
  omega

/-! ### The whole server, while the clocks agree -/

theorem shared_unlocked {s : Shared Server} (h : s.locked = false) : s = ⟨false, s.st⟩ := by
  obtain ⟨b, st⟩ := s
  obtain rfl : b = false := h
  rfl

theorem steady_step {δ : Int} {st : GoServer} (hg : st.Times (GoTime.Together δ)) {call : Call}
    (hc : ∀ n, c.Steady δ (call.clock n)) :
    (goStep c ⟨false, st⟩ call).1 = (step ⟨false, st.seen GoTime.instant⟩ (call.seen c.wall)).1 ∧
      (goStep c ⟨false, st⟩ call).2.st.Times (GoTime.Together δ) ∧
      (goStep c ⟨false, st⟩ call).2.locked = false ∧
      (goStep c ⟨false, st⟩ call).2.st.seen GoTime.instant =
        (step ⟨false, st.seen GoTime.instant⟩ (call.seen c.wall)).2.st ∧
      (goStep c ⟨false, st⟩ call).2.st.config = st.config := by
  have f := wallView_fits c st.config δ
  obtain ⟨h1, h2, h3, h4⟩ := goStep_seen (c := c) (V := wallView c δ) (cfg := st.config) call ⟨rfl, hg⟩ hc
    (fun r _ => lift_serveLocked f r fun _ g hg => GoTime.unix_spec hg.proper)
    (fun r required _ => lift_authorizeLocked f r required)
  exact ⟨h1, h2.times, h3.trans (step_unlocked _ _), h4, h2.config⟩

/-- **C81.** As long as nobody sets the wall clock, the monotonic clock does not stop, and both show
ordinary dates, the server with Go's times and words of 64 bits answers every history of calls as the
server whose times are numbers does, for all lifespans that Go can express. Whatever the other
theorems say about histories holds of it. -/
theorem C81_faithful {δ : Int} (h0 : g₀.Times (GoTime.Together δ)) (hh : GoHistory c g₀ h g)
    (hc : ∀ e ∈ h, ∀ n, c.Steady δ (e.call.clock n)) :
    History (g₀.seen GoTime.instant) (h.map (Event.seen c.wall))
      ⟨g.locked, g.st.seen GoTime.instant⟩ := by
  suffices hs : g.locked = false ∧ g.st.Times (GoTime.Together δ) ∧
      History (g₀.seen GoTime.instant) (h.map (Event.seen c.wall))
        ⟨false, g.st.seen GoTime.instant⟩ by
    rw [hs.1]
    exact hs.2.2
  induction hh with
  | start => exact ⟨rfl, h0, .start⟩
  | @next h g call hh ih =>
    obtain ⟨i1, i2, i3⟩ := ih fun e he => hc e (List.mem_cons_of_mem _ he)
    obtain ⟨b, st⟩ := g
    obtain rfl : b = false := i1
    obtain ⟨s1, s2, s3, s4, -⟩ := steady_step i2 (hc _ (List.mem_cons_self ..))
    simp only at s1 s2 s3 s4
    refine ⟨s3, s2, ?_⟩
    have hn := History.next (call.seen c.wall) i3
    have hlast : (step ⟨false, st.seen GoTime.instant⟩ (call.seen c.wall)).2 =
        ⟨false, (goStep c ⟨false, st⟩ call).2.st.seen GoTime.instant⟩ := by
      rw [s4]
      exact shared_unlocked (step_unlocked _ _)
    rw [hlast] at hn
    show History _ (⟨call.seen c.wall, (goStep c ⟨false, st⟩ call).1⟩ :: _) _
    rw [s1]
    exact hn

/-! ### Introspection, whatever the clocks show -/

/-- **C81.** Whatever the clocks show, introspection tells the seconds of what the wall clock will
show when the token expires, as it does where times are numbers, and changes nothing. -/
theorem C81_introspection {st : GoServer} (hg : st.Times GoTime.Proper) {call : Call}
    (hi : IntrospectCall call) :
    (goStep c ⟨false, st⟩ call).1 = (step ⟨false, st.seen GoTime.instant⟩ call).1 ∧
      (goStep c ⟨false, st⟩ call).2 = ⟨false, st⟩ := by
  refine ⟨?_, goStep_introspects hi st⟩
  obtain ⟨r, ho, hp⟩ := hi
  exact (goStep_seen (c := c) (V := storeView) (cfg := st.config) call ⟨rfl, hg⟩ (fun _ => trivial)
    (fun r' h' => by
      rw [ho] at h'
      obtain rfl : r = r' := by injection h'
      rw [serveLocked_introspect hp, serverLocked_introspect hp]
      exact lift_introspection (fun _ => GoTime.unix_spec) r)
    (fun r' required h' => by rw [ho] at h'; cases h')).1

/-! ### The whole server, while the wall clock is set -/

theorem serving_step {st : GoServer} (hg : st.Times GoTime.Monotonic) {call : Call}
    (hc : ∀ n, c.Serves st.config (call.clock n)) :
    (¬ IntrospectCall call → (goStep c ⟨false, st⟩ call).1 =
        (step ⟨false, st.seen GoTime.reading⟩ (call.seen c.mono)).1) ∧
      (goStep c ⟨false, st⟩ call).2.st.Times GoTime.Monotonic ∧
      (goStep c ⟨false, st⟩ call).2.locked = false ∧
      (goStep c ⟨false, st⟩ call).2.st.seen GoTime.reading =
        (step ⟨false, st.seen GoTime.reading⟩ (call.seen c.mono)).2.st ∧
      (goStep c ⟨false, st⟩ call).2.st.config = st.config := by
  by_cases hi : IntrospectCall call
  · rw [goStep_introspects hi st]
    have hask : OnlyAsks (call.seen c.mono) := by
      obtain ⟨r, ho, hp⟩ := hi
      exact .inr ⟨r, ho, .inr (.inl hp)⟩
    rw [C41_only_asks (st.seen GoTime.reading) hask]
    exact ⟨fun h => absurd hi h, hg, rfl, rfl, rfl⟩
  · have f := monoView_fits c st.config
    obtain ⟨h1, h2, h3, h4⟩ := goStep_seen (c := c) (V := monoView c st.config) (cfg := st.config)
      call ⟨rfl, hg⟩ hc
      (fun r ho => lift_serveLocked f r fun hp => absurd ⟨r, ho, (lastSegment_iff _ _).mpr hp⟩ hi)
      (fun r required _ => lift_authorizeLocked f r required)
    exact ⟨fun _ => h1, h2.times, h3.trans (step_unlocked _ _), h4, h2.config⟩

theorem serving_history (h0 : g₀.Times GoTime.Monotonic) (hh : GoHistory c g₀ h g)
    (hc : ∀ e ∈ h, ∀ n, c.Serves g₀.config (e.call.clock n)) :
    (g.locked = false ∧ g.st.config = g₀.config ∧ g.st.Times GoTime.Monotonic) ∧
    ∃ h', ButIntrospection c.mono h h' ∧
      History (g₀.seen GoTime.reading) h' ⟨g.locked, g.st.seen GoTime.reading⟩ := by
  induction hh with
  | start => exact ⟨⟨rfl, rfl, h0⟩, [], .nil, .start⟩
  | @next h g call hh ih =>
    obtain ⟨⟨i1, i2, i3⟩, h', i4, i5⟩ := ih fun e he => hc e (List.mem_cons_of_mem _ he)
    obtain ⟨b, st⟩ := g
    obtain rfl : b = false := i1
    have i2 : st.config = g₀.config := i2
    obtain ⟨s1, s2, s3, s4, s5⟩ := serving_step i3
      (i2 ▸ hc _ (List.mem_cons_self ..) : ∀ n, c.Serves st.config (call.clock n))
    refine ⟨⟨s3, s5.trans i2, s2⟩, _, .cons ⟨call, _⟩ _ (fun hn => (s1 hn).symm) i4, ?_⟩
    have hn := History.next (call.seen c.mono) i5
    have hlast : (step ⟨false, st.seen GoTime.reading⟩ (call.seen c.mono)).2 =
        ⟨(goStep c ⟨false, st⟩ call).2.locked,
          (goStep c ⟨false, st⟩ call).2.st.seen GoTime.reading⟩ := by
      rw [s3, s4]
      exact shared_unlocked (step_unlocked _ _)
    rw [hlast] at hn
    exact hn

/-- **C81.** As long as tokens and codes do not outlast what Go can say with a reading of the monotonic
clock (until March 2157), the server answers every history of calls as the server whose times are
numbers does, with what the monotonic clock shows for the time, except for introspection. The wall
clock may be set to any ordinary date at any time. -/
theorem C81_monotonic (h0 : g₀.Times GoTime.Monotonic) (hh : GoHistory c g₀ h g)
    (hc : ∀ e ∈ h, ∀ n, c.Serves g₀.config (e.call.clock n)) :
    ∃ h', ButIntrospection c.mono h h' ∧
      History (g₀.seen GoTime.reading) h' ⟨g.locked, g.st.seen GoTime.reading⟩ :=
  (serving_history h0 hh hc).2

/-- **C81.** In particular `Authorize` returns true exactly for tokens in force that were issued no
longer ago, by the monotonic clock, than they last, and that have the required scope. -/
theorem C81_admits_iff (h0 : GoStarted g₀) (hh : GoHistory c g₀ h g)
    (hc : ∀ e ∈ h, ∀ n, c.Serves g₀.config (e.call.clock n)) :
    ∃ h', ButIntrospection c.mono h h' ∧
      ∀ call, (∀ n, c.Serves g₀.config (call.clock n)) →
        ((goStep c g call).1 = .admitted ↔ ∃ required text t k, Presents call required text ∧
          SameToken g₀.config.seen text t ∧ InForce g₀.config.seen h' .access t k ∧
          c.mono (call.clock 0) ≤ k.expires ∧ Within required k.scope) := by
  have ht : g₀.Times GoTime.Monotonic :=
    ⟨by rw [h0.access]; exact fun _ h => (nomatch h), by rw [h0.refresh]; exact fun _ h => (nomatch h),
      by rw [h0.codes]; exact fun _ h => (nomatch h)⟩
  obtain ⟨⟨i1, i2, i3⟩, h', i4, i5⟩ := serving_history ht hh hc
  refine ⟨h', i4, fun call hcall => ?_⟩
  obtain ⟨b, st⟩ := g
  obtain rfl : b = false := i1
  have i2 : st.config = g₀.config := i2
  by_cases hi : IntrospectCall call
  · obtain ⟨r, ho, hp⟩ := hi
    constructor
    · intro ha
      unfold goStep at ha
      rw [ho] at ha
      simp only at ha
      rcases he : exec (GoServer.serveHTTP c r) ⟨false, st⟩ call.local with ⟨_ | _ | _, _, _⟩ <;>
        rw [he] at ha <;> cases ha
    · rintro ⟨_, _, _, _, ⟨r', ho', _⟩, _⟩
      rw [ho] at ho'
      cases ho'
  · rw [(serving_step i3 (i2 ▸ hcall : ∀ n, c.Serves st.config (call.clock n))).1 hi]
    have hs : Started (g₀.seen GoTime.reading) :=
      ⟨by show seenMap _ g₀.accessTokens = _; rw [h0.access]; rfl,
        by show seenMap _ g₀.refreshTokens = _; rw [h0.refresh]; rfl,
        by show seenMap _ g₀.authorizationCodes = _; rw [h0.codes]; rfl⟩
    exact C27_admits_iff hs i5 (call.seen c.mono)

/-- **C81.** Two servers that receive the same calls while the monotonic clock shows the same give the
same answers, except to introspection, however differently the wall clock is set. -/
theorem C81_wall_clock {c' : Clocks} {h' : List Event} {g' : Shared GoServer}
    (h0 : g₀.Times GoTime.Monotonic) (hh : GoHistory c g₀ h g) (hh' : GoHistory c' g₀ h' g')
    (hcalls : h.map (·.call) = h'.map (·.call)) (hm : ∀ t, c.mono t = c'.mono t)
    (hc : ∀ e ∈ h, ∀ n, c.Serves g₀.config (e.call.clock n))
    (hc' : ∀ e ∈ h', ∀ n, c'.Serves g₀.config (e.call.clock n)) : ButIntrospection id h h' := by
  have hm : c.mono = c'.mono := funext hm
  suffices hs : ButIntrospection id h h' ∧ g.st.seen GoTime.reading = g'.st.seen GoTime.reading from
    hs.1
  induction hh generalizing h' g' with
  | start =>
    cases hh' with
    | start => exact ⟨.nil, rfl⟩
    | next call hh' => cases hcalls
  | @next h g call hh ih =>
    cases hh' with
    | start => cases hcalls
    | @next h' g' call' hh' =>
      injection hcalls with e1 e2
      obtain rfl : call = call' := e1
      have k := fun e he => hc e (List.mem_cons_of_mem _ he)
      have k' := fun e he => hc' e (List.mem_cons_of_mem _ he)
      obtain ⟨j1, j2⟩ := ih hh' e2 k k'
      obtain ⟨⟨a1, a2, a3⟩, -⟩ := serving_history h0 hh k
      obtain ⟨⟨b1, b2, b3⟩, -⟩ := serving_history h0 hh' k'
      obtain ⟨b, st⟩ := g
      obtain ⟨b', st'⟩ := g'
      obtain rfl : b = false := a1
      obtain rfl : b' = false := b1
      have a2 : st.config = g₀.config := a2
      have b2 : st'.config = g₀.config := b2
      obtain ⟨s1, -, -, s4, -⟩ := serving_step a3
        (a2 ▸ hc _ (List.mem_cons_self ..) : ∀ n, c.Serves st.config (call.clock n))
      obtain ⟨t1, -, -, t4, -⟩ := serving_step b3
        (b2 ▸ hc' _ (List.mem_cons_self ..) : ∀ n, c'.Serves st'.config (call.clock n))
      have j2 : st.seen GoTime.reading = st'.seen GoTime.reading := j2
      refine ⟨.cons ⟨call, _⟩ _ (fun hn => ?_) j1, ?_⟩
      · rw [t1 hn, s1 hn, j2, hm]
      · rw [t4, s4, j2, hm]

/-! ### A day passes at once -/

namespace GoDemo

/-- A server with nothing issued; access tokens last for `life` seconds. -/
def server (life : Int64) : GoServer where
  config := {
    secret := b!"key", keyLength := 2, allowedScope := some [b!"foo", b!"bar"],
    accessTokenLifespan := life * 1000000000, refreshTokenLifespan := 604800 * 1000000000,
    authorizationCodeLifespan := 600 * 1000000000 }
  clients := Demo.server.clients
  users := Demo.server.users
  accessTokens := []
  refreshTokens := []
  authorizationCodes := []

theorem started (life : Int64) : GoStarted (server life) := ⟨rfl, rfl, rfl⟩

/-- The program starts in September 2020. From the given second to the other one, the wall clock is
set ahead by so many seconds. -/
def clocks (start stop ahead : Int) : Clocks where
  read t := {
    sec := .ofInt (1600000000 + t / second +
      if start ≤ t / second ∧ t / second < stop then ahead else 0)
    nsec := .ofInt (t % second)
    mono := .ofInt t }
  startNano := 0

/-- A call of Lemmas/Demo.lean at one instant. -/
def at' (call : Call) (sec : Int) : Call := { call with clock := fun _ => sec * second }

/-- The token is issued. -/
def issue : Call := at' Demo.c1 1000

/-- The token is introspected. -/
def ask (sec : Int) : Call :=
  at' (Demo.post b!"/introspect" b!"c1:s1" (b!"token=" ++ Demo.a1.string) [] 0) sec

/-- The token is presented. -/
def present (sec : Int) : Call := at' (Demo.present Demo.a1.string none 0) sec

theorem serves (cfg : GoConfig) (c : Clocks) (t : Time)
    (hn : 0 ≤ (c.read t).nsec.toInt ∧ (c.read t).nsec.toInt < 1000000000)
    (hy : -2682288000 ≤ (c.read t).sec.toInt ∧ (c.read t).sec.toInt < 5907646592)
    (hm : 0 ≤ c.mono t ∧ c.mono t < 2 ^ 63)
    (hl : ∀ d ∈ [cfg.accessTokenLifespan, cfg.refreshTokenLifespan, cfg.authorizationCodeLifespan],
      -2682288000 * 1000000000 ≤ c.wall t + d.toInt ∧ c.wall t + d.toInt < 5907646592 * 1000000000 ∧
        c.mono t + d.toInt < 2 ^ 63) : c.Serves cfg t :=
  ⟨⟨hn, hy, hm⟩, fun d hd => ⟨(hl d hd).1, (hl d hd).2.1, (hl d hd).2.2⟩⟩

theorem serves1000 : (clocks 1100 2000 86400).Serves (server 3600).config (1000 * second) :=
  serves _ _ _ (by decide +kernel) (by decide +kernel) (by decide +kernel) (by decide +kernel)

theorem serves1200 : (clocks 1100 2000 86400).Serves (server 3600).config (1200 * second) :=
  serves _ _ _ (by decide +kernel) (by decide +kernel) (by decide +kernel) (by decide +kernel)

theorem presents (sec : Int) : Presents (present sec) none Demo.a1.string :=
  ⟨_, rfl, (C09_bearer_accept_iff _ _).mp (by decide +kernel)⟩

theorem answered_body {a : Answer} {b : Str}
    (h : (match a with | .answered res => decide (res.body = b) | _ => false) = true) :
    ∃ res, a = .answered res ∧ res.body = b := by
  cases a with
  | answered res => exact ⟨res, rfl, of_decide_eq_true h⟩
  | _ => cases h

theorem rejected_status {a : Answer} {n : Nat}
    (h : (match a with | .rejected res => decide (res.statusCode = n) | _ => false) = true) :
    ∃ res, a = .rejected res ∧ res.statusCode = n := by
  cases a with
  | rejected res => exact ⟨res, rfl, of_decide_eq_true h⟩
  | _ => cases h

end GoDemo

/-- **C81.** The end of the life of a token that introspection tells can have passed while `Authorize`
still returns true: the wall clock was set forward after the token had been issued. -/
theorem C81_exp_passed : ∃ (c : Clocks) (g₀ : GoServer) (h : List Event) (g : Shared GoServer)
    (ask present : Call) (text : Str), GoStarted g₀ ∧ GoHistory c g₀ h g ∧
      (∀ e ∈ h, ∀ n, c.Serves g₀.config (e.call.clock n)) ∧
      (∀ n, c.Serves g₀.config (present.clock n)) ∧ Presents present none text ∧
      (goStep c g present).1 = .admitted ∧
      (∃ res, (goStep c g ask).1 = .answered res ∧ res.body =
        b!"{\"active\":true,\"scope\":\"foo\",\"client_id\":\"c1\",\"username\":\"u1\"," ++
          b!"\"token_type\":\"access_token\",\"exp\":1600004600}\n") ∧
      1600004600 * 1000000000 < c.wall (present.clock 0) := by
  refine ⟨GoDemo.clocks 1100 2000 86400, GoDemo.server 3600, _, _, GoDemo.ask 1200, GoDemo.present 1200,
    Demo.a1.string, GoDemo.started _, .next GoDemo.issue .start, ?_, fun _ => GoDemo.serves1200,
    GoDemo.presents _, by decide +kernel, GoDemo.answered_body (by decide +kernel), by decide +kernel⟩
  intro e he n
  rw [List.mem_singleton] at he
  subst he
  exact GoDemo.serves1000

/-- **C81.** It can also still lie ahead when `Authorize` refuses the token as expired: the wall clock was
set back. -/
theorem C81_exp_ahead : ∃ (c : Clocks) (g₀ : GoServer) (h : List Event) (g : Shared GoServer)
    (ask present : Call) (text : Str), GoStarted g₀ ∧ GoHistory c g₀ h g ∧
      (∀ e ∈ h, ∀ n, c.Serves g₀.config (e.call.clock n)) ∧
      (∀ n, c.Serves g₀.config (present.clock n)) ∧ Presents present none text ∧
      (∃ res, (goStep c g present).1 = .rejected res ∧ res.statusCode = 401) ∧
      (∃ res, (goStep c g ask).1 = .answered res ∧ res.body =
        b!"{\"active\":true,\"scope\":\"foo\",\"client_id\":\"c1\",\"username\":\"u1\"," ++
          b!"\"token_type\":\"access_token\",\"exp\":1600004600}\n") ∧
      c.wall (present.clock 0) < 1600004600 * 1000000000 := by
  refine ⟨GoDemo.clocks 1100 9000 (-86400), GoDemo.server 3600, _, _, GoDemo.ask 4601,
    GoDemo.present 4601, Demo.a1.string, GoDemo.started _, .next GoDemo.issue .start, ?_, ?_,
    GoDemo.presents _, GoDemo.rejected_status (by decide +kernel),
    GoDemo.answered_body (by decide +kernel), by decide +kernel⟩
  · intro e he n
    rw [List.mem_singleton] at he
    subst he
    exact (GoDemo.serves _ _ _ (by decide +kernel) (by decide +kernel) (by decide +kernel)
      (by decide +kernel) : (GoDemo.clocks 1100 9000 (-86400)).Serves (GoDemo.server 3600).config (1000 * second))
  · intro n
    exact (GoDemo.serves _ _ _ (by decide +kernel) (by decide +kernel) (by decide +kernel)
      (by decide +kernel) : (GoDemo.clocks 1100 9000 (-86400)).Serves (GoDemo.server 3600).config (4601 * second))

/-- **C81.** If the wall clock is set to a date after March 2157 and back again, then a token is refused
as expired and admitted later. Thus the dates must be ordinary in the theorems above. -/
theorem C81_revived : ∃ (c : Clocks) (g₀ : GoServer) (h : List Event) (g : Shared GoServer)
    (first second : Call) (text : Str), GoStarted g₀ ∧ GoHistory c g₀ h g ∧
      Presents first none text ∧ Presents second none text ∧
      c.mono (first.clock 0) < c.mono (second.clock 0) ∧
      (∃ res, (goStep c g first).1 = .rejected res ∧ res.statusCode = 401) ∧
      (goStep c (goStep c g first).2 second).1 = .admitted :=
  ⟨GoDemo.clocks 1100 1150 5000000000, GoDemo.server 3600, _, _, GoDemo.present 1120,
    GoDemo.present 1200, Demo.a1.string, GoDemo.started _, .next GoDemo.issue .start,
    GoDemo.presents _, GoDemo.presents _, by decide +kernel,
    GoDemo.rejected_status (by decide +kernel), by decide +kernel⟩

/-! ### Non-vacuity -/

/-- Clocks that nobody sets go on together; a lifespan of two hundred years does not outlast them, and
one of ninety minutes ends. -/
example : (GoDemo.clocks 0 0 0).Steady 1600000000000000000 (1000 * second) ∧
    (GoDemo.clocks 0 0 0).Steady 1600000000000000000 (7000 * second) ∧
    (((GoDemo.clocks 0 0 0).now (1000 * second)).add 5400000000000).before
      ((GoDemo.clocks 0 0 0).now (7000 * second)) = true ∧
    (((GoDemo.clocks 0 0 0).now (1000 * second)).add 6300000000000000000).before
      ((GoDemo.clocks 0 0 0).now (7000 * second)) = false :=
  ⟨⟨⟨by decide +kernel, by decide +kernel, by decide +kernel⟩, by decide +kernel⟩,
    ⟨⟨by decide +kernel, by decide +kernel, by decide +kernel⟩, by decide +kernel⟩,
    by decide +kernel, by decide +kernel⟩

/-- While the wall clock is set a day ahead, the monotonic clock decides about an hour, and the wall
clock about two hundred years. -/
example : (GoDemo.clocks 1100 2000 86400).Ordinary (1000 * second) ∧
    (GoDemo.clocks 1100 2000 86400).Ordinary (1200 * second) ∧
    (GoDemo.clocks 1100 2000 86400).Lasts (1000 * second) 3600000000000 ∧
    5907646592 * 1000000000 ≤
      (GoDemo.clocks 1100 2000 86400).wall (1000 * second) + (6300000000000000000 : Int64).toInt ∧
    (((GoDemo.clocks 1100 2000 86400).now (1000 * second)).add 3600000000000).before
      ((GoDemo.clocks 1100 2000 86400).now (1200 * second)) = false ∧
    (((GoDemo.clocks 1100 2000 86400).now (1000 * second)).add 100000000000).before
      ((GoDemo.clocks 1100 2000 86400).now (1200 * second)) = true :=
  ⟨GoDemo.serves1000.ordinary, GoDemo.serves1200.ordinary, GoDemo.serves1000.lasts _ (by decide +kernel),
    by decide +kernel, by decide +kernel, by decide +kernel⟩

/-- A history while the clocks go on together, in which a token is issued, admitted and refused as
expired. -/
example : ∃ h g, GoHistory (GoDemo.clocks 0 0 0) (GoDemo.server 3600) h g ∧
    (∀ e ∈ h, ∀ n, (GoDemo.clocks 0 0 0).Steady 1600000000000000000 (e.call.clock n)) ∧
    h.map (·.call) = [GoDemo.present 4601, GoDemo.present 4600, GoDemo.issue] ∧
    (∃ e ∈ h, e.answer = .admitted) ∧ ∃ e ∈ h, ∃ res, e.answer = .rejected res := by
  refine ⟨_, _, .next (GoDemo.present 4601) (.next (GoDemo.present 4600) (.next GoDemo.issue .start)),
    ?_, rfl, ⟨_, .tail _ (.head _), by decide +kernel⟩,
    ⟨_, .head _, (GoDemo.rejected_status (n := 401) (by decide +kernel)).imp fun _ h => h.1⟩⟩
  intro e he n
  rcases he with _ | ⟨_, he⟩
  · exact (⟨⟨by decide +kernel, by decide +kernel, by decide +kernel⟩, by decide +kernel⟩ :
      (GoDemo.clocks 0 0 0).Steady 1600000000000000000 (4601 * second))
  rcases he with _ | ⟨_, he⟩
  · exact (⟨⟨by decide +kernel, by decide +kernel, by decide +kernel⟩, by decide +kernel⟩ :
      (GoDemo.clocks 0 0 0).Steady 1600000000000000000 (4600 * second))
  rcases he with _ | ⟨_, he⟩
  · exact (⟨⟨by decide +kernel, by decide +kernel, by decide +kernel⟩, by decide +kernel⟩ :
      (GoDemo.clocks 0 0 0).Steady 1600000000000000000 (1000 * second))
  · cases he

/-- Two histories of the same calls, one while the wall clock is set ahead and one while nobody sets
it, and introspection in both. -/
example : ∃ h g h' g', GoHistory (GoDemo.clocks 1100 2000 86400) (GoDemo.server 3600) h g ∧
    GoHistory (GoDemo.clocks 0 0 0) (GoDemo.server 3600) h' g' ∧
    h.map (·.call) = h'.map (·.call) ∧ h.length = 3 ∧
    (∀ t, (GoDemo.clocks 1100 2000 86400).mono t = (GoDemo.clocks 0 0 0).mono t) ∧
    (GoDemo.clocks 1100 2000 86400).wall (1200 * second) ≠ (GoDemo.clocks 0 0 0).wall (1200 * second) ∧
    (∀ e ∈ h, ∀ n, (GoDemo.clocks 1100 2000 86400).Serves (GoDemo.server 3600).config (e.call.clock n)) ∧
    ∀ e ∈ h', ∀ n, (GoDemo.clocks 0 0 0).Serves (GoDemo.server 3600).config (e.call.clock n) := by
  refine ⟨_, _, _, _, .next (GoDemo.present 1200) (.next (GoDemo.ask 1200) (.next GoDemo.issue .start)),
    .next (GoDemo.present 1200) (.next (GoDemo.ask 1200) (.next GoDemo.issue .start)),
    by simp only [List.map], by simp only [List.length], fun _ => rfl, by decide +kernel, ?_, ?_⟩
  · intro e he n
    rcases he with _ | ⟨_, _ | ⟨_, _ | ⟨_, he⟩⟩⟩
    · exact GoDemo.serves1200
    · exact GoDemo.serves1200
    · exact GoDemo.serves1000
    · cases he
  · have h1 : (GoDemo.clocks 0 0 0).Serves (GoDemo.server 3600).config (1200 * second) :=
      GoDemo.serves _ _ _ (by decide +kernel) (by decide +kernel) (by decide +kernel) (by decide +kernel)
    have h2 : (GoDemo.clocks 0 0 0).Serves (GoDemo.server 3600).config (1000 * second) :=
      GoDemo.serves _ _ _ (by decide +kernel) (by decide +kernel) (by decide +kernel) (by decide +kernel)
    intro e he n
    rcases he with _ | ⟨_, _ | ⟨_, _ | ⟨_, he⟩⟩⟩
    · exact h1
    · exact h1
    · exact h2
    · cases he

/-- An introspection request, and a server with a stored time that Go makes. -/
example : IntrospectCall (GoDemo.ask 1200) ∧
    (goStep (GoDemo.clocks 0 0 0) ⟨false, GoDemo.server 3600⟩ GoDemo.issue).2.st.Times GoTime.Proper ∧
    (goStep (GoDemo.clocks 0 0 0) ⟨false, GoDemo.server 3600⟩ GoDemo.issue).2.st.accessTokens.length = 1 := by
  refine ⟨⟨_, rfl, by decide +kernel⟩, ?_, by decide +kernel⟩
  have h := steady_step (c := GoDemo.clocks 0 0 0) (δ := 1600000000000000000) (st := GoDemo.server 3600)
    (call := GoDemo.issue) ⟨fun _ h => (nomatch h), fun _ h => (nomatch h), fun _ h => (nomatch h)⟩
    (fun _ => (⟨⟨by decide +kernel, by decide +kernel, by decide +kernel⟩, by decide +kernel⟩ :
      (GoDemo.clocks 0 0 0).Steady 1600000000000000000 (1000 * second)))
  exact ⟨fun e he => (h.2.1.access e he).proper, fun e he => (h.2.1.refresh e he).proper,
    fun e he => (h.2.1.codes e he).proper⟩

end OAuth2

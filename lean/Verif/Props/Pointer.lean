import Verif.Lemmas.PointerSim
import Verif.Props.Store
/-
C77: pointers, nil and sharing in the public maps of a server.
-/

namespace OAuth2

open Spec

section
variable {d : Fill} {r : RefServer}

/-- A locked call in both models. -/
theorem sim_locked {α : Type} {p : Prog RefServer α} {q : Prog Server α}
    (h : SimAt False (AgreeMarked d) r (contents d r) p q) (l : Local) :
    (∃ r' l', exec (.lock (.deferUnlock p)) ⟨false, r⟩ l = (.panic, ⟨false, r'⟩, l') ∧
      l'.w = l.w ∧ Steps r r' ∧ ¬ Whole r) ∨
    (∃ o r' s' lk l', exec (.lock (.deferUnlock p)) ⟨false, r⟩ l = (o, ⟨lk, r'⟩, l') ∧
      exec (.lock (.deferUnlock q)) ⟨false, contents d r⟩ l = (o, ⟨lk, s'⟩, l') ∧
      contents d r' = spread r' s' ∧ Steps r r') := by
  show (∃ r' l', exec (.deferUnlock p) ⟨true, r⟩ l = _ ∧ _) ∨
    (∃ o r' s' lk l', exec (.deferUnlock p) ⟨true, r⟩ l = _ ∧
      exec (.deferUnlock q) ⟨true, contents d r⟩ l = _ ∧ _)
  rw [exec_deferUnlock, exec_deferUnlock]
  rcases h true l with ⟨r', l', h1, h2, h3, h4⟩ | ⟨o, r', s', l', h1, h2, h3, h4, -⟩
  · rw [h1]
    exact .inl ⟨r', l', rfl, h2, h3, h4⟩
  · rw [h1, h2]
    cases o with
    | ret a => exact .inr ⟨_, r', s', false, l', rfl, rfl, h3, h4⟩
    | panic => exact .inr ⟨_, r', s', false, l', rfl, rfl, h3, h4⟩
    | deadlock => exact .inr ⟨_, r', s', true, l', rfl, rfl, h3, h4⟩

/-- What one call does in both models. -/
theorem refStep_cases (hr : Memory r) (c : RefCall) :
    (((refStep ⟨false, r⟩ c).1 = .panicked {} ∧ (refStep ⟨false, r⟩ c).2.locked = false ∧
        ¬ Whole r) ∨
      ((refStep ⟨false, r⟩ c).1 = (step ⟨false, contents d r⟩ (c.seen d)).1 ∧
        (refStep ⟨false, r⟩ c).2.locked = (step ⟨false, contents d r⟩ (c.seen d)).2.locked ∧
        contents d (refStep ⟨false, r⟩ c).2.st =
          spread (refStep ⟨false, r⟩ c).2.st (step ⟨false, contents d r⟩ (c.seen d)).2.st)) ∧
    ((∀ clients users entities, c.op ≠ .configure clients users entities) →
      Steps r (refStep ⟨false, r⟩ c).2.st) := by
  obtain ⟨op, coins, clock⟩ := c
  cases op with
  | serve rq =>
    unfold refStep step RefCall.seen Call.local
    simp only
    rcases sim_locked (sim_serve (d := d) hr rq) { coins := coins, clock := clock } with
      ⟨r', l', h1, h2, h3, h4⟩ | ⟨o, r', s', lk, l', h1, h2, h3, h4⟩
    · rw [show exec (RefServer.serveHTTP rq) ⟨false, r⟩ _ = _ from h1]
      simp only
      rw [h2]
      exact ⟨.inl ⟨rfl, trivial, h4⟩, fun _ => h3⟩
    · rw [show exec (RefServer.serveHTTP rq) ⟨false, r⟩ _ = _ from h1,
        show exec (Server.serveHTTP rq) ⟨false, contents d r⟩ _ = _ from h2]
      cases o <;> exact ⟨.inr ⟨rfl, rfl, h3⟩, fun _ => h4⟩
  | authorize rq required =>
    unfold refStep step RefCall.seen Call.local
    simp only
    rcases sim_locked (sim_authorize (d := d) hr rq required) { coins := coins, clock := clock } with
      ⟨r', l', h1, h2, h3, h4⟩ | ⟨o, r', s', lk, l', h1, h2, h3, h4⟩
    · rw [show exec (RefServer.authorize rq required) ⟨false, r⟩ _ = _ from h1]
      simp only
      rw [h2]
      exact ⟨.inl ⟨rfl, trivial, h4⟩, fun _ => h3⟩
    · rw [show exec (RefServer.authorize rq required) ⟨false, r⟩ _ = _ from h1,
        show exec (Server.authorize rq required) ⟨false, contents d r⟩ _ = _ from h2]
      cases o with
      | ret a => cases a <;> exact ⟨.inr ⟨rfl, rfl, h3⟩, fun _ => h4⟩
      | panic => exact ⟨.inr ⟨rfl, rfl, h3⟩, fun _ => h4⟩
      | deadlock => exact ⟨.inr ⟨rfl, rfl, h3⟩, fun _ => h4⟩
  | configure clients users entities =>
    refine ⟨.inr ⟨rfl, rfl, ?_⟩, fun h => absurd rfl (h clients users entities)⟩
    have hr' : Memory { r with clients := clients, users := users, entities := entities } :=
      ⟨hr.accessKeys, hr.refreshKeys, hr.codeKeys, hr.valid⟩
    exact (spread_contents hr').symm

/-- **C77.** Whatever is stored in the maps, nil pointers, nil maps and shared objects included, a call
either panics over something nil, with nothing written to the response and leaving the mutex free; or it answers
as if the maps held the objects themselves (with anything in the place of nil), and leaves them as they
would be left, except that a code's mark of use shows wherever its object is stored. -/
theorem C77_same (d : Fill) (hr : Memory r) (c : RefCall) :
    (refStep ⟨false, r⟩ c).2.locked = false ∧
    (((refStep ⟨false, r⟩ c).1 = .panicked {} ∧ ¬ Whole r) ∨
      ((refStep ⟨false, r⟩ c).1 = (step ⟨false, contents d r⟩ (c.seen d)).1 ∧
        contents d (refStep ⟨false, r⟩ c).2.st =
          spread (refStep ⟨false, r⟩ c).2.st (step ⟨false, contents d r⟩ (c.seen d)).2.st)) := by
  rcases (refStep_cases (d := d) hr c).1 with ⟨h1, h2, h3⟩ | ⟨h1, h2, h3⟩
  · exact ⟨h2, .inl ⟨h1, h3⟩⟩
  · exact ⟨h2.trans (step_unlocked _ _), .inr ⟨h1, h3⟩⟩

/-- **C77.** The server keeps what it is given: the registrations, and the objects that the maps point
to, stay as they are, except that a credential may become used. -/
theorem C77_kept (hr : Memory r) (c : RefCall)
    (hc : ∀ clients users entities, c.op ≠ .configure clients users entities) :
    Kept r (refStep ⟨false, r⟩ c).2.st := ((refStep_cases (d := {}) hr c).2 hc).kept

theorem steps_of_call (hr : Memory r) (c : RefCall) :
    Memory (refStep ⟨false, r⟩ c).2.st ∧ (c.NoNil → Whole r → Whole (refStep ⟨false, r⟩ c).2.st) ∧
      (Unshared r → Unshared (refStep ⟨false, r⟩ c).2.st) ∧
      (refStep ⟨false, r⟩ c).2.st.config = r.config ∧
      ∀ (a : Nat) x, r.credentials[a]? = some x →
        (refStep ⟨false, r⟩ c).2.st.credentials[a]? = some x ∨
          (refStep ⟨false, r⟩ c).2.st.credentials[a]? = some { x with used := true } := by
  have key : (∀ clients users entities, c.op ≠ .configure clients users entities) → _ :=
    (refStep_cases (d := {}) hr c).2
  obtain ⟨op, coins, clock⟩ := c
  cases op with
  | configure clients users entities =>
    refine ⟨⟨hr.accessKeys, hr.refreshKeys, hr.codeKeys, hr.valid⟩, fun hc hw => ?_,
      fun hu => ⟨hu.codes, hu.tokens⟩, rfl, fun a x hx => .inl hx⟩
    exact ⟨hw.accessTokens, hw.refreshTokens, hw.authorizationCodes, hc clients users entities rfl,
      hw.credentials⟩
  | serve rq =>
    have hs := key fun _ _ _ h => by cases h
    exact ⟨hs.memory hr, fun _ => hs.whole, hs.unshared hr, hs.kept.config, hs.kept.credentials⟩
  | authorize rq required =>
    have hs := key fun _ _ _ h => by cases h
    exact ⟨hs.memory hr, fun _ => hs.whole, hs.unshared hr, hs.kept.config, hs.kept.credentials⟩

/-- **C77.** Nothing becomes nil, and no code's object becomes shared, by a call. -/
theorem C77_stays (hr : Memory r) (c : RefCall) (hc : c.NoNil) :
    Memory (refStep ⟨false, r⟩ c).2.st ∧ (Whole r → Whole (refStep ⟨false, r⟩ c).2.st) ∧
      (Unshared r → Unshared (refStep ⟨false, r⟩ c).2.st) :=
  ⟨(steps_of_call hr c).1, (steps_of_call hr c).2.1 hc, (steps_of_call hr c).2.2.1⟩

theorem spread_unshared {r' : RefServer} {s : Server} (hm : Memory r') (hu : Unshared r')
    (hw : Whole r') (h : contents d r' = spread r' s) : contents d r' = s := by
  have key : ∀ (m : RefMap) (v : GoMap ServerCredential),
      credentialsOf r' d m = spreadMap r' s m v →
      (GoMap.keys (Option.getD m [])).Nodup →
      (∀ e ∈ Option.getD m [], usedPointer r' s e.2 = true →
        (GoMap.get? v e.1).any (·.used) = true) →
      spreadMap r' s m v = v := by
    intro m v h hn hall
    have hkeys : (Option.getD m []).map (·.1) = v.map (·.1) := by
      have := congrArg (List.map (·.1)) h
      simpa [credentialsOf, spreadMap, List.map_map, Function.comp_def] using this
    unfold spreadMap
    refine (List.map_congr_left fun e he => ?_).trans (List.map_id v)
    have hk : e.1 ∈ (Option.getD m []).map (·.1) := by
      rw [hkeys]; exact List.mem_map_of_mem he
    obtain ⟨e', he', hee⟩ := List.mem_map.1 hk
    have hl : m.lookup e.1 = some e'.2 := by rw [← hee]; exact lookup_of_mem hn he'
    have hv : GoMap.get? v e.1 = some e.2 := GoMap.get?_of_mem (by
      show (v.map (·.1)).Nodup
      rw [← hkeys]; exact hn) he
    rw [hl, Option.getD_some]
    have := hall e' he'
    rw [hee, hv] at this
    rw [used_or _ _ (by simpa using this)]
    rfl
  have hptr : ∀ p, usedPointer r' s p = true → ∃ k, (k, p) ∈ Option.getD r'.authorizationCodes [] ∧
      (GoMap.get? s.authorizationCodes k).any (·.used) = true ∧ ∃ a, p = some a := by
    intro p hp
    unfold usedPointer at hp
    obtain ⟨e, he, hp⟩ := List.any_eq_true.1 hp
    simp only [Bool.and_eq_true, decide_eq_true_eq] at hp
    obtain ⟨k, q⟩ := e
    obtain ⟨rfl, h2⟩ := hp
    refine ⟨k, he, h2, ?_⟩
    have := hw.credentials k q (mem_stored_code he)
    cases q with
    | none => cases this
    | some a => exact ⟨a, rfl⟩
  have ha : spreadMap r' s r'.accessTokens s.accessTokens = s.accessTokens := by
    refine key _ _ (congrArg (·.accessTokens) h) hm.accessKeys fun e he hp => ?_
    obtain ⟨k, hk, -, a, hpa⟩ := hptr _ hp
    obtain ⟨k', p⟩ := e
    simp only at hpa hk he
    subst hpa
    exact absurd (List.mem_append.2 (.inl he)) (hu.tokens k k' a hk)
  have hb : spreadMap r' s r'.refreshTokens s.refreshTokens = s.refreshTokens := by
    refine key _ _ (congrArg (·.refreshTokens) h) hm.refreshKeys fun e he hp => ?_
    obtain ⟨k, hk, -, a, hpa⟩ := hptr _ hp
    obtain ⟨k', p⟩ := e
    simp only at hpa hk he
    subst hpa
    exact absurd (List.mem_append.2 (.inr he)) (hu.tokens k k' a hk)
  have hc : spreadMap r' s r'.authorizationCodes s.authorizationCodes = s.authorizationCodes := by
    refine key _ _ (congrArg (·.authorizationCodes) h) hm.codeKeys fun e he hp => ?_
    obtain ⟨k, hk, hused, a, hpa⟩ := hptr _ hp
    obtain ⟨k', p⟩ := e
    simp only at hpa hk he
    subst hpa
    rw [hu.codes k k' a hk he]
    exact hused
  rw [h]
  unfold spread
  rw [ha, hb, hc]

/-- **C77.** If nothing is nil and no code's object is stored twice, a call does exactly what it does
on maps that hold the objects themselves. -/
theorem C77_exact (d : Fill) (hr : Memory r) (hw : Whole r) (hu : Unshared r) (c : RefCall)
    (hc : c.NoNil) :
    (refStep ⟨false, r⟩ c).1 = (step ⟨false, contents d r⟩ (c.seen d)).1 ∧
      (step ⟨false, contents d r⟩ (c.seen d)).2 =
        ⟨false, contents d (refStep ⟨false, r⟩ c).2.st⟩ := by
  obtain ⟨-, h | ⟨h1, h2⟩⟩ := C77_same d hr c
  · exact absurd hw h.2
  · obtain ⟨k1, k2, k3⟩ := C77_stays hr c hc
    refine ⟨h1, ?_⟩
    have hl := step_unlocked (contents d r) (c.seen d)
    rw [spread_unshared k1 (k3 hu) (k2 hw) h2]
    generalize (step ⟨false, contents d r⟩ (c.seen d)).2 = s' at hl
    obtain ⟨lk, st⟩ := s'
    cases hl
    rfl

/-- **C77.** So do histories: what a program sees of a server whose maps hold pointers is a history of
the server whose maps hold the objects. -/
theorem C77_history (d : Fill) (hr : Memory r) (hw : Whole r) (hu : Unshared r)
    {h : List RefEvent} {r' : Shared RefServer} (hh : RefHistory r h r')
    (hc : ∀ e ∈ h, e.call.NoNil) :
    History (contents d r) (h.map (·.seen d)) ⟨r'.locked, contents d r'.st⟩ ∧
      r'.locked = false ∧ Memory r'.st ∧ Whole r'.st ∧ Unshared r'.st := by
  induction hh with
  | start => exact ⟨.start, rfl, hr, hw, hu⟩
  | @next h r' c hh ih =>
    obtain ⟨h1, h2, h3, h4, h5⟩ := ih fun e he => hc e (List.mem_cons_of_mem _ he)
    obtain ⟨lk, st⟩ := r'
    cases h2
    have hcc := hc _ List.mem_cons_self
    obtain ⟨k1, k2⟩ := C77_exact d h3 h4 h5 c hcc
    obtain ⟨j1, j2, j3⟩ := C77_stays h3 c hcc
    have hl := (C77_same d h3 c).1
    refine ⟨?_, hl, j1, j2 h4, j3 h5⟩
    have := History.next (c.seen d) h1
    rw [k2, ← k1] at this
    rw [hl]
    exact this

/-- **C77.** A new server is such a server: the empty one. -/
theorem C77_new (d : Fill) (config : ServerConfig) :
    Memory (RefServer.new config) ∧ Whole (RefServer.new config) ∧ Unshared (RefServer.new config) ∧
      contents d (RefServer.new config) = newServer config := by
  refine ⟨⟨.nil, .nil, .nil, fun _ _ h => nomatch h⟩,
    ⟨Option.some_ne_none _, Option.some_ne_none _, Option.some_ne_none _, fun _ _ h => (nomatch h),
      fun _ _ h => (nomatch h)⟩,
    ⟨fun _ _ _ h => (nomatch h), fun _ _ _ h => (nomatch h)⟩, rfl⟩

/-- Without access tokens `Authorize` does the same in both models. -/
theorem no_tokens {r : RefServer} {s : Server} (hc : s.config = r.config)
    (hr : ∀ k, r.accessTokens.lookup k = none)
    (hs : s.accessTokens = []) (rq : Request) (required : Scope) (b : Bool) (l : Local) :
    ∃ o l', exec (RefServer.authorizeLocked rq required) ⟨b, r⟩ l = (o, ⟨b, r⟩, l') ∧
      exec (Server.authorizeLocked rq required) ⟨b, s⟩ l = (o, ⟨b, s⟩, l') := by
  have fl := fun e =>
    (Twin.bind (.failBearer e) fun _ => Twin.pure false).exec b r s l
  unfold RefServer.authorizeLocked Server.authorizeLocked
  cases parseBearerToken rq with
  | error e => exact fl _
  | ok tk =>
    simp only [exec_getS_bind, hc]
    cases HS256Token.parse r.config.secret tk with
    | error e => exact fl _
    | ok token =>
      simp only [exec_getS_bind, hr, hs, GoMap.get?_nil]
      exact fl _

/-- **C77.** The zero value of `Server` (with its configuration), whose maps are nil, answers every
request as a new server does, and never panics over its maps. -/
theorem C77_zero (config : ServerConfig) (c : RefCall)
    (hc : ∀ clients users entities, c.op ≠ .configure clients users entities) :
    refStep ⟨false, { config := config }⟩ c =
      ((step ⟨false, newServer config⟩ (c.seen {})).1, ⟨false, { config := config }⟩) := by
  obtain ⟨op, coins, clock⟩ := c
  cases op with
  | serve rq =>
    obtain ⟨o, l', h1, h2⟩ := no_clients (r := { config := config }) (s := newServer config)
      (fun _ => rfl) rfl rq true { coins := coins, clock := clock }
    have hl := step_unlocked (newServer config)
      ((⟨.serve rq, coins, clock⟩ : RefCall).seen {})
    unfold refStep step RefCall.seen Call.local at *
    simp only at hl ⊢
    have e1 : exec (RefServer.serveHTTP rq) ⟨false, { config := config }⟩
        { coins := coins, clock := clock } = _ := exec_deferUnlock (RefServer.serveLocked rq)
          ⟨true, { config := config }⟩ { coins := coins, clock := clock }
    have e2 : exec (Server.serveHTTP rq) ⟨false, newServer config⟩
        { coins := coins, clock := clock } = _ := exec_deferUnlock (Server.serveLocked rq)
          ⟨true, newServer config⟩ { coins := coins, clock := clock }
    rw [h1] at e1
    rw [h2] at e2
    rw [e2] at hl
    rw [e1, e2]
    cases o with
    | ret a => rfl
    | panic => rfl
    | deadlock => cases hl
  | authorize rq required =>
    obtain ⟨o, l', h1, h2⟩ := no_tokens (r := { config := config }) (s := newServer config)
      rfl (fun _ => rfl) rfl rq required true { coins := coins, clock := clock }
    have hl := step_unlocked (newServer config)
      ((⟨.authorize rq required, coins, clock⟩ : RefCall).seen {})
    unfold refStep step RefCall.seen Call.local at *
    simp only at hl ⊢
    have e1 : exec (RefServer.authorize rq required) ⟨false, { config := config }⟩
        { coins := coins, clock := clock } = _ :=
      exec_deferUnlock (RefServer.authorizeLocked rq required)
          ⟨true, { config := config }⟩ { coins := coins, clock := clock }
    have e2 : exec (Server.authorize rq required) ⟨false, newServer config⟩
        { coins := coins, clock := clock } = _ :=
      exec_deferUnlock (Server.authorizeLocked rq required)
          ⟨true, newServer config⟩ { coins := coins, clock := clock }
    rw [h1] at e1
    rw [h2] at e2
    rw [e2] at hl
    rw [e1, e2]
    cases o with
    | ret a => cases a <;> rfl
    | panic => rfl
    | deadlock => cases hl
  | configure clients users entities => exact absurd rfl (hc clients users entities)

/-! ### Shared codes -/

/-- What redeeming a code takes and does on maps that hold the objects. -/
theorem redeems_value {s : Server} {c : Call} {x : HS256Token}
    (hx : Redeems s.config ⟨c, (step ⟨false, s⟩ c).1⟩ x) :
    ∃ code, s.authorizationCodes.get? x.signatureString = some code ∧ code.used = false ∧
      (step ⟨false, s⟩ c).2.st.authorizationCodes.get? x.signatureString =
        some { code with used := true } := by
  have hev := evolves s c
  have hg := fun rq => C73_granted_iff s (c := c) (rq := rq)
  generalize (step ⟨false, s⟩ c).2.st = s' at hev ⊢
  generalize hans : (step ⟨false, s⟩ c).1 = ans at hev hx hg
  have none_red : ∀ {a b c' use rev}, Obs s.config ⟨c, ans⟩ a b c' none use rev → False :=
    fun o => nomatch (o.redeems x).1 hx
  cases hev with
  | same q => exact (none_red q).elim
  | code _ o => exact (none_red o).elim
  | replay q => exact (none_red q).elim
  | revoke o => exact (none_red o).elim
  | half q => exact (none_red q).elim
  | @grant a b red use cred o _ _ _ _ _ _ _ hc =>
    have hred := (o.redeems x).1 hx
    obtain ⟨rq, res, m, ⟨r, hop, hpath, hp, -⟩, hgt, ⟨t, ht, hts⟩, -⟩ := hx
    obtain ⟨-, hm, -⟩ := (hg rq ⟨r, hop, hpath, hp⟩).1 ⟨a, (o.access a).2 rfl⟩
    cases hm with
    | password h => rw [hgt] at h; exact absurd h (by decide)
    | client h => rw [hgt] at h; exact absurd h (by decide)
    | refresh h => rw [hgt] at h; exact absurd h (by decide)
    | exchange _ hpar hget hu =>
      rw [ht] at hpar
      cases hpar
      rw [hts] at hget
      exact ⟨_, hget, hu, by rw [hc, if_pos hred, hget]; rfl⟩

theorem get?_keyed {α β : Type} (f : Str → α → β) (m : GoMap α) (k : Str) :
    GoMap.get? (m.map fun e => (e.1, f e.1 e.2)) k = (GoMap.get? m k).map (f k) := by
  induction m with
  | nil => rfl
  | cons e m ih =>
    obtain ⟨k', v⟩ := e
    simp only [List.map_cons, GoMap.get?_cons, ih]
    split
    · rename_i h; subst h; rfl
    · rfl

/-- What `spread` makes of one entry. -/
def spreadEntry (r : RefServer) (s : Server) (m : RefMap) (k : Str) (c : ServerCredential) :
    ServerCredential :=
  { c with used := c.used || usedPointer r s ((m.lookup k).getD none) }

theorem get?_spreadMap {s : Server} {m : RefMap} {v : GoMap ServerCredential} (k : Str) :
    GoMap.get? (spreadMap r s m v) k = (GoMap.get? v k).map (spreadEntry r s m k) :=
  get?_keyed (spreadEntry r s m) v k

theorem keeps_codes {c : RefCall} {rq : Request} (hop : c.op = .serve rq)
    (hpath : Server.lastSegment rq.path = b!"token") :
    (refStep ⟨false, r⟩ c).2.st.authorizationCodes = r.authorizationCodes := by
  have hk := KeepsCodes.tokenEndpoint rq ⟨true, r⟩ { coins := c.coins, clock := c.clock }
  have e : exec (RefServer.serveHTTP rq) ⟨false, r⟩ { coins := c.coins, clock := c.clock } = _ :=
    exec_deferUnlock (RefServer.serveLocked rq) ⟨true, r⟩ { coins := c.coins, clock := c.clock }
  have hs : RefServer.serveLocked rq = RefServer.tokenEndpoint rq := by
    unfold RefServer.serveLocked
    simp only [hpath]
    rw [if_neg (by decide), if_pos trivial]
  unfold refStep
  rw [hop]
  simp only
  rw [e, hs]
  revert hk
  generalize exec (RefServer.tokenEndpoint rq) ⟨true, r⟩ _ = y
  obtain ⟨o, s', l'⟩ := y
  intro hk
  cases o <;> exact hk

/-- The objects of a server over a history. -/
theorem ref_history (hr : Memory r) {h : List RefEvent} {r' : Shared RefServer}
    (hh : RefHistory r h r') :
    r'.locked = false ∧ Memory r'.st ∧ r'.st.config = r.config ∧
      ∀ (a : Nat) x, r.credentials[a]? = some x → x.used = true →
        ∃ x', r'.st.credentials[a]? = some x' ∧ x'.used = true := by
  induction hh with
  | start => exact ⟨rfl, hr, rfl, fun a x hx hu => ⟨x, hx, hu⟩⟩
  | @next h r' c hh ih =>
    obtain ⟨h1, h2, h3, h4⟩ := ih
    obtain ⟨lk, st⟩ := r'
    cases h1
    obtain ⟨k1, -, -, k4, k5⟩ := steps_of_call h2 c
    refine ⟨(C77_same {} h2 c).1, k1, k4.trans h3, fun a x hx hu => ?_⟩
    obtain ⟨x', hx', hu'⟩ := h4 a x hx hu
    rcases k5 a x' hx' with h | h
    · exact ⟨x', h, hu'⟩
    · exact ⟨_, h, rfl⟩

/-- **C77.** A code's object is redeemed at most once: once a code has been redeemed, no code that is
stored as the same object, under whatever name and in whatever the program has made of the server, is
ever redeemed again. -/
theorem C77_object_once (d : Fill) (hr : Memory r) {c : RefCall} {x : HS256Token} {a : Nat}
    (hp : r.authorizationCodes.lookup x.signatureString = some (some a))
    (hx : Redeems r.config ((⟨c, (refStep ⟨false, r⟩ c).1⟩ : RefEvent).seen d) x)
    {h : List RefEvent} {r' : Shared RefServer} (hh : RefHistory (refStep ⟨false, r⟩ c).2.st h r')
    (c' : RefCall) (y : HS256Token)
    (hq : r'.st.authorizationCodes.lookup y.signatureString = some (some a)) :
    ¬ Redeems r.config ((⟨c', (refStep r' c').1⟩ : RefEvent).seen d) y := by
  intro hy
  have hanswered : ∀ {e : Event} {t}, Redeems r.config e t → e.answer ≠ .panicked {} := by
    rintro e t ⟨rq, res, m, ⟨_, _, _, _, h⟩, -⟩ h'
    rw [h] at h'
    cases h'
  obtain ⟨hl, hs | ⟨h1, h2⟩⟩ := C77_same d hr c
  · exact hanswered hx hs.1
  have hx' : Redeems (contents d r).config ⟨c.seen d, (step ⟨false, contents d r⟩ (c.seen d)).1⟩ x := by
    rw [← h1]; exact hx
  obtain ⟨code, hc1, -, hc3⟩ := redeems_value hx'
  have hlook : (refStep ⟨false, r⟩ c).2.st.authorizationCodes.lookup x.signatureString =
      some (some a) := by
    obtain ⟨rq, res, m, ⟨rr, hop, hpath, -⟩, -⟩ := hx
    have hop' : c.op = .serve rr := by
      obtain ⟨op, coins, clock⟩ := c
      cases op with
      | serve rq => cases hop; rfl
      | authorize rq required => cases hop
      | configure c u e => cases hop
    rw [keeps_codes hop' ((lastSegment_iff _ _).1 hpath)]
    exact hp
  obtain ⟨k1, -, -, k4, k5⟩ := steps_of_call hr c
  have hval : a < r.credentials.length := hr.valid _ _ (mem_stored_code (lookup_mem hp))
  -- the object is used now
  obtain ⟨ob, hob, hused⟩ : ∃ ob, (refStep ⟨false, r⟩ c).2.st.credentials[a]? = some ob ∧
      ob.used = true := by
    have hg := contents_code (d := d) (r := (refStep ⟨false, r⟩ c).2.st) x.signatureString
    rw [hlook, h2] at hg
    rw [show (spread (refStep ⟨false, r⟩ c).2.st
        (step ⟨false, contents d r⟩ (c.seen d)).2.st).authorizationCodes =
        spreadMap _ _ _ _ from rfl, get?_spreadMap, hc3] at hg
    simp only [spreadEntry, Option.map_some, Option.some.injEq, Bool.true_or, RefServer.credential,
      Option.bind_some] at hg
    obtain ⟨ob, hob⟩ : ∃ ob, (refStep ⟨false, r⟩ c).2.st.credentials[a]? = some ob := by
      rcases k5 a _ (List.getElem?_eq_getElem hval) with h | h <;> exact ⟨_, h⟩
    rw [hob, Option.getD_some] at hg
    exact ⟨ob, hob, by rw [← hg]⟩
  obtain ⟨j1, j2, j3, j4⟩ := ref_history k1 hh
  obtain ⟨ob', hob', hused'⟩ := j4 a ob hob hused
  obtain ⟨lk, st⟩ := r'
  cases j1
  obtain ⟨hl', hs | ⟨g1, g2⟩⟩ := C77_same d j2 c'
  · exact hanswered hy hs.1
  have hy' : Redeems (contents d st).config
      ⟨c'.seen d, (step ⟨false, contents d st⟩ (c'.seen d)).1⟩ y := by
    rw [← g1, show (contents d st).config = st.config from rfl, j3, k4]; exact hy
  obtain ⟨code', hd1, hd2, -⟩ := redeems_value hy'
  rw [contents_code, hq] at hd1
  simp only [Option.map_some, RefServer.credential, Option.bind_some] at hd1
  rw [show st.credentials[a]? = some ob' from hob'] at hd1
  cases hd1
  rw [Option.getD_some, hused'] at hd2
  cases hd2

end

/-! ### Examples -/

namespace Demo

/-- The same call on a server with pointers. -/
def pointed (c : Call) : RefCall where
  op := match c.op with
    | .serve r => .serve r
    | .authorize r required => .authorize r required
    | .configure _ _ => .configure none none []
  coins := c.coins
  clock := c.clock

/-- `Demo.server` after a code was handed out; no object is stored twice. -/
def memory : RefServer where
  config := server.config
  clients := some [(b!"c1", some 0), (b!"c2", some 1)]
  users := some [(b!"u1", some 2)]
  accessTokens := some [(a1.signatureString, some 0)]
  refreshTokens := some [(r1.signatureString, some 1)]
  authorizationCodes := some [(x2.signatureString, some 2)]
  entities := [
    { secret := b!"s1", redirectURI := b!"http://example.com/cb", confidential := true },
    { redirectURI := b!"http://example.org/cb?x=1", confidential := false }, { secret := b!"p1" }]
  credentials := [
    { clientID := b!"c1", username := b!"u1", scope := some [b!"foo"], expiresAt := 4600 * second },
    { clientID := b!"c1", username := b!"u1", scope := some [b!"foo"], expiresAt := 605801 * second },
    { clientID := b!"c2", username := b!"u1", scope := some [b!"foo", b!"bar"],
      expiresAt := 1610 * second, redirectURI := b!"http://example.org/cb?x=1" }]

/-- The program has stored the code's object under a second name, and a nil client. -/
def tangled : RefServer :=
  { memory with
    clients := some [(b!"c1", some 0), (b!"c2", some 1), (b!"c3", none)]
    authorizationCodes := some [(x2.signatureString, some 2), (x9.signatureString, some 2)] }

/-- `c2` redeems the other name of the code. -/
def c3' : Call := post b!"/oauth2/token" []
  (b!"grant_type=authorization_code&client_id=c2&redirect_uri=http%3A%2F%2Fe" ++
    b!"xample.org%2Fcb%3Fx%3D1&code=" ++ x9.string)
  [11, 12, 13, 14] 1030

/-- `c3`, which is registered as nil, asks for a token. -/
def nilClient : Call := post b!"/oauth2/token" []
  b!"grant_type=client_credentials&client_id=c3&client_secret=s" [1, 2, 3, 4] 1000

end Demo

theorem demo_memory : Memory Demo.memory ∧ Whole Demo.memory ∧ Unshared Demo.memory := by
  refine ⟨⟨by decide +kernel, by decide +kernel, by decide +kernel, ?_⟩,
    ⟨by decide, by decide, by decide, ?_, ?_⟩, ⟨?_, ?_⟩⟩
  · intro k a h
    simp only [stored, Demo.memory, Option.getD_some, List.cons_append, List.nil_append,
      List.mem_cons, Prod.mk.injEq, Option.some.injEq, List.not_mem_nil, or_false] at h
    rcases h with h | h | h <;> rw [h.2] <;> decide
  · intro k p h
    simp only [Demo.memory, Option.getD_some, List.cons_append, List.nil_append,
      List.mem_cons, Prod.mk.injEq, List.not_mem_nil, or_false] at h
    rcases h with h | h | h <;> rw [h.2] <;> rfl
  · intro k p h
    simp only [stored, Demo.memory, Option.getD_some, List.cons_append, List.nil_append,
      List.mem_cons, Prod.mk.injEq, List.not_mem_nil, or_false] at h
    rcases h with h | h | h <;> rw [h.2] <;> rfl
  · intro k k' a h h'
    simp only [Demo.memory, Option.getD_some, List.mem_singleton, Prod.mk.injEq] at h h'
    rw [h.1, h'.1]
  · intro k k' a h h'
    simp only [Demo.memory, Option.getD_some, List.cons_append, List.nil_append,
      List.mem_cons, Prod.mk.injEq, Option.some.injEq, List.not_mem_nil, or_false] at h h'
    rcases h' with h' | h' <;> rw [h.2] at h' <;> exact absurd h'.2 (by decide)

theorem demo_tangled : Memory Demo.tangled := by
  refine ⟨by decide +kernel, by decide +kernel, by decide +kernel, ?_⟩
  intro k a h
  simp only [stored, Demo.tangled, Demo.memory, Option.getD_some, List.cons_append, List.nil_append,
    List.mem_cons, Prod.mk.injEq, Option.some.injEq, List.not_mem_nil, or_false] at h
  rcases h with h | h | h | h <;> rw [h.2] <;> decide

/-- The hypotheses of `C77_exact` and `C77_history` are met by a server that has something in every
map; following its pointers gives the server of the other examples, and redeeming its code works. -/
example : Memory Demo.memory ∧ Whole Demo.memory ∧ Unshared Demo.memory ∧
    contents {} Demo.memory = Demo.s2 ∧
    (refStep ⟨false, Demo.memory⟩ (Demo.pointed Demo.c3)).1 = Demo.e3.answer :=
  ⟨demo_memory.1, demo_memory.2.1, demo_memory.2.2, by decide +kernel, by decide +kernel⟩

/-- Both alternatives of `C77_same` occur: a client registered as nil makes the server panic, leaving
everything as it was. -/
example : Memory Demo.tangled ∧
    refStep ⟨false, Demo.tangled⟩ (Demo.pointed Demo.nilClient) =
      (.panicked {}, ⟨false, Demo.tangled⟩) ∧
    (refStep ⟨false, Demo.tangled⟩ (Demo.pointed Demo.c3)).1 = Demo.e3.answer :=
  ⟨demo_tangled, by decide +kernel, by decide +kernel⟩

/-- A panic over something nil may come halfway: without a map of refresh tokens, the access token of
the first example is recorded although the request fails. -/
example :
    let r := (refStep ⟨false, { Demo.memory with accessTokens := some [], refreshTokens := none }⟩
      (Demo.pointed Demo.c1))
    r.1 = .panicked {} ∧ r.2.locked = false ∧
      r.2.st.accessTokens = some [(Demo.a1.signatureString, some 3)] := by
  decide +kernel

/-- The hypotheses of `C77_object_once`: the code is redeemed, and the other name of its object is
still in the map; redeeming it is refused. -/
example : Memory Demo.tangled ∧
    Demo.tangled.authorizationCodes.lookup Demo.x2.signatureString = some (some 2) ∧
    Redeems Demo.tangled.config ((⟨Demo.pointed Demo.c3,
      (refStep ⟨false, Demo.tangled⟩ (Demo.pointed Demo.c3)).1⟩ : RefEvent).seen {}) Demo.x2 ∧
    (refStep ⟨false, Demo.tangled⟩ (Demo.pointed Demo.c3)).2.st.authorizationCodes.lookup
      Demo.x9.signatureString = some (some 2) ∧
    (refStep (refStep ⟨false, Demo.tangled⟩ (Demo.pointed Demo.c3)).2 (Demo.pointed Demo.c3')).1 =
      .answered (((Reply.error (invalidGrant b!"unknown authorization code")).render {}).result) ∧
    (refStep ⟨false, Demo.tangled⟩ (Demo.pointed Demo.c3')).1 ≠
      .answered (((Reply.error (invalidGrant b!"unknown authorization code")).render {}).result) := by
  exact ⟨demo_tangled, by decide +kernel, by decide +kernel, by decide +kernel, by decide +kernel,
    by decide +kernel⟩

end OAuth2

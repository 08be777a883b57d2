import Verif.Spec.Session
import Verif.Props.Cut

/-!
C87: many connections to one server, and many requests on each.
-/

namespace OAuth2

open Spec Rfc7230

theorem library_whole {x : Sending} (hx : HostText x.host) {u : URL} {r : Request} (h : Library u r)
    (rest : Str) : ∃ r', readRequest (requestText x u.requestURI r ++ rest) = some (r', rest) ∧
      r'.bodyErr = false ∧ SaysTheSame r r' := by
  obtain ⟨ha, uri, values, id, secret, hu, hb, hl⟩ := h
  obtain ⟨r', g1, g2, g3, g4, g5, g6⟩ := reached_says hu ha hx hb hl rest
  refine ⟨r', g1, g2, ?_⟩
  have := g6 values.encode false
  have e1 : { r with body := some values.encode, bodyErr := false } = r := by rw [← g4, ← g5]
  have e2 : { r' with body := some values.encode, bodyErr := false } = r' := by rw [← g3, ← g2]
  rw [e1, e2] at this
  exact this

theorem library_cut {x : Sending} (hx : HostText x.host) {u : URL} {r : Request} (h : Library u r)
    {p q : Str} (e : requestText x u.requestURI r = p ++ q) (hq : q ≠ []) :
    readRequest p = none ∨ ∃ r0 r1, readRequest p = some (r1, []) ∧ r1.bodyErr = true ∧
      Interrupted r r0 ∧ SaysTheSame r0 r1 := by
  obtain ⟨ha, uri, values, id, secret, hu, hb, hl⟩ := h
  obtain ⟨r', g1, g2, g3, g4, g5, g6⟩ := reached_says hu ha hx hb hl [0]
  rw [e] at g1
  rcases readRequest_cut hq g1 g2 g3 with k | ⟨a, ⟨b, k1⟩, k2⟩
  · exact .inl k
  · refine .inr ⟨_, _, k2, rfl, ⟨a, b, ?_, rfl⟩, g6 a true⟩
    rw [g4, k1]

theorem readRequest_nil : readRequest [] = none := by decide

/-- After a step the server is free again. -/
theorem serve_free (s : Server) (c : Call) {r : Request} (h : c.op = .serve r) :
    ∃ s', (step ⟨false, s⟩ c).2 = ⟨false, s'⟩ := by
  rw [step_serve h]
  exact ⟨_, rfl⟩

theorem each_of_map {α β γ : Type} {R : β → γ → Prop} {f : α → β} {l : List α} {l' : List γ}
    (h : Each (fun a c => R (f a) c) l l') : Each R (l.map f) l' := by
  induction h with
  | nil => exact .nil
  | cons h _ ih => exact .cons h ih

/-- What has been written on a connection are the answers, in order. -/
def Wrote (ws : List (Shipping × Response)) (c : Conn) (answers : List Response) : Prop :=
  c.written = ws.flatMap (fun p => responseText p.1 p.2) ∧ answers = ws.map (·.2) ∧
  ∀ p ∈ ws, (∀ body, Ships p.1 body) ∧ ∃ s r coins clock,
    (step ⟨false, s⟩ { op := .serve r, coins := coins, clock := clock }).1 = .answered p.2

/-- How bytes and requests correspond. -/
structure Corresponds (x : Sending) (h : Hub) (d : Desk) : Prop where
  server : ∃ s, h.server = ⟨false, s⟩ ∧ d.server = ⟨false, s⟩
  waiting : ∀ i, ∃ l, (h.conn i).unread = sentText x l ∧ d.waiting i = l.map (·.2) ∧
    ∀ p ∈ l, Library p.1 p.2
  written : ∀ i, ∃ ws, Wrote ws (h.conn i) (d.answers i)

theorem matches_turn {x : Sending} (hx : HostText x.host) {h : Hub} {d : Desk} (hm : Corresponds x h d)
    {t : Turn} (ht : ∀ body, Ships t.ship body) : Corresponds x (h.turn t) (d.turn t) := by
  obtain ⟨s, hs, ds⟩ := hm.server
  obtain ⟨l, l1, l2, l3⟩ := hm.waiting t.conn
  cases l with
  | nil =>
    have e1 : h.turn t = h := by
      unfold Hub.turn
      rw [l1, show sentText x [] = [] from rfl, readRequest_nil]
    have e2 : d.turn t = d := by
      unfold Desk.turn
      rw [l2, List.map_nil]
    rw [e1, e2]
    exact hm
  | cons p l =>
    obtain ⟨r', g1, g2, g3⟩ := library_whole hx (l3 p (.head _)) (sentText x l)
    have hr : readRequest (h.conn t.conn).unread = some (r', sentText x l) := by
      rw [l1]; exact g1
    have hstep := C70_same g3 s t.coins t.clock
    obtain ⟨s', hs'⟩ := serve_free s { op := .serve r', coins := t.coins, clock := t.clock } rfl
    have hq : ∀ q ∈ l, Library q.1 q.2 := fun q hq => l3 q (.tail _ hq)
    unfold Hub.turn Desk.turn
    rw [hr, l2, List.map_cons]
    simp only [hs, ds, hstep]
    cases ha : (step ⟨false, s⟩ { op := .serve r', coins := t.coins, clock := t.clock }).1 with
    | answered res =>
      simp only [hs']
      refine ⟨⟨s', rfl, rfl⟩, fun i => ?_, fun i => ?_⟩
      · by_cases hi : i = t.conn
        · simp only [hi, if_true, g2, Bool.false_or]
          cases t.ship.close with
          | true => exact ⟨[], rfl, rfl, fun _ h => (nomatch h)⟩
          | false => exact ⟨l, rfl, rfl, hq⟩
        · simp only [hi, if_false]
          exact hm.waiting i
      · by_cases hi : i = t.conn
        · simp only [hi, if_true]
          obtain ⟨ws, w1, w2, w3⟩ := hm.written t.conn
          refine ⟨ws ++ [(t.ship, res)], ?_, ?_, ?_⟩
          · simp only [w1, List.flatMap_append, List.flatMap_cons, List.flatMap_nil, List.append_nil]
          · simp only [w2, List.map_append, List.map_cons, List.map_nil]
          · intro p hp
            rcases List.mem_append.mp hp with hp | hp
            · exact w3 p hp
            · cases List.mem_singleton.mp hp
              exact ⟨ht, s, r', t.coins, t.clock, ha⟩
        · simp only [hi, if_false]
          exact hm.written i
    | _ =>
      simp only [hs']
      refine ⟨⟨s', rfl, rfl⟩, fun i => ?_, fun i => ?_⟩
      · by_cases hi : i = t.conn
        · simp only [hi, if_true]
          exact ⟨[], rfl, rfl, fun _ h => (nomatch h)⟩
        · simp only [hi, if_false]
          exact hm.waiting i
      · obtain ⟨ws, w1, w2, w3⟩ := hm.written i
        refine ⟨ws, ?_, w2, w3⟩
        by_cases hi : i = t.conn
        · subst hi
          simp only [if_true, w1]
        · simp only [hi, if_false, w1]

theorem matches_turns {x : Sending} (hx : HostText x.host) {ts : List Turn}
    (ht : ∀ t ∈ ts, ∀ body, Ships t.ship body) {h : Hub} {d : Desk} (hm : Corresponds x h d) :
    Corresponds x (ts.foldl Hub.turn h) (ts.foldl Desk.turn d) := by
  induction ts generalizing h d with
  | nil => exact hm
  | cons t ts ih =>
    exact ih (fun t h => ht t (.tail _ h)) (matches_turn hx hm (ht t (.head _)))

/-- C87: clients send requests of the library, any number on any number of connections, and the server
takes turns in any order. Then it comes into the state, and on each connection its client reads the
answers, as if requests were handed to the server and answers to the clients: each client gets the
answers to its own requests, in order. -/
theorem C87_connections {x : Sending} (hx : HostText x.host) {l : Nat → List (URL × Request)}
    (hl : ∀ i, ∀ p ∈ l i, Library p.1 p.2) (s : Server) {ts : List Turn}
    (ht : ∀ t ∈ ts, ∀ body, Ships t.ship body) {h : Hub} {d : Desk}
    (hh : h = ts.foldl Hub.turn { server := ⟨false, s⟩, conn := fun i => { unread := sentText x (l i) } })
    (hd : d = ts.foldl Desk.turn { server := ⟨false, s⟩, waiting := fun i => (l i).map (·.2) })
    (hn : ∀ i, ∀ res ∈ d.answers i, res.body.length < 2 ^ 63) :
    h.server = d.server ∧ ∀ i, ∃ got,
      readMany readResponse (d.answers i).length (h.conn i).written = some (got, []) ∧
      Each Delivered (d.answers i) got := by
  have hm : Corresponds x h d := by
    rw [hh, hd]
    refine matches_turns hx ht ⟨⟨s, rfl, rfl⟩, fun i => ⟨l i, rfl, rfl, hl i⟩, fun i => ⟨[], rfl, rfl, ?_⟩⟩
    intro p hp
    cases hp
  obtain ⟨s', e1, e2⟩ := hm.server
  refine ⟨e1.trans e2.symm, fun i => ?_⟩
  obtain ⟨ws, w1, w2, w3⟩ := hm.written i
  obtain ⟨got, g1, g2⟩ := readMany_row (read := readResponse) (text := fun p => responseText p.1 p.2)
    (R := fun p got => Delivered p.2 got) (l := ws) (fun p hp rest => by
      obtain ⟨hs, s, r, coins, clock, hans⟩ := w3 p hp
      have hlen : p.2.body.length < 2 ^ 63 :=
        hn i p.2 (by rw [w2]; exact List.mem_map.mpr ⟨p, hp, rfl⟩)
      obtain ⟨got, c1, c2, c3, c4, c5, c6⟩ := C85_server (s := s)
        (c := { op := .serve r, coins := coins, clock := clock }) (by intro _ _ h; cases h)
        (.inl hans) hlen (hs p.2.body) rest
      exact ⟨got, c1, ⟨c2, c3⟩, ⟨c4, c5⟩, c6⟩) []
  refine ⟨got, ?_, ?_⟩
  · rw [w2, w1, List.length_map]
    rw [List.append_nil] at g1
    exact g1
  · rw [w2]
    exact each_of_map g2

/-- How bytes and requests correspond if connections may break. -/
structure Follows (x : Sending) (h : Hub) (d : Desk) : Prop where
  server : ∃ s, h.server = ⟨false, s⟩ ∧ d.server = ⟨false, s⟩
  waiting : ∀ i, ∃ l, (h.conn i).unread <+: sentText x l ∧ d.waiting i = l.map (·.2) ∧
    ∀ p ∈ l, Library p.1 p.2

theorem hub_turn {h : Hub} {t : Turn} {r : Request} {rest : Str}
    (hr : readRequest (h.conn t.conn).unread = some (r, rest)) {s : Server} (hs : h.server = ⟨false, s⟩) :
    (h.turn t).server = (step ⟨false, s⟩ { op := .serve r, coins := t.coins, clock := t.clock }).2 ∧
    (∀ i, i ≠ t.conn → (h.turn t).conn i = h.conn i) ∧
    (((h.turn t).conn t.conn).unread = [] ∨ ((h.turn t).conn t.conn).unread = rest ∧
      t.ship.close = false ∧ ∃ res,
        (step ⟨false, s⟩ { op := .serve r, coins := t.coins, clock := t.clock }).1 = .answered res) := by
  unfold Hub.turn
  rw [hr]
  simp only [hs, if_true]
  refine ⟨trivial, fun i hi => by simp only [hi, if_false], ?_⟩
  cases (step ⟨false, s⟩ { op := .serve r, coins := t.coins, clock := t.clock }).1 with
  | answered res =>
    simp only
    by_cases hc : (r.bodyErr || t.ship.close) = true
    · exact .inl (if_pos hc)
    · rw [if_neg hc]
      simp only [Bool.or_eq_true, not_or, Bool.not_eq_true] at hc
      exact .inr ⟨rfl, hc.2, res, rfl⟩
  | _ => exact .inl rfl

theorem desk_turn {d : Desk} {t : Turn} {r : Request} {l : List Request}
    (hr : d.waiting t.conn = r :: l) {s : Server} (hs : d.server = ⟨false, s⟩) :
    (d.turn t).server = (step ⟨false, s⟩ { op := .serve r, coins := t.coins, clock := t.clock }).2 ∧
    (∀ i, i ≠ t.conn → (d.turn t).waiting i = d.waiting i) ∧
    ((d.turn t).waiting t.conn = l ∨ (d.turn t).waiting t.conn = [] ∧ ¬ (t.ship.close = false ∧ ∃ res,
        (step ⟨false, s⟩ { op := .serve r, coins := t.coins, clock := t.clock }).1 = .answered res)) := by
  unfold Desk.turn
  rw [hr]
  simp only [hs]
  cases (step ⟨false, s⟩ { op := .serve r, coins := t.coins, clock := t.clock }).1 with
  | answered res =>
    refine ⟨rfl, fun i hi => by simp only [hi, if_false], ?_⟩
    simp only [if_true]
    cases t.ship.close with
    | true => exact .inr ⟨rfl, fun h => nomatch h.1⟩
    | false => exact .inl rfl
  | _ =>
    refine ⟨rfl, fun i hi => by simp only [hi, if_false], .inr ⟨if_pos rfl, ?_⟩⟩
    intro h
    obtain ⟨_, h⟩ := h.2
    cases h

theorem follows_turn {x : Sending} (hx : HostText x.host) {h : Hub} {d : Desk} (hm : Follows x h d)
    (t : Turn) : Follows x (h.turn t) d ∨ Follows x (h.turn t) (d.turn t) := by
  obtain ⟨s, hs, ds⟩ := hm.server
  obtain ⟨l, l1, l2, l3⟩ := hm.waiting t.conn
  cases l with
  | nil =>
    left
    have e1 : h.turn t = h := by
      unfold Hub.turn
      rw [List.prefix_nil.mp (show (h.conn t.conn).unread <+: [] from l1), readRequest_nil]
    rw [e1]
    exact hm
  | cons p l =>
    have hq : ∀ q ∈ l, Library q.1 q.2 := fun q hq => l3 q (.tail _ hq)
    obtain ⟨d1, d2, d3⟩ := desk_turn (d := d) (t := t) (by rw [l2, List.map_cons]) ds
    have hw : ∃ l' : List (URL × Request), (d.turn t).waiting t.conn = List.map (·.2) l' ∧ ∀ q ∈ l', Library q.1 q.2 := by
      rcases d3 with d3 | ⟨d3, _⟩
      · exact ⟨l, d3, hq⟩
      · exact ⟨[], d3, fun _ h => (nomatch h)⟩
    obtain ⟨q, hcut⟩ := l1
    rcases List.append_eq_append_iff.mp (show (h.conn t.conn).unread ++ q =
        requestText x p.1.requestURI p.2 ++ sentText x l from hcut) with ⟨q', e1, e2⟩ | ⟨p', e1, e2⟩
    · by_cases hq' : q' = []
      · -- the whole request and nothing else
        subst hq'
        rw [List.append_nil] at e1
        right
        obtain ⟨r', g1, g2, g3⟩ := library_whole hx (l3 p (.head _)) []
        rw [List.append_nil, e1] at g1
        obtain ⟨k1, k2, k3⟩ := hub_turn g1 hs
        have k3 : ((h.turn t).conn t.conn).unread = [] := k3.elim id (·.1)
        obtain ⟨s', hs'⟩ := serve_free s { op := .serve r', coins := t.coins, clock := t.clock } rfl
        refine ⟨⟨s', k1.trans hs', ?_⟩, fun i => ?_⟩
        · rw [d1, C70_same g3 s t.coins t.clock, hs']
        · by_cases hi : i = t.conn
          · subst hi
            obtain ⟨l', w1, w2⟩ := hw
            exact ⟨l', by rw [k3]; exact List.nil_prefix, w1, w2⟩
          · rw [k2 i hi, d2 i hi]
            exact hm.waiting i
      · -- the request breaks off
        rcases library_cut hx (l3 p (.head _)) e1 hq' with g | ⟨r0, r1, g1, g2, g3, g4⟩
        · left
          have e1 : h.turn t = h := by
            unfold Hub.turn
            rw [g]
          rw [e1]
          exact hm
        · obtain ⟨k1, k2, k3⟩ := hub_turn g1 hs
          have k3 : ((h.turn t).conn t.conn).unread = [] := k3.elim id (·.1)
          rw [← C70_same g4 s t.coins t.clock] at k1
          rcases C67_request s g3 t.coins t.clock with j | ⟨_, j⟩
          · right
            obtain ⟨s', hs'⟩ := serve_free s { op := .serve p.2, coins := t.coins, clock := t.clock } rfl
            refine ⟨⟨s', by rw [k1, j, hs'], by rw [d1, hs']⟩, fun i => ?_⟩
            by_cases hi : i = t.conn
            · subst hi
              obtain ⟨l', w1, w2⟩ := hw
              exact ⟨l', by rw [k3]; exact List.nil_prefix, w1, w2⟩
            · rw [k2 i hi, d2 i hi]
              exact hm.waiting i
          · left
            refine ⟨⟨s, by rw [k1, j], ds⟩, fun i => ?_⟩
            by_cases hi : i = t.conn
            · subst hi
              exact ⟨p :: l, by rw [k3]; exact List.nil_prefix, l2, l3⟩
            · rw [k2 i hi]
              exact hm.waiting i
    · -- the whole request and some of the next
      right
      obtain ⟨r', g1, g2, g3⟩ := library_whole hx (l3 p (.head _)) p'
      rw [← e1] at g1
      obtain ⟨k1, k2, k3⟩ := hub_turn g1 hs
      obtain ⟨s', hs'⟩ := serve_free s { op := .serve r', coins := t.coins, clock := t.clock } rfl
      rw [C70_same g3 s t.coins t.clock] at d1 d3
      refine ⟨⟨s', k1.trans hs', by rw [d1, hs']⟩, fun i => ?_⟩
      by_cases hi : i = t.conn
      · subst hi
        rcases k3 with k3 | ⟨k3, k4⟩
        · obtain ⟨l', w1, w2⟩ := hw
          exact ⟨l', by rw [k3]; exact List.nil_prefix, w1, w2⟩
        · rcases d3 with d3 | ⟨_, d4⟩
          · exact ⟨l, by rw [k3]; exact ⟨q, e2.symm⟩, d3, hq⟩
          · exact absurd k4 d4
      · rw [k2 i hi, d2 i hi]
        exact hm.waiting i

/-- C87: if any of the connections break at any byte, the server comes into a state as if some of the
turns had not been taken, and the others for whole requests, in the order they were sent. -/
theorem C87_broken {x : Sending} (hx : HostText x.host) {l : Nat → List (URL × Request)}
    (hl : ∀ i, ∀ p ∈ l i, Library p.1 p.2) (s : Server) (ts : List Turn) {bytes : Nat → Str}
    (hb : ∀ i, bytes i <+: sentText x (l i)) :
    ∃ taken : List Turn, taken.Sublist ts ∧
      (ts.foldl Hub.turn { server := ⟨false, s⟩, conn := fun i => { unread := bytes i } }).server =
        (taken.foldl Desk.turn { server := ⟨false, s⟩, waiting := fun i => (l i).map (·.2) }).server := by
  have key : ∀ (ts : List Turn) (h : Hub) (d : Desk), Follows x h d → ∃ taken : List Turn, taken.Sublist ts ∧
      Follows x (ts.foldl Hub.turn h) (taken.foldl Desk.turn d) := by
    intro ts
    induction ts with
    | nil => exact fun h d hm => ⟨[], .slnil, hm⟩
    | cons t ts ih =>
      intro h d hm
      rcases follows_turn hx hm t with hm | hm
      · obtain ⟨taken, k1, k2⟩ := ih _ _ hm
        exact ⟨taken, .cons _ k1, k2⟩
      · obtain ⟨taken, k1, k2⟩ := ih _ _ hm
        exact ⟨t :: taken, .cons_cons _ k1, k2⟩
  obtain ⟨taken, k1, k2⟩ := key ts { server := ⟨false, s⟩, conn := fun i => { unread := bytes i } }
    { server := ⟨false, s⟩, waiting := fun i => (l i).map (·.2) }
    ⟨⟨s, rfl, rfl⟩, fun i => ⟨l i, hb i, rfl, hl i⟩⟩
  obtain ⟨s', e1, e2⟩ := k2.server
  exact ⟨taken, k1, e1.trans e2.symm⟩

/-- C87: whatever bytes come in on any number of connections, the server comes only into states that a
history of requests leads to, one for each turn at most, so that all that is true of histories is true
of it. -/
theorem C87_history (s : Server) (bytes : Nat → Str) (ts : List Turn) :
    ∃ events, History s events
        (ts.foldl Hub.turn { server := ⟨false, s⟩, conn := fun i => { unread := bytes i } }).server ∧
      ∃ taken, taken.Sublist ts ∧ Each (fun (e : Event) t => (∃ r, e.call.op = .serve r) ∧
        e.call.coins = t.coins ∧ e.call.clock = t.clock) events.reverse taken := by
  have key : ∀ (ts : List Turn) (h : Hub) (events : List Event), History s events h.server →
      ∃ more, History s (more ++ events) (ts.foldl Hub.turn h).server ∧
      ∃ taken : List Turn, taken.Sublist ts ∧ Each (fun (e : Event) t => (∃ r, e.call.op = .serve r) ∧
        e.call.coins = t.coins ∧ e.call.clock = t.clock) more.reverse taken := by
    intro ts
    induction ts with
    | nil => exact fun h events hh => ⟨[], hh, [], .slnil, .nil⟩
    | cons t ts ih =>
      intro h events hh
      rw [List.foldl_cons]
      cases hr : readRequest (h.conn t.conn).unread with
      | none =>
        have e1 : h.turn t = h := by
          unfold Hub.turn
          rw [hr]
        rw [e1]
        obtain ⟨more, m1, taken, m2, m3⟩ := ih h events hh
        exact ⟨more, m1, taken, .cons _ m2, m3⟩
      | some p =>
        have e1 : (h.turn t).server =
            (step h.server { op := .serve p.1, coins := t.coins, clock := t.clock }).2 := by
          unfold Hub.turn
          rw [hr]
        obtain ⟨more, m1, taken, m2, m3⟩ := ih (h.turn t) _ (by rw [e1]; exact .next _ hh)
        refine ⟨more ++ [_], by rw [List.append_assoc]; exact m1, t :: taken, .cons_cons _ m2, ?_⟩
        rw [List.reverse_append]
        exact .cons ⟨⟨p.1, rfl⟩, rfl, rfl⟩ m3
  obtain ⟨more, m1, m2⟩ := key ts { server := ⟨false, s⟩, conn := fun i => { unread := bytes i } } [] .start
  exact ⟨more, by rw [List.append_nil] at m1; exact m1, m2⟩

/-! ### A case that meets the hypotheses -/

/-- Forms for a password grant and for a path the server does not know. -/
def Demo.posts : List (Str × Values) :=
  [(b!"http://example.com/oauth2/nowhere", [(b!"x", [b!"1"])]),
    (b!"http://example.com/oauth2/token", [(b!"grant_type", [b!"password"]), (b!"username", [b!"u1"]),
      (b!"password", [b!"p1"])])]

/-- The requests the library makes of them. -/
def Demo.sent : List (URL × Request) :=
  Demo.posts.filterMap fun p => do
    let u ← parseURL p.1
    let r ← buildFormRequest p.1 p.2 b!"c1" b!"s1"
    return (u, r)

theorem Demo.library : ∀ p ∈ Demo.sent, Library p.1 p.2 := by
  intro p hp
  obtain ⟨q, hq, he⟩ := List.mem_filterMap.mp hp
  simp only [Option.bind_eq_bind, Option.pure_def, Option.bind_eq_some_iff] at he
  obtain ⟨u, hu, r, hr, he⟩ := he
  cases he
  have h1 : ∀ q ∈ Demo.posts, (parseURL q.1).all (fun u => u.host ≠ [] ∧ u.user = none ∧
      (0x20 : UInt8) ∉ u.rawQuery) ∧ q.2.encode.length < 2 ^ 63 := by decide +kernel
  obtain ⟨h2, h3⟩ := h1 q hq
  rw [hu, Option.all_some, decide_eq_true_eq] at h2
  exact ⟨C85_address hu h2.1 h2.2.1 h2.2.2, q.1, q.2, _, _, hu, hr, h3⟩

/-- Both requests on one connection and both on another; the server takes turns. -/
def Demo.turns : List Turn :=
  [⟨1, [1, 2, 3, 4], fun n => (1000 + n) * second, { Demo.shipping with close := false }⟩,
    ⟨0, [5, 6, 7, 8], fun n => (2000 + n) * second, { Demo.shipping with close := false }⟩,
    ⟨1, [1, 2, 3, 4], fun n => (3000 + n) * second, { Demo.shipping with close := false }⟩]

/-- The server after them, with bytes. -/
def Demo.hub : Hub := Demo.turns.foldl Hub.turn
  { server := ⟨false, Demo.server⟩
    conn := fun _ => { unread := sentText ⟨b!"example.com:80", true⟩ Demo.sent } }

/-- And without. -/
def Demo.desk : Desk := Demo.turns.foldl Desk.turn
  { server := ⟨false, Demo.server⟩, waiting := fun _ => Demo.sent.map (·.2) }

theorem desk_quiet {ts : List Turn} {d : Desk} {i : Nat} (h : ∀ t ∈ ts, i ≠ t.conn) :
    (ts.foldl Desk.turn d).answers i = d.answers i := by
  induction ts generalizing d with
  | nil => rfl
  | cons t ts ih =>
    rw [List.foldl_cons, ih fun t h' => h t (.tail _ h')]
    unfold Desk.turn
    split
    · rfl
    · simp only
      split
      · simp only [h t (.head _), if_false]
      · rfl

/-- Each client reads its answers; the other request of the first connection waits. -/
example : HostText b!"example.com:80" ∧ (∀ t ∈ Demo.turns, ∀ body, Ships t.ship body) ∧
    (∀ i, ∀ res ∈ Demo.desk.answers i, res.body.length < 2 ^ 63) ∧
    [(0, 1), (1, 2)].map (fun p => (readMany readResponse p.2 (Demo.hub.conn p.1).written).map
        fun g => (g.1.map (·.statusCode), g.2)) = [some ([404], []), some ([404, 200], [])] := by
  refine ⟨by unfold HostText; decide, ?_, fun i => ?_, by decide +kernel⟩
  case refine_2 =>
    by_cases hi : i < 2
    · exact (by decide +kernel : ∀ i < 2, ∀ res ∈ Demo.desk.answers i, res.body.length < 2 ^ 63) i hi
    · intro res hres
      have : Demo.desk.answers i = [] := by
        refine desk_quiet fun t ht => ?_
        have := (by decide +kernel : ∀ c ∈ Demo.turns.map (·.conn), c < 2) t.conn
          (List.mem_map.mpr ⟨t, ht, rfl⟩)
        omega
      rw [this] at hres
      cases hres
  intro t ht body
  have hc : t.ship = { Demo.shipping with close := false } := by
    rcases List.mem_cons.mp ht with rfl | ht
    · rfl
    · rcases List.mem_cons.mp ht with rfl | ht
      · rfl
      · rcases List.mem_cons.mp ht with rfl | ht
        · rfl
        · cases ht
  rw [hc]
  exact ⟨(Demo.ships body).date, (Demo.ships body).sniff, (Demo.ships body).chunks⟩

end OAuth2

import Verif.Lemmas.WireCut
import Verif.Props.Wire

/-!
C86: requests and responses that break off at some byte.
-/

namespace OAuth2

open Spec Rfc7230

/-- C86: of a response that breaks off before its end, nothing is read, or its head and some of its
body together with an error. -/
theorem C86_response {p q : Str} {m : Message} {code reason : Str} (h : Text false (p ++ q) m)
    (hs : StatusLine m.start code reason) (hq : q ≠ []) :
    readResponse p = none ∨ ∃ res body, ReadResponse m res ∧ body <+: m.body ∧
      readResponse p = some ({ res with body := body, bodyErr := true }, []) := by
  obtain ⟨res, h1, h2⟩ := C85_reads_response h hs [0]
  rcases readResponse_cut hq h1 h2.body.2 with k | ⟨a, k1, k2⟩
  · exact .inl k
  · exact .inr ⟨res, a, h2, by rw [← h2.body.1]; exact k1, k2⟩

/-- C86: the same for a request. -/
theorem C86_request {p q : Str} {m : Message} {method target host : Str} {u : URL}
    (h : Text true (p ++ q) m) (hs : RequestLine m.start method target)
    (hu : parseRequestURI target = some u) (hp : ∀ f ∈ m.fields, Printable f.2)
    (hh : named m.fields b!"Host" = [host]) (ht : HostText host) (hq : q ≠ []) :
    readRequest p = none ∨ ∃ r body, ReadRequest m r ∧ body <+: m.body ∧
      readRequest p = some ({ r with body := some body, bodyErr := true }, []) := by
  obtain ⟨r, h1, h2⟩ := C85_reads_request h hs hu hp hh ht [0]
  rcases readRequest_cut hq h1 h2.body.2 h2.body.1 with k | ⟨a, k1, k2⟩
  · exact .inl k
  · exact .inr ⟨r, a, h2, k1, k2⟩

/-- C86: of requests one after the other on a connection that breaks at some byte, the server handles
those that got through whole, as they were sent and in order, and at most the next one besides, with
an error in its body. -/
theorem C86_requests {x : Sending} {target : Str} {u : URL} {l : List Request}
    (hl : ∀ r ∈ l, Asked x target r) (hu : parseRequestURI target = some u) {p q : Str}
    (h : l.flatMap (requestText x target) = p ++ q) {n : Nat} (hn : l.length < n) :
    ∃ whole got, whole <+: l ∧ (whole.flatMap (requestText x target)).length ≤ p.length ∧
      Each (fun r got => Reached r target got) whole got ∧
      (fed n p = got ∧
          (∀ r, whole ++ [r] <+: l → p.length < ((whole ++ [r]).flatMap (requestText x target)).length) ∨
        ∃ r next body, whole ++ [r] <+: l ∧
          p.length < ((whole ++ [r]).flatMap (requestText x target)).length ∧
          Reached r target next ∧ body <+: r.body.getD [] ∧
          fed n p = got ++ [{ next with body := some body, bodyErr := true }]) := by
  induction l generalizing p n with
  | nil =>
    have hp : p = [] := by
      rw [List.flatMap_nil] at h
      exact (List.append_eq_nil_iff.mp h.symm).1
    subst hp
    refine ⟨[], [], List.prefix_refl _, Nat.le_refl _, .nil, .inl ⟨?_, ?_⟩⟩
    · cases n with
      | zero => rfl
      | succ n => rfl
    · intro r hr
      have := hr.length_le
      simp at this
  | cons r l ih =>
    obtain ⟨n, rfl⟩ : ∃ k, n = k + 1 := ⟨n - 1, by simp only [List.length_cons] at hn; omega⟩
    rw [List.flatMap_cons] at h
    have hr := hl r (.head _)
    rcases List.append_eq_append_iff.mp h with ⟨p', e1, e2⟩ | ⟨q', e1, e2⟩
    · -- the first request is whole
      obtain ⟨got, g1, g2⟩ := request_reaches hr hu p'
      obtain ⟨whole, gots, k1, k2, k3, k4⟩ := ih (fun r h => hl r (.tail _ h)) e2
        (n := n) (by simp only [List.length_cons] at hn; omega)
      subst e1
      have hh : fed (n + 1) (requestText x target r ++ p') = got :: fed n p' := by
        simp only [fed, g1, g2.whole, Bool.false_eq_true, if_false]
      refine ⟨r :: whole, got :: gots, (List.prefix_cons_inj r).mpr k1, ?_, .cons g2 k3, ?_⟩
      · rw [List.flatMap_cons, List.length_append, List.length_append]
        omega
      · rw [hh]
        rcases k4 with ⟨k5, k6⟩ | ⟨r', next, body, j1, j2, j3, j4, j5⟩
        · refine .inl ⟨by rw [k5], fun r' h' => ?_⟩
          have := k6 r' ((List.prefix_cons_inj r).mp h')
          rw [List.cons_append, List.flatMap_cons, List.length_append, List.length_append]
          omega
        · refine .inr ⟨r', next, body, (List.prefix_cons_inj r).mpr j1, ?_, j3, j4, by rw [j5]; rfl⟩
          rw [List.cons_append, List.flatMap_cons, List.length_append, List.length_append]
          omega
    · by_cases hq : q' = []
      · -- it is whole and nothing follows
        subst hq
        rw [List.append_nil] at e1
        subst e1
        obtain ⟨got, g1, g2⟩ := request_reaches hr hu []
        obtain ⟨whole, gots, k1, k2, k3, k4⟩ := ih (fun r h => hl r (.tail _ h)) (p := [])
          (by rw [e2]; rfl) (n := n) (by simp only [List.length_cons] at hn; omega)
        rw [List.append_nil] at g1
        have hh : fed (n + 1) (requestText x target r) = got :: fed n [] := by
          simp only [fed, g1, g2.whole, Bool.false_eq_true, if_false]
        refine ⟨r :: whole, got :: gots, (List.prefix_cons_inj r).mpr k1, ?_, .cons g2 k3, ?_⟩
        · rw [List.flatMap_cons, List.length_append]
          simp only [List.length_nil] at k2
          omega
        · rw [hh]
          rcases k4 with ⟨k5, k6⟩ | ⟨r', next, body, j1, j2, j3, j4, j5⟩
          · refine .inl ⟨by rw [k5], fun r' h' => ?_⟩
            have := k6 r' ((List.prefix_cons_inj r).mp h')
            rw [List.cons_append, List.flatMap_cons, List.length_append]
            simp only [List.length_nil] at this
            omega
          · refine .inr ⟨r', next, body, (List.prefix_cons_inj r).mpr j1, ?_, j3, j4, by rw [j5]; rfl⟩
            rw [List.cons_append, List.flatMap_cons, List.length_append]
            simp only [List.length_nil] at j2
            omega
      · -- it breaks off
        obtain ⟨got, g1, g2⟩ := request_reaches hr hu [0]
        rw [e1] at g1
        have hlen : p.length < (requestText x target r).length := by
          rw [e1, List.length_append]
          have := List.length_pos_iff.mpr hq
          omega
        have hone : ∀ r', [r'] <+: r :: l → r' = r := by
          intro r' h'
          rcases List.prefix_cons_iff.mp h' with h | ⟨t, h, _⟩
          · cases h
          · cases h; rfl
        refine ⟨[], [], List.nil_prefix, Nat.zero_le _, .nil, ?_⟩
        rcases readRequest_cut hq g1 g2.whole g2.body with k | ⟨a, k1, k2⟩
        · refine .inl ⟨by simp only [fed, k], fun r' h' => ?_⟩
          cases hone r' h'
          simpa using hlen
        · refine .inr ⟨r, got, a, ⟨l, rfl⟩, by simpa using hlen, g2, k1, ?_⟩
          simp only [fed, k2, if_true, List.nil_append]

/-- The form is not too long, nor the answer of the server to what it gets of the request the client
library builds from it. -/
def ShortCut (x : Sending) (u : URL) (uri : Str) (values : Values) (clientID clientSecret : Str)
    (s : Server) (coins : Str) (clock : Nat → Time) (there : Nat) : Prop :=
  values.encode.length < 2 ^ 63 ∧
  ∀ r r' res, buildFormRequest uri values clientID clientSecret = some r →
    arriving x u there r = some r' → Spec.wire ⟨false, s⟩ coins clock r' = some res →
    res.body.length < 2 ^ 63

/-- C86: wherever the connection breaks, a request of the client library takes full effect or none. -/
theorem C86_effect {x : Sending} {uri : Str} {u : URL} {values : Values} {clientID clientSecret : Str}
    {r : Request} {s : Server} {coins : Str} {clock : Nat → Time}
    (hu : parseURL uri = some u) (ha : Address u) (hx : HostText x.host)
    (h : buildFormRequest uri values clientID clientSecret = some r)
    (h1 : values.encode.length < 2 ^ 63) (there : Nat) :
    cutState x u ⟨false, s⟩ coins clock there r = ⟨false, s⟩ ∨
      cutState x u ⟨false, s⟩ coins clock there r =
        (step ⟨false, s⟩ { op := .serve r, coins := coins, clock := clock }).2 := by
  unfold cutState
  have hsend : r.header.sendable = true :=
    plain_sendable (build_plain h hu).1 (buildFormRequest_clean h)
  simp only [hsend, Bool.not_true, Bool.false_eq_true, if_false]
  rcases arriving_says hu ha hx h h1 there with g | ⟨r0, r1, g1, g2, g3⟩
  · rw [g]; exact .inl rfl
  · rw [g1]
    have hstep : step ⟨false, s⟩ { op := .serve r1, coins := coins, clock := clock } =
        step ⟨false, s⟩ { op := .serve r0, coins := coins, clock := clock } :=
      (C70_same g3 s coins clock).symm
    simp only [hstep]
    rcases g2 with rfl | hr
    · exact .inr rfl
    · rcases C67_request s hr coins clock with h | ⟨_, h⟩
      · exact .inr (by rw [h])
      · exact .inl h

/-- C86: `Authenticate` over a connection that breaks at any byte of request or response: tokens it
returns are those the server handed out, an OAuth2 error is one the server reported. -/
theorem C86_authenticate {cfg : ClientConfig} {x : Sending} {y : Shipping} {s : Server} {coins : Str}
    {clock : Nat → Time} {u : URL} {rq : TokenRequest} {there : Nat}
    (hx : HostText x.host) (hy : ∀ body, Ships y body)
    (hu : parseURL (cfg.baseURI ++ cfg.tokenEndpoint) = some u) (ha : Address u)
    (hs : ShortCut x u (cfg.baseURI ++ cfg.tokenEndpoint) (tokenRequestValues rq) rq.clientID
      rq.clientSecret s coins clock there) (back : Nat) :
    (∀ t, (newClient cfg (cutLine x y u ⟨false, s⟩ coins clock there back)).authenticate rq = .ok t →
      ∃ r, Authenticates cfg ⟨false, s⟩ rq ⟨.serve r, coins, clock⟩ (.ok t) ∧
        cutState x u ⟨false, s⟩ coins clock there r = (step ⟨false, s⟩ ⟨.serve r, coins, clock⟩).2) ∧
    (∀ e, (newClient cfg (cutLine x y u ⟨false, s⟩ coins clock there back)).authenticate rq =
        .error (.oauth e) →
      (∃ r, Authenticates cfg ⟨false, s⟩ rq ⟨.serve r, coins, clock⟩ (.error (.oauth e))) ∨
      (e.status = 400 ∧ e.name = b!"invalid_request")) := by
  cases hb : buildTokenRequest (cfg.baseURI ++ cfg.tokenEndpoint) rq with
  | none =>
    rw [authenticate_view, hb]
    exact ⟨fun t ht => (nomatch ht), fun e he => (nomatch he)⟩
  | some r =>
    obtain ⟨line, after, h1, h2, h3⟩ := cutLine_unreliable (y := y) hu ha hx hy hb hs.1
      (fun r' res => hs.2 r r' res hb) back
    have hv : (newClient cfg (cutLine x y u ⟨false, s⟩ coins clock there back)).authenticate rq =
        (newClient cfg line).authenticate rq := by
      rw [authenticate_view, authenticate_view, hb]
      exact view_same same_token h3 _
    obtain ⟨k1, k2⟩ := C67_authenticate h1 cfg rq
    rw [hv]
    refine ⟨fun t ht => ?_, k2⟩
    obtain ⟨r', a1, a2⟩ := k1 t ht
    obtain ⟨⟨r'', a3, a4⟩, -⟩ := id a1
    rw [hb] at a3
    cases a3
    cases a4
    exact ⟨r, a1, by rw [← h2, a2]⟩

/-- C86: the same for `Introspect`. -/
theorem C86_introspect {cfg : ClientConfig} {x : Sending} {y : Shipping} {s : Server} {coins : Str}
    {clock : Nat → Time} {u : URL} {rq : IntrospectionRequest} {there : Nat}
    (hx : HostText x.host) (hy : ∀ body, Ships y body)
    (hu : parseURL (cfg.baseURI ++ cfg.introspectionEndpoint) = some u) (ha : Address u)
    (hs : ShortCut x u (cfg.baseURI ++ cfg.introspectionEndpoint) (introspectionRequestValues rq)
      rq.clientID rq.clientSecret s coins clock there) (back : Nat) :
    (∀ i, (newClient cfg (cutLine x y u ⟨false, s⟩ coins clock there back)).introspect rq = .ok i →
      ∃ r, Introspects cfg ⟨false, s⟩ rq ⟨.serve r, coins, clock⟩ (.ok i)) ∧
    (∀ e, (newClient cfg (cutLine x y u ⟨false, s⟩ coins clock there back)).introspect rq =
        .error (.oauth e) →
      (∃ r, Introspects cfg ⟨false, s⟩ rq ⟨.serve r, coins, clock⟩ (.error (.oauth e))) ∨
      (e.status = 400 ∧ e.name = b!"invalid_request")) := by
  cases hb : buildIntrospectionRequest (cfg.baseURI ++ cfg.introspectionEndpoint) rq with
  | none =>
    rw [introspect_view, hb]
    exact ⟨fun t ht => (nomatch ht), fun e he => (nomatch he)⟩
  | some r =>
    obtain ⟨line, after, h1, h2, h3⟩ := cutLine_unreliable (y := y) hu ha hx hy hb hs.1
      (fun r' res => hs.2 r r' res hb) back
    have hv : (newClient cfg (cutLine x y u ⟨false, s⟩ coins clock there back)).introspect rq =
        (newClient cfg line).introspect rq := by
      rw [introspect_view, introspect_view, hb]
      exact view_same same_introspection h3 _
    rw [hv]
    exact C67_introspect h1 cfg rq

/-- C86: `Revoke` over such a connection returns nil only if the server revoked. -/
theorem C86_revoke {cfg : ClientConfig} {x : Sending} {y : Shipping} {s : Server} {coins : Str}
    {clock : Nat → Time} {u : URL} {rq : RevocationRequest} {there : Nat}
    (hx : HostText x.host) (hy : ∀ body, Ships y body)
    (hu : parseURL (cfg.baseURI ++ cfg.revocationEndpoint) = some u) (ha : Address u)
    (hs : ShortCut x u (cfg.baseURI ++ cfg.revocationEndpoint) (revocationRequestValues rq)
      rq.clientID rq.clientSecret s coins clock there) (back : Nat) :
    ((newClient cfg (cutLine x y u ⟨false, s⟩ coins clock there back)).revoke rq = none →
      ∃ r, RevokesToken cfg ⟨false, s⟩ rq ⟨.serve r, coins, clock⟩ none ∧
        cutState x u ⟨false, s⟩ coins clock there r = (step ⟨false, s⟩ ⟨.serve r, coins, clock⟩).2) ∧
    (∀ e, (newClient cfg (cutLine x y u ⟨false, s⟩ coins clock there back)).revoke rq =
        some (.oauth e) →
      (∃ r, RevokesToken cfg ⟨false, s⟩ rq ⟨.serve r, coins, clock⟩ (some (.oauth e))) ∨
      (e.status = 400 ∧ e.name = b!"invalid_request")) := by
  cases hb : buildRevocationRequest (cfg.baseURI ++ cfg.revocationEndpoint) rq with
  | none =>
    rw [revoke_view, hb]
    exact ⟨fun ht => (nomatch ht), fun e he => (nomatch he)⟩
  | some r =>
    obtain ⟨line, after, h1, h2, h3⟩ := cutLine_unreliable (y := y) hu ha hx hy hb hs.1
      (fun r' res => hs.2 r r' res hb) back
    have hv : (newClient cfg (cutLine x y u ⟨false, s⟩ coins clock there back)).revoke rq =
        (newClient cfg line).revoke rq := by
      rw [revoke_view, revoke_view, hb]
      exact congrArg errorOf (view_same (fun _ _ => rfl) h3 _)
    obtain ⟨k1, k2⟩ := C67_revoke h1 cfg rq
    rw [hv]
    refine ⟨fun ht => ?_, k2⟩
    obtain ⟨r', a1, a2⟩ := k1 ht
    obtain ⟨⟨r'', a3, a4⟩, -⟩ := id a1
    rw [hb] at a3
    cases a3
    cases a4
    exact ⟨r, a1, by rw [← h2, a2]⟩

/-! ### Cases that meet the hypotheses -/

/-- A response with chunks that breaks off two bytes into its chunk, and one that lacks only the last
byte of all: the body is there, and so is the error. -/
example : ∃ p q m, Text false (p ++ q) m ∧ q ≠ [] ∧ q.length = 1 ∧
    (∃ code reason, StatusLine m.start code reason) ∧
    (readResponse p).map (fun g => (g.1.statusCode, g.1.body, g.1.bodyErr)) =
      some (404, b!"0123456789", true) ∧
    (readResponse (p.take 60)).map (fun g => (g.1.statusCode, g.1.body, g.1.bodyErr)) =
      some (404, b!"01", true) := by
  have h := Demo.text_chunks
  have e : b!"HTTP/1.1 404 Not Found" ++ CRLF ++ (b!"Transfer-Encoding:" ++ b!"Chunked" ++ CRLF) ++ CRLF ++
      (b!"00A" ++ CRLF ++ b!"0123456789" ++ CRLF ++ (b!"0" ++ CRLF ++ CRLF)) =
    (b!"HTTP/1.1 404 Not Found" ++ CRLF ++ (b!"Transfer-Encoding:" ++ b!"Chunked" ++ CRLF) ++ CRLF ++
      (b!"00A" ++ CRLF ++ b!"0123456789" ++ CRLF ++ (b!"0" ++ CRLF ++ [0x0D]))) ++ [0x0A] := by decide
  rw [e] at h
  exact ⟨_, _, _, h, List.cons_ne_nil _ _, rfl, ⟨b!"404", b!"Not Found", rfl, rfl, by decide⟩,
    by decide +kernel, by decide +kernel⟩

/-- A password grant of which request and answer get through: the client has the tokens. It has none
if the body of the request is cut off, or the answer, although the server then has handed them out. -/
example : ∃ u, parseURL (demoClient.baseURI ++ demoClient.tokenEndpoint) = some u ∧ Address u ∧
    HostText b!"example.com:80" ∧
    ShortCut ⟨b!"example.com:80", true⟩ u (demoClient.baseURI ++ demoClient.tokenEndpoint)
      (tokenRequestValues { grantType := b!"password", username := b!"u1", password := b!"p1" })
      b!"c1" b!"s1" Demo.server [1, 2, 3, 4] (fun n => (1000 + n) * second) 1000 ∧
    ((newClient demoClient (cutLine ⟨b!"example.com:80", true⟩ Demo.shipping u
      ⟨false, Demo.server⟩ [1, 2, 3, 4] (fun n => (1000 + n) * second) 1000 5000)).authenticate {
        grantType := b!"password", username := b!"u1", password := b!"p1", clientID := b!"c1",
        clientSecret := b!"s1" }).map (·.accessToken) = .ok Demo.a1.string ∧
    ∀ cut ∈ [(230, 5000), (1000, 300)],
      ((newClient demoClient (cutLine ⟨b!"example.com:80", true⟩ Demo.shipping u
        ⟨false, Demo.server⟩ [1, 2, 3, 4] (fun n => (1000 + n) * second) cut.1 cut.2)).authenticate {
          grantType := b!"password", username := b!"u1", password := b!"p1", clientID := b!"c1",
          clientSecret := b!"s1" }).toOption = none := by
  refine ⟨{ scheme := b!"http", host := b!"example.com", path := b!"/oauth2/token" }, by decide +kernel,
    C85_address (uri := b!"http://example.com/oauth2/token") (by decide +kernel) (by decide) rfl (by decide),
    by unfold HostText; decide, ⟨by decide +kernel, ?_⟩, by decide +kernel, by decide +kernel⟩
  intro r r' res h1 h2 h3
  have h : (buildFormRequest (demoClient.baseURI ++ demoClient.tokenEndpoint)
      (tokenRequestValues { grantType := b!"password", username := b!"u1", password := b!"p1" })
      b!"c1" b!"s1").all (fun r => (arriving ⟨b!"example.com:80", true⟩
        { scheme := b!"http", host := b!"example.com", path := b!"/oauth2/token" } 1000 r).all fun r' =>
          (wire ⟨false, Demo.server⟩ [1, 2, 3, 4]
            (fun n => (1000 + n) * second) r').all fun res => res.body.length < 2 ^ 63) = true := by
    decide +kernel
  rw [h1, Option.all_some, h2, Option.all_some, h3, Option.all_some] at h
  exact of_decide_eq_true h

/-- The library's request twice on a connection that breaks in the body of the second. -/
example : ∃ r u p q, (∀ r' ∈ [r, r], Asked ⟨b!"example.com", true⟩ b!"/oauth2/token" r') ∧
    parseRequestURI b!"/oauth2/token" = some u ∧
    [r, r].flatMap (requestText ⟨b!"example.com", true⟩ b!"/oauth2/token") = p ++ q ∧
    (fed 3 p).map (fun r => (r.body, r.bodyErr)) =
      [(some b!"grant_type=password", false), (some b!"grant_type=", true)] := by
  have hu : parseURL b!"http://example.com/oauth2/token" =
      some { scheme := b!"http", host := b!"example.com", path := b!"/oauth2/token" } := by decide +kernel
  obtain ⟨r, hr⟩ : ∃ r, buildFormRequest b!"http://example.com/oauth2/token"
      [(b!"grant_type", [b!"password"])] b!"c1" b!"s1" = some r := by
    unfold buildFormRequest newPostRequest
    rw [hu]
    exact ⟨_, rfl⟩
  obtain ⟨hp, hm, _, _, hb, _⟩ := build_plain hr hu
  have ha : Asked ⟨b!"example.com", true⟩ b!"/oauth2/token" r := by
    refine ⟨?_, hp.kept, (buildFormRequest_clean hr).printable, hp.own, ?_, by decide, ?_⟩
    · rw [hm]; exact token_of_decide (by decide) (by decide)
    · unfold HostText; decide
    · rw [hb]; decide +kernel
  have key : (buildFormRequest b!"http://example.com/oauth2/token"
      [(b!"grant_type", [b!"password"])] b!"c1" b!"s1").map (fun r =>
        let t := [r, r].flatMap (requestText ⟨b!"example.com", true⟩ b!"/oauth2/token")
        (fed 3 (t.take (t.length - 8))).map (fun r => (r.body, r.bodyErr))) =
      some [(some b!"grant_type=password", false), (some b!"grant_type=", true)] := by decide +kernel
  rw [hr] at key
  refine ⟨r, { path := b!"/oauth2/token" }, _, _, ?_, by decide +kernel,
    (List.take_append_drop _ _).symm, Option.some.inj key⟩
  intro r' h'
  rcases List.mem_cons.mp h' with rfl | h'
  · exact ha
  · rcases List.mem_cons.mp h' with rfl | h'
    · exact ha
    · cases h'

end OAuth2

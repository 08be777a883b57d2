import Verif.Lemmas.Shape
import Verif.Lemmas.Demo
import Verif.Props.Requests

/-!
C17 (partial), C22 (server), C26, C37, C38, C39, C42, C46, C50: what one request comes to, for
every state of the server, every request, all random bytes and clock readings.
-/

namespace OAuth2

open Spec

set_option linter.unusedSimpArgs false

variable {s : Server} {c : Call} {res : Response}

theorem answered_serve (h : (step ⟨false, s⟩ c).1 = .answered res) : ∃ r, c.op = .serve r := by
  cases hop : c.op with
  | serve r => exact ⟨r, rfl⟩
  | authorize r required => rw [step_authorize hop] at h; simp only at h; split at h <;> cases h
  | configure cl us => rw [step_configure hop] at h; cases h

theorem answer_eq {reply : Reply} (h : reply.answer = .answered res) :
    reply ≠ .crash ∧ res = (reply.render {}).result := by
  cases reply <;> simp only [Reply.answer] at h <;> cases h <;> exact ⟨by simp, rfl⟩

/-- A request that is answered. -/
theorem answered_shape (h : (step ⟨false, s⟩ c).1 = .answered res) :
    ∃ r reply s', c.op = .serve r ∧ step ⟨false, s⟩ c = (reply.answer, ⟨false, s'⟩) ∧
      Server.Served s r c.local reply s' ∧ ∃ w, Shape s r reply w ∧ res = w.result := by
  obtain ⟨r, hop⟩ := answered_serve h
  obtain ⟨reply, s', h1, h2, h3⟩ := step_served hop s
  rw [h1] at h
  obtain ⟨h4, h5⟩ := answer_eq h
  exact ⟨r, reply, s', hop, h1, h2, _, h3.resolve_left h4, h5⟩

/-! ### C26 -/

/-- **C26.** Every response with an access or refresh token in its body, and every redirect
(which is how codes and the tokens of the implicit grant are delivered), forbids caching with
exactly one `Cache-Control: no-store` and exactly one `Pragma: no-cache`; redirects also have
exactly one `Referrer-Policy: origin`. -/
theorem C26_not_cached (h : (step ⟨false, s⟩ c).1 = .answered res)
    (hd : (∃ v, JsonMember res b!"access_token" v ∨ JsonMember res b!"refresh_token" v) ∨
      res.header.all b!"Location" ≠ []) :
    res.header.all b!"Cache-Control" = [b!"no-store"] ∧
    res.header.all b!"Pragma" = [b!"no-cache"] ∧
    (res.header.all b!"Location" ≠ [] → res.header.all b!"Referrer-Policy" = [b!"origin"]) := by
  obtain ⟨r, reply, s', hop, h1, h2, w, hw, rfl⟩ := answered_shape h
  have nojson : ∀ body : Str, (parseJSON body = none) → ∀ res : Response, res.body = body →
      ∀ n v, ¬ JsonMember res n v := by
    rintro body hb res rfl n v ⟨m, hm, _⟩
    rw [hb] at hm; cases hm
  cases hw with
  | json hdr json status hs hh =>
    refine ⟨(jsonHeader_cache hdr).1, (jsonHeader_cache hdr).2, fun hl => absurd ?_ hl⟩
    show (jsonHeader hdr).all _ = []
    rw [jsonHeader_other _ (by decide) (by decide) (by decide)]
    rcases hh with rfl | rfl <;> decide +kernel
  | redirect rq hf hm params hp hne f L hL =>
    obtain ⟨a, b, d⟩ := redirectHeader_cache [] L
    exact ⟨a, b, fun _ => d⟩
  | revoked =>
    rcases hd with ⟨v, hd⟩ | hd
    · have := nojson [] (by decide +kernel) _ (rfl : (Recorder.result { sent := some (200, []) }).body = [])
      exact (hd.elim (this _ _) (this _ _)).elim
    · exact absurd rfl hd
  | notice =>
    rcases hd with ⟨v, hd⟩ | hd
    · have := nojson Server.notice (by decide +kernel) _ (rfl : (Recorder.result {
        sent := some (200, []), body := Server.notice }).body = Server.notice)
      exact (hd.elim (this _ _) (this _ _)).elim
    · exact absurd rfl hd
  | notFound hd' hh =>
    rcases hd with ⟨v, hd⟩ | hd
    · have := nojson b!"404 page not found\n" (by decide +kernel) _ (rfl : (Recorder.result {
        header := hd', sent := some (404, hd'), body := b!"404 page not found\n" }).body = _)
      exact (hd.elim (this _ _) (this _ _)).elim
    · refine absurd ?_ hd
      show hd'.all _ = []
      rw [hh]
      decide +kernel

/-- **C26**, for whatever hands out a token or a code. -/
theorem C26_handed_out
    (hd : (∃ k t, Hands ⟨c, (step ⟨false, s⟩ c).1⟩ k t) ∨ ∃ x, HandsCode ⟨c, (step ⟨false, s⟩ c).1⟩ x) :
    ∃ res, (step ⟨false, s⟩ c).1 = .answered res ∧
      res.header.all b!"Cache-Control" = [b!"no-store"] ∧
      res.header.all b!"Pragma" = [b!"no-cache"] ∧
      (res.header.all b!"Location" ≠ [] → res.header.all b!"Referrer-Policy" = [b!"origin"]) := by
  rcases hd with ⟨k, t, ⟨rq, res, ⟨r, _, _, _, ha⟩, hm⟩ | ⟨_, rq, u, res, ⟨r, _, _, _, _, _, ha⟩, _, hm⟩⟩ |
    ⟨x, rq, u, res, ⟨r, _, _, _, _, _, ha⟩, _, hm⟩
  · refine ⟨res, ha, C26_not_cached ha (.inl ⟨t.string, ?_⟩)⟩
    cases k
    · exact .inl hm
    · exact .inr hm
  · refine ⟨res, ha, C26_not_cached ha (.inr ?_)⟩
    obtain ⟨front, fragment, params, h1, _⟩ := hm
    rw [h1]; simp
  · refine ⟨res, ha, C26_not_cached ha (.inr ?_)⟩
    obtain ⟨u, front, query, _, h1, _⟩ := hm
    rw [h1]; simp

/-- Non-vacuity: a JSON response, a fragment redirect and a query redirect of the session. -/
example : Hands Demo.e3 .refresh Demo.r3 ∧ Demo.e3 = ⟨Demo.c3, (step ⟨false, Demo.s2⟩ Demo.c3).1⟩ ∧
    Hands Demo.e7 .access Demo.a7 ∧ Demo.e7 = ⟨Demo.c7, (step ⟨false, Demo.s6⟩ Demo.c7).1⟩ ∧
    HandsCode Demo.e2 Demo.x2 ∧ Demo.e2 = ⟨Demo.c2, (step ⟨false, Demo.s1⟩ Demo.c2).1⟩ := by
  refine ⟨by decide +kernel, ?_, by decide +kernel, ?_, by decide +kernel, ?_⟩
  · rw [Demo.step3]; rfl
  · rw [Demo.step7]; rfl
  · rw [Demo.step2]; rfl

/-! ### C39 -/

/-- A printed URI is the printed URI without its query and fragment, followed by these. -/
theorem printed_rest (u v : URL) (hb : u.base = v.base := by rfl) :
    ∃ rest, v.string = URL.string { u with forceQuery := false, rawQuery := [], fragment := [] } ++ rest ∧
        (rest = [] ∨ ∃ text, rest = 0x3F :: text ∨ rest = 0x23 :: text) := by
  refine ⟨(if v.forceQuery ∨ v.rawQuery ≠ [] then 0x3F :: v.rawQuery else []) ++
    (if v.fragment ≠ [] then 0x23 :: escape .fragment v.fragment else []), ?_, ?_⟩
  · have : URL.string { u with forceQuery := false, rawQuery := [], fragment := [] } = u.base := by
      unfold URL.string
      simp only [Bool.false_eq_true, ne_eq, not_true_eq_false, or_self, if_false, List.append_nil]
      rfl
    rw [this, hb]
    simp [URL.string]
  · split
    · exact .inr ⟨_, .inl rfl⟩
    · split
      · exact .inr ⟨_, .inr rfl⟩
      · exact .inl rfl

/-- **C39.** Whenever the server redirects, the request is a well-formed authorization request
that names a registered client and the redirect URI registered for it, and there is exactly one
`Location`: the registered URI, printed without its query, followed by nothing but a query and a
fragment. For a registered URI that is absolute, without `#`, and without non-ASCII bytes in a
bracketed host (see C14, C15), the location has the scheme, opaque part, user, host and path of
the registered URI. -/
theorem C39_redirects_registered (h : (step ⟨false, s⟩ c).1 = .answered res)
    (hl : res.header.all b!"Location" ≠ []) :
    ∃ r rq client u L, c.op = .serve r ∧ LastSegment r.path b!"authorize" ∧
      parseAuthorizationRequest r = .ok rq ∧ s.clients.get? rq.clientID = some client ∧
      client.redirectURI = rq.redirectURI ∧ parseRequestURI client.redirectURI = some u ∧
      res.header.all b!"Location" = [L] ∧
      (∃ rest, L = URL.string { u with forceQuery := false, rawQuery := [], fragment := [] } ++ rest ∧
        (rest = [] ∨ ∃ text, rest = 0x3F :: text ∨ rest = 0x23 :: text)) ∧
      (u.scheme ≠ [] → (0x23 : UInt8) ∉ client.redirectURI →
        ((∀ c ∈ client.redirectURI, c < 0x80) ∨ (0x5B : UInt8) ∉ client.redirectURI) →
        ∃ v, parseURL L = some v ∧ u.SameTarget v) := by
  obtain ⟨r, reply, s', hop, h1, h2, w, hw, rfl⟩ := answered_shape h
  cases hw with
  | json hd json status hs hh =>
    refine absurd ?_ hl
    show (jsonHeader hd).all _ = []
    rw [jsonHeader_other _ (by decide) (by decide) (by decide)]
    rcases hh with rfl | rfl <;> decide +kernel
  | revoked => exact absurd rfl hl
  | notice => exact absurd rfl hl
  | notFound hd' hh =>
    refine absurd ?_ hl
    show hd'.all _ = []
    rw [hh]
    decide +kernel
  | redirect rq hf hm params hp hne f L hL =>
    obtain ⟨client, hc, hu⟩ := hf.client
    obtain ⟨hne', u, hpu⟩ := authorizationRequest_uri hf.parsed
    refine ⟨r, rq, client, u, L, hop, (lastSegment_iff _ _).mpr hf.path, hf.parsed, hc, hu,
      hu ▸ hpu, ?_, ?_, ?_⟩
    · show (redirectHeader [] L).all _ = _
      rw [redirectHeader_location]
      rfl
    · unfold redirectLocation at hL
      rw [hpu] at hL
      cases f with
      | false =>
        simp only [Bool.false_eq_true, if_false, Option.some.injEq] at hL
        subst hL
        exact printed_rest _ _
      | true =>
        simp only [if_true, Option.some.injEq] at hL
        subst hL
        exact printed_rest _ _
    · rw [hu]
      intro habs hh hascii
      cases f with
      | false =>
        have hstar : rq.redirectURI ≠ b!"*" := by
          intro h
          rw [h] at hpu
          have h' : parseRequestURI b!"*" = some { path := b!"*" } := by decide
          rw [hpu] at h'
          cases h'
          exact habs rfl
        obtain ⟨L', hL', _, h3⟩ := location_query hp hpu hstar hascii
        rw [hL] at hL'
        cases hL'
        obtain ⟨v, hv, hx, _⟩ := h3 habs hh
        exact ⟨v, hv, hx⟩
      | true =>
        obtain ⟨L', v, hL', hv, ⟨hx, _⟩, _⟩ := location_fragment hp hpu habs hh hascii
        rw [hL] at hL'
        cases hL'
        exact ⟨v, hv, hx⟩

/-- **C39.** An authorization request that names an unknown client, or a redirect URI that is not
the one registered for its client, is answered with an error document, without a redirect, and
changes nothing. -/
theorem C39_refused {r : Request} {rq : AuthorizationRequest} (hop : c.op = .serve r)
    (hp : LastSegment r.path b!"authorize") (hq : parseAuthorizationRequest r = .ok rq)
    (hc : ∀ client, s.clients.get? rq.clientID = some client → client.redirectURI ≠ rq.redirectURI) :
    (RefusedWith (step ⟨false, s⟩ c).1 400 b!"invalid_request" ∨
      RefusedWith (step ⟨false, s⟩ c).1 401 b!"invalid_client") ∧
    (∀ res, (step ⟨false, s⟩ c).1 = .answered res → res.header.all b!"Location" = []) ∧
    (step ⟨false, s⟩ c).2 = ⟨false, s⟩ := by
  refine ⟨?_, ?_, ?_⟩
  rotate_left
  · intro res h
    apply Classical.byContradiction
    intro hl
    obtain ⟨r', rq', client, u, L, hop', _, hq', hc', hu, _⟩ := C39_redirects_registered h hl
    rw [hop] at hop'; cases hop'
    rw [hq] at hq'; cases hq'
    exact hc client hc' hu
  all_goals
    rw [step_serve hop]
    have hh : s.handle r c.local = s.authorizeReply r c.local := by
      unfold Server.handle
      simp only [(lastSegment_iff _ _).mp hp]
      rfl
    rw [hh]
    unfold Server.authorizeReply
    rw [hq]
    simp only
    cases hk : knownResponseType rq.responseType with
    | false => first | exact .inl (refused_request _) | rfl
    | true =>
      simp only [Bool.not_true, Bool.false_eq_true, if_false]
      cases hcl : s.clients.get? rq.clientID with
      | none => first | exact .inr (refused_client _) | rfl
      | some client =>
        simp only
        first
          | (rw [if_pos (hc client hcl)]; done)
          | (rw [if_pos (hc client hcl)]; exact .inl (refused_request _))

/-- Non-vacuity: the redirects of the session, and a request for a client whose redirect URI
differs. -/
example : ∃ res, (step ⟨false, Demo.s1⟩ Demo.c2).1 = .answered res ∧
    res.header.all b!"Location" ≠ [] := by
  rw [Demo.step2]
  exact ⟨_, rfl, by decide +kernel⟩

example : LastSegment b!"/oauth2/authorize" b!"authorize" ∧ ∃ rq r,
    (Demo.post b!"/oauth2/authorize" []
      b!"response_type=token&client_id=c2&redirect_uri=http%3A%2F%2Fevil.example%2Fcb" [] 1000).op =
        .serve r ∧
    parseAuthorizationRequest r = .ok rq ∧
    ∀ client, Demo.server.clients.get? rq.clientID = some client →
      client.redirectURI ≠ rq.redirectURI :=
  ⟨by decide +kernel, {
    responseType := b!"token", clientID := b!"c2", redirectURI := b!"http://evil.example/cb" }, _, rfl,
    by decide +kernel, by intro client h; cases h; decide⟩

/-! ### C17 -/

/-- **C17**, for authorization requests, provided the embedding program registered no redirect URI
with a `#`: an authorization request with a `#` in its redirect URI is refused, is not redirected
and changes nothing. Full statement: this whatever is registered, and for token requests too; both
are refuted in Redirects.lean. -/
theorem C17_no_fragment_partial {r : Request} {rq : AuthorizationRequest} (hop : c.op = .serve r)
    (hp : LastSegment r.path b!"authorize") (hq : parseAuthorizationRequest r = .ok rq)
    (hreg : ∀ id client, s.clients.get? id = some client → (0x23 : UInt8) ∉ client.redirectURI)
    (hh : (0x23 : UInt8) ∈ rq.redirectURI) :
    (RefusedWith (step ⟨false, s⟩ c).1 400 b!"invalid_request" ∨
      RefusedWith (step ⟨false, s⟩ c).1 401 b!"invalid_client") ∧
    (∀ res, (step ⟨false, s⟩ c).1 = .answered res → res.header.all b!"Location" = []) ∧
    (step ⟨false, s⟩ c).2 = ⟨false, s⟩ :=
  C39_refused hop hp hq fun client h hu => hreg _ client h (hu ▸ hh)

example : (∀ id client, Demo.server.clients.get? id = some client →
      (0x23 : UInt8) ∉ client.redirectURI) ∧
    ∃ rq r, (Demo.post b!"/authorize" []
        b!"response_type=token&client_id=c2&redirect_uri=http%3A%2F%2Fexample.org%2F%2523a" [] 1000).op =
        .serve r ∧
      parseAuthorizationRequest r = .ok rq ∧ (0x23 : UInt8) ∈ rq.redirectURI := by
  refine ⟨?_, {
    responseType := b!"token", clientID := b!"c2", redirectURI := b!"http://example.org/#a" }, _, rfl,
    by decide +kernel, by decide⟩
  intro id client h
  unfold Demo.server at h
  simp only [GoMap.get?_cons, GoMap.get?_nil] at h
  split at h
  · cases h; decide
  split at h
  · cases h; decide
  · cases h

/-! ### C46 -/

/-- **C46.** Serving any request on any server whose mutex is free returns with exactly one status
line written, between 200 and 404, and the mutex free; or it panics, and then the random source
had not the bytes for two keys. In particular it never blocks on its own mutex. -/
theorem C46_answered_once (s : Server) (r : Request) (l : Local) (hw : l.w = {}) :
    ∃ s' l', (exec (Server.serveHTTP r) ⟨false, s⟩ l = (.ret (), ⟨false, s'⟩, l') ∧
        ∃ status, 200 ≤ status ∧ status ≤ 404 ∧ AnsweredOnce l'.w status) ∨
      (exec (Server.serveHTTP r) ⟨false, s⟩ l = (.panic, ⟨false, s'⟩, l') ∧
        (s.config.keyLength < 0 ∨ l.coins.length < 2 * s.config.keyLength.toNat)) := by
  obtain ⟨l', h, hl⟩ := Server.serveHTTP_exec r s l
  refine ⟨(s.handle r l).2, l', ?_⟩
  rw [h]
  have hs := Server.served s r l
  generalize (s.handle r l).1 = reply at *
  generalize (s.handle r l).2 = s' at *
  have hx := shape hs
  by_cases hc : reply = .crash
  · right
    subst hc
    refine ⟨rfl, ?_⟩
    cases hs with
    | crash hcoins => exact hcoins
  · left
    have hx := hx.resolve_left hc
    rw [hw] at hl
    rw [← hl] at hx
    have ho : reply.outcome = .ret () := by cases reply <;> first | rfl | exact absurd rfl hc
    refine ⟨by rw [ho], ?_⟩
    generalize l'.w = w at *
    cases hx with
    | json hdr json status hs hh => exact ⟨status, by omega, by omega, ⟨_, rfl⟩, rfl⟩
    | redirect => exact ⟨303, by decide, by decide, ⟨_, rfl⟩, rfl⟩
    | revoked => exact ⟨200, by decide, by decide, ⟨_, rfl⟩, rfl⟩
    | notice => exact ⟨200, by decide, by decide, ⟨_, rfl⟩, rfl⟩
    | notFound => exact ⟨404, by decide, by decide, ⟨_, rfl⟩, rfl⟩

/-- **C46.** `Authorize` returns true and writes nothing, or returns false with exactly one status
line (400, 401 or 403) written; the mutex is free again. It never panics or blocks, whatever the
random source does. -/
theorem C46_authorize_once (s : Server) (r : Request) (required : Scope) (l : Local) (hw : l.w = {}) :
    ∃ l', (exec (Server.authorize r required) ⟨false, s⟩ l = (.ret true, ⟨false, s⟩, l') ∧ l'.w = {}) ∨
      (exec (Server.authorize r required) ⟨false, s⟩ l = (.ret false, ⟨false, s⟩, l') ∧
        ∃ status, status ∈ [400, 401, 403] ∧ AnsweredOnce l'.w status) := by
  obtain ⟨l', h, hl⟩ := Server.authorize_exec r required s l
  refine ⟨l', ?_⟩
  rw [h]
  cases ha : s.authorizes r required (l.clock l.tick) with
  | none => left; rw [ha] at hl; exact ⟨rfl, hl.trans hw⟩
  | some e =>
    right
    rw [ha, hw] at hl
    refine ⟨rfl, e.status.toNat, ?_, ?_⟩
    · unfold Server.authorizes at ha
      cases hb : parseBearerToken r with
      | error e' =>
        rw [hb] at ha
        cases ha
        rcases Server.parseBearerToken_error hb with rfl | rfl <;> decide
      | ok tk =>
        rw [hb] at ha
        simp only at ha
        repeat' split at ha
        all_goals cases ha
        all_goals first
          | exact (by decide : (401 : Int).toNat ∈ [400, 401, 403])
          | exact (by decide : (403 : Int).toNat ∈ [400, 401, 403])
    · rw [hl]
      exact ⟨⟨_, rfl⟩, rfl⟩

/-- Whatever the coins, requests that issue nothing do not panic: a GET request, an introspection,
a revocation. -/
theorem C46_without_coins (s : Server) (r : Request) (l : Local)
    (h : ¬ LastSegment r.path b!"authorize" ∧ ¬ LastSegment r.path b!"token" ∨ r.method = b!"GET") :
    (exec (Server.serveHTTP r) ⟨false, s⟩ l).1 = .ret () := by
  obtain ⟨l', he, -⟩ := Server.serveHTTP_exec r s l
  rw [he]
  have hs := Server.served s r l
  have hh : (s.handle r l).1 ≠ .crash := by
    intro hc
    unfold Server.handle at hc
    simp only [lastSegment_iff] at h
    by_cases h1 : Server.lastSegment r.path = b!"authorize"
    · rw [if_pos h1] at hc
      have hm := h.resolve_left fun h => h.1 h1
      unfold Server.authorizeReply at hc
      repeat' split at hc
      all_goals first | cases hc | skip
      all_goals exact absurd hm ‹_›
    rw [if_neg h1] at hc
    by_cases h2 : Server.lastSegment r.path = b!"token"
    · rw [if_pos h2] at hc
      have hm := h.resolve_left fun h => h.2 h2
      unfold Server.tokenReply parseTokenRequest at hc
      rw [hm] at hc
      cases hc
    rw [if_neg h2] at hc
    by_cases h3 : Server.lastSegment r.path = b!"introspect"
    · rw [if_pos h3] at hc
      unfold Server.introspectReply at hc
      repeat' split at hc
      all_goals cases hc
    rw [if_neg h3] at hc
    by_cases h4 : Server.lastSegment r.path = b!"revoke"
    · rw [if_pos h4] at hc
      unfold Server.revokeReply at hc
      simp only at hc
      repeat' split at hc
      all_goals cases hc
    rw [if_neg h4] at hc
    cases hc
  cases hr : (s.handle r l).1 <;> first | rfl | exact absurd hr hh

/-! ### C42 -/

/-- **C42.** If a call panics, at whatever point the random source failed, then nothing was
written to the client, the mutex is free and the state is as before; so every later call has the
answer and effect it would have had without the failed one. And the random source had not the
bytes for two keys. -/
theorem C42_random_failure {w : Recorder} (h : (step ⟨false, s⟩ c).1 = .panicked w) :
    w = {} ∧ (step ⟨false, s⟩ c).2 = ⟨false, s⟩ ∧
      (∀ c', step (step ⟨false, s⟩ c).2 c' = step ⟨false, s⟩ c') ∧ ¬ Enough s.config c 2 := by
  cases hop : c.op with
  | authorize r required => rw [step_authorize hop] at h; simp only at h; split at h <;> cases h
  | configure cl us => rw [step_configure hop] at h; cases h
  | serve r =>
    obtain ⟨reply, s', h1, h2, h3⟩ := step_served hop s
    rw [h1] at h ⊢
    have : reply = .crash := by cases reply <;> first | rfl | cases h
    subst this
    cases h
    cases h2 with
    | crash hc =>
      refine ⟨rfl, rfl, fun _ => rfl, ?_⟩
      rintro ⟨he, hl⟩
      rcases hc with hc | hc
      · omega
      · have : c.local.coins.length = c.coins.length := rfl
        omega

/-- Non-vacuity: with random bytes for one key only, a password request panics. -/
example : (step ⟨false, Demo.server⟩ { Demo.c1 with coins := [1, 2, 3] }).1 = .panicked {} := by
  decide +kernel

/-! ### C50 -/

theorem parseForm_path (r : Request) (path : Str) :
    ({ r with path := path } : Request).parseForm =
      ({ r.parseForm.1 with path := path }, r.parseForm.2) := by
  unfold Request.parseForm parsePostForm
  simp only
  cases r.form <;> rfl

theorem parse_path (r : Request) (path : Str) :
    parseAuthorizationRequest { r with path := path } = parseAuthorizationRequest r ∧
    parseTokenRequest { r with path := path } = parseTokenRequest r ∧
    parseIntrospectionRequest { r with path := path } = parseIntrospectionRequest r ∧
    parseRevocationRequest { r with path := path } = parseRevocationRequest r := by
  have hb : ({ r.parseForm.1 with path := path } : Request).basicAuth = r.parseForm.1.basicAuth := rfl
  unfold parseAuthorizationRequest parseTokenRequest parseIntrospectionRequest parseRevocationRequest
  simp only [parseForm_path, hb, and_self]

/-- **C50.** The path of a request matters only through the text after its last slash. -/
theorem C50_last_segment (s : Shared Server) {r : Request} (hop : c.op = .serve r) {path seg : Str}
    (h1 : LastSegment r.path seg) (h2 : LastSegment path seg) :
    step s { c with op := .serve { r with path := path } } = step s c := by
  rw [lastSegment_iff] at h1 h2
  obtain ⟨locked, s⟩ := s
  cases locked with
  | true =>
    unfold step
    rw [hop]
    rfl
  | false =>
    rw [step_serve hop, step_serve (c := { c with op := .serve { r with path := path } }) rfl]
    have : s.handle { r with path := path } c.local = s.handle r c.local := by
      obtain ⟨p1, p2, p3, p4⟩ := parse_path r path
      unfold Server.handle Server.authorizeReply Server.tokenReply Server.introspectReply
        Server.revokeReply
      simp only [h1, h2, p1, p2, p3, p4, parseForm_path]
    rw [← this]
    rfl

/-- **C50.** Every other last segment is answered with 404 and changes nothing. -/
theorem C50_not_found {r : Request} (hop : c.op = .serve r) {seg : Str} (h : LastSegment r.path seg)
    (hn : seg ∉ [b!"authorize", b!"token", b!"introspect", b!"revoke"]) :
    (∃ res, (step ⟨false, s⟩ c).1 = .answered res ∧ res.statusCode = 404) ∧
      (step ⟨false, s⟩ c).2 = ⟨false, s⟩ := by
  rw [lastSegment_iff] at h
  simp only [List.mem_cons, List.not_mem_nil, or_false, not_or] at hn
  rw [step_serve hop]
  have : s.handle r c.local = (.notFound, s) := by
    unfold Server.handle
    simp only [h, hn.1, hn.2.1, hn.2.2.1, hn.2.2.2, if_false]
  rw [this]
  exact ⟨⟨_, rfl, rfl⟩, rfl⟩

example : LastSegment b!"/a/b/token" b!"token" ∧ LastSegment b!"token" b!"token" ∧
    LastSegment b!"/token/" [] ∧ LastSegment b!"/Token" b!"Token" := by decide +kernel

/-! ### C37 -/

/-- **C37.** A token request that names a confidential client but carries another secret is
refused and changes nothing; if its grant type is one of the four it is refused with
`invalid_client`. -/
theorem C37_token {rq : TokenRequest} (h : AsksToken c rq) {client : ServerEntity}
    (hc : s.clients.get? rq.clientID = some client) (hconf : client.confidential = true)
    (hs : client.secret ≠ rq.clientSecret) :
    Refused s c ∧
      (rq.grantType ∈ [b!"password", b!"client_credentials", b!"authorization_code", b!"refresh_token"] →
        RefusedWith (step ⟨false, s⟩ c).1 401 b!"invalid_client") := by
  obtain ⟨r, h1, h2, h3, h4⟩ := step_token (s := s) h
  unfold Refused
  rw [h4]
  unfold Server.tokenReply
  rw [h3]
  simp only
  cases hk : knownGrantType rq.grantType with
  | false =>
    refine ⟨⟨⟨400, _, by decide, refused_request _⟩, rfl⟩, ?_⟩
    intro hg
    simp only [List.mem_cons, List.not_mem_nil, or_false] at hg
    rcases hg with hg | hg | hg | hg <;> rw [hg] at hk <;> exact absurd hk (by decide)
  | true =>
    have hw : Server.wrongSecret client rq.clientSecret = true := by
      unfold Server.wrongSecret
      simp [hconf, hs]
    simp only [Bool.not_true, Bool.false_eq_true, if_false, hc, hw, if_true]
    exact ⟨⟨⟨401, _, by decide, refused_client _⟩, trivial⟩, fun _ => refused_client _⟩

/-- **C37**, for introspection. -/
theorem C37_introspection {rq : IntrospectionRequest} (h : AsksIntrospection c rq)
    {client : ServerEntity} (hc : s.clients.get? rq.clientID = some client)
    (hconf : client.confidential = true) (hs : client.secret ≠ rq.clientSecret) :
    Refused s c ∧ (rq.tokenTypeHint ∈ [[], b!"access_token", b!"refresh_token"] →
        RefusedWith (step ⟨false, s⟩ c).1 401 b!"invalid_client") := by
  obtain ⟨r, h1, h2, h4⟩ := step_introspect (s := s) h
  unfold Refused
  rw [h4]
  unfold Server.introspectReply
  rw [h2]
  simp only
  by_cases hk : rq.tokenTypeHint ≠ [] ∧ (!knownTokenType rq.tokenTypeHint) = true
  · rw [if_pos hk]
    refine ⟨⟨⟨400, _, by decide, refused_type _⟩, rfl⟩, ?_⟩
    intro hg
    simp only [List.mem_cons, List.not_mem_nil, or_false] at hg
    rcases hg with hg | hg | hg
    · exact absurd hg hk.1
    all_goals rw [hg] at hk; exact absurd hk.2 (by decide)
  · rw [if_neg hk]
    have hw : Server.wrongSecret client rq.clientSecret = true := by
      unfold Server.wrongSecret
      simp [hconf, hs]
    simp only [hc, hw, if_true]
    exact ⟨⟨⟨401, _, by decide, refused_client _⟩, trivial⟩, fun _ => refused_client _⟩

/-- **C37**, for revocation. -/
theorem C37_revocation {rq : RevocationRequest} (h : AsksRevocation c rq)
    {client : ServerEntity} (hc : s.clients.get? rq.clientID = some client)
    (hconf : client.confidential = true) (hs : client.secret ≠ rq.clientSecret) :
    Refused s c ∧ (rq.tokenTypeHint ∈ [[], b!"access_token", b!"refresh_token"] →
        RefusedWith (step ⟨false, s⟩ c).1 401 b!"invalid_client") := by
  obtain ⟨r, h1, h2, h4⟩ := step_revoke (s := s) h
  unfold Refused
  rw [h4]
  unfold Server.revokeReply
  rw [h2]
  simp only
  by_cases hk : rq.tokenTypeHint ≠ [] ∧ (!knownTokenType rq.tokenTypeHint) = true
  · rw [if_pos hk]
    refine ⟨⟨⟨400, _, by decide, refused_type _⟩, rfl⟩, ?_⟩
    intro hg
    simp only [List.mem_cons, List.not_mem_nil, or_false] at hg
    rcases hg with hg | hg | hg
    · exact absurd hg hk.1
    all_goals rw [hg] at hk; exact absurd hk.2 (by decide)
  · rw [if_neg hk]
    have hw : Server.wrongSecret client rq.clientSecret = true := by
      unfold Server.wrongSecret
      simp [hconf, hs]
    simp only [hc, hw, if_true]
    exact ⟨⟨⟨401, _, by decide, refused_client _⟩, trivial⟩, fun _ => refused_client _⟩

/-- Non-vacuity: requests for the confidential client `c1` with a wrong secret. -/
example : (∃ rq, AsksToken (Demo.post b!"/token" b!"c1:no" b!"grant_type=client_credentials" [] 1000) rq ∧
      ∃ client, Demo.server.clients.get? rq.clientID = some client ∧ client.confidential = true ∧
        client.secret ≠ rq.clientSecret) ∧
    (∃ rq, AsksIntrospection (Demo.post b!"/introspect" b!"c1:no" b!"token=x" [] 1000) rq ∧
      rq.clientID = b!"c1" ∧ rq.clientSecret ≠ b!"s1") ∧
    (∃ rq, AsksRevocation (Demo.post b!"/revoke" b!"c1:" b!"token=x" [] 1000) rq ∧
      rq.clientID = b!"c1" ∧ rq.clientSecret ≠ b!"s1") := by
  refine ⟨⟨{ grantType := b!"client_credentials", clientID := b!"c1", clientSecret := b!"no" },
      ⟨_, rfl, by decide +kernel, by decide +kernel⟩, _, rfl, rfl, by decide +kernel⟩,
    ⟨{ token := b!"x", clientID := b!"c1", clientSecret := b!"no" },
      ⟨_, rfl, by decide +kernel, by decide +kernel⟩, by decide +kernel, by decide +kernel⟩,
    ⟨{ token := b!"x", clientID := b!"c1" },
      ⟨_, rfl, by decide +kernel, by decide +kernel⟩, by decide +kernel, by decide +kernel⟩⟩

/-! ### C38 -/

/-- **C38.** A client credentials request of a client that is not confidential is refused with
`invalid_client` and changes nothing. -/
theorem C38_public_client {rq : TokenRequest} (h : AsksToken c rq)
    (hg : rq.grantType = b!"client_credentials") {client : ServerEntity}
    (hc : s.clients.get? rq.clientID = some client) (hconf : client.confidential = false) :
    RefusedWith (step ⟨false, s⟩ c).1 401 b!"invalid_client" ∧
      (step ⟨false, s⟩ c).2 = ⟨false, s⟩ := by
  have hi : Identified s rq.clientID rq.clientSecret :=
    ⟨client, hc, fun h => by rw [hconf] at h; cases h⟩
  obtain ⟨client', hc', h2⟩ := step_grant h hi (by rw [hg]; decide)
  rw [hc] at hc'; cases hc'
  rw [h2]
  have : s.grantReply rq client c.local = (.error (invalidClient b!"unknown client"), s) := by
    unfold Server.grantReply
    rw [hg, hconf]
    rfl
  rw [this]
  exact ⟨refused_client _, rfl⟩

example : ∃ rq, AsksToken (Demo.post b!"/token" [] b!"grant_type=client_credentials&client_id=c2" [] 1000) rq ∧
    rq.grantType = b!"client_credentials" ∧
    ∃ client, Demo.server.clients.get? rq.clientID = some client ∧ client.confidential = false :=
  ⟨{ grantType := b!"client_credentials", clientID := b!"c2" },
    ⟨_, rfl, by decide +kernel, by decide +kernel⟩, by decide +kernel, _, rfl, rfl⟩

/-! ### C22 -/

theorem all_foldl_key (l : List Str) (d : Values) (j k : Str) :
    (l.foldl (fun d x => Values.add d j x) d).all k = d.all k ++ if k = j then l else [] := by
  induction l generalizing d with
  | nil => simp
  | cons x l ih =>
    rw [List.foldl_cons, ih, Values.all_add]
    by_cases h : k = j
    · subst h; simp
    · simp [h]

theorem copyValues_all (dst : Values) {src : Values} (hn : src.keys.Nodup) (k : Str) :
    (copyValues dst src).all k = dst.all k ++ src.all k := by
  unfold copyValues
  induction src generalizing dst with
  | nil => simp [Values.all, GoMap.get?_nil]
  | cons e src ih =>
    obtain ⟨j, l⟩ := e
    have hn' := List.nodup_cons.mp hn
    rw [List.foldl_cons, ih _ hn'.2, all_foldl_key]
    simp only [Values.all, GoMap.get?_cons]
    by_cases h : k = j
    · subst h
      have : GoMap.get? src k = none := (GoMap.get?_eq_none_iff src k).mpr hn'.1
      simp [this]
    · have h' : ¬ j = k := fun e => h e.symm
      simp [h, h']

theorem parseForm_form (r : Request) (hf : r.form = none) :
    r.parseForm.1.form = some (copyValues (r.parseForm.1.postForm.getD []) (parseQuery r.rawQuery).1) := by
  unfold Request.parseForm
  simp only [hf, Option.getD_some]

/-- The query matters to an authorization request only through other names. -/
theorem parseAuthorizationRequest_query {r : Request} (hf : r.form = none) {q q' : Str}
    (hq : (parseQuery q).2 = false) (hq' : (parseQuery q').2 = false)
    (hsame : ∀ k, k ≠ b!"username" → k ≠ b!"password" →
      (parseQuery q).1.all k = (parseQuery q').1.all k) :
    parseAuthorizationRequest { r with rawQuery := q } =
      parseAuthorizationRequest { r with rawQuery := q' } := by
  obtain ⟨h1, h2, _⟩ := parseForm_query r hf hq hq'
  have h3 : ∀ k, k ≠ b!"username" → k ≠ b!"password" →
      (({ r with rawQuery := q } : Request).parseForm.1.form.getD []).get k =
      (({ r with rawQuery := q' } : Request).parseForm.1.form.getD []).get k := by
    intro k hk hk'
    rw [parseForm_form { r with rawQuery := q } hf, parseForm_form { r with rawQuery := q' } hf, h2]
    simp only [Option.getD_some, Values.get_eq]
    rw [copyValues_all _ (parseQuery_nodup _), copyValues_all _ (parseQuery_nodup _), hsame k hk hk']
  unfold parseAuthorizationRequest
  simp only [h1, h3 b!"state" (by decide) (by decide), h3 b!"response_type" (by decide) (by decide),
    h3 b!"scope" (by decide) (by decide), h3 b!"client_id" (by decide) (by decide),
    h3 b!"redirect_uri" (by decide) (by decide)]

/-- **C22.** The answer to a request, and its effect, do not depend on user names and passwords in
its query: replacing the query by one that agrees with it on all other names changes nothing. At
the endpoints for tokens, introspection and revocation nothing in the query matters. -/
theorem C22_served_query {r : Request} (hf : r.form = none) {q q' : Str}
    (hq : (parseQuery q).2 = false) (hq' : (parseQuery q').2 = false)
    (hsame : ¬ LastSegment r.path b!"authorize" ∨ ∀ k, k ≠ b!"username" → k ≠ b!"password" →
      (parseQuery q).1.all k = (parseQuery q').1.all k) (s : Shared Server) (coins : Str)
    (clock : Nat → Time) :
    step s ⟨.serve { r with rawQuery := q }, coins, clock⟩ =
      step s ⟨.serve { r with rawQuery := q' }, coins, clock⟩ := by
  obtain ⟨locked, s⟩ := s
  cases locked with
  | true => rfl
  | false =>
    rw [step_serve (c := ⟨.serve { r with rawQuery := q }, coins, clock⟩) rfl,
      step_serve (c := ⟨.serve { r with rawQuery := q' }, coins, clock⟩) rfl]
    have : s.handle { r with rawQuery := q } { coins := coins, clock := clock } =
        s.handle { r with rawQuery := q' } { coins := coins, clock := clock } := by
      unfold Server.handle
      by_cases hp : Server.lastSegment r.path = b!"authorize"
      · have h1 := parseAuthorizationRequest_query hf hq hq'
          (hsame.resolve_left fun h => h ((lastSegment_iff _ _).mpr hp))
        have h2 := (parseForm_query r hf hq hq').2.1
        unfold Server.authorizeReply
        simp only [hp, if_true, h1, h2]
      · unfold Server.tokenReply Server.introspectReply Server.revokeReply
        simp only [hp, if_false, C22_token_query r hf hq hq', C22_introspection_query r hf hq hq',
          C22_revocation_query r hf hq hq']
    exact congrArg (fun x : Reply × Server => (x.1.answer, (⟨false, x.2⟩ : Shared Server))) this

/-- Non-vacuity: a query with credentials, and one without. -/
example : (parseQuery b!"username=u1&scope=foo&password=p1&password=p2").2 = false ∧
    (parseQuery b!"scope=foo").2 = false ∧
    (∀ k, k ≠ b!"username" → k ≠ b!"password" →
      (parseQuery b!"username=u1&scope=foo&password=p1&password=p2").1.all k =
        (parseQuery b!"scope=foo").1.all k) := by
  refine ⟨by decide +kernel, by decide +kernel, ?_⟩
  intro k h1 h2
  rw [(by decide +kernel : (parseQuery b!"username=u1&scope=foo&password=p1&password=p2").1 =
    [(b!"password", [b!"p1", b!"p2"]), (b!"scope", [b!"foo"]), (b!"username", [b!"u1"])]),
    (by decide +kernel : (parseQuery b!"scope=foo").1 = [(b!"scope", [b!"foo"])])]
  simp only [Values.all, GoMap.get?_cons, GoMap.get?_nil, Ne.symm h1, Ne.symm h2, if_false]

end OAuth2

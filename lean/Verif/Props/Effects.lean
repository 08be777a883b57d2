import Verif.Props.Endpoints
import Verif.Props.Grants

/-!
C29 (introspection), C30, C40, C41: what introspection tells, what revocation does, and what
changes nothing.
-/

namespace OAuth2

open Spec

set_option linter.unusedSimpArgs false

variable {s₀ : Server} {s : Shared Server} {h : List Event} {c : Call}

/-- A token in force is one the server holds. -/
theorem inForce_get? {st : Server} (h0 : Started s₀) (hh : History s₀ h ⟨false, st⟩) {t : HS256Token}
    {g : Grant} :
    (InForce s₀.config h .access t g → st.accessTokens.get? t.signatureString = some g.cred) ∧
    (InForce s₀.config h .refresh t g → st.refreshTokens.get? t.signatureString = some g.cred) := by
  obtain ⟨st', hst, ex⟩ := history_state h0 hh
  cases hst
  exact ⟨fun hi => (ex.access _ _).mpr ⟨t, g, rfl, hi, rfl⟩,
    fun hi => (ex.refresh _ _).mpr ⟨t, g, rfl, hi, rfl⟩⟩

/-- The tokens in force after the first event of the session. -/
theorem demo_inForce {k : Kind} {t : HS256Token} {g : Grant}
    (hi : InForce Demo.server.config [Demo.e1] k t g) :
    g.client = b!"c1" ∧ g.expires = (if k = .access then 4600 * second else 605801 * second) ∧
      t.signatureString = (if k = .access then Demo.a1 else Demo.r1).signatureString := by
  cases k with
  | access =>
    have := (inForce_get? Demo.started Demo.history1).1 hi
    have h1 : Demo.s1.accessTokens.get? t.signatureString = if Demo.a1.signatureString = t.signatureString
        then some _ else none := rfl
    rw [h1] at this
    split at this
    · next hs => cases g; cases this; exact ⟨rfl, rfl, hs.symm⟩
    · cases this
  | refresh =>
    have := (inForce_get? Demo.started Demo.history1).2 hi
    have h1 : Demo.s1.refreshTokens.get? t.signatureString = if Demo.r1.signatureString = t.signatureString
        then some _ else none := rfl
    rw [h1] at this
    split at this
    · next hs => cases g; cases this; exact ⟨rfl, rfl, hs.symm⟩
    · cases this

theorem demo_access1 : InForce Demo.server.config [Demo.e1] .access Demo.a1 {
    client := b!"c1", user := b!"u1", scope := some [b!"foo"], expires := 4600 * second } := by
  have h1 : ∃ res, TokenCall Demo.e1 {
      grantType := b!"password", clientID := b!"c1", clientSecret := b!"s1", username := b!"u1",
      password := b!"p1", scope := some [b!"foo"] } res :=
    ⟨_, (tokenCall_asked _ _ _).mpr ⟨by decide +kernel, rfl⟩⟩
  obtain ⟨res, h1⟩ := h1
  exact .password h1 rfl (by decide +kernel)

/-! ### Introspection -/

theorem introspect_served {st : Server} {rq : IntrospectionRequest} (hc : AsksIntrospection c rq) :
    ∃ reply : Reply, step ⟨false, st⟩ c = (reply.answer, ⟨false, st⟩) ∧
      ((∃ e, reply = .error e ∧ 400 ≤ e.status ∧ e.status ≤ 403 ∧ e.redirectURI = []) ∨
       ∃ t i, reply = .introspection i ∧ Identified st rq.clientID rq.clientSecret ∧
        HS256Token.parse st.config.secret rq.token = .ok t ∧
        (∀ c, st.accessTokens.get? t.signatureString = some c → c.clientID = rq.clientID) ∧
        (∀ c, st.refreshTokens.get? t.signatureString = some c → c.clientID = rq.clientID) ∧
        i = match st.refreshTokens.get? t.signatureString with
          | some c => Server.describe RefreshToken c
          | none =>
            match st.accessTokens.get? t.signatureString with
            | some c => Server.describe AccessToken c
            | none => {}) := by
  obtain ⟨r, h1, h2, h3⟩ := hc
  rw [lastSegment_iff] at h2
  obtain ⟨reply, s', h4, h5, _⟩ := step_served h1 st
  rw [h4]
  have hno : ∀ p, p ≠ b!"introspect" → Server.lastSegment r.path ≠ p := by
    rintro p hp rfl; exact hp h2
  cases h5 with
  | notFound _ _ h _ => exact absurd h2 h
  | refused e hs hr => exact ⟨_, rfl, .inl ⟨e, rfl, hs.1, hs.2, hr⟩⟩
  | refusedRedirect _ hf => exact absurd hf.path (hno _ (by decide))
  | notice _ hf => exact absurd hf.path (hno _ (by decide))
  | crash _ hp => exact hp.elim (fun h => absurd h (hno _ (by decide))) (fun h => absurd h (hno _ (by decide)))
  | implicit _ hf => exact absurd hf.path (hno _ (by decide))
  | code _ hf => exact absurd hf.path (hno _ (by decide))
  | password _ hf => exact absurd hf.path (hno _ (by decide))
  | client _ hf => exact absurd hf.path (hno _ (by decide))
  | replay _ hf => exact absurd hf.path (hno _ (by decide))
  | exchange _ hf => exact absurd hf.path (hno _ (by decide))
  | refresh _ hf => exact absurd hf.path (hno _ (by decide))
  | revoke _ hp => exact absurd hp (hno _ (by decide))
  | revokeHalf _ hp => exact absurd hp (hno _ (by decide))
  | introspect rq' hp hq hc t ht ha hr i hi =>
    rw [h3] at hq
    cases hq
    exact ⟨_, rfl, .inr ⟨t, i, rfl, hc, ht, ha, hr, hi⟩⟩

/-- **C40.** Introspection changes nothing. -/
theorem C40_changes_nothing (h0 : Started s₀) (hh : History s₀ h s) {rq : IntrospectionRequest}
    (hc : AsksIntrospection c rq) : (step s c).2 = s := by
  obtain ⟨st, rfl, ex⟩ := history_state h0 hh
  obtain ⟨reply, h1, _⟩ := introspect_served (st := st) hc
  rw [h1]

theorem describe_wire (k : Str) (cred : ServerCredential) :
    (Server.describe k cred).wire = {
      active := true, scope := (Server.describe k cred).wire.scope
      clientID := sanitize cred.clientID, username := sanitize cred.username
      tokenType := sanitize k, expiresAt := cred.expiresAt.unix } := rfl

theorem describes_wire (k : Kind) (g : Grant) :
    Describes (Server.describe k.name g.cred).wire k g := by
  refine ⟨rfl, ?_, sanitize_replaced _, sanitize_replaced _, wire_scope _, rfl, rfl, rfl, rfl, rfl,
    rfl, rfl, rfl⟩
  cases k
  · exact (by decide +kernel : sanitize b!"access_token" = b!"access_token")
  · exact (by decide +kernel : sanitize b!"refresh_token" = b!"refresh_token")

theorem isInt64_zero : isInt64 0 := by unfold isInt64; decide

/-- Reading a description of a token. -/
theorem parse_description {k : Str} {cred : ServerCredential} (hx : isInt64 cred.expiresAt.unix)
    {limit : Int}
    (hl : (((Reply.introspection (Server.describe k cred)).render {}).result.body.length : Int) ≤ limit) :
    parseIntrospectionResponse ((Reply.introspection (Server.describe k cred)).render {}).result limit =
      .ok (Server.describe k cred).wire := by
  rw [introspection_result] at hl ⊢
  exact parseIntrospectionResponse_written hx isInt64_zero isInt64_zero (representable_nil _) _ hl

theorem parse_inactive {limit : Int}
    (hl : (((Reply.introspection {}).render {}).result.body.length : Int) ≤ limit) :
    parseIntrospectionResponse ((Reply.introspection {}).render {}).result limit =
      .ok {} := by
  rw [introspection_result] at hl ⊢
  exact parseIntrospectionResponse_written isInt64_zero isInt64_zero isInt64_zero (representable_nil _)
    _ hl

/-- **C40**, except that the token may have expired: whenever an introspection request is answered
with success and the client library reads from the answer that the token is active, the request came from an identified
client, the presented text spells a token in force that was issued to this client, and the
response describes this token. Missing for the full statement: `c.clock 0 ≤ g.expires`; refuted
by `C40_expired_refuted`. The hypothesis `hx` says that the expiry times of tokens, in seconds, are
64 bit numbers. -/
theorem C40_truth_partial (h0 : Started s₀) (hh : History s₀ h s) {rq : IntrospectionRequest}
    (hc : AsksIntrospection c rq)
    (hx : ∀ k t g, InForce s₀.config h k t g → isInt64 g.expires.unix)
    {res : Response} (ha : (step s c).1 = .answered res) (hok : res.statusCode = 200) {limit : Int}
    (hl : (res.body.length : Int) ≤ limit) {i : IntrospectionResponse}
    (hi : parseIntrospectionResponse res limit = .ok i) (hact : i.active = true) :
    Identified s.st rq.clientID rq.clientSecret ∧
      ∃ k t g, SameToken s₀.config rq.token t ∧ InForce s₀.config h k t g ∧
        g.client = rq.clientID ∧ Describes i k g := by
  obtain ⟨st, rfl, ex⟩ := history_state h0 hh
  obtain ⟨reply, h1, h2⟩ := introspect_served (st := st) hc
  rw [h1] at ha
  obtain ⟨hcr, rfl⟩ := answer_eq ha
  rcases h2 with ⟨e, rfl, h3, h4, h5⟩ | ⟨t', j, rfl, hid, ht, hoa, hor, rfl⟩
  · rw [error_result h5] at hok
    simp only at hok
    omega
  · refine ⟨hid, ?_⟩
    rw [ex.config] at ht
    cases hr : st.refreshTokens.get? t'.signatureString with
    | some cred =>
      rw [hr] at hi hl
      obtain ⟨t, g, hs, hf, rfl⟩ := (ex.refresh _ _).mp hr
      simp only at hi hl
      rw [parse_description (hx _ _ _ hf) hl] at hi
      cases hi
      exact ⟨.refresh, t, g, ⟨t', ht, hs.symm⟩, hf, hor _ hr, describes_wire .refresh g⟩
    | none =>
      rw [hr] at hi hl
      simp only at hi hl
      cases hacc : st.accessTokens.get? t'.signatureString with
      | some cred =>
        rw [hacc] at hi hl
        obtain ⟨t, g, hs, hf, rfl⟩ := (ex.access _ _).mp hacc
        simp only at hi hl
        rw [parse_description (hx _ _ _ hf) hl] at hi
        cases hi
        exact ⟨.access, t, g, ⟨t', ht, hs.symm⟩, hf, hoa _ hacc, describes_wire .access g⟩
      | none =>
        rw [hacc] at hi hl
        simp only at hi hl
        rw [parse_inactive hl] at hi
        cases hi
        cases hact

/-- Non-vacuity: after the first event of the session `c1` introspects its access token. -/
example : ∃ res i,
    AsksIntrospection (Demo.post b!"/introspect" b!"c1:s1" (b!"token=" ++ Demo.a1.string) [] 1100) {
      token := Demo.a1.string, clientID := b!"c1", clientSecret := b!"s1" } ∧
    (∀ k t g, InForce Demo.server.config [Demo.e1] k t g → isInt64 g.expires.unix) ∧
    (step ⟨false, Demo.s1⟩ (Demo.post b!"/introspect" b!"c1:s1" (b!"token=" ++ Demo.a1.string) [] 1100)).1 =
      .answered res ∧ res.statusCode = 200 ∧ (res.body.length : Int) ≤ 2048 ∧
    parseIntrospectionResponse res 2048 = .ok i ∧ i.active = true := by
  refine ⟨(step ⟨false, Demo.s1⟩ (Demo.post b!"/introspect" b!"c1:s1" (b!"token=" ++ Demo.a1.string) []
      1100)).1.response, {
    active := true, scope := some [b!"foo"], clientID := b!"c1", username := b!"u1",
    tokenType := b!"access_token", expiresAt := 4600 }, by decide +kernel, ?_, by decide +kernel, by decide +kernel,
    by decide +kernel, by decide +kernel, rfl⟩
  intro k t g hi
  rw [(demo_inForce hi).2.1]
  unfold isInt64
  cases k <;> decide +kernel

/-- **C40**, refuted in part: there is a history after which an introspection request for a token
that has expired is answered with an active token. -/
theorem C40_expired_refuted : ∃ (s₀ : Server) (h : List Event) (s : Shared Server) (c : Call)
    (rq : IntrospectionRequest) (res : Response) (i : IntrospectionResponse),
    Started s₀ ∧ History s₀ h s ∧ AsksIntrospection c rq ∧ (step s c).1 = .answered res ∧
    res.statusCode = 200 ∧ parseIntrospectionResponse res 2048 = .ok i ∧ i.active = true ∧
    ∀ k t g, InForce s₀.config h k t g → g.expires < c.clock 0 := by
  refine ⟨Demo.server, [Demo.e1], ⟨false, Demo.s1⟩,
    Demo.post b!"/introspect" b!"c1:s1" (b!"token=" ++ Demo.a1.string) [] 700000, {
      token := Demo.a1.string, clientID := b!"c1", clientSecret := b!"s1" },
    (step ⟨false, Demo.s1⟩ (Demo.post b!"/introspect" b!"c1:s1" (b!"token=" ++ Demo.a1.string) []
      700000)).1.response, {
    active := true, scope := some [b!"foo"], clientID := b!"c1", username := b!"u1",
    tokenType := b!"access_token", expiresAt := 4600 }, Demo.started, Demo.history1,
    by decide +kernel, by decide +kernel, by decide +kernel, by decide +kernel, rfl, ?_⟩
  intro k t g hi
  rw [(demo_inForce hi).2.1]
  cases k <;> decide +kernel

/-- What an identified client gets for a well-formed token. -/
theorem introspect_reply {st : Server} {rq : IntrospectionRequest} (hc : AsksIntrospection c rq)
    (hhint : rq.tokenTypeHint ∈ [[], b!"access_token", b!"refresh_token"])
    (hid : Identified st rq.clientID rq.clientSecret) {t : HS256Token}
    (ht : HS256Token.parse st.config.secret rq.token = .ok t) :
    (step ⟨false, st⟩ c).1 = (if Server.foreign st.accessTokens t.signatureString rq.clientID then
        Reply.error (invalidClient b!"wrong client")
      else if Server.foreign st.refreshTokens t.signatureString rq.clientID then
        .error (invalidClient b!"wrong client")
      else
        match st.refreshTokens.get? t.signatureString with
        | some c => .introspection (Server.describe RefreshToken c)
        | none =>
          match st.accessTokens.get? t.signatureString with
          | some c => .introspection (Server.describe AccessToken c)
          | none => .introspection {}).answer := by
  obtain ⟨r, h1, h3, h4⟩ := step_introspect (s := st) hc
  rw [h4]
  unfold Server.introspectReply
  rw [h3]
  simp only
  have hk : ¬ (rq.tokenTypeHint ≠ [] ∧ (!knownTokenType rq.tokenTypeHint) = true) := by
    simp only [List.mem_cons, List.not_mem_nil, or_false] at hhint
    rcases hhint with h | h | h <;> rw [h] <;> decide
  rw [if_neg hk]
  obtain ⟨client, hcl, _⟩ := id hid
  have hw := (Server.wrongSecret_iff hcl).mpr hid
  simp only [hcl, hw, Bool.false_eq_true, if_false, ht]
  split
  · rfl
  split
  · rfl
  cases st.refreshTokens.get? t.signatureString with
  | some => rfl
  | none => cases st.accessTokens.get? t.signatureString <;> rfl

/-- **C40.** A token of another client is never described: the answer is `invalid_client`. -/
theorem C40_foreign_refused (h0 : Started s₀) (hh : History s₀ h s) {rq : IntrospectionRequest}
    (hc : AsksIntrospection c rq)
    (hhint : rq.tokenTypeHint ∈ [[], b!"access_token", b!"refresh_token"])
    (hid : Identified s.st rq.clientID rq.clientSecret) {k : Kind} {t : HS256Token} {g : Grant}
    (ht : SameToken s₀.config rq.token t) (hi : InForce s₀.config h k t g)
    (ho : g.client ≠ rq.clientID) :
    RefusedWith (step s c).1 401 b!"invalid_client" := by
  obtain ⟨st, rfl, ex⟩ := history_state h0 hh
  obtain ⟨t', ht, hs⟩ := ht
  rw [← ex.config] at ht
  rw [introspect_reply hc hhint hid ht]
  cases k with
  | access =>
    have := (ex.access t'.signatureString _).mpr ⟨t, g, hs.symm, hi, rfl⟩
    rw [if_pos (by unfold Server.foreign; rw [this]; exact decide_eq_true ho)]
    exact refused_client _
  | refresh =>
    have := (ex.refresh t'.signatureString _).mpr ⟨t, g, hs.symm, hi, rfl⟩
    split
    · exact refused_client _
    rw [if_pos (by unfold Server.foreign; rw [this]; exact decide_eq_true ho)]
    exact refused_client _

/-- Non-vacuity: `c2` introspects the access token of `c1`. -/
example : AsksIntrospection (Demo.post b!"/introspect" b!"c2:" (b!"token=" ++ Demo.a1.string) [] 1100) {
      token := Demo.a1.string, clientID := b!"c2" } ∧
    Identified Demo.s1 b!"c2" [] ∧ SameToken Demo.server.config Demo.a1.string Demo.a1 ∧
    ∃ g, InForce Demo.server.config [Demo.e1] .access Demo.a1 g ∧ g.client ≠ b!"c2" :=
  ⟨by decide +kernel, by decide +kernel, by decide +kernel, _, demo_access1, by decide⟩

theorem not_foreign {m : GoMap ServerCredential} {cfg : ServerConfig} {k : Kind}
    (hm : Holds cfg h k m) {sig id : Str}
    (ho : ∀ t g, t.signatureString = sig → InForce cfg h k t g → g.client = id) :
    Server.foreign m sig id = false := by
  unfold Server.foreign
  cases hg : m.get? sig with
  | none => rfl
  | some cred =>
    obtain ⟨t, g, hs, hi, rfl⟩ := (hm _ _).mp hg
    exact decide_eq_false (fun hn => hn (ho t g hs hi))

/-- **C40.** The owner of a token in force gets it described. (If an access token and a refresh
token with the same signature are in force, the refresh token is described.) -/
theorem C40_described (h0 : Started s₀) (hh : History s₀ h s) {rq : IntrospectionRequest}
    (hc : AsksIntrospection c rq)
    (hhint : rq.tokenTypeHint ∈ [[], b!"access_token", b!"refresh_token"])
    (hid : Identified s.st rq.clientID rq.clientSecret) {k : Kind} {t : HS256Token} {g : Grant}
    (ht : SameToken s₀.config rq.token t) (hi : InForce s₀.config h k t g)
    (hx : isInt64 g.expires.unix)
    (ho : ∀ k' t' g', t'.signatureString = t.signatureString → InForce s₀.config h k' t' g' →
      g'.client = rq.clientID)
    (hk : k = .access → ∀ t' g', t'.signatureString = t.signatureString →
      ¬ InForce s₀.config h .refresh t' g') :
    ∃ res, (step s c).1 = .answered res ∧ res.statusCode = 200 ∧
      ∀ limit : Int, (res.body.length : Int) ≤ limit →
        ∃ i, parseIntrospectionResponse res limit = .ok i ∧ Describes i k g := by
  obtain ⟨st, rfl, ex⟩ := history_state h0 hh
  obtain ⟨t', ht, hs⟩ := ht
  rw [← ex.config] at ht
  rw [introspect_reply hc hhint hid ht,
    not_foreign ex.access (fun x g' h1 => ho .access x g' (h1.trans hs)),
    not_foreign ex.refresh (fun x g' h1 => ho .refresh x g' (h1.trans hs))]
  simp only [Bool.false_eq_true, if_false]
  cases k with
  | refresh =>
    rw [(ex.refresh t'.signatureString _).mpr ⟨t, g, hs.symm, hi, rfl⟩]
    refine ⟨_, rfl, by rw [introspection_result], fun limit hl => ⟨_, parse_description hx hl, ?_⟩⟩
    exact describes_wire .refresh g
  | access =>
    have hn : st.refreshTokens.get? t'.signatureString = none := by
      cases hg : st.refreshTokens.get? t'.signatureString with
      | none => rfl
      | some cred =>
        obtain ⟨y, g', h1, h2, _⟩ := (ex.refresh _ _).mp hg
        exact absurd h2 (hk rfl y g' (h1.trans hs))
    rw [hn, (ex.access t'.signatureString _).mpr ⟨t, g, hs.symm, hi, rfl⟩]
    refine ⟨_, rfl, by rw [introspection_result], fun limit hl => ⟨_, parse_description hx hl, ?_⟩⟩
    exact describes_wire .access g

/-- Non-vacuity: all of this holds when `c1` introspects its access token after the first event. -/
example : Identified Demo.s1 b!"c1" b!"s1" ∧
    InForce Demo.server.config [Demo.e1] .access Demo.a1 {
      client := b!"c1", user := b!"u1", scope := some [b!"foo"], expires := 4600 * second } ∧
    (∀ k' t' g', t'.signatureString = Demo.a1.signatureString →
      InForce Demo.server.config [Demo.e1] k' t' g' → g'.client = b!"c1") ∧
    (∀ t' g', t'.signatureString = Demo.a1.signatureString →
      ¬ InForce Demo.server.config [Demo.e1] .refresh t' g') := by
  refine ⟨by decide +kernel, demo_access1, fun k' t' g' _ hi => (demo_inForce hi).1, ?_⟩
  intro t' g' hs hi
  have := (demo_inForce hi).2.2
  rw [hs] at this
  exact absurd this (by decide +kernel)

/-- **C40.** A genuine token text with no token in force is reported inactive, and nothing is told
about it. -/
theorem C40_unknown_inactive (h0 : Started s₀) (hh : History s₀ h s) {rq : IntrospectionRequest}
    (hc : AsksIntrospection c rq)
    (hhint : rq.tokenTypeHint ∈ [[], b!"access_token", b!"refresh_token"])
    (hid : Identified s.st rq.clientID rq.clientSecret) {t : HS256Token}
    (ht : SameToken s₀.config rq.token t)
    (hn : ∀ k t' g, t'.signatureString = t.signatureString → ¬ InForce s₀.config h k t' g) :
    ∃ res, (step s c).1 = .answered res ∧ res.statusCode = 200 ∧
      ∀ limit : Int, (res.body.length : Int) ≤ limit →
        parseIntrospectionResponse res limit = .ok { active := false } := by
  obtain ⟨st, rfl, ex⟩ := history_state h0 hh
  obtain ⟨t', ht, hs⟩ := ht
  rw [← ex.config] at ht
  rw [introspect_reply hc hhint hid ht,
    not_foreign ex.access (fun x g' h1 h2 => absurd h2 (hn .access x g' (h1.trans hs))),
    not_foreign ex.refresh (fun x g' h1 h2 => absurd h2 (hn .refresh x g' (h1.trans hs)))]
  simp only [Bool.false_eq_true, if_false]
  have none : ∀ {m : GoMap ServerCredential} {k : Kind}, Holds s₀.config h k m →
      m.get? t'.signatureString = none := by
    intro m k hm
    cases hg : m.get? t'.signatureString with
    | none => rfl
    | some cred =>
      obtain ⟨y, g', h1, h2, _⟩ := (hm _ _).mp hg
      exact absurd h2 (hn _ y g' (h1.trans hs))
  rw [none ex.refresh, none ex.access]
  exact ⟨_, rfl, by rw [introspection_result], fun limit hl => parse_inactive hl⟩

/-- **C29.** After a revocation of a token was answered with success, introspection by any client
never reports it as active, unless a token with the same signature is handed out again. -/
theorem C29_introspected_inactive (h0 : Started s₀) {new old : List Event} {e : Event}
    (hh : History s₀ (new ++ e :: old) s) {t : HS256Token} (hr : Revokes s₀.config e t)
    (hn : ∀ e' ∈ new, ∀ k t', Hands e' k t' → t'.signatureString ≠ t.signatureString)
    {rq : IntrospectionRequest} (hc : AsksIntrospection c rq)
    (hhint : rq.tokenTypeHint ∈ [[], b!"access_token", b!"refresh_token"])
    (ht : SameToken s₀.config rq.token t) (hid : Identified s.st rq.clientID rq.clientSecret) :
    ∃ res, (step s c).1 = .answered res ∧ res.statusCode = 200 ∧
      ∀ limit : Int, (res.body.length : Int) ≤ limit →
        parseIntrospectionResponse res limit = .ok { active := false } :=
  C40_unknown_inactive h0 hh hc hhint hid ht fun k t' g h1 h2 =>
    revoked_gone hr (k := k) (fun e' he t' => hn e' he k t') t' g h1 h2

/-- Non-vacuity: `c1` introspects the token it revoked with the sixth event of the session; later
events hand out other tokens. (C40: it is a token text with no token in force.) -/
example : Revokes Demo.server.config Demo.e6 Demo.a1 ∧
    (∀ e' ∈ [Demo.e9, Demo.e8, Demo.e7], ∀ k t', Hands e' k t' →
      t'.signatureString ≠ Demo.a1.signatureString) ∧
    AsksIntrospection (Demo.post b!"/introspect" b!"c1:s1" (b!"token=" ++ Demo.a1.string) [] 1100) {
      token := Demo.a1.string, clientID := b!"c1", clientSecret := b!"s1" } ∧
    Identified Demo.s9 b!"c1" b!"s1" := by
  refine ⟨by decide +kernel, ?_, by decide +kernel, by decide +kernel⟩
  intro e' he k t' ht
  simp only [List.mem_cons, List.not_mem_nil, or_false] at he
  rcases he with rfl | rfl | rfl <;> cases k
  · exact (hands_none (by decide +kernel) ht).elim
  · exact (hands_none (by decide +kernel) ht).elim
  · rw [hands_only (a := Demo.a8) (by decide +kernel) ht]; decide +kernel
  · rw [hands_only (a := Demo.r8) (by decide +kernel) ht]; decide +kernel
  · rw [hands_only (a := Demo.a7) (by decide +kernel) ht]; decide +kernel
  · exact (hands_none (by decide +kernel) ht).elim

/-! ### Revocation -/

/-- What a revocation request comes to. -/
theorem revocation_served {st : Server} {rq : RevocationRequest} (hc : AsksRevocation c rq) :
    ∃ (r : Request) (reply : Reply) (s' : Server), c.op = .serve r ∧
      Server.lastSegment r.path = b!"revoke" ∧ parseRevocationRequest r = .ok rq ∧
      step ⟨false, st⟩ c = (reply.answer, ⟨false, s'⟩) ∧
      ((∃ e, reply = .error e ∧ (400 ≤ e.status ∧ e.status ≤ 403) ∧ e.redirectURI = [] ∧ s' = st ∧
        (e.description = b!"wrong client" → ∀ t, HS256Token.parse st.config.secret rq.token = .ok t →
          ∀ c, st.accessTokens.get? t.signatureString = some c → c.clientID ≠ rq.clientID)) ∨
       (Identified st rq.clientID rq.clientSecret ∧ ∃ t,
        HS256Token.parse st.config.secret rq.token = .ok t ∧
        (∀ c, st.accessTokens.get? t.signatureString = some c → c.clientID = rq.clientID) ∧
        ((reply = .revoked ∧
          (∀ c, st.refreshTokens.get? t.signatureString = some c → c.clientID = rq.clientID) ∧
          s' = { st with
            accessTokens := st.accessTokens.del t.signatureString,
            refreshTokens := st.refreshTokens.del t.signatureString }) ∨
         (reply = .error (invalidClient b!"wrong client") ∧
          (∃ ca, st.accessTokens.get? t.signatureString = some ca) ∧
          (∃ cr, st.refreshTokens.get? t.signatureString = some cr ∧ cr.clientID ≠ rq.clientID) ∧
          s' = { st with accessTokens := st.accessTokens.del t.signatureString })))) := by
  obtain ⟨r, h1, h2, h3⟩ := hc
  rw [lastSegment_iff] at h2
  obtain ⟨reply, s', h4, h5, _⟩ := step_served h1 st
  refine ⟨r, reply, s', h1, h2, h3, h4, ?_⟩
  have hno : ∀ p, p ≠ b!"revoke" → Server.lastSegment r.path ≠ p := by
    rintro p hp rfl; exact hp h2
  cases h5 with
  | notFound _ _ _ h => exact absurd h2 h
  | refused e hs hr _ _ _ hrev =>
    exact .inl ⟨e, rfl, hs, hr, rfl, fun hd t ht => hrev h2 hd rq t h3 ht⟩
  | refusedRedirect _ hf => exact absurd hf.path (hno _ (by decide))
  | notice _ hf => exact absurd hf.path (hno _ (by decide))
  | crash _ hp => exact hp.elim (fun h => absurd h (hno _ (by decide))) (fun h => absurd h (hno _ (by decide)))
  | implicit _ hf => exact absurd hf.path (hno _ (by decide))
  | code _ hf => exact absurd hf.path (hno _ (by decide))
  | password _ hf => exact absurd hf.path (hno _ (by decide))
  | client _ hf => exact absurd hf.path (hno _ (by decide))
  | replay _ hf => exact absurd hf.path (hno _ (by decide))
  | exchange _ hf => exact absurd hf.path (hno _ (by decide))
  | refresh _ hf => exact absurd hf.path (hno _ (by decide))
  | introspect _ hp => exact absurd hp (hno _ (by decide))
  | revoke rq' hp hq hid t ht ha hr =>
    rw [h3] at hq; cases hq
    exact .inr ⟨hid, t, ht, ha, .inl ⟨rfl, hr, rfl⟩⟩
  | revokeHalf rq' hp hq hid t ht ca ha hao cr hr hro =>
    rw [h3] at hq; cases hq
    refine .inr ⟨hid, t, ht, ?_, .inr ⟨rfl, ⟨ca, ha⟩, ⟨cr, hr, hro⟩, rfl⟩⟩
    intro c hc
    rw [ha] at hc; cases hc
    exact hao

/-- No other call is a revocation. -/
theorem revocation_silent {r : Request} (hop : c.op = .serve r)
    (hp : Server.lastSegment r.path = b!"revoke") (x : Answer) :
    (∀ rq res, ¬ TokenCall ⟨c, x⟩ rq res) ∧ ∀ rq u res, ¬ AuthorizationCall ⟨c, x⟩ rq u res := by
  refine ⟨fun rq res ht => ?_, fun rq u res ha => ?_⟩
  · have := ((tokenCall_iff hop).mp ht).1
    rw [hp] at this
    exact absurd this (by decide)
  · have := ((authorizationCall_iff hop).mp ha).1
    rw [hp] at this
    exact absurd this (by decide)

/-- **C30.** Whatever a revocation request takes away is what it presented, and belongs to the
client that sent the request and identified itself. -/
theorem C30_only_own (h0 : Started s₀) (hh : History s₀ h s) {rq : RevocationRequest}
    (hc : AsksRevocation c rq) {k : Kind} {t : HS256Token} {g : Grant}
    (hi : InForce s₀.config h k t g) (hn : ¬ InForce s₀.config (⟨c, (step s c).1⟩ :: h) k t g) :
    SameToken s₀.config rq.token t ∧ g.client = rq.clientID ∧
      Identified s.st rq.clientID rq.clientSecret := by
  obtain ⟨st, rfl, ex⟩ := history_state h0 hh
  obtain ⟨r, reply, s', hop, hp, hq, h1, h2⟩ := revocation_served (st := st) hc
  rw [h1] at hn
  have hend : Ends s₀.config ⟨c, reply.answer⟩ k t g := by
    apply Classical.byContradiction
    intro he
    exact hn (inForce_cons.mpr (.inr ⟨hi, he⟩))
  obtain ⟨hnt, hna⟩ := revocation_silent hop hp reply.answer
  rcases hend with ⟨t', (⟨rq', res, ht, _⟩ | ⟨_, rq', u, res, ha, _⟩), _⟩ |
    ⟨rq', res, hv, ⟨x, hx, hs⟩, hok⟩ | ⟨_, rq', res, _, ht, _⟩ | ⟨_, rq', res, _, ht, _⟩ |
    ⟨rfl, rq', res, hv, ⟨x, hx, hs⟩, hcl, hm⟩
  · exact absurd ht (hnt _ _)
  · exact absurd ha (hna _ _ _)
  · obtain ⟨_, hq', hans⟩ := (revocationCall_iff hop).mp hv
    rw [hq] at hq'; cases hq'
    obtain ⟨_, rfl⟩ := answer_eq hans
    refine ⟨⟨x, hx, hs⟩, ?_⟩
    rcases h2 with ⟨e, rfl, h3, h4, _⟩ | ⟨hid, y, hy, hoa, ⟨rfl, hor, _⟩ | ⟨rfl, _⟩⟩
    · rw [error_result h4] at hok
      simp only at hok
      omega
    · refine ⟨?_, hid⟩
      rw [ex.config, hx] at hy
      cases hy
      cases k with
      | access => exact hoa _ ((ex.access _ _).mpr ⟨t, g, hs.symm, hi, rfl⟩)
      | refresh => exact hor _ ((ex.refresh _ _).mpr ⟨t, g, hs.symm, hi, rfl⟩)
    · exact absurd hok (by decide +kernel)
  · exact absurd ht (hnt _ _)
  · exact absurd ht (hnt _ _)
  · obtain ⟨_, hq', hans⟩ := (revocationCall_iff hop).mp hv
    rw [hq] at hq'; cases hq'
    obtain ⟨_, rfl⟩ := answer_eq hans
    refine ⟨⟨x, hx, hs⟩, hcl.symm, ?_⟩
    rcases h2 with ⟨e, rfl, h3, h4, _, hrev⟩ | ⟨hid, _⟩
    · exfalso
      have hd := error_description (e := e) (by rw [error_result h4]) (by decide) hm
      exact hrev hd x (ex.config ▸ hx) _ ((ex.access _ _).mpr ⟨t, g, hs.symm, hi, rfl⟩) hcl.symm
    · exact hid

/-- Non-vacuity: `c1` revokes its access token after the first event. -/
example : let c := Demo.post b!"/revoke" b!"c1:s1" (b!"token=" ++ Demo.a1.string) [] 1100
    AsksRevocation c { token := Demo.a1.string, clientID := b!"c1", clientSecret := b!"s1" } ∧
    InForce Demo.server.config [Demo.e1] .access Demo.a1 {
      client := b!"c1", user := b!"u1", scope := some [b!"foo"], expires := 4600 * second } ∧
    ∀ g, ¬ InForce Demo.server.config [⟨c, (step ⟨false, Demo.s1⟩ c).1⟩, Demo.e1] .access Demo.a1 g := by
  refine ⟨by decide +kernel, demo_access1, ?_⟩
  intro g
  have hr : Revokes Demo.server.config ⟨Demo.post b!"/revoke" b!"c1:s1" (b!"token=" ++ Demo.a1.string) []
    1100, (step ⟨false, Demo.s1⟩ (Demo.post b!"/revoke" b!"c1:s1"
    (b!"token=" ++ Demo.a1.string) [] 1100)).1⟩ Demo.a1 := by decide +kernel
  exact revoked_gone (s₀ := Demo.server) (new := []) hr (k := .access) (by simp) Demo.a1 g rfl

/-- **C30.** A revocation request gives nothing: no token or code is handed out or comes into
force, and the codes on record stay as they are. -/
theorem C30_nothing_else (h0 : Started s₀) (hh : History s₀ h s) {rq : RevocationRequest}
    (hc : AsksRevocation c rq) :
    (∀ k t g, InForce s₀.config (⟨c, (step s c).1⟩ :: h) k t g → InForce s₀.config h k t g) ∧
    (∀ x g b, Code s₀.config (⟨c, (step s c).1⟩ :: h) x g b ↔ Code s₀.config h x g b) ∧
    (step s c).2.st.clients = s.st.clients ∧ (step s c).2.st.users = s.st.users ∧
    (step s c).2.st.config = s.st.config := by
  obtain ⟨st, rfl, ex⟩ := history_state h0 hh
  obtain ⟨r, reply, s', hop, hp, hq, h1, h2⟩ := revocation_served (st := st) hc
  rw [h1]
  obtain ⟨hnt, hna⟩ := revocation_silent hop hp reply.answer
  have hhand : ∀ k t, ¬ Hands ⟨c, reply.answer⟩ k t := by
    rintro k t (⟨rq', res, ht, _⟩ | ⟨_, rq', u, res, ha, _⟩)
    · exact hnt _ _ ht
    · exact hna _ _ _ ha
  refine ⟨?_, ?_, ?_⟩
  · intro k t g hi
    rcases inForce_cons.mp hi with hi | ⟨hi, _⟩
    · exact absurd hi.hands (hhand _ _)
    · exact hi
  · intro x g b
    have hred : ¬ Redeems s₀.config ⟨c, reply.answer⟩ x := by
      rintro ⟨rq', res, a, ht, _⟩; exact hnt _ _ ht
    have hhc : ∀ c', ¬ HandsCode ⟨c, reply.answer⟩ c' := by
      rintro c' ⟨rq', u, res, ha, _⟩; exact hna _ _ _ ha
    rw [code_cons]
    constructor
    · rintro (⟨_, _, _, _, _, h6, _⟩ | ⟨_, _, h6⟩ | ⟨h6, _⟩)
      · exact absurd h6 (hhc _)
      · exact absurd h6 hred
      · exact h6
    · exact fun h6 => .inr (.inr ⟨h6, hred, fun c' h => absurd h (hhc c')⟩)
  · rcases h2 with ⟨e, rfl, h3, h4, rfl, _⟩ | ⟨hid, y, hy, hoa, ⟨rfl, hor, rfl⟩ | ⟨rfl, _, _, rfl⟩⟩ <;>
      exact ⟨rfl, rfl, rfl⟩

/-- What an identified client gets for revoking a well-formed token. -/
theorem revoke_reply {st : Server} {rq : RevocationRequest} (hc : AsksRevocation c rq)
    (hhint : rq.tokenTypeHint ∈ [[], b!"access_token", b!"refresh_token"])
    (hid : Identified st rq.clientID rq.clientSecret) {t : HS256Token}
    (ht : HS256Token.parse st.config.secret rq.token = .ok t) :
    (step ⟨false, st⟩ c).1 = (if Server.foreign st.accessTokens t.signatureString rq.clientID then
        Reply.error (invalidClient b!"wrong client")
      else if Server.foreign st.refreshTokens t.signatureString rq.clientID then
        .error (invalidClient b!"wrong client")
      else .revoked).answer := by
  obtain ⟨r, h1, h3, h4⟩ := step_revoke (s := st) hc
  rw [h4]
  unfold Server.revokeReply
  rw [h3]
  simp only
  have hk : ¬ (rq.tokenTypeHint ≠ [] ∧ (!knownTokenType rq.tokenTypeHint) = true) := by
    simp only [List.mem_cons, List.not_mem_nil, or_false] at hhint
    rcases hhint with h | h | h <;> rw [h] <;> decide
  rw [if_neg hk]
  obtain ⟨client, hcl, _⟩ := id hid
  have hw := (Server.wrongSecret_iff hcl).mpr hid
  simp only [hcl, hw, Bool.false_eq_true, if_false, ht]
  split
  · rfl
  cases st.accessTokens.get? t.signatureString with
  | none => simp only; split <;> rfl
  | some => simp only; split <;> rfl

/-- **C30.** A token of another client cannot be revoked: the request is refused with
`invalid_client` and the token stays in force. -/
theorem C30_foreign_refused (h0 : Started s₀) (hh : History s₀ h s) {rq : RevocationRequest}
    (hc : AsksRevocation c rq)
    (hhint : rq.tokenTypeHint ∈ [[], b!"access_token", b!"refresh_token"])
    (hid : Identified s.st rq.clientID rq.clientSecret) {k : Kind} {t : HS256Token} {g : Grant}
    (ht : SameToken s₀.config rq.token t) (hi : InForce s₀.config h k t g)
    (ho : g.client ≠ rq.clientID) :
    RefusedWith (step s c).1 401 b!"invalid_client" ∧
      InForce s₀.config (⟨c, (step s c).1⟩ :: h) k t g := by
  refine ⟨?_, Classical.byContradiction fun hn => ho (C30_only_own h0 hh hc hi hn).2.1⟩
  obtain ⟨st, rfl, ex⟩ := history_state h0 hh
  obtain ⟨t', ht, hs⟩ := ht
  rw [← ex.config] at ht
  rw [revoke_reply hc hhint hid ht]
  cases k with
  | access =>
    have := (ex.access t'.signatureString _).mpr ⟨t, g, hs.symm, hi, rfl⟩
    rw [if_pos (by unfold Server.foreign; rw [this]; exact decide_eq_true ho)]
    exact refused_client _
  | refresh =>
    have := (ex.refresh t'.signatureString _).mpr ⟨t, g, hs.symm, hi, rfl⟩
    split
    · exact refused_client _
    rw [if_pos (by unfold Server.foreign; rw [this]; exact decide_eq_true ho)]
    exact refused_client _

/-- Non-vacuity: `c2` tries to revoke the access token of `c1`. -/
example : AsksRevocation (Demo.post b!"/revoke" b!"c2:" (b!"token=" ++ Demo.a1.string) [] 1100) {
      token := Demo.a1.string, clientID := b!"c2" } ∧
    Identified Demo.s1 b!"c2" [] ∧ SameToken Demo.server.config Demo.a1.string Demo.a1 ∧
    ∃ g, InForce Demo.server.config [Demo.e1] .access Demo.a1 g ∧ g.client ≠ b!"c2" :=
  ⟨by decide +kernel, by decide +kernel, by decide +kernel, _, demo_access1, by decide⟩

/-- **C30.** The owner can revoke: if no token with this signature belongs to another client, the
request is answered with success, and the token is not in force after it. -/
theorem C30_owner_revokes (h0 : Started s₀) (hh : History s₀ h s) {rq : RevocationRequest}
    (hc : AsksRevocation c rq)
    (hhint : rq.tokenTypeHint ∈ [[], b!"access_token", b!"refresh_token"])
    (hid : Identified s.st rq.clientID rq.clientSecret) {t : HS256Token}
    (ht : SameToken s₀.config rq.token t)
    (ho : ∀ k t' g, t'.signatureString = t.signatureString → InForce s₀.config h k t' g →
      g.client = rq.clientID) :
    Revokes s₀.config ⟨c, (step s c).1⟩ t ∧
      ∀ k t' g, t'.signatureString = t.signatureString →
        ¬ InForce s₀.config (⟨c, (step s c).1⟩ :: h) k t' g := by
  have hrev : Revokes s₀.config ⟨c, (step s c).1⟩ t := by
    obtain ⟨st, rfl, ex⟩ := history_state h0 hh
    obtain ⟨t', ht, hs⟩ := ht
    have ht' := ht
    rw [← ex.config] at ht
    rw [revoke_reply hc hhint hid ht,
      not_foreign ex.access (fun x g' h1 => ho .access x g' (h1.trans hs)),
      not_foreign ex.refresh (fun x g' h1 => ho .refresh x g' (h1.trans hs))]
    obtain ⟨r, h1, h2, h3⟩ := hc
    exact ⟨rq, _, ⟨r, h1, h2, h3, rfl⟩, ⟨t', ht', hs⟩, rfl⟩
  exact ⟨hrev, fun k => revoked_gone (new := []) hrev (k := k) (by simp)⟩

end OAuth2

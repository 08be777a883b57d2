import Verif.Lemmas.Replies
import Verif.Props.Grants

/-!
C32, C36, C43, C48, C51: who gets which rights, for every history of calls.
-/

namespace OAuth2

open Spec

set_option linter.unusedSimpArgs false

variable {s₀ : Server} {s : Shared Server}

/-! ### Requests that are honoured -/

theorem mint_enough {cfg : ServerConfig} {c : Call} (h : Enough cfg c 2) :
    ∃ a b, Server.mint cfg true c.local.coins = some (a, some b) := by
  cases hm : Server.mint cfg true c.local.coins with
  | none =>
    have := Server.mint_none hm
    have h1 := h.1
    have h2 : 2 * cfg.keyLength.toNat ≤ c.local.coins.length := h.2
    omega
  | some x =>
    obtain ⟨a, b⟩ := x
    obtain ⟨b', rfl⟩ := Server.mint_true hm
    exact ⟨a, b', rfl⟩

/-- An answer with tokens. -/
theorem hands_response {c : Call} {rq : TokenRequest} (hc : AsksToken c rq) {cfg : ServerConfig}
    {a b : HS256Token} {scope : Scope} {x : Answer} {reply : Reply} (hr : x = reply.answer)
    (hx : reply = .token (Server.grantResponse cfg a (some b) scope)) :
    Hands ⟨c, x⟩ .access a ∧ Hands ⟨c, x⟩ .refresh b := by
  have hres := token_result (t := Server.grantResponse cfg a (some b) scope) rfl
  have hx' : x = .answered ((Reply.token (Server.grantResponse cfg a (some b)
    scope)).render {}).result := by rw [hr, hx]; rfl
  have hcall := tokenCall_of_asks hc hx'
  constructor
  · refine .inl ⟨rq, _, hcall, ?_⟩
    show JsonMember _ b!"access_token" _
    rw [hres, (token_jsonMember rfl rfl _).1]
    exact (token_sanitize a).symm
  · refine .inl ⟨rq, _, hcall, ?_⟩
    show JsonMember _ b!"refresh_token" _
    rw [hres, (token_jsonMember rfl rfl _).2.1]
    exact ⟨token_ne_nil b, (token_sanitize b).symm⟩

/-- **C51.** After every history, the password of a registered user, presented by an identified
client for an allowed scope, is answered with an access token and a refresh token, provided the
random source has bytes for them. -/
theorem C51_password_granted {h : List Event} (h0 : Started s₀) (hh : History s₀ h s)
    {c : Call} {rq : TokenRequest} (hc : AsksToken c rq) (hgt : rq.grantType = b!"password")
    (hi : Identified s.st rq.clientID rq.clientSecret) (hu : Password s.st rq.username rq.password)
    (hs : Within rq.scope s₀.config.allowedScope) (hn : Enough s₀.config c 2) :
    ∃ a b, Hands ⟨c, (step s c).1⟩ .access a ∧ Hands ⟨c, (step s c).1⟩ .refresh b := by
  obtain ⟨st, rfl, ex⟩ := history_state h0 hh
  obtain ⟨client, _, h2⟩ := step_grant hc hi (by rw [hgt]; decide)
  rw [h2]
  obtain ⟨a, b, hm⟩ := mint_enough hn
  refine ⟨a, b, hands_response hc (cfg := s₀.config) (scope := rq.scope) rfl ?_⟩
  unfold Server.grantReply
  rw [if_pos (by rw [hgt]; decide), (Server.userOK_iff _ _ _).mpr hu, ex.config,
    (C07_includes _ _).mpr hs]
  unfold Server.issue
  rw [ex.config, hm]
  rfl

/-- Non-vacuity: `c2` presents the password of `u1` after the session. -/
example : ∃ rq, AsksToken (Demo.post b!"/token" []
      b!"grant_type=password&client_id=c2&username=u1&password=p1&scope=foo" [1, 2, 3, 4] 1100) rq ∧
    rq.grantType = b!"password" ∧ Identified Demo.s10 rq.clientID rq.clientSecret ∧
    Password Demo.s10 rq.username rq.password ∧
    Within rq.scope Demo.server.config.allowedScope ∧
    Enough Demo.server.config (Demo.post b!"/token" [] [] [1, 2, 3, 4] 1100) 2 :=
  ⟨{ grantType := b!"password", clientID := b!"c2", username := b!"u1", password := b!"p1",
     scope := some [b!"foo"] },
    by decide +kernel, rfl, by decide +kernel, by decide +kernel, by decide +kernel, by decide +kernel⟩

/-- **C51.** The same for the secret of a confidential client. -/
theorem C51_client_granted {h : List Event} (h0 : Started s₀) (hh : History s₀ h s)
    {c : Call} {rq : TokenRequest} (hc : AsksToken c rq)
    (hgt : rq.grantType = b!"client_credentials") {client : ServerEntity}
    (hcl : s.st.clients.get? rq.clientID = some client) (hcf : client.confidential = true)
    (hse : client.secret = rq.clientSecret)
    (hs : Within rq.scope s₀.config.allowedScope) (hn : Enough s₀.config c 2) :
    ∃ a b, Hands ⟨c, (step s c).1⟩ .access a ∧ Hands ⟨c, (step s c).1⟩ .refresh b := by
  obtain ⟨st, rfl, ex⟩ := history_state h0 hh
  obtain ⟨client', h1, h2⟩ := step_grant (s := st) hc ⟨client, hcl, fun _ => hse⟩ (by rw [hgt]; decide)
  have hcl' : st.clients.get? rq.clientID = some client := hcl
  rw [hcl'] at h1
  cases h1
  rw [h2]
  obtain ⟨a, b, hm⟩ := mint_enough hn
  refine ⟨a, b, hands_response hc (cfg := s₀.config) (scope := rq.scope) rfl ?_⟩
  unfold Server.grantReply
  rw [if_neg (by rw [hgt]; decide), if_pos (by rw [hgt]; decide), hcf, ex.config,
    (C07_includes _ _).mpr hs]
  unfold Server.issue
  rw [ex.config, hm]
  rfl

/-- Non-vacuity: `c1` presents its secret after the session. -/
example : ∃ rq, AsksToken (Demo.post b!"/token" b!"c1:s1"
      b!"grant_type=client_credentials&scope=bar" [1, 2, 3, 4] 1100) rq ∧
    rq.grantType = b!"client_credentials" ∧ Within rq.scope Demo.server.config.allowedScope ∧
    ∃ client, Demo.s10.clients.get? rq.clientID = some client ∧ client.confidential = true ∧
      client.secret = rq.clientSecret :=
  ⟨{ grantType := b!"client_credentials", clientID := b!"c1", clientSecret := b!"s1",
     scope := some [b!"bar"] },
    by decide +kernel, rfl, by decide +kernel, _, rfl, rfl, rfl⟩

/-- **C51.** A code on record that was not redeemed and has not expired, presented by the
identified client it was issued to with the redirect URI of the authorization request, is answered
with tokens. -/
theorem C51_code_granted {h : List Event} (h0 : Started s₀) (hh : History s₀ h s) {y : HS256Token}
    {g : CodeGrant} (hy : Code s₀.config h y g false) {c : Call} {rq : TokenRequest}
    (hc : AsksToken c rq) (hgt : rq.grantType = b!"authorization_code")
    (ht : SameToken s₀.config rq.code y) (hi : Identified s.st rq.clientID rq.clientSecret)
    (hx : c.clock 0 ≤ g.expires) (ho : g.client = rq.clientID)
    (hr : g.redirectURI = rq.redirectURI) (hn : Enough s₀.config c 2) :
    ∃ a b, Hands ⟨c, (step s c).1⟩ .access a ∧ Hands ⟨c, (step s c).1⟩ .refresh b := by
  obtain ⟨st, rfl, ex⟩ := history_state h0 hh
  rw [step_code hc hi hgt]
  obtain ⟨x, h1, h2⟩ := ht
  have hst : st.authorizationCodes.get? x.signatureString = some (g.cred false) :=
    (ex.codes _ _).mpr ⟨y, g, false, h2.symm, hy, rfl⟩
  obtain ⟨a, b, hm⟩ := mint_enough hn
  refine ⟨a, b, hands_response hc (cfg := s₀.config) (scope := g.scope) rfl ?_⟩
  unfold Server.codeReply
  rw [ex.config, h1]
  simp only [hst, CodeGrant.cred, Bool.false_eq_true, if_false]
  rw [if_neg (Server.not_before (u := c.local.clock c.local.tick) (Int.not_lt.mpr hx)), if_neg (by simpa using ho),
    if_neg (by simpa using hr)]
  unfold Server.issue
  rw [ex.config, hm]
  rfl

/-- Non-vacuity: the third call of the session. -/
example : Code Demo.server.config [Demo.e2, Demo.e1] Demo.x2 {
      client := b!"c2", user := b!"u1", scope := some [b!"foo", b!"bar"],
      redirectURI := b!"http://example.org/cb?x=1", expires := 1610 * second } false ∧
    (∃ rq, AsksToken Demo.c3 rq ∧ rq.grantType = b!"authorization_code" ∧
      SameToken Demo.server.config rq.code Demo.x2 ∧
      Identified Demo.s2 rq.clientID rq.clientSecret ∧ b!"c2" = rq.clientID ∧
      b!"http://example.org/cb?x=1" = rq.redirectURI) ∧
    Demo.c3.clock 0 ≤ 1610 * second ∧ Enough Demo.server.config Demo.c3 2 :=
  ⟨Demo.code2, ⟨{
      grantType := b!"authorization_code", clientID := b!"c2",
      redirectURI := b!"http://example.org/cb?x=1", code := Demo.x2.string },
    by decide +kernel, rfl, by decide +kernel, by decide +kernel, rfl, rfl⟩, by decide +kernel,
    by decide +kernel⟩

/-- **C51.** A refresh token in force that has not expired, presented by the identified client it
was issued to for a scope within its own, is answered with tokens. -/
theorem C51_refresh_granted {h : List Event} (h0 : Started s₀) (hh : History s₀ h s)
    {y : HS256Token} {g : Grant} (hy : InForce s₀.config h .refresh y g) {c : Call}
    {rq : TokenRequest} (hc : AsksToken c rq) (hgt : rq.grantType = b!"refresh_token")
    (ht : SameToken s₀.config rq.refreshToken y) (hi : Identified s.st rq.clientID rq.clientSecret)
    (hx : c.clock 0 ≤ g.expires) (ho : g.client = rq.clientID)
    (hs : Within rq.scope g.scope) (hn : Enough s₀.config c 2) :
    ∃ a b, Hands ⟨c, (step s c).1⟩ .access a ∧ Hands ⟨c, (step s c).1⟩ .refresh b := by
  obtain ⟨st, rfl, ex⟩ := history_state h0 hh
  rw [step_refresh hc hi hgt]
  obtain ⟨x, h1, h2⟩ := ht
  have hst : st.refreshTokens.get? x.signatureString = some g.cred :=
    (ex.refresh _ _).mpr ⟨y, g, h2.symm, hy, rfl⟩
  obtain ⟨a, b, hm⟩ := mint_enough hn
  refine ⟨a, b, hands_response hc (cfg := s₀.config)
    (scope := if rq.scope.empty then g.scope else rq.scope) rfl ?_⟩
  have hsc : g.scope.includes (if rq.scope.empty then g.scope else rq.scope) = true := by
    rw [C07_includes]
    split
    · exact fun _ h => h
    · exact hs
  unfold Server.refreshReply
  rw [ex.config, h1]
  simp only [hst, Grant.cred, Bool.false_eq_true, if_false]
  rw [if_neg (Server.not_before (u := c.local.clock c.local.tick) (Int.not_lt.mpr hx)), if_neg (by simpa using ho), hsc]
  unfold Server.issue
  rw [ex.config, hm]
  rfl

/-- Non-vacuity: the fourth call of the session. -/
example : InForce Demo.server.config [Demo.e3, Demo.e2, Demo.e1] .refresh Demo.r3 {
      client := b!"c2", user := b!"u1", scope := some [b!"foo", b!"bar"],
      expires := 605822 * second, origin := Demo.x2.signatureString } ∧
    (∃ rq, AsksToken Demo.c4 rq ∧ rq.grantType = b!"refresh_token" ∧
      SameToken Demo.server.config rq.refreshToken Demo.r3 ∧
      Identified Demo.s3 rq.clientID rq.clientSecret ∧ b!"c2" = rq.clientID ∧
      Within rq.scope (some [b!"foo", b!"bar"])) ∧
    Demo.c4.clock 0 ≤ 605822 * second ∧ Enough Demo.server.config Demo.c4 2 :=
  ⟨Demo.refresh3, ⟨{
      grantType := b!"refresh_token", clientID := b!"c2", scope := some [b!"foo"],
      refreshToken := Demo.r3.string },
    by decide +kernel, rfl, by decide +kernel, by decide +kernel, rfl, by decide +kernel⟩,
    by decide +kernel, by decide +kernel⟩

/-- **C51.** A submitted authorization request with the redirect URI of a registered client, the
password of a registered user and an allowed scope is answered with what it asks for: an access
token, or a code. -/
theorem C51_authorization_granted {h : List Event} (h0 : Started s₀) (hh : History s₀ h s)
    {c : Call} {rq : AuthorizationRequest} {u p : Str} (hc : AsksAuthorization c rq u p)
    {client : ServerEntity} (hcl : s.st.clients.get? rq.clientID = some client)
    (hr : client.redirectURI = rq.redirectURI) (hu : Password s.st u p)
    (hs : Within rq.scope s₀.config.allowedScope) (hn : Enough s₀.config c 1) :
    (rq.responseType = b!"token" → ∃ a, Hands ⟨c, (step s c).1⟩ .access a) ∧
    (rq.responseType = b!"code" → ∃ x, HandsCode ⟨c, (step s c).1⟩ x) := by
  obtain ⟨st, rfl, ex⟩ := history_state h0 hh
  obtain ⟨r, hop, hq, hm, hfu, hfp, h1⟩ := step_submit (s := st) hc
  have hp : Server.lastSegment r.path = b!"authorize" := by
    obtain ⟨r', h2, h3, _⟩ := hc
    rw [hop] at h2
    cases h2
    exact (lastSegment_iff _ _).mp h3
  have hcl' : st.clients.get? rq.clientID = some client := hcl
  have hg : ∃ x rest, Server.gen s₀.config c.local.coins = some (x, rest) := by
    cases hg : Server.gen s₀.config c.local.coins with
    | none =>
      have := Server.gen_none hg
      have h1 := hn.1
      have h2 : 1 * s₀.config.keyLength.toNat ≤ c.local.coins.length := hn.2
      omega
    | some x => exact ⟨x.1, x.2, rfl⟩
  obtain ⟨x, rest, hg⟩ := hg
  have hreply : rq.responseType = b!"token" ∨ rq.responseType = b!"code" →
      (st.authorizeReply r c.local).1 = if rq.responseType = TokenResponseType then
        .token ((Server.grantResponse s₀.config x none rq.scope).setRedirect rq.redirectURI rq.state)
      else .code { code := x.string, redirectURI := rq.redirectURI, state := rq.state } := by
    intro ht
    unfold Server.authorizeReply
    have hk : knownResponseType rq.responseType = true := by
      rcases ht with ht | ht <;> rw [ht] <;> decide
    rw [hq]
    simp only [hk, Bool.not_true, Bool.false_eq_true, if_false, hcl', hr, ne_eq, not_true_eq_false,
      if_neg hm]
    rw [ex.config, (C07_includes _ _).mpr hs, ← hfu, ← hfp, (Server.userOK_iff _ _ _).mpr hu]
    simp only [Bool.not_true, Bool.false_eq_true, if_false, decide_eq_true_eq]
    by_cases ht' : rq.responseType = TokenResponseType
    · rw [if_pos ht', if_pos ht']
      unfold Server.issue Server.mint
      rw [ex.config, hg]
      rfl
    · rw [if_neg ht', if_neg ht', hg]
  have hf : rq.responseType = b!"token" ∨ rq.responseType = b!"code" →
      Server.AuthorizationFor st r rq := fun ht => ⟨hp, hq, ht, client, hcl', hr⟩
  rw [h1]
  constructor
  · intro ht
    refine ⟨x, ?_⟩
    rw [hreply (.inl ht), if_pos (show rq.responseType = TokenResponseType from ht)]
    exact ((implicit_obs (cfg := s₀.config) s₀.config hop (hf (.inl ht)) hm ht).1.access x).mpr rfl
  · intro ht
    refine ⟨x, ?_⟩
    rw [hreply (.inr ht), if_neg (by rw [ht]; decide)]
    exact ((code_obs (cfg := s₀.config) hop (hf (.inr ht)) hm ht).1.code x).mpr rfl

/-- Non-vacuity: the second call of the session. -/
example : AsksAuthorization Demo.c2 Demo.rq2 b!"u1" b!"p1" ∧
    (∃ client, Demo.s1.clients.get? Demo.rq2.clientID = some client ∧
      client.redirectURI = Demo.rq2.redirectURI) ∧ Password Demo.s1 b!"u1" b!"p1" ∧
    Within Demo.rq2.scope Demo.server.config.allowedScope ∧ Enough Demo.server.config Demo.c2 1 :=
  ⟨by decide +kernel, ⟨_, rfl, rfl⟩, by decide +kernel, by decide +kernel, by decide +kernel⟩

/-! ### Requests that are refused -/

/-- **C48.** A code on record is refused after its expiry. -/
theorem C48_code_expired {h : List Event} (h0 : Started s₀) (hh : History s₀ h s) {y : HS256Token}
    {g : CodeGrant} {b : Bool} (hy : Code s₀.config h y g b) {c : Call} {rq : TokenRequest}
    (hc : AsksToken c rq) (hgt : rq.grantType = b!"authorization_code")
    (ht : SameToken s₀.config rq.code y) (hi : Identified s.st rq.clientID rq.clientSecret)
    (hx : g.expires < c.clock 0) :
    RefusedWith (step s c).1 400 b!"invalid_grant" ∧ (b = false → (step s c).2 = s) :=
  C35_refused h0 hh hy hc hgt ht hi (.inl hx)

/-- **C32, C48.** A refresh token in force that is presented after its expiry or by another client
is refused with `invalid_grant`, and nothing changes. -/
theorem C48_refresh_expired {h : List Event} (h0 : Started s₀) (hh : History s₀ h s)
    {y : HS256Token} {g : Grant} (hy : InForce s₀.config h .refresh y g) {c : Call}
    {rq : TokenRequest} (hc : AsksToken c rq) (hgt : rq.grantType = b!"refresh_token")
    (ht : SameToken s₀.config rq.refreshToken y) (hi : Identified s.st rq.clientID rq.clientSecret)
    (hbad : g.expires < c.clock 0 ∨ g.client ≠ rq.clientID) :
    RefusedWith (step s c).1 400 b!"invalid_grant" ∧ (step s c).2 = s := by
  obtain ⟨st, rfl, ex⟩ := history_state h0 hh
  rw [step_refresh hc hi hgt]
  obtain ⟨x, h1, h2⟩ := ht
  have hst : st.refreshTokens.get? x.signatureString = some g.cred :=
    (ex.refresh _ _).mpr ⟨y, g, h2.symm, hy, rfl⟩
  have : ∃ d, st.refreshReply rq c.local = (.error (invalidGrant d), st) := by
    unfold Server.refreshReply
    rw [ex.config, h1]
    simp only [hst, Grant.cred]
    by_cases hx : g.expires < c.clock 0
    · rw [if_pos (Server.before_of_lt (u := c.local.clock c.local.tick) hx)]
      exact ⟨_, rfl⟩
    rw [if_neg (Server.not_before (u := c.local.clock c.local.tick) hx), if_pos (hbad.resolve_left hx)]
    exact ⟨_, rfl⟩
  obtain ⟨d, hd⟩ := this
  rw [hd]
  exact ⟨refused_grant _, rfl⟩

/-- Non-vacuity: a clock reading after the expiry of the refresh token of the third event. The
other hypotheses are met as for `C51_refresh_granted`. -/
example : (605822 : Int) * second < (Demo.post b!"/token" [] [] [] 605823).clock 0 := by
  decide +kernel

/-- **C32.** A refresh request for more than the refresh token stands for is refused with
`invalid_scope`, and nothing changes: the refresh token remains usable. -/
theorem C32_wider_refused {h : List Event} (h0 : Started s₀) (hh : History s₀ h s)
    {y : HS256Token} {g : Grant} (hy : InForce s₀.config h .refresh y g) {c : Call}
    {rq : TokenRequest} (hc : AsksToken c rq) (hgt : rq.grantType = b!"refresh_token")
    (ht : SameToken s₀.config rq.refreshToken y) (hi : Identified s.st rq.clientID rq.clientSecret)
    (hx : c.clock 0 ≤ g.expires) (ho : g.client = rq.clientID) (hs : ¬ Within rq.scope g.scope) :
    RefusedWith (step s c).1 400 b!"invalid_scope" ∧ (step s c).2 = s := by
  obtain ⟨st, rfl, ex⟩ := history_state h0 hh
  rw [step_refresh hc hi hgt]
  obtain ⟨x, h1, h2⟩ := ht
  have hst : st.refreshTokens.get? x.signatureString = some g.cred :=
    (ex.refresh _ _).mpr ⟨y, g, h2.symm, hy, rfl⟩
  have : ∃ d, st.refreshReply rq c.local = (.error (invalidScope d), st) := by
    have hsc : g.scope.includes (if rq.scope.empty then g.scope else rq.scope) = false := by
      rw [Bool.eq_false_iff]
      intro hh
      rw [C07_includes] at hh
      split at hh
      · next he =>
        apply hs
        exact fun i hi => absurd hi ((C07_empty _).mp he i)
      · exact hs hh
    unfold Server.refreshReply
    rw [ex.config, h1]
    simp only [hst, Grant.cred]
    rw [if_neg (Server.not_before (u := c.local.clock c.local.tick) (Int.not_lt.mpr hx)), if_neg (by simpa using ho), hsc]
    exact ⟨_, rfl⟩
  obtain ⟨d, hd⟩ := this
  rw [hd]
  exact ⟨refused_scope _, rfl⟩

/-- Non-vacuity: after the fourth event of the session, `c2` asks for more than the refresh token
of that event stands for. -/
example : ∃ rq, AsksToken (Demo.post b!"/token" []
      (b!"grant_type=refresh_token&client_id=c2&scope=foo+bar&refresh_token=" ++ Demo.r4.string)
      [] 1035) rq ∧ rq.grantType = b!"refresh_token" ∧
    SameToken Demo.server.config rq.refreshToken Demo.r4 ∧
    Identified Demo.s4 rq.clientID rq.clientSecret ∧ ¬ Within rq.scope (some [b!"foo"]) ∧
    ∃ g, InForce Demo.server.config [Demo.e4, Demo.e3, Demo.e2, Demo.e1] .refresh Demo.r4 g ∧
      g.client = rq.clientID ∧ g.scope = some [b!"foo"] :=
  ⟨{ grantType := b!"refresh_token", clientID := b!"c2", scope := some [b!"foo", b!"bar"],
     refreshToken := Demo.r4.string },
    by decide +kernel, rfl, by decide +kernel, by decide +kernel, by decide +kernel, _,
    Demo.refresh4, rfl, rfl⟩

/-- **C32.** Whenever a refresh request is answered with a token, the refresh token was in force
and had not expired, the client identified itself and is the one the refresh token was issued to,
and the token is for this client, the same user, and the requested scope, or the whole scope of
the refresh token if none is requested. It never has more scope than the refresh token. (The last
hypothesis excludes that the new refresh token has the signature of the old one.) -/
theorem C32_not_wider (h0 : Started s₀) {new old : List Event} {e : Event}
    (hh : History s₀ (new ++ e :: old) s) {rq : TokenRequest} {res : Response} {k : Kind}
    {t : HS256Token} (hc : TokenCall e rq res) (hgt : rq.grantType = b!"refresh_token")
    (ht : Hands e k t) :
    ∃ s₁ y g scope, History s₀ old s₁ ∧ e.answer = (step s₁ e.call).1 ∧
      InForce s₀.config old .refresh y g ∧ SameToken s₀.config rq.refreshToken y ∧
      Identified s₁.st rq.clientID rq.clientSecret ∧ g.client = rq.clientID ∧
      e.call.clock 0 ≤ g.expires ∧ scope = (if rq.scope.items = [] then g.scope else rq.scope) ∧
      Within scope g.scope ∧
      ((k = .refresh → t.signatureString ≠ y.signatureString) →
        InForce s₀.config (e :: old) k t {
          client := g.client, user := g.user, scope := scope, expires := expiry s₀.config e 1 k }) := by
  obtain ⟨st, hold, ex, hans, hseen⟩ := history_seen h0 hh
  have hno : ∀ {rq'} {res'}, TokenCall e rq' res' → rq'.grantType ≠ b!"refresh_token" → False := by
    intro rq' res' hc' hne
    obtain ⟨rfl, rfl⟩ := tokenCall_unique hc hc'
    exact hne hgt
  cases hseen with
  | quiet q => exact (q.not_hands ht).elim
  | revoke sig o => exact (o.not_hands ht).elim
  | implicit _ _ _ _ _ _ _ _ _ _ hc' _ => exact (not_both hc hc').elim
  | code _ _ _ _ _ _ _ _ _ _ hc' _ => exact (not_both hc hc').elim
  | password _ _ _ _ _ _ _ ht _ _ hc' _ _ => exact (hno hc' (by rw [ht]; decide)).elim
  | client _ _ _ _ _ _ _ ht _ _ hc' _ _ => exact (hno hc' (by rw [ht]; decide)).elim
  | exchange _ _ _ _ _ _ _ _ _ ht _ _ _ _ _ hc' _ _ => exact (hno hc' (by rw [ht]; decide)).elim
  | refresh r rq' res' a b y g hop hf _ hy hsame hx ho hs hc' o hrep =>
    obtain ⟨rfl, rfl⟩ := tokenCall_unique hc hc'
    have he : (if rq.scope.items = [] then g.scope else rq.scope) =
        if rq.scope.empty then g.scope else rq.scope := by
      unfold Scope.empty
      simp
    refine ⟨_, y, g, _, hold, hans, hy, hsame, hf.client, ho, hx, rfl, ?_, ?_⟩
    · rw [he]
      exact (C07_includes _ _).mp hs
    · rw [he]
      exact fun hk => .refresh hc hgt ht hy hsame hk

/-- Non-vacuity: the fourth event of the session is a refresh request that is answered with
tokens. -/
example : (∃ rq res, TokenCall Demo.e4 rq res ∧ rq.grantType = b!"refresh_token") ∧
    Hands Demo.e4 .access Demo.a4 ∧ Hands Demo.e4 .refresh Demo.r4 ∧
    Demo.r4.signatureString ≠ Demo.r3.signatureString :=
  ⟨by decide +kernel, by decide +kernel, by decide +kernel, by decide +kernel⟩

/-! ### Consent -/

/-- Somewhere in the history, when the server was in a state `s₁`, this client presented what
entitles it to this scope of this user. -/
def Consented (s₀ : Server) (h : List Event) (client user : Str) (scope : Scope) : Prop :=
  ∃ new e old s₁ asked, h = new ++ e :: old ∧ History s₀ old s₁ ∧
    Consent s₁.st e.call client user asked ∧ Within scope asked ∧
    Within asked s₀.config.allowedScope

theorem Consented.cons {h : List Event} {client user : Str} {scope : Scope}
    (hc : Consented s₀ h client user scope) (e : Event) : Consented s₀ (e :: h) client user scope := by
  obtain ⟨new, e', old, s₁, asked, rfl, h1⟩ := hc
  exact ⟨e :: new, e', old, s₁, asked, rfl, h1⟩

theorem code_consented (h0 : Started s₀) {h : List Event} (hh : History s₀ h s) {y : HS256Token}
    {g : CodeGrant} {b : Bool} (hc : Code s₀.config h y g b) :
    Consented s₀ h g.client g.user g.scope := by
  induction h generalizing s y g b with
  | nil => cases hc
  | cons e h ih =>
    obtain ⟨st, hold, ex, hans, hseen⟩ := history_seen (new := []) h0 hh
    rcases code_cons.mp hc with ⟨rq, u, res, h1, h2, h3, _, rfl⟩ | ⟨_, h1, _⟩ | ⟨h1, _⟩
    · have hno : ∀ {a b use rev red}, Obs s₀.config e a b none red use rev → False := by
        intro a b use rev red o
        rw [o.code] at h3
        cases h3
      cases hseen with
      | quiet q => exact (hno q).elim
      | revoke sig o => exact (hno o).elim
      | implicit _ _ _ _ _ _ _ _ _ _ _ o => exact (hno o).elim
      | password _ _ _ _ _ _ _ _ _ _ _ o _ => exact (hno o).elim
      | client _ _ _ _ _ _ _ _ _ _ _ o _ => exact (hno o).elim
      | exchange _ _ _ _ _ _ _ _ _ _ _ _ _ _ _ _ o _ => exact (hno o).elim
      | refresh _ _ _ _ _ _ _ _ _ _ _ _ _ _ _ _ o _ => exact (hno o).elim
      | code r rq' res' x hop hf hm ht hs hu hc' o =>
        obtain ⟨rfl, rfl, rfl⟩ := authorizationCall_unique h1 hc'
        obtain ⟨c, hc1, hc2⟩ := hf.client
        exact ⟨[], e, h, _, rq.scope, rfl, hold,
          .authorization ⟨r, hop, (lastSegment_iff _ _).mpr hf.path, hm, hf.parsed, rfl, rfl⟩ hu hc1 hc2,
          fun _ h => h, (C07_includes _ _).mp hs⟩
    · exact (ih hold h1).cons e
    · exact (ih hold h1).cons e

theorem inForce_consented (h0 : Started s₀) {h : List Event} (hh : History s₀ h s) {k : Kind}
    {t : HS256Token} {g : Grant} (hi : InForce s₀.config h k t g) :
    Consented s₀ h g.client g.user g.scope := by
  induction h generalizing s k t g with
  | nil => cases hi
  | cons e h ih =>
    obtain ⟨st, hold, ex, hans, hseen⟩ := history_seen (new := []) h0 hh
    rcases inForce_cons.mp hi with hi | ⟨hi, _⟩
    · cases hseen with
      | quiet q => exact (q.not_hands hi.hands).elim
      | revoke sig o => exact (o.not_hands hi.hands).elim
      | code _ _ _ _ _ _ _ _ _ _ _ o => exact (o.not_hands hi.hands).elim
      | implicit r rq res a hop hf hm ht hs hu hc o =>
        obtain ⟨_, _, rfl⟩ := (issued_authorization hc).mp hi
        obtain ⟨c, hc1, hc2⟩ := hf.client
        exact ⟨[], e, h, _, rq.scope, rfl, hold,
          .authorization ⟨r, hop, (lastSegment_iff _ _).mpr hf.path, hm, hf.parsed, rfl, rfl⟩ hu hc1 hc2,
          fun _ h => h, (C07_includes _ _).mp hs⟩
      | password r rq res a b hop hf ht hs hu hc o hrep =>
        rw [issued_token hc, ht] at hi
        obtain ⟨_, ⟨_, rfl⟩ | ⟨hh, _⟩ | ⟨hh, _⟩ | ⟨hh, _⟩⟩ := hi
        · exact ⟨[], e, h, _, rq.scope, rfl, hold, .password (tokenCall_asks hc) ht hf.client hu, fun _ h => h,
            (C07_includes _ _).mp hs⟩
        all_goals exact absurd hh (by decide)
      | client r rq res a b hop hf ht hcl hs hc o hrep =>
        rw [issued_token hc, ht] at hi
        obtain ⟨_, ⟨hh, _⟩ | ⟨_, rfl⟩ | ⟨hh, _⟩ | ⟨hh, _⟩⟩ := hi
        · exact absurd hh (by decide)
        · obtain ⟨c, hc1, hc2⟩ := hcl
          obtain ⟨c', hc1', hc3⟩ := hf.client
          rw [hc1] at hc1'
          cases hc1'
          exact ⟨[], e, h, _, rq.scope, rfl, hold, .client (tokenCall_asks hc) ht hc1 hc2 (hc3 hc2),
            fun _ h => h, (C07_includes _ _).mp hs⟩
        all_goals exact absurd hh (by decide)
      | exchange r rq res a b y g' hop hf ht hy hsame hx ho hr hc o hrep =>
        rw [issued_token hc, ht] at hi
        obtain ⟨_, ⟨hh, _⟩ | ⟨hh, _⟩ | ⟨_, y', g'', hy', _, rfl⟩ | ⟨hh, _⟩⟩ := hi
        · exact absurd hh (by decide)
        · exact absurd hh (by decide)
        · exact (code_consented h0 hold hy').cons e
        · exact absurd hh (by decide)
      | refresh r rq res a b y g' hop hf ht hy hsame hx ho hs hc o hrep =>
        rw [issued_token hc, ht] at hi
        obtain ⟨_, ⟨hh, _⟩ | ⟨hh, _⟩ | ⟨hh, _⟩ | ⟨_, y', g'', hy', hsame', _, rfl⟩⟩ := hi
        · exact absurd hh (by decide)
        · exact absurd hh (by decide)
        · exact absurd hh (by decide)
        · obtain ⟨x, hx1, hx2⟩ := hsame
          obtain ⟨x', hx1', hx2'⟩ := hsame'
          rw [hx1] at hx1'
          cases hx1'
          obtain rfl := token_unique ex hy hy' (hx2.symm.trans hx2')
          obtain ⟨new, e', old, s₁, asked, h1, h2, h3, h4, h5⟩ := (ih hold hy).cons e
          exact ⟨new, e', old, s₁, asked, h1, h2, h3,
            fun i hi => h4 i ((C07_includes _ _).mp hs i hi), h5⟩
    · exact (ih hold hi).cons e

/-- **C43.** Every token that is in force after a history goes back to an event in which its
client presented what entitles it to the token's scope: the user's password (together with the
client's identification, or its redirect URI), or, if the token is for no user, the secret of a
confidential client. -/
theorem C43_token_consent (h0 : Started s₀) {h : List Event} (hh : History s₀ h s) {k : Kind}
    {t : HS256Token} {g : Grant} (hi : InForce s₀.config h k t g) :
    ∃ new e old s₁ asked, h = new ++ e :: old ∧ History s₀ old s₁ ∧
      Consent s₁.st e.call g.client g.user asked ∧ Within g.scope asked := by
  obtain ⟨new, e, old, s₁, asked, h1, h2, h3, h4, _⟩ := inForce_consented h0 hh hi
  exact ⟨new, e, old, s₁, asked, h1, h2, h3, h4⟩

/-- **C43.** The same for every code on record. -/
theorem C43_code_consent (h0 : Started s₀) {h : List Event} (hh : History s₀ h s)
    {y : HS256Token} {g : CodeGrant} {b : Bool} (hc : Code s₀.config h y g b) :
    ∃ new e old s₁ asked, h = new ++ e :: old ∧ History s₀ old s₁ ∧
      Consent s₁.st e.call g.client g.user asked ∧ Within g.scope asked := by
  obtain ⟨new, e, old, s₁, asked, h1, h2, h3, h4, _⟩ := code_consented h0 hh hc
  exact ⟨new, e, old, s₁, asked, h1, h2, h3, h4⟩

/-- Non-vacuity: the refresh token of the fourth event of the session, which goes back to the
second event, and the code of the second event. -/
example : (∃ g, InForce Demo.server.config [Demo.e4, Demo.e3, Demo.e2, Demo.e1] .refresh Demo.r4 g) ∧
    (∃ g b, Code Demo.server.config [Demo.e2, Demo.e1] Demo.x2 g b) ∧
    Consent Demo.s1 Demo.c2 b!"c2" b!"u1" (some [b!"foo", b!"bar"]) :=
  ⟨⟨_, Demo.refresh4⟩, ⟨_, _, Demo.code2⟩,
    .authorization (rq := Demo.rq2) (password := b!"p1") (by decide +kernel) (by decide +kernel) rfl rfl⟩

/-- **C36.** No token in force after any history, however often it was refreshed, has a scope
beyond the server's allowed scope. -/
theorem C36_token_scope (h0 : Started s₀) {h : List Event} (hh : History s₀ h s) {k : Kind}
    {t : HS256Token} {g : Grant} (hi : InForce s₀.config h k t g) :
    Within g.scope s₀.config.allowedScope := by
  obtain ⟨_, _, _, _, _, _, _, _, h4, h5⟩ := inForce_consented h0 hh hi
  exact fun i hi => h5 i (h4 i hi)

/-- **C36.** Nor has any code. -/
theorem C36_code_scope (h0 : Started s₀) {h : List Event} (hh : History s₀ h s)
    {y : HS256Token} {g : CodeGrant} {b : Bool} (hc : Code s₀.config h y g b) :
    Within g.scope s₀.config.allowedScope := by
  obtain ⟨_, _, _, _, _, _, _, _, h4, h5⟩ := code_consented h0 hh hc
  exact fun i hi => h5 i (h4 i hi)

/-- **C36.** Hence `Authorize` admits nothing when it requires a scope that is not allowed. -/
theorem C36_not_admitted (h0 : Started s₀) {h : List Event} (hh : History s₀ h s) (c : Call)
    {r : Request} {required : Scope} (hc : c.op = .authorize r required)
    (hs : ¬ Within required s₀.config.allowedScope) : (step s c).1 ≠ .admitted := by
  intro ha
  obtain ⟨required', text, t, g, ⟨r', h1, _⟩, _, h3, _, h5⟩ := (C27_admits_iff h0 hh c).mp ha
  rw [hc] at h1
  cases h1
  exact hs fun i hi => C36_token_scope h0 hh h3 i (h5 i hi)

/-- Non-vacuity: a scope that is not allowed. -/
example : ¬ Within (some [b!"foo", b!"admin"]) Demo.server.config.allowedScope := by decide +kernel

end OAuth2

import Verif.Props.EndToEnd

/-!
C65: the flows, end to end: from the consent of the user to the use of the access token, with
anything else happening in between.
-/

namespace OAuth2

open Spec

variable {s₀ : Server} {s : Shared Server} {h : List Event} {cfg : ClientConfig}

/-- Presented tokens are determined by the call. -/
theorem presents_determined {c : Call} {required required' : Scope} {text text' : Str}
    (h1 : Presents c required text) (h2 : Presents c required' text') :
    required = required' ∧ text = text' := by
  obtain ⟨r, h1, h3⟩ := h1
  obtain ⟨r', h2, h4⟩ := h2
  rw [h1] at h2
  cases h2
  refine ⟨rfl, ?_⟩
  rw [← C09_bearer_accept_iff] at h3 h4
  rw [h3] at h4
  exact Except.ok.inj h4

/-- A token in force is admitted until it expires, for what it is good for. -/
theorem admitted_iff (h0 : Started s₀) (hh : History s₀ h s) {a : HS256Token} {g : Grant}
    (hi : InForce s₀.config h .access a g) {c : Call} {required : Scope}
    (hc : Presents c required a.string) :
    (step s c).1 = .admitted ↔ c.clock 0 ≤ g.expires ∧ Within required g.scope := by
  obtain ⟨st, rfl, ex⟩ := history_state h0 hh
  have ha := sameToken_self (ex.valid _ _ _ hi)
  constructor
  · intro h1
    obtain ⟨required', text, t, g', h2, h3, h4, h5, h6⟩ := (C27_admits_iff h0 hh c).mp h1
    obtain ⟨rfl, rfl⟩ := presents_determined hc h2
    obtain ⟨y, k1, k2⟩ := ha
    obtain ⟨y', k3, k4⟩ := h3
    rw [k1] at k3
    cases k3
    have k5 := (ex.access _ _).mpr ⟨a, g, rfl, hi, rfl⟩
    have k6 := (ex.access _ _).mpr ⟨t, g', k4.symm.trans k2, h4, rfl⟩
    rw [k5] at k6
    cases grant_cred_inj (Option.some.inj k6)
    exact ⟨h5, h6⟩
  · rintro ⟨h1, h2⟩
    exact (C27_admits_iff h0 hh c).mpr ⟨_, _, a, g, hc, ha, hi, h1, h2⟩

/-- A code that is neither redeemed nor issued anew stays as it is. -/
theorem code_later {cfg : ServerConfig} {x : HS256Token} {g : CodeGrant} {b : Bool}
    (hx : Code cfg h x g b) {new : List Event}
    (hn : ∀ e ∈ new, ¬ Redeems cfg e x ∧
      ∀ x', HandsCode e x' → x'.signatureString ≠ x.signatureString) :
    Code cfg (new ++ h) x g b := by
  induction new with
  | nil => exact hx
  | cons e new ih =>
    exact .later (ih fun x hx => hn x (List.mem_cons_of_mem _ hx)) (hn e (by simp)).1 (hn e (by simp)).2

/-- **C65, implicit flow.** A registered client sends the user to the authorization endpoint with its
redirect URI, and the user signs in: the fragment of the redirect carries an access token. Whatever
happens afterwards, short of ending this token, presenting it gives access exactly until it expires
and exactly to what the user consented to. -/
theorem C65_implicit_flow (h0 : Started s₀) (hh : History s₀ h s) {c : Call}
    {rq : AuthorizationRequest} {u p : Str} (hc : AsksAuthorization c rq u p)
    (ht : rq.responseType = b!"token") {client : ServerEntity}
    (hcl : s.st.clients.get? rq.clientID = some client) (hr : client.redirectURI = rq.redirectURI)
    (hu : Password s.st u p) (hs : Within rq.scope s₀.config.allowedScope)
    (hn : Enough s₀.config c 1) :
    ∃ res a, (step s c).1 = .answered res ∧ FragmentParameter res b!"access_token" a.string ∧
      ∀ new s', History s₀ (new ++ ⟨c, (step s c).1⟩ :: h) s' →
      (∀ e ∈ new, ¬ Ends s₀.config e .access a {
        client := rq.clientID, user := u, scope := rq.scope,
        expires := c.clock 0 + s₀.config.accessTokenLifespan }) →
      ∀ c' required, Presents c' required a.string →
      ((step s' c').1 = .admitted ↔
        c'.clock 0 ≤ c.clock 0 + s₀.config.accessTokenLifespan ∧ Within required rq.scope) := by
  obtain ⟨a, ha⟩ := (C51_authorization_granted h0 hh hc hcl hr hu hs hn).1 ht
  obtain ⟨r, k1, k2, k3, k4, k5, k6⟩ := hc
  have hcall : ∃ res, AuthorizationCall ⟨c, (step s c).1⟩ rq u res ∧
      FragmentParameter res b!"access_token" a.string := by
    rcases ha with ⟨rq', res, h1, _⟩ | ⟨_, rq', u', res, h1, _, h2⟩
    · obtain ⟨r', j1, j2, _⟩ := h1
      rw [k1] at j1
      cases j1
      exact absurd (((lastSegment_iff _ _).mp k2).symm.trans ((lastSegment_iff _ _).mp j2)) (by decide)
    · obtain ⟨r', j1, j2, j3, j4, j5, j6⟩ := id h1
      rw [k1] at j1
      cases j1
      rw [k4] at j4
      cases j4
      exact ⟨res, ⟨r, k1, k2, k3, k4, k5, j6⟩, h2⟩
  obtain ⟨res, hcall, hf⟩ := hcall
  refine ⟨res, a, hcall.choose_spec.2.2.2.2.2, hf, ?_⟩
  intro new s' hh' hn' c' required hp
  exact admitted_iff h0 hh' (inForce_later (.implicit hcall ha) hn') hp

/-- **C65, authorization code flow.** A registered client sends the user to the authorization endpoint
with its redirect URI, and the user signs in: the query of the redirect carries a code. Whatever
happens next, short of this code being redeemed or issued anew, the client library exchanges this code
for an access token, if the client identifies itself and repeats the redirect URI while the code has
not expired. And whatever happens afterwards, short of ending this token, presenting it gives access
exactly until it expires and exactly to what the user consented to. -/
theorem C65_code_flow (h0 : Started s₀) (hl : isInt64 s₀.config.accessTokenLifespan)
    (hcfg : Endpoint (cfg.baseURI ++ cfg.tokenEndpoint) b!"token") (hh : History s₀ h s) {c : Call}
    {rq : AuthorizationRequest} {u p : Str} (hc : AsksAuthorization c rq u p)
    (ht : rq.responseType = b!"code") {client : ServerEntity}
    (hcl : s.st.clients.get? rq.clientID = some client) (hr : client.redirectURI = rq.redirectURI)
    (hu : Password s.st u p) (hs : Within rq.scope s₀.config.allowedScope)
    (hn : Enough s₀.config c 1) :
    ∃ res x, (step s c).1 = .answered res ∧ AddedParameter rq.redirectURI res b!"code" x.string ∧
      ∀ mid s₁, History s₀ (mid ++ ⟨c, (step s c).1⟩ :: h) s₁ →
      (∀ e ∈ mid, ¬ Redeems s₀.config e x ∧
        ∀ x', HandsCode e x' → x'.signatureString ≠ x.signatureString) →
      ∀ trq, Sendable trq → trq.grantType = b!"authorization_code" → trq.code = x.string →
      trq.clientID = rq.clientID → trq.redirectURI = rq.redirectURI →
      Identified s₁.st trq.clientID trq.clientSecret →
      ∀ coins clock, clock 0 ≤ c.clock 0 + s₀.config.authorizationCodeLifespan →
      0 ≤ s₀.config.keyLength ∧ 2 * s₀.config.keyLength.toNat ≤ coins.length →
      ∃ r, AsksToken ⟨.serve r, coins, clock⟩ trq ∧
        (Fits cfg (step s₁ ⟨.serve r, coins, clock⟩).1 →
        ∃ trs a, Authenticates cfg s₁ trq ⟨.serve r, coins, clock⟩ (.ok trs) ∧
          trs.accessToken = a.string ∧
          ∀ new s₂, History s₀ (new ++ ⟨⟨.serve r, coins, clock⟩,
              (step s₁ ⟨.serve r, coins, clock⟩).1⟩ :: (mid ++ ⟨c, (step s c).1⟩ :: h)) s₂ →
          (∀ e ∈ new, ¬ Ends s₀.config e .access a {
            client := rq.clientID, user := u, scope := rq.scope,
            expires := clock 1 + s₀.config.accessTokenLifespan, origin := x.signatureString }) →
          ∀ c' required, Presents c' required trs.accessToken →
          ((step s₂ c').1 = .admitted ↔
            c'.clock 0 ≤ clock 1 + s₀.config.accessTokenLifespan ∧ Within required rq.scope)) := by
  obtain ⟨x, hx⟩ := (C51_authorization_granted h0 hh hc hcl hr hu hs hn).2 ht
  obtain ⟨r, k1, k2, k3, k4, k5, k6⟩ := hc
  have hcall : ∃ res, AuthorizationCall ⟨c, (step s c).1⟩ rq u res ∧
      AddedParameter rq.redirectURI res b!"code" x.string := by
    obtain ⟨rq', u', res, h1, _, h2⟩ := id hx
    obtain ⟨r', j1, j2, j3, j4, j5, j6⟩ := id h1
    rw [k1] at j1
    cases j1
    rw [k4] at j4
    cases j4
    exact ⟨res, ⟨r, k1, k2, k3, k4, k5, j6⟩, h2⟩
  obtain ⟨res, hcall, hp⟩ := hcall
  refine ⟨res, x, hcall.choose_spec.2.2.2.2.2, hp, ?_⟩
  intro mid s₁ hh₁ hmid trq hsend hg hcode hid huri hident coins clock hclock hcoins
  have hcd := code_later (Code.issued (h := h) hcall ht hx) hmid
  obtain ⟨st, rfl, ex⟩ := history_state h0 hh₁
  have hsame := sameToken_self (ex.validCode _ _ _ hcd)
  rw [← hcode] at hsame
  obtain ⟨r', j1, j2⟩ := C49_granted h0 hh₁ hl hcfg hsend
    (Entitled.code hg hident hcd hsame hclock hid.symm huri.symm) hcoins
  refine ⟨r', j1, fun hf => ?_⟩
  obtain ⟨trs, a, j3, j4⟩ := j2 hf
  refine ⟨trs, a, j3, j4.access.1, ?_⟩
  intro new s₂ hh₂ hn' c' required hp
  rw [j4.access.1] at hp
  exact admitted_iff h0 hh₂ (inForce_later j4.inForce hn') hp

/-- The tokens that come in one answer are about the same thing. -/
theorem delivers_refresh {scfg : ServerConfig} {e : Event} {trs : TokenResponse} {a : HS256Token}
    {g : Grant} (hd : Delivers scfg e h trs a g) :
    ∃ b n, trs.refreshToken = b.string ∧ (n = 1 ∨ n = 2) ∧
      (¬ UsesUp scfg e b → InForce scfg (e :: h) .refresh b {
        client := g.client, user := g.user, scope := g.scope, origin := g.origin,
        expires := e.call.clock n + scfg.refreshTokenLifespan }) := by
  obtain ⟨b, hb, hh⟩ := hd.refresh
  have hcall : ∀ {rq u res}, ¬ AuthorizationCall e rq u res := by
    intro rq u res h1
    rcases hh with ⟨rq', res', h2, _⟩ | ⟨h2, _⟩
    · exact not_both h2 h1
    · cases h2
  have hi := hd.inForce
  cases hi with
  | implicit h1 _ => exact absurd h1 hcall
  | password h1 h2 h3 => exact ⟨b, 1, hb, .inl rfl, fun _ => .password h1 h2 hh⟩
  | client h1 h2 h3 => exact ⟨b, 1, hb, .inl rfl, fun _ => .client h1 h2 hh⟩
  | exchange h1 h2 h3 h4 h5 => exact ⟨b, 2, hb, .inr rfl, fun _ => .exchange h1 h2 hh h4 h5⟩
  | @refresh _ _ _ _ rq res y g' h1 h2 h3 h4 h5 h6 =>
    obtain ⟨rq', res', k1, k2⟩ : ∃ rq' res', TokenCall e rq' res' ∧
        JsonMember res' b!"access_token" a.string := by
      rcases hd.access.2 with h | ⟨_, _, _, _, h, _⟩
      · exact h
      · exact absurd h hcall
    obtain ⟨rfl, rfl⟩ := tokenCall_unique h1 k1
    refine ⟨b, 2, hb, .inr rfl, fun hu => .refresh h1 h2 hh h4 h5 fun _ hs => hu ?_⟩
    obtain ⟨y', k3, k4⟩ := h5
    exact ⟨rq, res, _, h1, h2, ⟨y', k3, k4.trans hs.symm⟩, k2⟩
  | later h1 h2 => exact absurd (Or.inl ⟨a, hd.access.2, rfl⟩) h2

/-- **C65, refreshing.** The refresh token that came with an access token can be exchanged with the
client library for an access token on behalf of the same user, for the same scope or less, by the
client that got it, until the refresh token expires, whatever else happens short of ending it. (Unless
the refresh token is the one it was itself exchanged for, which takes the same random bytes twice.) -/
theorem C65_refresh_flow (h0 : Started s₀) (hl : isInt64 s₀.config.accessTokenLifespan)
    (hcfg : Endpoint (cfg.baseURI ++ cfg.tokenEndpoint) b!"token") {mid old : List Event} {e : Event}
    (hh : History s₀ (mid ++ e :: old) s) {trs : TokenResponse} {a : HS256Token} {g : Grant}
    (hd : Delivers s₀.config e old trs a g) :
    ∃ b n, trs.refreshToken = b.string ∧ (n = 1 ∨ n = 2) ∧ (¬ UsesUp s₀.config e b →
      (∀ e' ∈ mid, ¬ Ends s₀.config e' .refresh b {
        client := g.client, user := g.user, scope := g.scope, origin := g.origin,
        expires := e.call.clock n + s₀.config.refreshTokenLifespan }) →
      ∀ trq, Sendable trq → trq.grantType = b!"refresh_token" → trq.refreshToken = trs.refreshToken →
      trq.clientID = g.client → Within trq.scope g.scope →
      Identified s.st trq.clientID trq.clientSecret →
      ∀ coins clock, clock 0 ≤ e.call.clock n + s₀.config.refreshTokenLifespan →
      0 ≤ s₀.config.keyLength ∧ 2 * s₀.config.keyLength.toNat ≤ coins.length →
      ∃ r, AsksToken ⟨.serve r, coins, clock⟩ trq ∧
        (Fits cfg (step s ⟨.serve r, coins, clock⟩).1 →
        ∃ trs' a', Authenticates cfg s trq ⟨.serve r, coins, clock⟩ (.ok trs') ∧
          Delivers s₀.config ⟨⟨.serve r, coins, clock⟩, (step s ⟨.serve r, coins, clock⟩).1⟩
            (mid ++ e :: old) trs' a' {
              client := g.client, user := g.user,
              scope := if trq.scope.empty then g.scope else trq.scope,
              expires := clock 1 + s₀.config.accessTokenLifespan })) := by
  obtain ⟨b, n, hb, hn, hi⟩ := delivers_refresh hd
  refine ⟨b, n, hb, hn, ?_⟩
  intro hu hmid trq hsend hg htok hid hw hident coins clock hclock hcoins
  have hi := inForce_later (hi hu) hmid
  obtain ⟨st, rfl, ex⟩ := history_state h0 hh
  have hsame := sameToken_self (ex.valid _ _ _ hi)
  rw [← hb, ← htok] at hsame
  have he := Entitled.refresh (clock := clock) hg hident hi hsame hclock hid.symm hw
  exact C49_granted h0 hh hl hcfg hsend he hcoins

/-- Non-vacuity of `C65_implicit_flow`: the seventh call of the session. -/
example : ∃ rq client, AsksAuthorization Demo.c7 rq b!"u1" b!"p1" ∧ rq.responseType = b!"token" ∧
    Demo.s6.clients.get? rq.clientID = some client ∧ client.redirectURI = rq.redirectURI ∧
    Password Demo.s6 b!"u1" b!"p1" ∧ Within rq.scope Demo.server.config.allowedScope ∧
    Enough Demo.server.config Demo.c7 1 :=
  ⟨{ responseType := b!"token", clientID := b!"c2", redirectURI := b!"http://example.org/cb?x=1",
      scope := some [b!"bar"], state := b!"xyz" }, _, by decide +kernel, rfl, rfl, rfl,
    by decide +kernel, by decide +kernel, by decide +kernel⟩

/-- Non-vacuity of `C65_code_flow`: the second call of the session, and what the client does next. -/
example : AsksAuthorization Demo.c2 Demo.rq2 b!"u1" b!"p1" ∧ Demo.rq2.responseType = b!"code" ∧
    (∃ client, Demo.s1.clients.get? Demo.rq2.clientID = some client ∧
      client.redirectURI = Demo.rq2.redirectURI) ∧ Password Demo.s1 b!"u1" b!"p1" ∧
    Within Demo.rq2.scope Demo.server.config.allowedScope ∧ Enough Demo.server.config Demo.c2 1 ∧
    Endpoint (demoClient.baseURI ++ demoClient.tokenEndpoint) b!"token" ∧
    ∃ trq : TokenRequest, Sendable trq ∧ trq.grantType = b!"authorization_code" ∧
      trq.code = Demo.x2.string ∧ trq.clientID = Demo.rq2.clientID ∧
      trq.redirectURI = Demo.rq2.redirectURI ∧ Identified Demo.s2 trq.clientID trq.clientSecret := by
  refine ⟨by decide +kernel, rfl, ⟨_, rfl, rfl⟩, by decide +kernel, by decide +kernel,
    by decide +kernel, demo_configured.1, {
      grantType := b!"authorization_code", clientID := b!"c2",
      redirectURI := b!"http://example.org/cb?x=1", code := Demo.x2.string },
    ⟨by decide, by decide, by decide, parse_clean [], .inr ?_, by decide +kernel⟩, rfl, rfl, rfl, rfl,
    by decide +kernel⟩
  cases h : parseRequestURI b!"http://example.org/cb?x=1" with
  | none => exact absurd h (by decide +kernel)
  | some u => exact ⟨u, h⟩

/-- The whole code flow, with a refresh, in one run. -/
example :
    let s1 := (step ⟨false, Demo.server⟩ Demo.c2).2
    let s2 := (step s1 Demo.c3).2
    let s3 := (step s2 Demo.c4).2
    (newClient demoClient (wire s1 [7, 8, 9, 10] fun n => (1020 + n) * second)).authenticate {
        grantType := b!"authorization_code", clientID := b!"c2",
        redirectURI := b!"http://example.org/cb?x=1", code := Demo.x2.string } = .ok {
      tokenType := b!"bearer", accessToken := Demo.a3.string, expiresIn := 3600,
      refreshToken := Demo.r3.string, scope := some [b!"foo", b!"bar"] } ∧
    (step s2 (Demo.present Demo.a3.string (some [b!"bar"]) 4621)).1 = .admitted ∧
    (step s2 (Demo.present Demo.a3.string (some [b!"bar"]) 4622)).1 ≠ .admitted ∧
    (newClient demoClient (wire s2 [11, 12, 13, 14] fun n => (1030 + n) * second)).authenticate {
        grantType := b!"refresh_token", clientID := b!"c2", scope := some [b!"foo"],
        refreshToken := Demo.r3.string } = .ok {
      tokenType := b!"bearer", accessToken := Demo.a4.string, expiresIn := 3600,
      refreshToken := Demo.r4.string, scope := some [b!"foo"] } ∧
    (step s3 (Demo.present Demo.a4.string (some [b!"foo"]) 1050)).1 = .admitted ∧
    (step s3 (Demo.present Demo.a4.string (some [b!"bar"]) 1050)).1 ≠ .admitted := by
  refine ⟨by decide +kernel, by decide +kernel, by decide +kernel, by decide +kernel,
    by decide +kernel, by decide +kernel⟩

/-- Non-vacuity of `C65_refresh_flow`: what the first event delivers, refreshed right after it. -/
example : ¬ UsesUp Demo.server.config Demo.e1 Demo.r1 ∧ Sendable {
      grantType := b!"refresh_token", refreshToken := Demo.r1.string, clientID := b!"c1",
      clientSecret := b!"s1" } ∧ Identified Demo.s1 b!"c1" b!"s1" ∧
    Within none (some [b!"foo"]) := by
  refine ⟨?_, ⟨by decide, by decide, by decide, parse_clean [], .inl rfl, by decide +kernel⟩,
    by decide +kernel, by decide +kernel⟩
  rintro ⟨rq, res, a, ⟨r, h1, _, h2, _⟩, h3, _⟩
  cases h1
  have h4 := Except.ok.inj (h2.symm.trans (by decide +kernel : _ = Except.ok {
      grantType := b!"password", username := b!"u1", password := b!"p1", scope := some [b!"foo"],
      clientID := b!"c1", clientSecret := b!"s1" }))
  cases h4
  exact absurd h3 (by decide)

end OAuth2

import Verif.Spec.Again
import Verif.Props.Store
import Verif.Props.Secrets
import Verif.Props.Removal
/-
C106: what happens when a request is made again.
-/

namespace OAuth2

open Spec

variable {s : Server} {c c' : Call} {k : Kind} {t : HS256Token}

theorem same_asks {rq : TokenRequest} (h : RequestAgain c c') (hc : AsksToken c rq) : AsksToken c' rq := by
  obtain ⟨r, h1, h2⟩ := hc
  exact ⟨r, h.trans h1, h2⟩

/-- What a granted token request leaves. -/
theorem granted_state {rq : TokenRequest} (hc : AsksToken c rq) (h : Hands ⟨c, (step ⟨false, s⟩ c).1⟩ k t) :
    ∃ a b t₁ t₂ cred, Hands ⟨c, (step ⟨false, s⟩ c).1⟩ .access a ∧ Hands ⟨c, (step ⟨false, s⟩ c).1⟩ .refresh b ∧
      Identified s rq.clientID rq.clientSecret ∧
      (((rq.grantType = b!"password" ∨ rq.grantType = b!"client_credentials") ∧
          (step ⟨false, s⟩ c).2 = ⟨false, s.grant a (some b) t₁ t₂ cred⟩) ∨
        (∃ x stored, rq.grantType = b!"authorization_code" ∧ HS256Token.parse s.config.secret rq.code = .ok x ∧
          s.authorizationCodes.get? x.signatureString = some stored ∧ cred.code = x.signatureString ∧
          (step ⟨false, s⟩ c).2 = ⟨false, { s.grant a (some b) t₁ t₂ cred with
            authorizationCodes := s.authorizationCodes.update x.signatureString
              fun c => { c with used := true } }⟩) ∨
        ∃ x, rq.grantType = b!"refresh_token" ∧ HS256Token.parse s.config.secret rq.refreshToken = .ok x ∧
          ∃ m, (step ⟨false, s⟩ c).2 = ⟨false, { s.grant a (some b) t₁ t₂ cred with
            refreshTokens := GoMap.del m x.signatureString }⟩) := by
  have hc₀ := hc
  obtain ⟨r, hop, hp, hq⟩ := hc
  rw [lastSegment_iff] at hp
  obtain ⟨reply, st, h1, h2, _⟩ := step_served hop s
  rw [h1] at h ⊢
  have hands : ∀ {a b scope}, reply = .token (Server.grantResponse s.config a (some b) scope) →
      Hands ⟨c, reply.answer⟩ .access a ∧ Hands ⟨c, reply.answer⟩ .refresh b := fun he => by
    rw [he]
    exact hands_response hc₀ rfl rfl
  cases h2 with
  | notFound _ h2 => exact absurd hp h2
  | refused e hs hr hp hh hcode hrev => exact absurd h (quiet_refused (cfg := s.config) hop hs hr hh).not_hands
  | crash hs hp =>
    exact absurd h ((silent_of_answer (by intro res hh; cases hh)).quiet (cfg := s.config)).not_hands
  | notice rq hf hm => exact absurd (hp.symm.trans hf.path) (by decide)
  | introspect rq hp' => exact absurd (hp.symm.trans hp') (by decide)
  | refusedRedirect rq hf hm err herr => exact absurd (hp.symm.trans hf.path) (by decide)
  | replay rq hf ht x hc stored hst hu =>
    exact absurd h (quiet_token_error (cfg := s.config) hop hf.path rfl).not_hands
  | revokeHalf rq hp' => exact absurd (hp.symm.trans hp') (by decide)
  | revoke rq hp' => exact absurd (hp.symm.trans hp') (by decide)
  | implicit rq hf hm ht hs hu a hg => exact absurd (hp.symm.trans hf.path) (by decide)
  | code rq hf hm ht hs hu x rest hg => exact absurd (hp.symm.trans hf.path) (by decide)
  | password rq' hf ht hs hu a b hg =>
    obtain rfl : rq' = rq := by have := hf.parsed; rw [hq] at this; cases this; rfl
    obtain ⟨g1, g2⟩ := hands rfl
    exact ⟨a, b, _, _, _, g1, g2, hf.client, .inl ⟨.inl ht, rfl⟩⟩
  | client rq' hf ht hcl hs a b hg =>
    obtain rfl : rq' = rq := by have := hf.parsed; rw [hq] at this; cases this; rfl
    obtain ⟨g1, g2⟩ := hands rfl
    exact ⟨a, b, _, _, _, g1, g2, hf.client, .inl ⟨.inr ht, rfl⟩⟩
  | exchange rq' hf ht x hx stored hst hu hexp ho hr a b hg =>
    obtain rfl : rq' = rq := by have := hf.parsed; rw [hq] at this; cases this; rfl
    obtain ⟨g1, g2⟩ := hands rfl
    exact ⟨a, b, _, _, _, g1, g2, hf.client, .inr (.inl ⟨x, stored, ht, hx, hst, rfl, rfl⟩)⟩
  | refresh rq' hf ht x hx stored hst hexp ho scope hsc hss a b hg =>
    obtain rfl : rq' = rq := by have := hf.parsed; rw [hq] at this; cases this; rfl
    obtain ⟨g1, g2⟩ := hands rfl
    exact ⟨a, b, _, _, { clientID := rq'.clientID, username := stored.username, scope := scope }, g1, g2, hf.client,
      .inr (.inr ⟨x, ht, hx, _, rfl⟩)⟩

/-- **C106.** A refresh request that was granted is refused when it is made again. That changes nothing, so what the
first one was given stays in force. -/
theorem C106_refresh {rq : TokenRequest} (hc : AsksToken c rq) (hg : rq.grantType = b!"refresh_token")
    (h : Hands ⟨c, (step ⟨false, s⟩ c).1⟩ k t) (hs : RequestAgain c c') :
    Refuses (step ⟨false, s⟩ c).2 c' ∧ GivesNothing ⟨c', (step (step ⟨false, s⟩ c).2 c').1⟩ := by
  obtain ⟨a, b, t₁, t₂, cred, _, _, hi, h1 | ⟨x, stored, h1, _⟩ | ⟨x, _, hx, m, h1⟩⟩ := granted_state hc h
  · rcases h1.1 with h1 | h1 <;> exact absurd (h1.symm.trans hg) (by decide)
  · exact absurd (h1.symm.trans hg) (by decide)
  rw [h1]
  have h2 := step_refresh (s := { s.grant a (some b) t₁ t₂ cred with refreshTokens := GoMap.del m x.signatureString })
    (same_asks hs hc) hi hg
  have h3 : Server.refreshReply
      { s.grant a (some b) t₁ t₂ cred with refreshTokens := GoMap.del m x.signatureString } rq c'.local =
      (.error (invalidGrant b!"unknown refresh token"),
        { s.grant a (some b) t₁ t₂ cred with refreshTokens := GoMap.del m x.signatureString }) := by
    unfold Server.refreshReply
    have : HS256Token.parse (s.grant a (some b) t₁ t₂ cred).config.secret rq.refreshToken = .ok x := hx
    simp only [this, GoMap.get?_del_self]
  rw [h3] at h2
  obtain ⟨r, hop, _⟩ := same_asks hs hc
  have o : Quiet s.config ⟨c', (Reply.error (invalidGrant b!"unknown refresh token")).answer⟩ :=
    quiet_refused hop ⟨by decide, by decide⟩ rfl (.inl rfl)
  refine ⟨⟨_, h2, ?_⟩, ?_⟩
  · rw [error_result rfl]
    rfl
  · rw [h2]
    exact ⟨fun k t => o.not_hands, fun x hx => nomatch (o.code x).mp hx⟩

/-- **C106.** A code that is exchanged again, in the same request, gives nothing, and the tokens that the first request
was given are no longer stored. -/
theorem C106_code {rq : TokenRequest} (hc : AsksToken c rq) (hg : rq.grantType = b!"authorization_code")
    (h : Hands ⟨c, (step ⟨false, s⟩ c).1⟩ k t) (hs : RequestAgain c c') :
    GivesNothing ⟨c', (step (step ⟨false, s⟩ c).2 c').1⟩ ∧
      (tokens (step (step ⟨false, s⟩ c).2 c').2.st k).get? t.signatureString = none := by
  obtain ⟨a, b, t₁, t₂, cred, ha, hb, hi, h1 | ⟨x, stored, _, hx, hst, hcode, h1⟩ | ⟨x, h1, _⟩⟩ := granted_state hc h
  · rcases h1.1 with h1 | h1 <;> exact absurd (h1.symm.trans hg) (by decide)
  · rw [h1]
    have h2 := step_code (s := { s.grant a (some b) t₁ t₂ cred with
      authorizationCodes := s.authorizationCodes.update x.signatureString fun c => { c with used := true } })
      (same_asks hs hc) hi hg
    have h3 : Server.codeReply { s.grant a (some b) t₁ t₂ cred with
          authorizationCodes := s.authorizationCodes.update x.signatureString fun c => { c with used := true } }
        rq c'.local = (.error (invalidGrant b!"unknown authorization code"), { s.grant a (some b) t₁ t₂ cred with
          accessTokens := Server.deleteByCode (s.grant a (some b) t₁ t₂ cred).accessTokens x.signatureString,
          refreshTokens := Server.deleteByCode (s.grant a (some b) t₁ t₂ cred).refreshTokens x.signatureString,
          authorizationCodes := s.authorizationCodes.update x.signatureString
            fun c => { c with used := true } }) := by
      unfold Server.codeReply
      have e1 : HS256Token.parse (s.grant a (some b) t₁ t₂ cred).config.secret rq.code = .ok x := hx
      have e2 : (s.authorizationCodes.update x.signatureString fun c => { c with used := true }).get?
          x.signatureString = some { stored with used := true } := by
        rw [GoMap.get?_update]
        simp [hst]
      simp only [e1, e2, if_true]
    rw [h3] at h2
    obtain ⟨r, hop, _⟩ := same_asks hs hc
    have o : Quiet s.config ⟨c', (Reply.error (invalidGrant b!"unknown authorization code")).answer⟩ :=
      quiet_refused hop ⟨by decide, by decide⟩ rfl (.inl rfl)
    have gone : ∀ (m : GoMap ServerCredential) (y : HS256Token) (v : ServerCredential), v.code = x.signatureString →
        (Server.deleteByCode (m.set y.signatureString v) x.signatureString).get? y.signatureString = none := by
      intro m y v hv
      unfold Server.deleteByCode
      rw [deleteByCode_aux, if_pos]
      exact ⟨(y.signatureString, v), GoMap.get?_some_mem (by rw [GoMap.get?_set]; simp), hv, rfl⟩
    rw [h2]
    refine ⟨⟨fun k t => o.not_hands, fun x hx => nomatch (o.code x).mp hx⟩, ?_⟩
    cases k with
    | access =>
      rw [(C71_access s ha).2 t h]
      exact gone _ a _ hcode
    | refresh =>
      rw [(C71_refresh s hb).2 t h]
      exact gone _ b _ hcode
  · exact absurd (h1.symm.trans hg) (by decide)

theorem code_again_state {rq : TokenRequest} (hc : AsksToken c rq) (hg : rq.grantType = b!"authorization_code")
    (h : Hands ⟨c, (step ⟨false, s⟩ c).1⟩ k t) (hs : RequestAgain c c') :
    ∃ s₂, (step (step ⟨false, s⟩ c).2 c').2 = ⟨false, s₂⟩ ∧ (tokens s₂ k).get? t.signatureString = none ∧
      HS256Token.parse s₂.config.secret t.string = .ok t := by
  have hn : ∀ {x}, AsksToken x rq → ¬ Registers x := by
    rintro x ⟨r, h1, _⟩ ⟨u, v, h2⟩
    rw [h1] at h2
    cases h2
  have gone := (C106_code hc hg h hs).2
  have hv : t = HS256Token.fromKey s.config.secret t.key := by
    have : ∃ key, MadeOf s.config t key := by
      cases k with
      | access => exact ⟨_, (C71_access s h).1⟩
      | refresh => exact ⟨_, (C71_refresh s h).1⟩
    obtain ⟨key, sig⟩ := t
    obtain ⟨_, rfl, g2, _⟩ := this
    exact congrArg (HS256Token.mk _) g2
  have e1 := registered_same (hn hc) s
  have f1 := step_config s c
  obtain ⟨s₁, h1⟩ : ∃ s₁, (step ⟨false, s⟩ c).2 = ⟨false, s₁⟩ := ⟨_, e1⟩
  rw [h1] at gone f1 ⊢
  have e2 := registered_same (hn (same_asks hs hc)) s₁
  have f2 := step_config s₁ c'
  obtain ⟨s₂, h2⟩ : ∃ s₂, (step ⟨false, s₁⟩ c').2 = ⟨false, s₂⟩ := ⟨_, e2⟩
  rw [h2] at gone f2 ⊢
  refine ⟨s₂, rfl, gone, ?_⟩
  have hsec : s₂.config.secret = s.config.secret := congrArg ServerConfig.secret (f2.trans f1)
  rw [hsec, hv]
  exact C01_token_roundtrip _ _

/-- **C106.** So the access token that the first request was given is not admitted any more. -/
theorem C106_code_not_admitted {rq : TokenRequest} (hc : AsksToken c rq) (hg : rq.grantType = b!"authorization_code")
    (h : Hands ⟨c, (step ⟨false, s⟩ c).1⟩ .access t) (hs : RequestAgain c c') {d : Call} {required : Scope}
    (hd : Presents d required t.string) : (step (step (step ⟨false, s⟩ c).2 c').2 d).1 ≠ .admitted := by
  obtain ⟨s₂, h1, gone, hp⟩ := code_again_state hc hg h hs
  rw [h1, ne_eq, C73_admits_iff]
  rintro ⟨required', text, t', cred, h3, h4, h5, _⟩
  obtain rfl := presents_unique hd h3
  rw [hp] at h4
  cases h4
  have gone : s₂.accessTokens.get? t.signatureString = none := gone
  rw [gone] at h5
  cases h5

/-- **C106.** And the refresh token is worth nothing any more. -/
theorem C106_code_not_refreshed {rq : TokenRequest} (hc : AsksToken c rq) (hg : rq.grantType = b!"authorization_code")
    (h : Hands ⟨c, (step ⟨false, s⟩ c).1⟩ .refresh t) (hs : RequestAgain c c') {d : Call} {rq' : TokenRequest}
    (hd : AsksToken d rq') (hg' : rq'.grantType = b!"refresh_token") (ht : rq'.refreshToken = t.string) :
    GivesNothing ⟨d, (step (step (step ⟨false, s⟩ c).2 c').2 d).1⟩ := by
  obtain ⟨s₂, h1, gone, hp⟩ := code_again_state hc hg h hs
  rw [h1]
  have no : ∀ a, ¬ Hands ⟨d, (step ⟨false, s₂⟩ d).1⟩ .access a := by
    intro a ha
    obtain ⟨_, hm, _⟩ := (C73_granted_iff s₂ hd).mp ⟨a, ha⟩
    cases hm with
    | password m1 => exact absurd (m1.symm.trans hg') (by decide)
    | client m1 => exact absurd (m1.symm.trans hg') (by decide)
    | exchange m1 => exact absurd (m1.symm.trans hg') (by decide)
    | refresh m1 m2 m3 =>
      rw [ht, hp] at m2
      cases m2
      have gone : s₂.refreshTokens.get? t.signatureString = none := gone
      rw [gone] at m3
      cases m3
  constructor
  · intro k y hy
    obtain ⟨a, _, _, _, _, ha, _⟩ := granted_state hd hy
    exact no a ha
  · rintro x ⟨_, _, _, ⟨r', h6, h7, _⟩, _⟩
    obtain ⟨r, h4, h5, _⟩ := hd
    rw [h4] at h6
    cases h6
    rw [lastSegment_iff] at h5 h7
    exact absurd (h5.symm.trans h7) (by decide)

/-- **C106.** A request with a user's password or a client's secret that was granted is granted again, as long as there is
randomness. What the first one was given stays as it is, unless the second one is given a token with the same
signature. -/
theorem C106_again {rq : TokenRequest} (hc : AsksToken c rq)
    (hg : rq.grantType = b!"password" ∨ rq.grantType = b!"client_credentials")
    (h : Hands ⟨c, (step ⟨false, s⟩ c).1⟩ k t) (hs : RequestAgain c c') (hn : Enough s.config c' 2) :
    (∃ a, Hands ⟨c', (step (step ⟨false, s⟩ c).2 c').1⟩ .access a) ∧
      (∃ b, Hands ⟨c', (step (step ⟨false, s⟩ c).2 c').1⟩ .refresh b) ∧
      ∀ k sig, (∀ t', Hands ⟨c', (step (step ⟨false, s⟩ c).2 c').1⟩ k t' → t'.signatureString ≠ sig) →
        (tokens (step (step ⟨false, s⟩ c).2 c').2.st k).get? sig = (tokens (step ⟨false, s⟩ c).2.st k).get? sig := by
  obtain ⟨a, b, t₁, t₂, cred, ha, hb, hi, h1 | ⟨x, stored, h1, _⟩ | ⟨x, h1, _⟩⟩ := granted_state hc h
  · have hm := ((C73_granted_iff s hc).mp ⟨a, ha⟩).2.1
    rw [h1.2]
    have hm' : Merits (s.grant a (some b) t₁ t₂ cred) c' rq := by
      cases hm with
      | password m1 m2 m3 => exact .password m1 m2 m3
      | client m1 m2 m3 m4 => exact .client m1 m2 m3 m4
      | exchange m1 => rcases hg with hg | hg <;> exact absurd (m1.symm.trans hg) (by decide)
      | refresh m1 => rcases hg with hg | hg <;> exact absurd (m1.symm.trans hg) (by decide)
    obtain ⟨a', ha'⟩ := (C73_granted_iff (s.grant a (some b) t₁ t₂ cred) (same_asks hs hc)).mpr ⟨hi, hm', hn⟩
    obtain ⟨a₂, b₂, u₁, u₂, cred₂, ha₂, hb₂, _, h2 | ⟨x, stored, h2, _⟩ | ⟨x, h2, _⟩⟩ :=
      granted_state (same_asks hs hc) ha'
    · refine ⟨⟨_, ha₂⟩, ⟨_, hb₂⟩, ?_⟩
      intro k sig hx
      rw [h2.2]
      cases k with
      | access =>
        show GoMap.get? (GoMap.set _ _ _) sig = _
        rw [GoMap.get?_set, if_neg (fun he => hx a₂ ha₂ he.symm)]
        rfl
      | refresh =>
        show GoMap.get? (GoMap.set _ _ _) sig = _
        rw [GoMap.get?_set, if_neg (fun he => hx b₂ hb₂ he.symm)]
        rfl
    · rcases hg with hg | hg <;> exact absurd (h2.symm.trans hg) (by decide)
    · rcases hg with hg | hg <;> exact absurd (h2.symm.trans hg) (by decide)
  · rcases hg with hg | hg <;> exact absurd (h1.symm.trans hg) (by decide)
  · rcases hg with hg | hg <;> exact absurd (h1.symm.trans hg) (by decide)

/-- A submitted authorization request with all it needs, in any state. -/
theorem authorization_granted {rq : AuthorizationRequest} {u p : Str} (hc : AsksAuthorization c rq u p)
    {client : ServerEntity} (hcl : s.clients.get? rq.clientID = some client)
    (hr : client.redirectURI = rq.redirectURI) (hu : Password s u p)
    (hs : s.config.allowedScope.includes rq.scope = true) (hn : Enough s.config c 1) :
    (rq.responseType = b!"token" → ∃ a, Hands ⟨c, (step ⟨false, s⟩ c).1⟩ .access a) ∧
    (rq.responseType = b!"code" → ∃ x, HandsCode ⟨c, (step ⟨false, s⟩ c).1⟩ x) := by
  obtain ⟨r, hop, hq, hm, hfu, hfp, h1⟩ := step_submit (s := s) hc
  have hp : Server.lastSegment r.path = b!"authorize" := by
    obtain ⟨r', h2, h3, _⟩ := hc
    rw [hop] at h2
    cases h2
    exact (lastSegment_iff _ _).mp h3
  have hg : ∃ x rest, Server.gen s.config c.local.coins = some (x, rest) := by
    cases hg : Server.gen s.config c.local.coins with
    | none =>
      have := Server.gen_none hg
      have h1 := hn.1
      have h2 : 1 * s.config.keyLength.toNat ≤ c.local.coins.length := hn.2
      omega
    | some x => exact ⟨x.1, x.2, rfl⟩
  obtain ⟨x, rest, hg⟩ := hg
  have hreply : rq.responseType = b!"token" ∨ rq.responseType = b!"code" →
      (s.authorizeReply r c.local).1 = if rq.responseType = TokenResponseType then
        .token ((Server.grantResponse s.config x none rq.scope).setRedirect rq.redirectURI rq.state)
      else .code { code := x.string, redirectURI := rq.redirectURI, state := rq.state } := by
    intro ht
    unfold Server.authorizeReply
    have hk : knownResponseType rq.responseType = true := by
      rcases ht with ht | ht <;> rw [ht] <;> decide
    rw [hq]
    simp only [hk, Bool.not_true, Bool.false_eq_true, if_false, hcl, hr, ne_eq, not_true_eq_false, if_neg hm]
    rw [hs, ← hfu, ← hfp, (Server.userOK_iff _ _ _).mpr hu]
    simp only [Bool.not_true, Bool.false_eq_true, if_false, decide_eq_true_eq]
    by_cases ht' : rq.responseType = TokenResponseType
    · rw [if_pos ht', if_pos ht']
      unfold Server.issue Server.mint
      rw [hg]
      rfl
    · rw [if_neg ht', if_neg ht', hg]
  have hf : rq.responseType = b!"token" ∨ rq.responseType = b!"code" →
      Server.AuthorizationFor s r rq := fun ht => ⟨hp, hq, ht, client, hcl, hr⟩
  rw [h1]
  constructor
  · intro ht
    refine ⟨x, ?_⟩
    rw [hreply (.inl ht), if_pos (show rq.responseType = TokenResponseType from ht)]
    exact ((implicit_obs (cfg := s.config) s.config hop (hf (.inl ht)) hm ht).1.access x).mpr rfl
  · intro ht
    refine ⟨x, ?_⟩
    rw [hreply (.inr ht), if_neg (by rw [ht]; decide)]
    exact ((code_obs (cfg := s.config) hop (hf (.inr ht)) hm ht).1.code x).mpr rfl

/-- **C106.** An authorization request that was granted is granted again, as long as there is randomness. What the first
one was given stays as it is, unless the second one is given a token or a code with the same signature. -/
theorem C106_authorization_again {rq : AuthorizationRequest} {u p : Str} (hc : AsksAuthorization c rq u p)
    (h : (∃ a, Hands ⟨c, (step ⟨false, s⟩ c).1⟩ .access a) ∨ ∃ x, HandsCode ⟨c, (step ⟨false, s⟩ c).1⟩ x)
    (hs : RequestAgain c c') (hn : Enough s.config c' 1) :
    (rq.responseType = b!"token" → ∃ a, Hands ⟨c', (step (step ⟨false, s⟩ c).2 c').1⟩ .access a) ∧
      (rq.responseType = b!"code" → ∃ x, HandsCode ⟨c', (step (step ⟨false, s⟩ c).2 c').1⟩ x) := by
  have hc' : AsksAuthorization c' rq u p := by
    obtain ⟨r, h1, h2⟩ := hc
    exact ⟨r, hs.trans h1, h2⟩
  have hreg : ¬ Registers c := by
    obtain ⟨r, h1, _⟩ := hc
    rintro ⟨x, y, h2⟩
    rw [h1] at h2
    cases h2
  have f := step_config s c
  have e := registered_same hreg s
  obtain ⟨r, hop, hp, hm, hq, hfu, hfp⟩ := hc
  rw [lastSegment_iff] at hp
  have key : (∃ client, s.clients.get? rq.clientID = some client ∧ client.redirectURI = rq.redirectURI) ∧
      Password s u p ∧ s.config.allowedScope.includes rq.scope = true := by
    obtain ⟨reply, st, h1, h2, _⟩ := step_served hop s
    rw [h1] at h
    have quiet : Quiet s.config ⟨c, reply.answer⟩ → False := by
      intro o
      rcases h with ⟨a, h⟩ | ⟨x, h⟩
      · exact o.not_hands h
      · exact nomatch (o.code x).mp h
    cases h2 with
    | notFound h2 => exact absurd hp h2
    | refused e hs hr hp hh hcode hrev => exact (quiet (quiet_refused hop hs hr hh)).elim
    | crash hs hp => exact (quiet (silent_of_answer (by intro res hh; cases hh)).quiet).elim
    | notice rq' hf hm => exact absurd hm ‹_›
    | introspect rq hp' => exact absurd (hp.symm.trans hp') (by decide)
    | refusedRedirect rq' hf hm e he =>
      refine (quiet (quiet_redirect_error hop hf.path hm hf.parsed ?_ ?_)).elim
      · rcases he with rfl | rfl <;> rfl
      · rcases he with rfl | rfl <;> decide
    | replay rq hf => exact absurd (hp.symm.trans hf.path) (by decide)
    | revokeHalf rq hp' => exact absurd (hp.symm.trans hp') (by decide)
    | revoke rq hp' => exact absurd (hp.symm.trans hp') (by decide)
    | password rq hf => exact absurd (hp.symm.trans hf.path) (by decide)
    | client rq hf => exact absurd (hp.symm.trans hf.path) (by decide)
    | exchange rq hf => exact absurd (hp.symm.trans hf.path) (by decide)
    | refresh rq hf => exact absurd (hp.symm.trans hf.path) (by decide)
    | implicit rq' hf hm2 ht hs hu a hg =>
      obtain rfl : rq' = rq := by have := hf.parsed; rw [hq] at this; cases this; rfl
      exact ⟨hf.client, by rw [hfu, hfp]; exact hu, hs⟩
    | code rq' hf hm2 ht hs hu x rest hg =>
      obtain rfl : rq' = rq := by have := hf.parsed; rw [hq] at this; cases this; rfl
      exact ⟨hf.client, by rw [hfu, hfp]; exact hu, hs⟩
  obtain ⟨⟨client, h1, h2⟩, h3, h4⟩ := key
  obtain ⟨s₁, g, g1, g2⟩ : ∃ s₁ : Server, (step ⟨false, s⟩ c).2 = ⟨false, s₁⟩ ∧ s₁.clients = s.clients ∧
      s₁.users = s.users := ⟨_, e, rfl, rfl⟩
  rw [g] at f ⊢
  have f : s₁.config = s.config := f
  refine authorization_granted hc' (client := client) (by rw [g1]; exact h1) h2 ?_ (by rw [f]; exact h4)
    (by rw [f]; exact hn)
  obtain ⟨o, h5, h6⟩ := h3
  exact ⟨o, by rw [g2]; exact h5, h6⟩

/-- **C106.** What was stored before an authorization request is stored after it, unless the request is given a token or a
code with the same signature: so what the first request was given survives the second. -/
theorem C106_authorization_kept {rq : AuthorizationRequest} {u p : Str} (hc : AsksAuthorization c rq u p) :
    (∀ k sig, (∀ t, Hands ⟨c, (step ⟨false, s⟩ c).1⟩ k t → t.signatureString ≠ sig) →
      (tokens (step ⟨false, s⟩ c).2.st k).get? sig = (tokens s k).get? sig) ∧
    ∀ sig, (∀ x, HandsCode ⟨c, (step ⟨false, s⟩ c).1⟩ x → x.signatureString ≠ sig) →
      (step ⟨false, s⟩ c).2.st.authorizationCodes.get? sig = s.authorizationCodes.get? sig := by
  obtain ⟨r, hop, hp, hm, hq, hfu, hfp⟩ := hc
  rw [lastSegment_iff] at hp
  obtain ⟨reply, st, h1, h2, _⟩ := step_served hop s
  rw [h1]
  cases h2 with
  | notFound h2 => exact absurd hp h2
  | refused e hs hr hp hh hcode hrev => exact ⟨fun _ _ _ => rfl, fun _ _ => rfl⟩
  | crash hs hp => exact ⟨fun _ _ _ => rfl, fun _ _ => rfl⟩
  | notice rq' hf hm => exact absurd hm ‹_›
  | introspect rq hp' => exact absurd (hp.symm.trans hp') (by decide)
  | refusedRedirect rq' hf hm e he => exact ⟨fun _ _ _ => rfl, fun _ _ => rfl⟩
  | replay rq hf => exact absurd (hp.symm.trans hf.path) (by decide)
  | revokeHalf rq hp' => exact absurd (hp.symm.trans hp') (by decide)
  | revoke rq hp' => exact absurd (hp.symm.trans hp') (by decide)
  | password rq hf => exact absurd (hp.symm.trans hf.path) (by decide)
  | client rq hf => exact absurd (hp.symm.trans hf.path) (by decide)
  | exchange rq hf => exact absurd (hp.symm.trans hf.path) (by decide)
  | refresh rq hf => exact absurd (hp.symm.trans hf.path) (by decide)
  | implicit rq' hf hm2 ht hs hu a hg =>
    have o := (implicit_obs (cfg := s.config) (a := a) s.config hop hf hm ht).1
    refine ⟨fun k sig hx => ?_, fun _ _ => rfl⟩
    cases k with
    | access =>
      show GoMap.get? (GoMap.set _ _ _) sig = _
      rw [GoMap.get?_set, if_neg (fun he => hx a ((o.access a).mpr rfl) he.symm)]
      rfl
    | refresh => rfl
  | code rq' hf hm2 ht hs hu x rest hg =>
    have o := (code_obs (cfg := s.config) (x := x) hop hf hm ht).1
    refine ⟨fun k sig hx => by cases k <;> rfl, fun sig hx => ?_⟩
    show GoMap.get? (GoMap.set _ _ _) sig = _
    rw [GoMap.get?_set, if_neg (fun he => hx x ((o.code x).mpr rfl) he.symm)]

/-- Non-vacuity: the third call of the session exchanges a code. -/
example : (∃ rq, AsksToken Demo.c3 rq ∧ rq.grantType = b!"authorization_code") ∧ Hands Demo.e3 .refresh Demo.r3 ∧
    Demo.e3 = ⟨Demo.c3, (step ⟨false, Demo.s2⟩ Demo.c3).1⟩ :=
  ⟨⟨{ grantType := b!"authorization_code", clientID := b!"c2", code := Demo.x2.string,
      redirectURI := b!"http://example.org/cb?x=1" }, ⟨_, rfl, by decide +kernel, by decide +kernel⟩, rfl⟩,
    by decide +kernel, by rw [Demo.step3]; rfl⟩

/-- Non-vacuity: the fourth call refreshes. -/
example : (∃ rq, AsksToken Demo.c4 rq ∧ rq.grantType = b!"refresh_token") ∧ Hands Demo.e4 .refresh Demo.r4 ∧
    Demo.e4 = ⟨Demo.c4, (step ⟨false, Demo.s3⟩ Demo.c4).1⟩ :=
  ⟨⟨{ grantType := b!"refresh_token", clientID := b!"c2", scope := some [b!"foo"],
      refreshToken := Demo.r3.string }, ⟨_, rfl, by decide +kernel, by decide +kernel⟩, rfl⟩,
    by decide +kernel, by rw [Demo.step4]; rfl⟩

/-- Non-vacuity: the first call presents a password. -/
example : (∃ rq, AsksToken Demo.c1 rq ∧ rq.grantType = b!"password") ∧ Hands Demo.e1 .access Demo.a1 ∧
    Demo.e1 = ⟨Demo.c1, (step ⟨false, Demo.server⟩ Demo.c1).1⟩ ∧
    RequestAgain Demo.c1 { Demo.c1 with coins := [31, 32, 33, 34] } ∧
    Enough Demo.server.config { Demo.c1 with coins := [31, 32, 33, 34] } 2 :=
  ⟨⟨{ grantType := b!"password", clientID := b!"c1", clientSecret := b!"s1", scope := some [b!"foo"],
      username := b!"u1", password := b!"p1" }, ⟨_, rfl, by decide +kernel, by decide +kernel⟩, rfl⟩,
    by decide +kernel, by rw [Demo.step1]; rfl, rfl, by decide, by decide⟩

/-- Non-vacuity: the second call is given a code. -/
example : AsksAuthorization Demo.c2 Demo.rq2 b!"u1" b!"p1" ∧ HandsCode Demo.e2 Demo.x2 ∧
    Demo.e2 = ⟨Demo.c2, (step ⟨false, Demo.s1⟩ Demo.c2).1⟩ ∧ Enough Demo.s1.config Demo.c2 1 :=
  ⟨⟨_, rfl, by decide +kernel, by decide, by decide +kernel, by decide +kernel, by decide +kernel⟩,
    by decide +kernel, by rw [Demo.step2]; rfl, by decide, by decide⟩

end OAuth2

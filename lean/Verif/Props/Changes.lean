import Verif.Props.Effects

/-! C41, C44 and C45: what requests change, what the authorization endpoint hands out, and the
lifetime a response announces. -/

namespace OAuth2

open Spec

set_option linter.unusedSimpArgs false

variable {s₀ s : Server} {h : List Event} {c : Call}

/-! ### Requests that only ask -/

theorem tokenRequest_post {r : Request} {rq : TokenRequest} (h : parseTokenRequest r = .ok rq) :
    r.method = b!"POST" := by
  unfold parseTokenRequest at h
  split at h
  · cases h
  · next hm => exact Decidable.byContradiction hm

theorem revocationRequest_post {r : Request} {rq : RevocationRequest}
    (h : parseRevocationRequest r = .ok rq) : r.method = b!"POST" := by
  unfold parseRevocationRequest at h
  split at h
  · cases h
  · next hm => exact Decidable.byContradiction hm

/-- **C41.** A call that only asks changes nothing, whatever its result. -/
theorem C41_only_asks (s : Server) (hc : OnlyAsks c) : (step ⟨false, s⟩ c).2 = ⟨false, s⟩ := by
  rcases hc with ⟨r, required, hop⟩ | ⟨r, hop, hr⟩
  · rw [step_authorize hop]
  · obtain ⟨reply, s', h1, h2, _⟩ := step_served hop s
    rw [h1]
    have hno : ∀ seg, seg ∈ [b!"authorize", b!"token", b!"revoke"] →
        Server.lastSegment r.path = seg → r.method = b!"GET" := by
      intro seg hm hs
      rcases hr with hr | hr | hr
      · exact hr
      · rw [lastSegment_iff, hs] at hr
        rw [hr] at hm
        exact absurd hm (by decide)
      · exact absurd ((lastSegment_iff _ _).mpr hs) (hr seg hm)
    have hpost : (b!"POST" : Str) ≠ b!"GET" := by decide
    have htok : ∀ {rq}, Server.TokenRequestFor s r rq → False := by
      intro rq hf
      have := hno _ (by decide) hf.path
      rw [tokenRequest_post hf.parsed] at this
      exact hpost this
    have hrev : ∀ {rq}, Server.lastSegment r.path = b!"revoke" → parseRevocationRequest r = .ok rq →
        False := by
      intro rq hp hq
      have := hno _ (by decide) hp
      rw [revocationRequest_post hq] at this
      exact hpost this
    cases h2 with
    | implicit rq hf hm => exact absurd (hno _ (by decide) hf.path) hm
    | code rq hf hm => exact absurd (hno _ (by decide) hf.path) hm
    | password rq hf => exact (htok hf).elim
    | client rq hf => exact (htok hf).elim
    | replay rq hf => exact (htok hf).elim
    | exchange rq hf => exact (htok hf).elim
    | refresh rq hf => exact (htok hf).elim
    | revoke rq hp hq => exact (hrev hp hq).elim
    | revokeHalf rq hp hq => exact (hrev hp hq).elim
    | _ => rfl

/-- Non-vacuity: `Authorize`, an introspection request, a GET request to the token endpoint, and a
POST request that is served elsewhere. -/
example : OnlyAsks (Demo.present Demo.a1.string (some [b!"foo"]) 1100) ∧
    OnlyAsks (Demo.post b!"/introspect" b!"c1:s1" (b!"token=" ++ Demo.a1.string) [] 1100) ∧
    OnlyAsks { op := .serve { method := b!"GET", path := b!"/token" }, clock := fun _ => 0 } ∧
    OnlyAsks (Demo.post b!"/token/revoke/" b!"c1:s1" (b!"token=" ++ Demo.a1.string) [] 1100) := by
  refine ⟨.inl ⟨_, _, rfl⟩, .inr ⟨_, rfl, .inr (.inl (by decide +kernel))⟩, .inr ⟨_, rfl, .inl rfl⟩,
    .inr ⟨_, rfl, .inr (.inr ?_)⟩⟩
  decide +kernel

/-! ### Requests that fail -/

theorem not_fails {r : Request} {res : Response} (hop : c.op = .serve r)
    (hp : Server.lastSegment r.path ≠ b!"authorize") (hs : res.statusCode < 400) :
    ¬ Fails ⟨c, .answered res⟩ := by
  rintro (⟨res', h1 | h1, h2⟩ | ⟨w, h1⟩ | ⟨rq, u, res', name, h1, _⟩)
  · cases h1; omega
  · cases h1
  · cases h1
  · exact hp ((authorizationCall_iff hop).mp h1).1

theorem TokenResponse.map_error (t : TokenResponse) : t.map.get? b!"error" = none := by
  unfold TokenResponse.map
  simp only [get?_append, get?_ite]
  have e1 : (b!"refresh_token" : Str) ≠ b!"error" := by decide
  have e2 : (b!"scope" : Str) ≠ b!"error" := by decide
  have e3 : (b!"state" : Str) ≠ b!"error" := by decide
  simp only [e1, e2, e3, and_false, if_false, Option.or_none]
  rfl

theorem CodeResponse.map_none (t : CodeResponse) {k : Str} (h1 : k ≠ b!"code") (h2 : k ≠ b!"state") :
    t.map.get? k = none := by
  unfold CodeResponse.map
  simp only [get?_append, get?_ite]
  simp only [Ne.symm h2, and_false, if_false, Option.or_none]
  rw [GoMap.get?_cons, if_neg (Ne.symm h1)]
  rfl

/-- The redirect of the implicit flow. -/
theorem implicit_location {r : Request} {rq : AuthorizationRequest} {a : HS256Token}
    (cfg : ServerConfig) (hf : Server.AuthorizationFor s r rq) :
    ∃ (tr : TokenResponse) (L : Str), tr = (Server.grantResponse cfg a none rq.scope).setRedirect rq.redirectURI rq.state ∧
      redirectLocation rq.redirectURI tr.map true = some L ∧
      (Reply.token tr).answer = .answered (redirectTo {} rq.redirectURI tr.map true).result ∧
      (redirectTo {} rq.redirectURI tr.map true).result.header.all b!"Location" = [L] ∧
      (redirectTo {} rq.redirectURI tr.map true).result.body = [] ∧
      (redirectTo {} rq.redirectURI tr.map true).result.statusCode = 303 := by
  obtain ⟨hne, u, huri⟩ := authorizationRequest_uri hf.parsed
  obtain ⟨tr, htr⟩ : ∃ tr, tr = (Server.grantResponse cfg a none rq.scope).setRedirect
    rq.redirectURI rq.state := ⟨_, rfl⟩
  have htu : tr.redirectURI = rq.redirectURI := by rw [htr]; rfl
  obtain ⟨L, hL⟩ := redirectLocation_isSome huri tr.map true
  refine ⟨tr, L, htr, hL, ?_, redirectTo_result (h := []) rfl hL⟩
  show Answer.answered ((if tr.redirectURI ≠ [] then _ else _ : Recorder)).result = _
  rw [if_pos (by rw [htu]; exact hne), htu]

/-- The redirect of the code flow. -/
theorem code_location {r : Request} {rq : AuthorizationRequest} (x : Str)
    (hf : Server.AuthorizationFor s r rq) :
    ∃ (cr : CodeResponse) (L : Str), cr = ⟨x, rq.state, rq.redirectURI⟩ ∧
      redirectLocation rq.redirectURI cr.map false = some L ∧
      (Reply.code cr).answer = .answered (redirectTo {} rq.redirectURI cr.map false).result ∧
      (redirectTo {} rq.redirectURI cr.map false).result.header.all b!"Location" = [L] ∧
      (redirectTo {} rq.redirectURI cr.map false).result.body = [] ∧
      (redirectTo {} rq.redirectURI cr.map false).result.statusCode = 303 := by
  obtain ⟨hne, u, huri⟩ := authorizationRequest_uri hf.parsed
  obtain ⟨cr, hcr⟩ : ∃ cr : CodeResponse, cr = ⟨x, rq.state, rq.redirectURI⟩ := ⟨_, rfl⟩
  have htu : cr.redirectURI = rq.redirectURI := by rw [hcr]
  obtain ⟨L, hL⟩ := redirectLocation_isSome huri cr.map false
  refine ⟨cr, L, hcr, hL, ?_, redirectTo_result (h := []) rfl hL⟩
  show Answer.answered (redirectTo {} cr.redirectURI cr.map false).result = _
  rw [htu]

theorem effect_token {r : Request} {rq : TokenRequest} {a b : HS256Token} {scope : Scope}
    (hop : c.op = .serve r) (hf : Server.TokenRequestFor s r rq) :
    let e : Event := ⟨c, (Reply.token (Server.grantResponse s.config a (some b) scope)).answer⟩
    ¬ Fails e ∧ ((∃ k t, Hands e k t) ∨ (∃ t, HandsCode e t) ∨ ∃ t, Revokes s.config e t) := by
  intro e
  have hans : e = ⟨c, .answered ((Reply.token (Server.grantResponse s.config a (some b)
    scope)).render {}).result⟩ := rfl
  have hres := token_result (t := Server.grantResponse s.config a (some b) scope) rfl
  rw [hans, hres]
  refine ⟨not_fails hop (by rw [hf.path]; decide) (by decide : 200 < 400), .inl ⟨.access, a, .inl ⟨rq, _,
    (tokenCall_iff hop).mpr ⟨hf.path, hf.parsed, rfl⟩, ?_⟩⟩⟩
  refine (token_jsonMember (t := Server.grantResponse s.config a (some b) scope) rfl rfl _).1.mpr ?_
  exact (token_sanitize a).symm

/-- Every call changes nothing, or it succeeds and shows what it does, or it is a replay or a half
revocation. -/
theorem effect (s : Server) (hc : ∀ cl us, c.op ≠ .configure cl us) :
    let e : Event := ⟨c, (step ⟨false, s⟩ c).1⟩
    (Quiet s.config e ∧ ((step ⟨false, s⟩ c).2 = ⟨false, s⟩ ∨ (∃ sig, Replays s.config e sig) ∨
      ∃ t client, HalfRevokes s.config e t client)) ∨
    (¬ Fails e ∧ ((∃ k t, Hands e k t) ∨ (∃ t, HandsCode e t) ∨ ∃ t, Revokes s.config e t)) := by
  intro e
  cases hop : c.op with
  | configure cl us => exact (hc _ _ hop).elim
  | authorize r required =>
    left
    obtain ⟨x, hx⟩ : ∃ x, x = (step ⟨false, s⟩ c).1 := ⟨_, rfl⟩
    have he : e = ⟨c, x⟩ := by rw [hx]
    rw [he]
    rw [step_authorize hop] at hx ⊢
    refine ⟨(silent_of_answer (by intro res hh; rw [hx] at hh; simp only at hh; split at hh <;> cases hh)).quiet, .inl rfl⟩
  | serve r =>
    obtain ⟨reply, s', h1, h2, _⟩ := step_served hop s
    have he : e = ⟨c, reply.answer⟩ := by show Event.mk c (step ⟨false, s⟩ c).1 = _; rw [h1]
    rw [he, h1]
    cases h2 with
    | notFound k1 k2 k3 k4 => exact .inl ⟨(silent_of_path hop k1 k2 k4).quiet, .inl rfl⟩
    | refused e hs hr hp hh hcode hrev => exact .inl ⟨quiet_refused hop hs hr hh, .inl rfl⟩
    | crash hs hp => exact .inl ⟨(silent_of_answer (by intro res hh; cases hh)).quiet, .inl rfl⟩
    | notice rq hf hm =>
      refine .inl ⟨quiet_authorize hop hf.path ?_, .inl rfl⟩
      rw [notice_result]
      rfl
    | introspect rq hp hq hc t ht ha hr i hi =>
      exact .inl ⟨(silent_of_path hop (by rw [hp]; decide) (by rw [hp]; decide)
        (by rw [hp]; decide)).quiet, .inl rfl⟩
    | refusedRedirect rq hf hm err herr =>
      refine .inl ⟨quiet_redirect_error hop hf.path hm hf.parsed ?_ ?_, .inl rfl⟩
      · rcases herr with rfl | rfl <;> rfl
      · rcases herr with rfl | rfl <;> decide
    | replay rq hf ht x hc stored hst hu =>
      refine .inl ⟨quiet_token_error hop hf.path rfl, .inr (.inl ⟨x.signatureString, rq, _, x,
        (tokenCall_iff hop).mpr ⟨hf.path, hf.parsed, rfl⟩, ht, hc, rfl, ?_, ?_⟩)⟩
      · rw [(error_jsonMember (e := invalidGrant b!"unknown authorization code") rfl _).1]
        exact (sanitize_ascii (by decide)).symm
      · rw [(error_jsonMember (e := invalidGrant b!"unknown authorization code") rfl _).2.1]
        exact ⟨by decide, sanitize_unknown.symm⟩
    | revokeHalf rq hp hq hc t ht ca ha hao cr hr hro =>
      refine .inl ⟨quiet_revoke hop hp (by decide +kernel), .inr (.inr ⟨t, rq.clientID, rq, _,
        (revocationCall_iff hop).mpr ⟨hp, hq, rfl⟩, ⟨t, ht, rfl⟩, rfl, ?_⟩)⟩
      rw [(error_jsonMember (e := invalidClient b!"wrong client") rfl _).2.1]
      exact ⟨by decide, sanitize_wrong.symm⟩
    | revoke rq hp hq hc t ht ha hr =>
      refine .inr ⟨not_fails (res := (Reply.revoked.render {}).result) hop (by rw [hp]; decide) (by decide), .inr (.inr ⟨t, rq, _,
        (revocationCall_iff hop).mpr ⟨hp, hq, rfl⟩, ⟨t, ht, rfl⟩, rfl⟩)⟩
    | implicit rq hf hm ht hs hu a hg =>
      obtain ⟨o, res, hcall⟩ := implicit_obs (cfg := s.config) (a := a) s.config hop hf hm ht
      refine .inr ⟨?_, .inl ⟨.access, a, (o.access a).mpr rfl⟩⟩
      obtain ⟨tr, L, htr, hL, hans, hloc, hb, hst⟩ := implicit_location (a := a) s.config hf
      rw [← htr, hans]
      rintro (⟨res', h1 | h1, h2⟩ | ⟨w, h1⟩ | ⟨rq', u, res', name, h1, h2⟩)
      · cases h1; rw [hst] at h2; omega
      · cases h1
      · cases h1
      · obtain ⟨_, _, hq, _, hr⟩ := (authorizationCall_iff hop).mp h1
        rw [hf.parsed] at hq
        cases hq
        cases hr
        rcases h2 with ⟨_, h2⟩ | ⟨h3, _⟩
        · rw [fragmentParameter_iff tr.map_nodup (by simp [TokenResponse.map]) hL hloc,
            tr.map_error] at h2
          cases h2
        · rw [ht] at h3
          exact absurd h3 (by decide)
    | code rq hf hm ht hs hu x rest hg =>
      obtain ⟨o, res, hcall⟩ := code_obs (cfg := s.config) (x := x) hop hf hm ht
      refine .inr ⟨?_, .inr (.inl ⟨x, (o.code x).mpr rfl⟩)⟩
      obtain ⟨cr, L, hcr, hL, hans, hloc, hb, hst⟩ := code_location x.string hf
      rw [← hcr, hans]
      rintro (⟨res', h1 | h1, h2⟩ | ⟨w, h1⟩ | ⟨rq', u, res', name, h1, h2⟩)
      · cases h1; rw [hst] at h2; omega
      · cases h1
      · cases h1
      · obtain ⟨_, _, hq, _, hr⟩ := (authorizationCall_iff hop).mp h1
        rw [hf.parsed] at hq
        cases hq
        cases hr
        rcases h2 with ⟨h3, _⟩ | ⟨_, h2⟩
        · rw [ht] at h3
          exact absurd h3 (by decide)
        · rw [addedParameter_iff cr.map_nodup (by simp [CodeResponse.map]) hL hloc,
            cr.map_none (by decide) (by decide)] at h2
          cases h2
    | password rq hf ht hs hu a b hg => exact .inr (effect_token hop hf)
    | client rq hf ht hc hs a b hg => exact .inr (effect_token hop hf)
    | exchange rq hf ht x hc stored hst hu hx ho hr a b hg => exact .inr (effect_token hop hf)
    | refresh rq hf ht x hc stored hst hx ho scope hsc hs a b hg => exact .inr (effect_token hop hf)

/-- **C41.** A call that fails (a status of at least 400, a panic, or an error in a redirect) changes
nothing, except that a code is replayed, or that (`HalfRevokes`) a revocation request is for a
signature shared by an access token of the client and a refresh token of another client. -/
theorem C41_error (s : Server) (hf : Fails ⟨c, (step ⟨false, s⟩ c).1⟩) :
    (step ⟨false, s⟩ c).2 = ⟨false, s⟩ ∨
      (∃ sig, Replays s.config ⟨c, (step ⟨false, s⟩ c).1⟩ sig) ∨
      ∃ t client, HalfRevokes s.config ⟨c, (step ⟨false, s⟩ c).1⟩ t client := by
  have hc : ∀ cl us, c.op ≠ .configure cl us := by
    intro cl us hop
    rw [step_configure hop] at hf
    rcases hf with ⟨res, h1 | h1, _⟩ | ⟨w, h1⟩ | ⟨rq, u, res, name, ⟨r, h1, _⟩, _⟩
    · cases h1
    · cases h1
    · cases h1
    · rw [hop] at h1; cases h1
  rcases effect s hc with ⟨_, h1⟩ | ⟨h1, _⟩
  · exact h1
  · exact (h1 hf).elim

/-- **C41.** What a call changes shows in its answer: a token or code is handed out, a token is
revoked, or one of the two exceptions above. -/
theorem C41_changes (s : Server) (hc : ∀ cl us, c.op ≠ .configure cl us)
    (hs : (step ⟨false, s⟩ c).2 ≠ ⟨false, s⟩) :
    let e : Event := ⟨c, (step ⟨false, s⟩ c).1⟩
    (∃ k t, Hands e k t) ∨ (∃ t, HandsCode e t) ∨ (∃ t, Revokes s.config e t) ∨
      (∃ sig, Replays s.config e sig) ∨ ∃ t client, HalfRevokes s.config e t client := by
  intro e
  rcases effect s hc with ⟨_, h1 | h1⟩ | ⟨_, h1 | h1 | h1⟩
  · exact (hs h1).elim
  · exact .inr (.inr (.inr h1))
  · exact .inl h1
  · exact .inr (.inl h1)
  · exact .inr (.inr (.inl h1))

/-- Non-vacuity: the first event of the session changes the server. -/
example : (step ⟨false, Demo.server⟩ Demo.c1).2 ≠ ⟨false, Demo.server⟩ := by
  rw [Demo.step1]
  intro h
  have := congrArg (fun s => s.st.accessTokens.length) h
  exact absurd this (by decide +kernel)

/-- **C41.** In the terms of an observer: a call that fails puts no token in force, takes none away
except as said, and leaves every code as it was. -/
theorem C41_error_rights (h0 : Started s₀) (hh : History s₀ h ⟨false, s⟩)
    (hf : Fails ⟨c, (step ⟨false, s⟩ c).1⟩) :
    let e : Event := ⟨c, (step ⟨false, s⟩ c).1⟩
    (∀ k t g, InForce s₀.config (e :: h) k t g ↔ InForce s₀.config h k t g ∧
      ¬ (g.origin ≠ [] ∧ Replays s₀.config e g.origin) ∧
      ¬ (k = .access ∧ HalfRevokes s₀.config e t g.client)) ∧
    ∀ x g b, Code s₀.config (e :: h) x g b ↔ Code s₀.config h x g b := by
  intro e
  obtain ⟨st, hst, ex⟩ := history_state h0 hh
  cases hst
  have hc : ∀ cl us, c.op ≠ .configure cl us := by
    intro cl us hop
    rw [step_configure hop] at hf
    rcases hf with ⟨res, h1 | h1, _⟩ | ⟨w, h1⟩ | ⟨rq, u, res, name, ⟨r, h1, _⟩, _⟩
    · cases h1
    · cases h1
    · cases h1
    · rw [hop] at h1; cases h1
  rcases effect s hc with ⟨q, _⟩ | ⟨h1, _⟩
  · rw [ex.config] at q
    have q : Quiet s₀.config e := q
    constructor
    · intro k t g
      have hends : Ends s₀.config e k t g ↔ (g.origin ≠ [] ∧ Replays s₀.config e g.origin) ∨
          (k = .access ∧ HalfRevokes s₀.config e t g.client) := by
        unfold Ends
        constructor
        · rintro (⟨t', h1, _⟩ | h1 | h1 | ⟨_, h1⟩ | h1)
          · exact (q.not_hands h1).elim
          · rw [q.revokes] at h1; cases h1
          · exact .inl h1
          · rw [q.usesUp] at h1; cases h1
          · exact .inr h1
        · rintro (h1 | h1)
          · exact .inr (.inr (.inl h1))
          · exact .inr (.inr (.inr (.inr h1)))
      rw [inForce_cons, hends, not_or]
      constructor
      · rintro (h1 | h1)
        · exact (q.not_hands h1.hands).elim
        · exact h1
      · exact .inr
    · intro x g b
      rw [code_cons]
      constructor
      · rintro (⟨_, _, _, _, _, h1, _⟩ | ⟨_, _, h1⟩ | h1)
        · rw [q.code] at h1; cases h1
        · rw [q.redeems] at h1; cases h1
        · exact h1.1
      · intro h1
        refine .inr (.inr ⟨h1, ?_, ?_⟩)
        · rw [q.redeems]; exact fun h => nomatch h
        · intro c' h2; rw [q.code] at h2; cases h2
  · exact (h1 hf).elim

/-- Non-vacuity: the fifth event of the session fails (it is a replay); so does a request with the
wrong password, which is none. -/
example : Fails Demo.e5 ∧ Replays Demo.server.config Demo.e5 Demo.x2.signatureString := by
  refine ⟨.inl ⟨_, .inl rfl, ?_⟩, by decide +kernel⟩
  decide +kernel

example :
    let c := Demo.post b!"/token" [] b!"grant_type=password&client_id=c1&client_secret=s1&username=u1" [] 1100
    Fails ⟨c, (step ⟨false, Demo.s1⟩ c).1⟩ :=
  .inl ⟨(step ⟨false, Demo.s1⟩ (Demo.post b!"/token" []
    b!"grant_type=password&client_id=c1&client_secret=s1&username=u1" [] 1100)).1.response,
    .inl (by decide +kernel), by decide +kernel⟩

/-! ### The authorization endpoint -/

theorem no_fragment {res : Response} (hl : res.header.all b!"Location" = []) (name value : Str) :
    ¬ FragmentParameter res name value := by
  rintro ⟨_, _, _, h1, _⟩
  rw [hl] at h1
  cases h1

theorem no_added {res : Response} (hl : res.header.all b!"Location" = []) (uri name value : Str) :
    ¬ AddedParameter uri res name value := by
  rintro ⟨_, _, _, _, h1, _⟩
  rw [hl] at h1
  cases h1

theorem TokenResponse.map_none (t : TokenResponse) (hr : t.refreshToken = []) :
    t.map.get? b!"refresh_token" = none ∧ t.map.get? b!"code" = none := by
  unfold TokenResponse.map
  simp only [get?_append, get?_ite, hr, ne_eq, not_true, false_and, if_false, Option.or_none]
  have e2 : (b!"scope" : Str) ≠ b!"refresh_token" := by decide
  have e3 : (b!"state" : Str) ≠ b!"refresh_token" := by decide
  have e5 : (b!"scope" : Str) ≠ b!"code" := by decide
  have e6 : (b!"state" : Str) ≠ b!"code" := by decide
  simp only [e2, e3, e5, e6, and_false, if_false, Option.or_none]
  exact ⟨rfl, rfl⟩

/-- The redirect that reports an error. -/
theorem error_location {r : Request} {rq : AuthorizationRequest} {err : Error}
    (hf : Server.AuthorizationFor s r rq) (he : err = invalidScope [] ∨ err = accessDenied []) :
    ∃ (e' : Error) (L : Str), e' = err.setRedirect rq.redirectURI rq.state
        (rq.responseType = TokenResponseType) ∧ e'.map ≠ [] ∧
      redirectLocation rq.redirectURI e'.map (rq.responseType = TokenResponseType) = some L ∧
      (Reply.error e').answer = .answered (redirectTo {} rq.redirectURI e'.map
        (rq.responseType = TokenResponseType)).result ∧
      (redirectTo {} rq.redirectURI e'.map (rq.responseType = TokenResponseType)).result.header.all
        b!"Location" = [L] ∧
      (redirectTo {} rq.redirectURI e'.map (rq.responseType = TokenResponseType)).result.body = [] ∧
      (redirectTo {} rq.redirectURI e'.map (rq.responseType = TokenResponseType)).result.statusCode =
        303 := by
  obtain ⟨hne, u, huri⟩ := authorizationRequest_uri hf.parsed
  obtain ⟨e', he'⟩ : ∃ e', e' = err.setRedirect rq.redirectURI rq.state
    (rq.responseType = TokenResponseType) := ⟨_, rfl⟩
  have h1 : e'.redirectURI = rq.redirectURI := by rw [he']; rfl
  have h2 : e'.useFragment = decide (rq.responseType = TokenResponseType) := by rw [he']; rfl
  have hh : e'.headers = [] := by rw [he']; rcases he with rfl | rfl <;> rfl
  have hn : e'.name ≠ [] := by rw [he']; rcases he with rfl | rfl <;> (intro hn; cases hn)
  obtain ⟨L, hL⟩ := redirectLocation_isSome huri e'.map (rq.responseType = TokenResponseType)
  refine ⟨e', L, he', ?_, hL, ?_, redirectTo_result (h := []) rfl hL⟩
  · unfold Error.map
    simp [hn]
  · show Answer.answered ((Reply.error e').render {}).result = _
    unfold Reply.render
    simp only [h1, ne_eq, hne, not_false_eq_true, if_true, Error.addHeaders, hh, List.foldl_nil, h2]

/-- **C44.** The implicit flow yields no refresh token and no code, whatever the outcome. -/
theorem C44_implicit (s : Server) {rq : AuthorizationRequest} {u : Str} {res : Response}
    (hc : AuthorizationCall ⟨c, (step ⟨false, s⟩ c).1⟩ rq u res) (ht : rq.responseType = b!"token") :
    (∀ v, ¬ FragmentParameter res b!"refresh_token" v ∧ ¬ FragmentParameter res b!"code" v ∧
      ¬ JsonMember res b!"refresh_token" v ∧ ¬ JsonMember res b!"access_token" v) ∧
    (step ⟨false, s⟩ c).2.st.refreshTokens = s.refreshTokens ∧
    (step ⟨false, s⟩ c).2.st.authorizationCodes = s.authorizationCodes := by
  obtain ⟨r, hop, hp, hm, hq, hu, ha⟩ := hc
  rw [lastSegment_iff] at hp
  have hno : ∀ p, p ≠ b!"authorize" → Server.lastSegment r.path ≠ p := by
    rintro p h1 rfl; exact h1 hp
  obtain ⟨reply, s', h1, h2, _⟩ := step_served hop s
  rw [h1] at ha ⊢
  simp only at ha
  cases h2 with
  | notFound k1 => exact absurd hp k1
  | refused err hs hr hp hh =>
    cases ha
    have hres := error_result hr
    have hb : ((Reply.error err).render {}).result.body = err.json ++ [0x0A] := by rw [hres]
    have hl : ((Reply.error err).render {}).result.header.all b!"Location" = [] := by
      rw [hres]; exact (errorHeaders_location hh).2
    exact ⟨fun v => ⟨no_fragment hl _ _, no_fragment hl _ _, (error_jsonMember hb v).2.2.2,
      (error_jsonMember hb v).2.2.1⟩, rfl, rfl⟩
  | crash => cases ha
  | notice _ _ hm' => exact absurd hm' hm
  | refusedRedirect rq' hf _ err herr =>
    have := hf.parsed
    rw [hq] at this
    cases this
    obtain ⟨e', L, he', hne, hL, hans, hloc, hb, _⟩ := error_location hf herr
    rw [← he', hans] at ha
    cases ha
    have htt : decide (rq.responseType = TokenResponseType) = true := decide_eq_true ht
    rw [htt] at hL hloc hb
    rw [htt]
    refine ⟨fun v => ⟨?_, ?_, no_jsonMember hb _ _, no_jsonMember hb _ _⟩, rfl, rfl⟩
    · rw [fragmentParameter_iff e'.map_nodup hne hL hloc, e'.map_get? (by decide)]
      exact fun h => nomatch h
    · rw [fragmentParameter_iff e'.map_nodup hne hL hloc, e'.map_get? (by decide)]
      exact fun h => nomatch h
  | implicit rq' hf _ _ hs hu a hg =>
    have := hf.parsed
    rw [hq] at this
    cases this
    obtain ⟨tr, L, htr, hL, hans, hloc, hb, _⟩ := implicit_location (a := a) s.config hf
    rw [← htr, hans] at ha
    cases ha
    have hnone := tr.map_none (by rw [htr]; rfl)
    refine ⟨fun v => ⟨?_, ?_, no_jsonMember hb _ _, no_jsonMember hb _ _⟩, rfl, rfl⟩
    · rw [fragmentParameter_iff tr.map_nodup (by simp [TokenResponse.map]) hL hloc, hnone.1]
      exact fun h => nomatch h
    · rw [fragmentParameter_iff tr.map_nodup (by simp [TokenResponse.map]) hL hloc, hnone.2]
      exact fun h => nomatch h
  | code rq' hf _ htc =>
    have := hf.parsed
    rw [hq] at this
    cases this
    rw [ht] at htc
    exact absurd htc (by decide)
  | password _ hf => exact absurd hf.path (hno _ (by decide))
  | client _ hf => exact absurd hf.path (hno _ (by decide))
  | replay _ hf => exact absurd hf.path (hno _ (by decide))
  | exchange _ hf => exact absurd hf.path (hno _ (by decide))
  | refresh _ hf => exact absurd hf.path (hno _ (by decide))
  | introspect _ hp => exact absurd hp (hno _ (by decide))
  | revoke _ hp => exact absurd hp (hno _ (by decide))
  | revokeHalf _ hp => exact absurd hp (hno _ (by decide))

/-- Non-vacuity: the seventh event of the session is an implicit flow. -/
example : AuthorizationCall ⟨Demo.c7, (step ⟨false, Demo.s6⟩ Demo.c7).1⟩ {
      responseType := b!"token", scope := some [b!"bar"], clientID := b!"c2",
      redirectURI := b!"http://example.org/cb?x=1", state := b!"xyz" } b!"u1"
    (step ⟨false, Demo.s6⟩ Demo.c7).1.response := by
  decide +kernel

/-- **C44.** The code flow yields no token at the authorization endpoint, whatever the outcome. -/
theorem C44_code (s : Server) {rq : AuthorizationRequest} {u : Str} {res : Response}
    (hc : AuthorizationCall ⟨c, (step ⟨false, s⟩ c).1⟩ rq u res) (ht : rq.responseType = b!"code") :
    (∀ (k : Kind) v, ¬ AddedParameter rq.redirectURI res k.name v ∧ ¬ JsonMember res k.name v) ∧
    (step ⟨false, s⟩ c).2.st.accessTokens = s.accessTokens ∧
    (step ⟨false, s⟩ c).2.st.refreshTokens = s.refreshTokens := by
  obtain ⟨r, hop, hp, hm, hq, hu, ha⟩ := hc
  rw [lastSegment_iff] at hp
  have hno : ∀ p, p ≠ b!"authorize" → Server.lastSegment r.path ≠ p := by
    rintro p h1 rfl; exact h1 hp
  obtain ⟨reply, s', h1, h2, _⟩ := step_served hop s
  rw [h1] at ha ⊢
  simp only at ha
  cases h2 with
  | notFound k1 => exact absurd hp k1
  | refused err hs hr hp hh =>
    cases ha
    have hres := error_result hr
    have hb : ((Reply.error err).render {}).result.body = err.json ++ [0x0A] := by rw [hres]
    have hl : ((Reply.error err).render {}).result.header.all b!"Location" = [] := by
      rw [hres]; exact (errorHeaders_location hh).2
    refine ⟨fun k v => ⟨no_added hl _ _ _, ?_⟩, rfl, rfl⟩
    cases k
    · exact (error_jsonMember hb v).2.2.1
    · exact (error_jsonMember hb v).2.2.2
  | crash => cases ha
  | notice _ _ hm' => exact absurd hm' hm
  | refusedRedirect rq' hf _ err herr =>
    have := hf.parsed
    rw [hq] at this
    cases this
    obtain ⟨e', L, he', hne, hL, hans, hloc, hb, _⟩ := error_location hf herr
    rw [← he', hans] at ha
    cases ha
    have htt : decide (rq.responseType = TokenResponseType) = false :=
      decide_eq_false (by rw [ht]; decide)
    rw [htt] at hL hloc hb
    rw [htt]
    refine ⟨fun k v => ⟨?_, no_jsonMember hb _ _⟩, rfl, rfl⟩
    rw [addedParameter_iff e'.map_nodup hne hL hloc, e'.map_get? (by cases k <;> decide)]
    exact fun h => nomatch h
  | implicit rq' hf _ htt =>
    have := hf.parsed
    rw [hq] at this
    cases this
    rw [ht] at htt
    exact absurd htt (by decide)
  | code rq' hf _ htc hs hu x rest hg =>
    have := hf.parsed
    rw [hq] at this
    cases this
    obtain ⟨cr, L, hcr, hL, hans, hloc, hb, _⟩ := code_location x.string hf
    rw [← hcr, hans] at ha
    cases ha
    refine ⟨fun k v => ⟨?_, no_jsonMember hb _ _⟩, rfl, rfl⟩
    rw [addedParameter_iff cr.map_nodup (by simp [CodeResponse.map]) hL hloc,
      cr.map_none (by cases k <;> decide) (by cases k <;> decide)]
    exact fun h => nomatch h
  | password _ hf => exact absurd hf.path (hno _ (by decide))
  | client _ hf => exact absurd hf.path (hno _ (by decide))
  | replay _ hf => exact absurd hf.path (hno _ (by decide))
  | exchange _ hf => exact absurd hf.path (hno _ (by decide))
  | refresh _ hf => exact absurd hf.path (hno _ (by decide))
  | introspect _ hp => exact absurd hp (hno _ (by decide))
  | revoke _ hp => exact absurd hp (hno _ (by decide))
  | revokeHalf _ hp => exact absurd hp (hno _ (by decide))

/-- Non-vacuity: the second event of the session is a code flow. -/
example : AuthorizationCall ⟨Demo.c2, (step ⟨false, Demo.s1⟩ Demo.c2).1⟩ {
      responseType := b!"code", scope := some [b!"foo", b!"bar"], clientID := b!"c2",
      redirectURI := b!"http://example.org/cb?x=1", state := b!"xyz" } b!"u1"
    (step ⟨false, Demo.s1⟩ Demo.c2).1.response := by
  decide +kernel

theorem introspectionRequest_post {r : Request} {rq : IntrospectionRequest}
    (h : parseIntrospectionRequest r = .ok rq) : r.method = b!"POST" := by
  unfold parseIntrospectionRequest at h
  split at h
  · cases h
  · next hm => exact Decidable.byContradiction hm

/-- **C44.** A GET request issues nothing: it is not redirected, no token is in the body, and the
server does not change. -/
theorem C44_get (s : Server) {r : Request} (hop : c.op = .serve r) (hm : r.method = b!"GET") :
    (∀ res, (step ⟨false, s⟩ c).1 = .answered res → res.header.all b!"Location" = [] ∧
      ∀ (k : Kind) v, ¬ JsonMember res k.name v) ∧
    (step ⟨false, s⟩ c).2 = ⟨false, s⟩ := by
  refine ⟨?_, C41_only_asks s (.inr ⟨r, hop, .inl hm⟩)⟩
  intro res ha
  obtain ⟨reply, s', h1, h2, _⟩ := step_served hop s
  rw [h1] at ha
  have hpost : (b!"POST" : Str) ≠ r.method := by rw [hm]; decide
  cases h2 with
  | notFound k1 =>
    cases ha
    refine ⟨by decide +kernel, fun k v => ?_⟩
    rintro ⟨ms, h2, _⟩
    rw [(by decide +kernel : parseJSON (Reply.notFound.render {}).result.body = none)] at h2
    cases h2
  | refused err hs hr hp hh =>
    cases ha
    have hres := error_result hr
    have hb : ((Reply.error err).render {}).result.body = err.json ++ [0x0A] := by rw [hres]
    refine ⟨by rw [hres]; exact (errorHeaders_location hh).2, fun k v => ?_⟩
    cases k
    · exact (error_jsonMember hb v).2.2.1
    · exact (error_jsonMember hb v).2.2.2
  | crash => cases ha
  | notice =>
    cases ha
    refine ⟨by decide +kernel, fun k v => ?_⟩
    rintro ⟨ms, h2, _⟩
    rw [(by decide +kernel : parseJSON (Reply.notice.render {}).result.body = none)] at h2
    cases h2
  | refusedRedirect _ _ hm' => exact absurd hm hm'
  | implicit _ _ hm' => exact absurd hm hm'
  | code _ _ hm' => exact absurd hm hm'
  | password _ hf => exact absurd (tokenRequest_post hf.parsed).symm hpost
  | client _ hf => exact absurd (tokenRequest_post hf.parsed).symm hpost
  | replay _ hf => exact absurd (tokenRequest_post hf.parsed).symm hpost
  | exchange _ hf => exact absurd (tokenRequest_post hf.parsed).symm hpost
  | refresh _ hf => exact absurd (tokenRequest_post hf.parsed).symm hpost
  | introspect _ _ hq => exact absurd (introspectionRequest_post hq).symm hpost
  | revoke _ _ hq => exact absurd (revocationRequest_post hq).symm hpost
  | revokeHalf _ _ hq => exact absurd (revocationRequest_post hq).symm hpost

/-- Non-vacuity: a GET request for which a POST request would get a token. -/
example :
    let r : Request := {
      method := b!"GET", path := b!"/authorize"
      rawQuery := b!"response_type=token&client_id=c2&redirect_uri=http%3A%2F%2Fexample.org%2Fcb%3Fx%3D1" }
    (step ⟨false, Demo.s1⟩ { op := .serve r, clock := fun _ => 0 }).1 =
      .answered { statusCode := 200, body := Server.notice } := by
  decide +kernel

/-! ### Lifetimes -/

/-- The announced lifetime in a JSON response. -/
theorem token_expiresIn {res : Response} {t : TokenResponse} (hb : res.body = t.json ++ [0x0A]) :
    JsonNumber res b!"expires_in" t.expiresIn := by
  rw [TokenResponse.json_members] at hb
  refine ⟨_, by rw [hb, parseJSON_object t.members (by simp [TokenResponse.members]) t.members_encode], ?_⟩
  intro doc
  have e1 : sanitize b!"token_type" = b!"token_type" := by decide +kernel
  have e2 : sanitize b!"access_token" = b!"access_token" := by decide +kernel
  have e3 : sanitize b!"expires_in" = b!"expires_in" := by decide +kernel
  have e4 : sanitize b!"refresh_token" = b!"refresh_token" := by decide +kernel
  have e5 : sanitize b!"scope" = b!"scope" := by decide +kernel
  have e6 : sanitize b!"state" = b!"state" := by decide +kernel
  unfold TokenResponse.members strMember scopeMember
  simp only [List.map_append, List.mem_append]
  constructor
  · rintro (((h | h) | h) | h)
    · simpa [e1, e2, e3] using h
    · split at h <;> simp [e4] at h
    · split at h <;> simp [e5] at h
    · split at h <;> simp [e6] at h
  · rintro rfl
    simp [e1, e2, e3]

theorem TokenResponse.map_expires (t : TokenResponse) :
    t.map.get? b!"expires_in" = some (itoa t.expiresIn) := by
  unfold TokenResponse.map
  simp only [get?_append]
  rfl

/-- **C45.** Whenever an access token is handed out, the response announces the configured lifespan
in whole seconds. -/
theorem C45_announced (h0 : Started s₀) {new old : List Event} {e : Event} {S : Shared Server}
    (hh : History s₀ (new ++ e :: old) S) {t : HS256Token} (ht : Hands e .access t) :
    (∃ rq res, TokenCall e rq res ∧
      JsonNumber res b!"expires_in" (s₀.config.accessTokenLifespan.tdiv second)) ∨
    (∃ rq u res, AuthorizationCall e rq u res ∧
      FragmentParameter res b!"expires_in" (itoa (s₀.config.accessTokenLifespan.tdiv second))) := by
  obtain ⟨st, _, ex, ha, _⟩ := history_seen h0 hh
  obtain ⟨c, x⟩ := e
  simp only at ha
  have hop : ∃ r, c.op = .serve r := by
    rcases ht with ⟨_, _, ⟨r, h1, _⟩, _⟩ | ⟨_, _, _, _, ⟨r, h1, _⟩, _⟩ <;> exact ⟨r, h1⟩
  obtain ⟨r, hop⟩ := hop
  obtain ⟨reply, s', h1, h2, _⟩ := step_served hop st
  rw [h1] at ha
  simp only at ha
  subst ha
  have htok : ∀ {rq a b scope}, Server.TokenRequestFor st r rq →
      ∃ rq res, TokenCall ⟨c, (Reply.token (Server.grantResponse st.config a (some b) scope)).answer⟩
        rq res ∧ JsonNumber res b!"expires_in" (s₀.config.accessTokenLifespan.tdiv second) := by
    intro rq a b scope hf
    refine ⟨rq, _, (tokenCall_iff hop).mpr ⟨hf.path, hf.parsed, rfl⟩, ?_⟩
    rw [token_result rfl, ← ex.config]
    exact token_expiresIn (t := Server.grantResponse st.config a (some b) scope) rfl
  cases h2 with
  | notFound k1 k2 k3 k4 =>
    exact (((silent_of_path hop k1 k2 k4).quiet (cfg := s₀.config)).not_hands ht).elim
  | refused e hs hr hp hd hcode hrev =>
    exact ((quiet_refused (cfg := s₀.config) hop hs hr hd).not_hands ht).elim
  | crash hs hp =>
    have q : Silent ⟨c, Reply.crash.answer⟩ := silent_of_answer (by intro res hh; cases hh)
    exact ((q.quiet (cfg := s₀.config)).not_hands ht).elim
  | notice rq hf hm =>
    refine ((quiet_authorize (cfg := s₀.config) hop hf.path ?_).not_hands ht).elim
    rw [notice_result]
    rfl
  | introspect rq hp hq hc t ht' ha hr i hi =>
    exact (((silent_of_path hop (by rw [hp]; decide) (by rw [hp]; decide)
      (by rw [hp]; decide)).quiet (cfg := s₀.config)).not_hands ht).elim
  | refusedRedirect rq hf hm err herr =>
    refine ((quiet_redirect_error (cfg := s₀.config) hop hf.path hm hf.parsed ?_ ?_).not_hands ht).elim
    · rcases herr with rfl | rfl <;> rfl
    · rcases herr with rfl | rfl <;> decide
  | replay rq hf ht' x hc stored hst hu =>
    exact ((quiet_token_error (cfg := s₀.config) hop hf.path rfl).not_hands ht).elim
  | revokeHalf rq hp hq hc t ht' ca ha hao cr hr hro =>
    exact ((quiet_revoke (cfg := s₀.config) hop hp (by decide +kernel)).not_hands ht).elim
  | revoke rq hp hq hc t' ht' ha hr =>
    rcases ht with ⟨_, _, h3, _⟩ | ⟨_, _, _, _, h3, _⟩
    · have := ((tokenCall_iff hop).mp h3).1
      rw [hp] at this
      exact absurd this (by decide)
    · have := ((authorizationCall_iff hop).mp h3).1
      rw [hp] at this
      exact absurd this (by decide)
  | code rq hf hm hty hs hu x rest hg =>
    obtain ⟨o, _⟩ := code_obs (cfg := s₀.config) (x := x) hop hf hm hty
    exact (o.not_hands ht).elim
  | implicit rq hf hm hty hs hu a hg =>
    right
    obtain ⟨tr, L, htr, hL, hans, hloc, hb, _⟩ := implicit_location (a := a) st.config hf
    rw [← htr, hans]
    refine ⟨rq, _, _, (authorizationCall_iff hop).mpr ⟨hf.path, hm, hf.parsed, rfl, rfl⟩, ?_⟩
    rw [fragmentParameter_iff tr.map_nodup (by simp [TokenResponse.map]) hL hloc, tr.map_expires,
      htr, ← ex.config]
    rfl
  | password rq hf => exact .inl (htok hf)
  | client rq hf => exact .inl (htok hf)
  | exchange rq hf => exact .inl (htok hf)
  | refresh rq hf => exact .inl (htok hf)

/-- Non-vacuity: the seventh and the eighth event of the session hand out access tokens. -/
example : History Demo.server [Demo.e8, Demo.e7, Demo.e6, Demo.e5, Demo.e4, Demo.e3, Demo.e2, Demo.e1]
      ⟨false, Demo.s8⟩ ∧ Hands Demo.e8 .access Demo.a8 ∧ Hands Demo.e7 .access Demo.a7 :=
  ⟨Demo.history8, by decide +kernel, by decide +kernel⟩

theorem issued_expires {cfg : ServerConfig} {old : List Event} {e : Event} {t : HS256Token} {g : Grant}
    (hi : Issued cfg old e .access t g) :
    ∃ n, n ≤ 1 ∧ g.expires = e.call.clock n + cfg.accessTokenLifespan := by
  cases hi <;> first | exact ⟨0, by decide, rfl⟩ | exact ⟨1, by decide, rfl⟩

theorem presents_unique {c : Call} {required required' : Scope} {text text' : Str}
    (h : Presents c required text) (h' : Presents c required' text') : text = text' := by
  obtain ⟨r, h1, h2⟩ := h
  obtain ⟨r', h3, h4⟩ := h'
  rw [h1] at h3
  cases h3
  rw [← C09_bearer_accept_iff] at h2 h4
  rw [h2] at h4
  cases h4
  rfl

/-- **C45.** An access token that was handed out, and not taken away since, is accepted at every time
up to the issue time plus the lifespan and refused after it (for scopes it covers). The issue time is
the first or second clock reading of the call that handed it out. -/
theorem C45_accepted (h0 : Started s₀) {new old : List Event} {e : Event} {S : Shared Server}
    (hh : History s₀ (new ++ e :: old) S) {t : HS256Token} (ht : Hands e .access t) :
    ∃ n g, n ≤ 1 ∧ InForce s₀.config (e :: old) .access t g ∧
      ((∀ e' ∈ new, ¬ Ends s₀.config e' .access t g) →
        ∀ c required, Presents c required t.string → Within required g.scope →
          ((step S c).1 = .admitted ↔
            c.clock 0 ≤ e.call.clock n + s₀.config.accessTokenLifespan)) := by
  obtain ⟨st, _, ex, _, hseen⟩ := history_seen h0 hh
  obtain ⟨g, hg⟩ := hands_inForce hseen ht (by intro hk; cases hk)
  have hiss : Issued s₀.config old e .access t g := by
    rcases inForce_cons.mp hg with hi | ⟨_, hn⟩
    · exact hi
    · exact (hn (.inl ⟨t, ht, rfl⟩)).elim
  obtain ⟨n, hn, hx⟩ := issued_expires hiss
  refine ⟨n, g, hn, hg, ?_⟩
  intro hends c required hc hs
  have hi := inForce_later hg hends
  rw [C27_admits_iff h0 hh c, ← hx]
  constructor
  · rintro ⟨required', text, t', g', h1, ⟨t'', h2, h3⟩, h4, h5, h6⟩
    have htext : text = t.string := presents_unique h1 hc
    subst htext
    obtain ⟨st', rfl, ex'⟩ := history_state h0 hh
    obtain ⟨t₃, h7, h8⟩ := sameToken_self (ex'.valid _ _ _ hi)
    rw [h2] at h7
    cases h7
    have e1 := (ex'.access _ _).mpr ⟨t', g', rfl, h4, rfl⟩
    have e2 := (ex'.access _ _).mpr ⟨t, g, rfl, hi, rfl⟩
    rw [← h3, h8, e2] at e1
    have := congrArg ServerCredential.expiresAt (Option.some.inj e1)
    exact le_of_le_of_eq h5 this.symm
  · intro hle
    obtain ⟨st', rfl, ex'⟩ := history_state h0 hh
    exact ⟨required, _, t, g, hc, sameToken_self (ex'.valid _ _ _ hi), hi, hle, hs⟩

/-- **C45.** Hence the token is accepted for at least as many seconds as announced, counted from the
first clock reading of the call that handed it out (if the clock does not run backwards). -/
theorem C45_seconds (h0 : Started s₀) {new old : List Event} {e : Event} {S : Shared Server}
    (hh : History s₀ (new ++ e :: old) S) {t : HS256Token} (ht : Hands e .access t)
    (hlife : 0 ≤ s₀.config.accessTokenLifespan) (hclock : e.call.clock 0 ≤ e.call.clock 1) :
    ∃ g, InForce s₀.config (e :: old) .access t g ∧
      ((∀ e' ∈ new, ¬ Ends s₀.config e' .access t g) →
        ∀ c required, Presents c required t.string → Within required g.scope →
          c.clock 0 ≤ e.call.clock 0 + s₀.config.accessTokenLifespan.tdiv second * second →
          (step S c).1 = .admitted) := by
  obtain ⟨n, g, hn, hg, hacc⟩ := C45_accepted h0 hh ht
  refine ⟨g, hg, ?_⟩
  intro hends c required hc hs hle
  refine (hacc hends c required hc hs).mpr ?_
  have h1 : e.call.clock 0 ≤ e.call.clock n := by
    obtain rfl | rfl : n = 0 ∨ n = 1 := by omega
    · exact Int.le_refl _
    · exact hclock
  have h2 : s₀.config.accessTokenLifespan.tdiv second * second ≤ s₀.config.accessTokenLifespan := by
    rw [Int.tdiv_eq_ediv_of_nonneg hlife]
    exact Int.ediv_mul_le _ (by decide)
  exact Int.le_trans hle (Int.add_le_add h1 h2)

/-- Non-vacuity: see `C28_usable` for the access token of the eighth event. -/
example : 0 ≤ Demo.server.config.accessTokenLifespan ∧
    Demo.server.config.accessTokenLifespan.tdiv second = 3600 ∧
    Demo.e8.call.clock 0 ≤ Demo.e8.call.clock 1 ∧
    (Demo.present Demo.a8.string (some [b!"bar"]) 4670).clock 0 ≤ Demo.e8.call.clock 0 + 3600 * second := by
  decide +kernel

end OAuth2

import Verif.Lemmas.Exact

/-! The invariant of Verif/Lemmas/Exact.lean holds after every history. -/

namespace OAuth2

open Spec

set_option linter.unusedSimpArgs false

variable {cfg : ServerConfig} {h : List Event} {s : Server} {c : Call} {r : Request}

theorem sanitize_unknown : sanitize b!"unknown authorization code" = b!"unknown authorization code" := by
  decide +kernel

theorem sanitize_wrong : sanitize b!"wrong client" = b!"wrong client" := by
  decide +kernel

theorem replaced_ascii {s t : Str} (h : Replaced s t) (ht : ∀ x ∈ t, x < 0x80) : s = t := by
  induction h with
  | nil => rfl
  | char _ _ ih => rw [ih fun x hx => ht x (List.mem_append_right _ hx)]
  | bad _ _ _ => exact absurd (ht 0xEF (by simp)) (by decide)

theorem sanitize_ascii_inv {d lit : Str} (hl : ∀ x ∈ lit, x < 0x80) (h : lit = sanitize d) :
    d = lit := by
  subst h
  exact replaced_ascii (sanitize_replaced d) hl

theorem mint_valid {cfg : ServerConfig} {w : Bool} {coins : Str} {a : HS256Token}
    {b : Option HS256Token} (h : Server.mint cfg w coins = some (a, b)) :
    a = HS256Token.fromKey cfg.secret a.key ∧
      ∀ t, b = some t → t = HS256Token.fromKey cfg.secret t.key := by
  unfold Server.mint at h
  cases hg : Server.gen cfg coins with
  | none => rw [hg] at h; cases h
  | some x =>
    obtain ⟨a', rest⟩ := x
    rw [hg] at h
    have ha : a' = HS256Token.fromKey cfg.secret a'.key := by
      rw [(Server.gen_some hg).2.2.1]; rfl
    cases w with
    | false =>
      simp only [Bool.false_eq_true, if_false, Option.some.injEq, Prod.mk.injEq] at h
      rw [← h.1, ← h.2]
      exact ⟨ha, by intro t ht; cases ht⟩
    | true =>
      simp only [if_true] at h
      cases hg2 : Server.gen cfg rest with
      | none => rw [hg2] at h; cases h
      | some y =>
        obtain ⟨b', r⟩ := y
        rw [hg2] at h
        simp only [Option.some.injEq, Prod.mk.injEq] at h
        rw [← h.1, ← h.2]
        refine ⟨ha, ?_⟩
        intro t ht
        cases ht
        rw [(Server.gen_some hg2).2.2.1]; rfl

/-- An error response with this description, if it is one the specification looks at. -/
theorem error_description {e : Error} {res : Response} (hb : res.body = e.json ++ [0x0A]) {v : Str}
    (hv : ∀ x ∈ v, x < 0x80) (hm : JsonMember res b!"error_description" v) : e.description = v :=
  sanitize_ascii_inv hv ((error_jsonMember hb v).2.1.mp hm).2

/-- Refusals. -/
theorem exact_refused (ex : Exact cfg h s) (hop : c.op = .serve r) {e : Error}
    (hs : 400 ≤ e.status ∧ e.status ≤ 403) (hr : e.redirectURI = [])
    (hh : e.headers = [] ∨ e.headers = [(b!"WWW-Authenticate", b!"Basic realm=\"OAuth2\"")])
    (hcode : Server.lastSegment r.path = b!"token" → e.description = b!"unknown authorization code" →
        ∀ rq c, parseTokenRequest r = .ok rq → rq.grantType = AuthorizationCodeGrantType →
          HS256Token.parse s.config.secret rq.code = .ok c →
          s.authorizationCodes.get? c.signatureString = none)
    (hrev : Server.lastSegment r.path = b!"revoke" → e.description = b!"wrong client" →
        ∀ rq t, parseRevocationRequest r = .ok rq →
          HS256Token.parse s.config.secret rq.token = .ok t →
          ∀ c, s.accessTokens.get? t.signatureString = some c → c.clientID ≠ rq.clientID) :
    Exact cfg (⟨c, (Reply.error e).answer⟩ :: h) s := by
  have hans : (Reply.error e).answer = .answered ((Reply.error e).render {}).result := rfl
  have hres := error_result hr
  have hbody : ((Reply.error e).render {}).result.body = e.json ++ [0x0A] := by rw [hres]
  have hstat : ((Reply.error e).render {}).result.statusCode ≠ 200 := by
    rw [hres]
    show e.status.toNat ≠ 200
    omega
  have hloc : ((Reply.error e).render {}).result.header.all b!"Location" = [] := by
    rw [hres]
    exact (errorHeaders_location hh).2
  rw [hans]
  have hq : Quiet cfg ⟨c, .answered ((Reply.error e).render {}).result⟩ := by
    by_cases h1 : Server.lastSegment r.path = b!"authorize"
    · exact quiet_authorize hop h1 hloc
    by_cases h2 : Server.lastSegment r.path = b!"token"
    · exact quiet_token_error hop h2 hbody
    by_cases h3 : Server.lastSegment r.path = b!"revoke"
    · exact quiet_revoke hop h3 hstat
    exact (silent_of_path hop h1 h2 h3).quiet
  refine ex.same hq ?_ ?_ rfl rfl rfl rfl
  · rintro sig x ⟨rq, res, c', h1, h2, h3, rfl, h4, h5⟩ hx
    obtain ⟨hp, hpq, hx'⟩ := (tokenCall_iff hop).mp h1
    cases hx'
    have := hcode hp (error_description hbody (by decide) h5) rq c' hpq h2 (ex.config ▸ h3)
    rw [this] at hx
    cases hx
  · rintro t client cred ⟨rq, res, h1, ⟨t', h2, h3⟩, rfl, h4⟩ hx
    obtain ⟨hp, hpq, hx'⟩ := (revocationCall_iff hop).mp h1
    cases hx'
    rw [← h3] at hx
    exact hrev hp (error_description hbody (by decide) h4) rq t' hpq (ex.config ▸ h2) cred hx

theorem no_replay_json {res : Response} (hn : ∀ v, ¬ JsonMember res b!"error" v) (sig : Str)
    (hop : c.op = .serve r) :
    ¬ Replays cfg ⟨c, .answered res⟩ sig := by
  rintro ⟨rq, res', c', h1, _, _, _, h4, _⟩
  obtain ⟨_, _, hx⟩ := (tokenCall_iff hop).mp h1
  cases hx
  exact hn _ h4

/-- The answer of a token response that is no redirect. -/
theorem exact_token {rq : TokenRequest} (hop : c.op = .serve r)
    (hfor : Server.TokenRequestFor s r rq) {a b : HS256Token} {scope : Scope} {red use : Option Str}
    (hred : ∀ sig, (∃ t, rq.grantType = b!"authorization_code" ∧
      HS256Token.parse cfg.secret rq.code = .ok t ∧ t.signatureString = sig) ↔ red = some sig)
    (huse : ∀ sig, (∃ t, rq.grantType = b!"refresh_token" ∧
      HS256Token.parse cfg.secret rq.refreshToken = .ok t ∧ t.signatureString = sig) ↔
        use = some sig) :
    let e : Event := ⟨c, (Reply.token (Server.grantResponse s.config a (some b) scope)).answer⟩
    Obs cfg e (some a) (some b) none red use none ∧ (∃ res, TokenCall e rq res) ∧
      (∀ sig, ¬ Replays cfg e sig) ∧ ∀ t client, ¬ HalfRevokes cfg e t client := by
  intro e
  have hans : e = ⟨c, .answered ((Reply.token (Server.grantResponse s.config a (some b)
    scope)).render {}).result⟩ := rfl
  have hres := token_result (t := Server.grantResponse s.config a (some b) scope) rfl
  rw [hans, hres]
  refine ⟨?_, ?_, ?_, ?_⟩
  · exact obs_token_response hop hfor.path hfor.parsed rfl rfl rfl rfl hred huse
  · exact ⟨_, (tokenCall_iff hop).mpr ⟨hfor.path, hfor.parsed, rfl⟩⟩
  · intro sig
    exact no_replay_json (fun v => (token_jsonMember rfl rfl v).2.2.1) sig hop
  · exact no_half_path hop (by rw [hfor.path]; decide)

/-- An error that is sent to the redirect URI hands out nothing. -/
theorem quiet_redirect_error {rq : AuthorizationRequest} {e : Error} (hop : c.op = .serve r)
    (hp : Server.lastSegment r.path = b!"authorize") (hm : r.method ≠ b!"GET")
    (hq : parseAuthorizationRequest r = .ok rq) (hh : e.headers = []) (hn : e.name ≠ []) :
    Quiet cfg ⟨c, (Reply.error (e.setRedirect rq.redirectURI rq.state
        (rq.responseType = TokenResponseType))).answer⟩ := by
  obtain ⟨hne, u, hu⟩ := authorizationRequest_uri hq
  obtain ⟨e', he'⟩ : ∃ e', e' = e.setRedirect rq.redirectURI rq.state
    (rq.responseType = TokenResponseType) := ⟨_, rfl⟩
  rw [← he']
  have h1 : e'.redirectURI = rq.redirectURI := by rw [he']; rfl
  have h2 : e'.useFragment = decide (rq.responseType = TokenResponseType) := by rw [he']; rfl
  have h3 : e'.headers = [] := by rw [he']; exact hh
  have h4 : e'.name ≠ [] := by rw [he']; exact hn
  have hmap : e'.map ≠ [] := by
    unfold Error.map
    simp [h4]
  obtain ⟨L, hL⟩ := redirectLocation_isSome hu e'.map (decide (rq.responseType = TokenResponseType))
  have hres : (Reply.error e').answer = .answered (redirectTo {} rq.redirectURI e'.map
      (decide (rq.responseType = TokenResponseType))).result := by
    show Answer.answered (((if e'.redirectURI ≠ [] then redirectTo { header := e'.addHeaders [] }
      e'.redirectURI e'.map e'.useFragment else _ : Recorder))).result = _
    rw [if_pos (by rw [h1]; exact hne), h1, h2]
    unfold Error.addHeaders
    rw [h3]
    rfl
  have hloc := (redirectTo_result (h := []) rfl hL).1
  rw [hres]
  apply obs_authorize hop hp hm hq
  · intro t
    constructor
    · rintro ⟨ht, hf⟩
      have hd : decide (rq.responseType = TokenResponseType) = true := by
        rw [ht]; decide
      rw [hd] at hL hloc hf
      rw [fragmentParameter_iff e'.map_nodup hmap hL hloc, e'.map_get? (by decide)] at hf
      cases hf
    · intro hx; cases hx
  · intro t
    constructor
    · rintro ⟨ht, hf⟩
      have hd : decide (rq.responseType = TokenResponseType) = false := by
        rw [ht]; decide
      rw [hd] at hL hloc hf
      rw [addedParameter_iff e'.map_nodup hmap hL hloc, e'.map_get? (by decide)] at hf
      cases hf
    · intro hx; cases hx

/-- Serving a request preserves the invariant. -/
theorem exact_serve (ex : Exact cfg h s) (hop : c.op = .serve r) :
    Exact cfg (⟨c, (s.handle r c.local).1.answer⟩ :: h) (s.handle r c.local).2 := by
  have hserved := Server.served s r c.local
  generalize (s.handle r c.local).1 = reply at hserved ⊢
  generalize (s.handle r c.local).2 = s' at hserved ⊢
  cases hserved with
  | notFound h1 h2 h3 h4 =>
    have hsil : Silent ⟨c, Reply.notFound.answer⟩ := silent_of_path hop h1 h2 h4
    exact ex.same hsil.quiet (fun _ _ hh => (hsil.no_replay _ hh).elim)
      (fun _ _ _ hh => (hsil.no_half _ _ hh).elim) rfl rfl rfl rfl
  | refused e hs hr hp hh hcode hrev => exact exact_refused ex hop hs hr hh hcode hrev
  | crash hs hp =>
    have hsil : Silent ⟨c, Reply.crash.answer⟩ := silent_of_answer (by intro res hh; cases hh)
    exact ex.same hsil.quiet (fun _ _ hh => (hsil.no_replay _ hh).elim)
      (fun _ _ _ hh => (hsil.no_half _ _ hh).elim) rfl rfl rfl rfl
  | notice rq hf hm =>
    refine ex.same (quiet_authorize hop hf.path ?_)
      (fun _ _ hh => (no_replay_path hop (by rw [hf.path]; decide) _ hh).elim)
      (fun _ _ _ hh => (no_half_path hop (by rw [hf.path]; decide) _ _ hh).elim) rfl rfl rfl rfl
    rw [notice_result]
    rfl
  | introspect rq hp hq hc t ht ha hr i hi =>
    have hsil : Silent ⟨c, (Reply.introspection i).answer⟩ :=
      silent_of_path hop (by rw [hp]; decide) (by rw [hp]; decide) (by rw [hp]; decide)
    exact ex.same hsil.quiet (fun _ _ hh => (hsil.no_replay _ hh).elim)
      (fun _ _ _ hh => (hsil.no_half _ _ hh).elim) rfl rfl rfl rfl
  | refusedRedirect rq hf hm e he =>
    obtain ⟨hne, u, hu⟩ := authorizationRequest_uri hf.parsed
    refine ex.same (quiet_redirect_error hop hf.path hm hf.parsed ?_ ?_)
      (fun _ _ hh => (no_replay_path hop (by rw [hf.path]; decide) _ hh).elim)
      (fun _ _ _ hh => (no_half_path hop (by rw [hf.path]; decide) _ _ hh).elim) rfl rfl rfl rfl
    · rcases he with rfl | rfl <;> rfl
    · rcases he with rfl | rfl <;> decide
  | implicit rq hf hm ht hs hu a hg =>
    obtain ⟨hne, u, huri⟩ := authorizationRequest_uri hf.parsed
    obtain ⟨tr, htr⟩ : ∃ tr, tr = (Server.grantResponse s.config a none rq.scope).setRedirect
      rq.redirectURI rq.state := ⟨_, rfl⟩
    rw [← htr]
    have hta : tr.accessToken = a.string := by rw [htr]; rfl
    have htu : tr.redirectURI = rq.redirectURI := by rw [htr]; rfl
    obtain ⟨L, hL⟩ := redirectLocation_isSome huri tr.map true
    have hres : (Reply.token tr).answer = .answered (redirectTo {} rq.redirectURI tr.map true).result := by
      show Answer.answered ((if tr.redirectURI ≠ [] then _ else _ : Recorder)).result = _
      rw [if_pos (by rw [htu]; exact hne), htu]
    have hloc := (redirectTo_result (h := []) rfl hL).1
    have o : Obs cfg ⟨c, (Reply.token tr).answer⟩ (some a) none none none none none := by
      rw [hres]
      apply obs_authorize hop hf.path hm hf.parsed
      · intro t
        rw [fragmentParameter_iff tr.map_nodup (by simp [TokenResponse.map]) hL hloc,
          tr.map_get?, hta]
        simp only [Option.some.injEq]
        exact ⟨fun h => string_injective h.2, fun h => ⟨ht, by rw [h]⟩⟩
      · intro t
        rw [ht]
        simp [TokenResponseType]
    have hcall : AuthorizationCall ⟨c, (Reply.token tr).answer⟩ rq (Server.formUser r)
        (redirectTo {} rq.redirectURI tr.map true).result := by
      rw [authorizationCall_iff hop]
      exact ⟨hf.path, hm, hf.parsed, rfl, hres⟩
    have hrep := fun sig => no_replay_path (cfg := cfg) (x := (Reply.token tr).answer) hop
      (by rw [hf.path]; decide) sig
    have hhalf := fun t cl => no_half_path (cfg := cfg) (x := (Reply.token tr).answer) hop
      (by rw [hf.path]; decide) t cl
    obtain ⟨ev, hev⟩ : ∃ ev : Event, ev = ⟨c, (Reply.token tr).answer⟩ := ⟨_, rfl⟩
    rw [← hev] at o hcall ⊢
    simp only [← hev] at hrep hhalf
    have hcl : ev.call = c := by rw [hev]
    refine ex.grant o hrep hhalf (g := fun k => {
          client := rq.clientID, user := Server.formUser r, scope := rq.scope,
          expires := expiry cfg ev 0 .access }) ?_ rfl ?_ rfl ?_ ?_ ?_ ?_ ?_
    · intro k t g'
      rw [issued_authorization hcall]
      constructor
      · exact fun h => ⟨h.1, h.2.2⟩
      · rintro ⟨h1, h2⟩
        refine ⟨h1, ?_, h2⟩
        cases k
        · rfl
        · rw [o.refresh] at h1; cases h1
    · show s.accessTokens.set _ _ = _
      rw [ex.config]; unfold expiry; rw [hcl]; rfl
    · exact holdsCodes_same ex.codes o
    · exact fun sig x hx => ⟨x, hx⟩
    · exact (mint_valid (ex.config ▸ hg)).1
    · exact (mint_valid (ex.config ▸ hg)).2
    · exact fun k hk => absurd rfl hk
  | code rq hf hm ht hs hu x rest hg =>
    obtain ⟨hne, u, huri⟩ := authorizationRequest_uri hf.parsed
    obtain ⟨cr, hcr⟩ : ∃ cr : CodeResponse, cr =
      { code := x.string, redirectURI := rq.redirectURI, state := rq.state } := ⟨_, rfl⟩
    rw [← hcr]
    have hta : cr.code = x.string := by rw [hcr]
    have htu : cr.redirectURI = rq.redirectURI := by rw [hcr]
    obtain ⟨L, hL⟩ := redirectLocation_isSome huri cr.map false
    have hres : (Reply.code cr).answer = .answered (redirectTo {} rq.redirectURI cr.map false).result := by
      show Answer.answered (redirectTo {} cr.redirectURI cr.map false).result = _
      rw [htu]
    have hloc := (redirectTo_result (h := []) rfl hL).1
    have o : Obs cfg ⟨c, (Reply.code cr).answer⟩ none none (some x) none none none := by
      rw [hres]
      apply obs_authorize hop hf.path hm hf.parsed
      · intro t
        rw [ht]
        simp [CodeResponseType]
      · intro t
        rw [addedParameter_iff cr.map_nodup (by simp [CodeResponse.map]) hL hloc,
          cr.map_get?, hta]
        simp only [Option.some.injEq]
        exact ⟨fun h => string_injective h.2, fun h => ⟨ht, by rw [h]⟩⟩
    have hcall : AuthorizationCall ⟨c, (Reply.code cr).answer⟩ rq (Server.formUser r)
        (redirectTo {} rq.redirectURI cr.map false).result := by
      rw [authorizationCall_iff hop]
      exact ⟨hf.path, hm, hf.parsed, rfl, hres⟩
    have hrep := fun sig => no_replay_path (cfg := cfg) (x := (Reply.code cr).answer) hop
      (by rw [hf.path]; decide) sig
    have hhalf := fun t cl => no_half_path (cfg := cfg) (x := (Reply.code cr).answer) hop
      (by rw [hf.path]; decide) t cl
    obtain ⟨ev, hev⟩ : ∃ ev : Event, ev = ⟨c, (Reply.code cr).answer⟩ := ⟨_, rfl⟩
    rw [← hev] at o hcall ⊢
    simp only [← hev] at hrep hhalf
    have hcl : ev.call = c := by rw [hev]
    constructor
    · exact ex.config
    · exact ex.nodupA
    · exact ex.nodupR
    · refine holds_step ex.access (fun _ _ => False) ?_ ?_
      · intro t g hi
        rw [ends_access o]
        simp [hrep, hhalf]
      · intro sig cred
        simp [not_issued rfl rfl o]
    · refine holds_step ex.refresh (fun _ _ => False) ?_ ?_
      · intro t g hi
        rw [ends_refresh o]
        simp [hrep, hhalf]
      · intro sig cred
        simp [not_issued rfl rfl o]
    · intro sig cred
      show (GoMap.set _ _ _).get? _ = _ ↔ _
      rw [GoMap.get?_set]
      simp only [code_cons, o.code, o.redeems, reduceCtorEq, and_false, false_or, not_false_eq_true,
        true_and, Option.some.injEq, forall_eq']
      by_cases hsig : sig = x.signatureString
      · rw [if_pos hsig]
        constructor
        · intro hcred
          cases hcred
          refine ⟨x, _, false, hsig.symm, .inl ⟨rq, _, _, hcall, ht, rfl, rfl, rfl⟩, ?_⟩
          rw [ex.config, hcl]
          rfl
        · rintro ⟨c', g, b, h1, ⟨rq', u', res', h2, h3, rfl, rfl, rfl⟩ | ⟨h2, h3⟩, rfl⟩
          · obtain ⟨rfl, rfl, rfl⟩ := authorizationCall_unique hcall h2
            rw [ex.config, hcl]
            rfl
          · exact absurd (h1.trans hsig).symm h3
      · rw [if_neg hsig, ex.codes]
        constructor
        · rintro ⟨c', g, b, rfl, h2, rfl⟩
          exact ⟨c', g, b, rfl, .inr ⟨h2, fun h => hsig h.symm⟩, rfl⟩
        · rintro ⟨c', g, b, rfl, ⟨rq', u', res', h2, h3, rfl, rfl, rfl⟩ | ⟨h2, h3⟩, rfl⟩
          · exact absurd rfl hsig
          · exact ⟨c', g, b, rfl, h2, rfl⟩
    · intro k t g hi ho
      show ∃ y, (GoMap.set _ _ _).get? _ = _
      rcases inForce_cons.mp hi with hi | ⟨hi, _⟩
      · exact (not_issued rfl rfl o k t g hi).elim
      · obtain ⟨y, hy⟩ := ex.origin k t g hi ho
        rw [GoMap.get?_set]
        split
        · exact ⟨_, rfl⟩
        · exact ⟨y, hy⟩
    · exact valid_same ex.valid (not_issued rfl rfl o)
    · intro z g b hz
      rcases code_cons.mp hz with ⟨_, _, _, _, _, h1, _⟩ | ⟨_, h1, _⟩ | ⟨h1, _⟩
      · rw [o.code] at h1
        cases h1
        have := (Server.gen_some (ex.config ▸ hg)).2.2.1
        rw [this]
        rfl
      · exact ex.validCode _ _ _ h1
      · exact ex.validCode _ _ _ h1
  | password rq hf ht hs hu a b hg =>
    obtain ⟨o, ⟨res, hcall⟩, hrep, hhalf⟩ := exact_token (cfg := cfg) (scope := rq.scope) hop hf
      (a := a) (b := b) (red := none) (use := none) (by rw [ht]; simp [PasswordGrantType])
      (by rw [ht]; simp [PasswordGrantType])
    obtain ⟨ev, hev⟩ : ∃ ev : Event, ev = ⟨c, (Reply.token
      (Server.grantResponse s.config a (some b) rq.scope)).answer⟩ := ⟨_, rfl⟩
    rw [← hev] at o hcall hrep hhalf ⊢
    have hcl : ev.call = c := by rw [hev]
    refine ex.grant o hrep hhalf (g := fun k => {
          client := rq.clientID, user := rq.username, scope := rq.scope,
          expires := expiry cfg ev 0 k }) ?_ rfl ?_ ?_ ?_ ?_ ?_ ?_ ?_
    · intro k t g'
      rw [issued_token hcall, ht]
      simp [PasswordGrantType]
    · show s.accessTokens.set _ _ = _
      rw [ex.config]; unfold expiry; rw [hcl]; rfl
    · show s.refreshTokens.set _ _ = _
      rw [ex.config]; unfold expiry; rw [hcl]; rfl
    · exact holdsCodes_same ex.codes o
    · exact fun sig x hx => ⟨x, hx⟩
    · exact (mint_valid (ex.config ▸ hg)).1
    · exact (mint_valid (ex.config ▸ hg)).2
    · exact fun k hk => absurd rfl hk
  | client rq hf ht hc hs a b hg =>
    obtain ⟨o, ⟨res, hcall⟩, hrep, hhalf⟩ := exact_token (cfg := cfg) (scope := rq.scope) hop hf
      (a := a) (b := b) (red := none) (use := none) (by rw [ht]; simp [ClientCredentialsGrantType])
      (by rw [ht]; simp [ClientCredentialsGrantType])
    obtain ⟨ev, hev⟩ : ∃ ev : Event, ev = ⟨c, (Reply.token
      (Server.grantResponse s.config a (some b) rq.scope)).answer⟩ := ⟨_, rfl⟩
    rw [← hev] at o hcall hrep hhalf ⊢
    have hcl : ev.call = c := by rw [hev]
    refine ex.grant o hrep hhalf (g := fun k => {
          client := rq.clientID, user := [], scope := rq.scope,
          expires := expiry cfg ev 0 k }) ?_ rfl ?_ ?_ ?_ ?_ ?_ ?_ ?_
    · intro k t g'
      rw [issued_token hcall, ht]
      simp [ClientCredentialsGrantType]
    · show s.accessTokens.set _ _ = _
      rw [ex.config]; unfold expiry; rw [hcl]; rfl
    · show s.refreshTokens.set _ _ = _
      rw [ex.config]; unfold expiry; rw [hcl]; rfl
    · exact holdsCodes_same ex.codes o
    · exact fun sig x hx => ⟨x, hx⟩
    · exact (mint_valid (ex.config ▸ hg)).1
    · exact (mint_valid (ex.config ▸ hg)).2
    · exact fun k hk => absurd rfl hk
  | replay rq hf ht x hc stored hst hu =>
    rw [ex.config] at hc
    have hres : (Reply.error (invalidGrant b!"unknown authorization code")).answer =
        .answered ((Reply.error (invalidGrant b!"unknown authorization code")).render {}).result := rfl
    have hbody : ((Reply.error (invalidGrant b!"unknown authorization code")).render {}).result.body =
        (invalidGrant b!"unknown authorization code").json ++ [0x0A] := rfl
    have q : Quiet cfg ⟨c, (Reply.error (invalidGrant b!"unknown authorization code")).answer⟩ :=
      quiet_token_error hop hf.path hbody
    have hhalf := fun t cl => no_half_path (cfg := cfg)
      (x := (Reply.error (invalidGrant b!"unknown authorization code")).answer) hop
      (by rw [hf.path]; decide) t cl
    have hrep : ∀ sig, Replays cfg
        ⟨c, (Reply.error (invalidGrant b!"unknown authorization code")).answer⟩ sig ↔
        sig = x.signatureString := by
      intro sig
      constructor
      · rintro ⟨rq', res, c', h1, h2, h3, rfl, _, _⟩
        obtain ⟨_, hpq, _⟩ := (tokenCall_iff hop).mp h1
        rw [hf.parsed] at hpq
        cases hpq
        rw [hc] at h3
        cases h3
        rfl
      · rintro rfl
        refine ⟨rq, _, x, (tokenCall_iff hop).mpr ⟨hf.path, hf.parsed, hres⟩, ht, hc, rfl, ?_, ?_⟩
        · rw [(error_jsonMember hbody _).1]
          exact (sanitize_ascii (by decide)).symm
        · rw [(error_jsonMember hbody _).2.1]
          exact ⟨by decide, sanitize_unknown.symm⟩
    have hsig := parsed_signature_ne_nil hc
    obtain ⟨ev, hev⟩ : ∃ ev : Event, ev =
      ⟨c, (Reply.error (invalidGrant b!"unknown authorization code")).answer⟩ := ⟨_, rfl⟩
    rw [← hev] at q ⊢
    simp only [← hev] at hrep hhalf
    constructor
    · exact ex.config
    · exact nodup_deleteByCode ex.nodupA _
    · exact nodup_deleteByCode ex.nodupR _
    · refine holds_step ex.access (fun _ cred => cred.code = x.signatureString) ?_ ?_
      · intro t g hi
        rw [ends_access q]
        simp only [reduceCtorEq, false_and, exists_false, false_or, hrep, hhalf, or_false]
        constructor
        · exact fun h => h.2
        · exact fun h => ⟨fun h' => hsig (h.symm.trans h'), h⟩
      · intro sig cred
        simp only [not_issued rfl rfl q, false_and, and_false, exists_false, false_or]
        exact get?_deleteByCode ex.nodupA _ _ _
    · refine holds_step ex.refresh (fun _ cred => cred.code = x.signatureString) ?_ ?_
      · intro t g hi
        rw [ends_refresh q]
        simp only [reduceCtorEq, false_and, exists_false, false_or, hrep, hhalf, or_false]
        constructor
        · exact fun h => h.2
        · exact fun h => ⟨fun h' => hsig (h.symm.trans h'), h⟩
      · intro sig cred
        simp only [not_issued rfl rfl q, false_and, and_false, exists_false, false_or]
        exact get?_deleteByCode ex.nodupR _ _ _
    · exact holdsCodes_same ex.codes q
    · intro k t g hi
      rcases inForce_cons.mp hi with hi | ⟨hi, _⟩
      · exact (not_issued rfl rfl q k t g hi).elim
      · exact ex.origin k t g hi
    · exact valid_same ex.valid (not_issued rfl rfl q)
    · exact validCode_same ex.validCode q
  | exchange rq hf ht x hc stored hst hu hx ho hr a b hg =>
    rw [ex.config] at hc
    obtain ⟨o, ⟨res, hcall⟩, hrep, hhalf⟩ := exact_token (cfg := cfg) (scope := stored.scope) hop hf
      (a := a) (b := b) (red := some x.signatureString) (use := none)
      (by intro sig; rw [ht, hc]; simp [AuthorizationCodeGrantType])
      (by rw [ht]; simp [AuthorizationCodeGrantType])
    obtain ⟨ev, hev⟩ : ∃ ev : Event, ev = ⟨c, (Reply.token
      (Server.grantResponse s.config a (some b) stored.scope)).answer⟩ := ⟨_, rfl⟩
    rw [← hev] at o hcall hrep hhalf ⊢
    have hcl : ev.call = c := by rw [hev]
    obtain ⟨y, gc, bc, hys, hcode, hstored⟩ := (ex.codes _ _).mp hst
    have hbc : bc = false := by rw [hstored] at hu; exact hu
    subst hbc
    have hsame : SameToken cfg rq.code y := ⟨x, hc, hys.symm⟩
    refine ex.grant o hrep hhalf (g := fun k => {
          client := rq.clientID, user := stored.username, scope := stored.scope,
          expires := expiry cfg ev 1 k, origin := x.signatureString }) ?_ rfl ?_ ?_ ?_ ?_ ?_ ?_ ?_
    · intro k t g'
      rw [issued_token hcall, ht]
      constructor
      · rintro ⟨h0, ⟨h1, _⟩ | ⟨h1, _⟩ | ⟨_, z, gz, h2, ⟨x', h3, h4⟩, rfl⟩ | ⟨h1, _⟩⟩
        · exact absurd h1 (by decide)
        · exact absurd h1 (by decide)
        · rw [hc] at h3
          cases h3
          have hz := (ex.codes x.signatureString (gz.cred false)).mpr ⟨z, gz, false, h4.symm, h2, rfl⟩
          rw [hst] at hz
          refine ⟨h0, ?_⟩
          simp only [Grant.mk.injEq]
          have hz := (Option.some.inj hz).symm
          refine ⟨?_, ?_, ?_, trivial, h4.symm⟩
          · rw [← ho, ← hz]; rfl
          · rw [← hz]; rfl
          · rw [← hz]; rfl
        · exact absurd h1 (by decide)
      · rintro ⟨h0, rfl⟩
        refine ⟨h0, .inr (.inr (.inl ⟨rfl, y, gc, hcode, hsame, ?_⟩))⟩
        simp only [Grant.mk.injEq]
        refine ⟨?_, ?_, ?_, trivial, hys.symm⟩
        · rw [← ho, hstored]; rfl
        · rw [hstored]; rfl
        · rw [hstored]; rfl
    · show s.accessTokens.set _ _ = _
      rw [ex.config]; unfold expiry; rw [hcl]; rfl
    · show s.refreshTokens.set _ _ = _
      rw [ex.config]; unfold expiry; rw [hcl]; rfl
    · intro sig cred
      show (s.authorizationCodes.update x.signatureString fun c => { c with used := true }).get? sig = _ ↔ _
      rw [GoMap.get?_update]
      simp only [code_cons, o.code, o.redeems, reduceCtorEq, Option.some.injEq, false_and, and_false,
        exists_false, false_or, false_imp_iff, forall_const, and_true]
      by_cases hsig : sig = x.signatureString
      · subst hsig
        rw [if_pos rfl, hst]
        simp only [Option.map_some, Option.some.injEq]
        constructor
        · rintro rfl
          refine ⟨y, gc, true, hys, .inl ⟨rfl, hcode, hys.symm⟩, ?_⟩
          rw [hstored]
          rfl
        · rintro ⟨z, gz, bz, h1, ⟨rfl, h2, h3⟩ | ⟨h2, h3⟩, rfl⟩
          · have hz := (ex.codes x.signatureString (gz.cred false)).mpr ⟨z, gz, false, h1, h2, rfl⟩
            rw [hst] at hz
            rw [Option.some.inj hz]
            rfl
          · exact absurd h1.symm h3.1
      · rw [if_neg hsig, ex.codes]
        constructor
        · rintro ⟨z, gz, bz, rfl, h2, rfl⟩
          exact ⟨z, gz, bz, rfl, .inr ⟨h2, fun h => hsig h.symm, fun _ => trivial⟩, rfl⟩
        · rintro ⟨z, gz, bz, rfl, ⟨rfl, h2, h3⟩ | ⟨h2, h3⟩, rfl⟩
          · exact absurd h3.symm hsig
          · exact ⟨z, gz, bz, rfl, h2, rfl⟩
    · intro sig z hz
      show ∃ z, (s.authorizationCodes.update x.signatureString fun c => { c with used := true }).get? sig = _
      rw [GoMap.get?_update, hz]
      split
      · exact ⟨_, rfl⟩
      · exact ⟨_, rfl⟩
    · exact (mint_valid (ex.config ▸ hg)).1
    · exact (mint_valid (ex.config ▸ hg)).2
    · intro k _
      show ∃ z, (s.authorizationCodes.update x.signatureString fun c => { c with used := true }).get? x.signatureString = _
      rw [GoMap.get?_update, if_pos rfl, hst]
      exact ⟨_, rfl⟩
  | refresh rq hf ht x hc stored hst hx ho scope hsc hs a b hg =>
    rw [ex.config] at hc
    obtain ⟨o, ⟨res, hcall⟩, hrep, hhalf⟩ := exact_token (cfg := cfg) (scope := scope) hop hf
      (a := a) (b := b) (red := none) (use := some x.signatureString)
      (by rw [ht]; simp [RefreshTokenGrantType])
      (by intro sig; rw [ht, hc]; simp [RefreshTokenGrantType])
    obtain ⟨ev, hev⟩ : ∃ ev : Event, ev = ⟨c, (Reply.token
      (Server.grantResponse s.config a (some b) scope)).answer⟩ := ⟨_, rfl⟩
    rw [← hev] at o hcall hrep hhalf ⊢
    have hcl : ev.call = c := by rw [hev]
    obtain ⟨y, gy, hys, hy, hstored⟩ := (ex.refresh _ _).mp hst
    have hsame : SameToken cfg rq.refreshToken y := ⟨x, hc, hys.symm⟩
    obtain ⟨g, hg'⟩ : ∃ g : Kind → Grant, g = fun k => {
          client := rq.clientID, user := stored.username, scope := scope,
          expires := expiry cfg ev 1 k } := ⟨_, rfl⟩
    have hiss : ∀ k t g', Issued cfg h ev k t g' ↔
        Hands ev k t ∧ (k = .refresh → t.signatureString ≠ x.signatureString) ∧ g' = g k := by
      intro k t g'
      rw [issued_token hcall, ht]
      constructor
      · rintro ⟨h0, ⟨h1, _⟩ | ⟨h1, _⟩ | ⟨h1, _⟩ | ⟨_, z, gz, h2, ⟨x', h3, h4⟩, h5, rfl⟩⟩
        · exact absurd h1 (by decide)
        · exact absurd h1 (by decide)
        · exact absurd h1 (by decide)
        · rw [hc] at h3
          cases h3
          have hz := (ex.refresh x.signatureString gz.cred).mpr ⟨z, gz, h4.symm, h2, rfl⟩
          rw [hst] at hz
          have hz := (Option.some.inj hz).symm
          refine ⟨h0, fun hk => by rw [h4]; exact h5 hk, ?_⟩
          rw [hg']
          simp only [Grant.mk.injEq]
          refine ⟨?_, ?_, ?_, trivial, trivial⟩
          · rw [← ho, ← hz]; rfl
          · rw [← hz]; rfl
          · rw [hsc, ← hz]; rfl
      · rintro ⟨h0, h5, rfl⟩
        refine ⟨h0, .inr (.inr (.inr ⟨rfl, y, gy, hy, hsame, fun hk => by rw [hys]; exact h5 hk, ?_⟩))⟩
        rw [hg']
        simp only [Grant.mk.injEq]
        refine ⟨?_, ?_, ?_, trivial, trivial⟩
        · rw [← ho, hstored]; rfl
        · rw [hstored]; rfl
        · rw [hsc, hstored]; rfl
    have hga : (g .access).cred = {
        clientID := rq.clientID, username := stored.username, scope := scope,
        expiresAt := c.clock 1 + s.config.accessTokenLifespan } := by
      rw [hg', ex.config]; unfold expiry; rw [hcl]; rfl
    have hgr : (g .refresh).cred = {
        clientID := rq.clientID, username := stored.username, scope := scope,
        expiresAt := c.clock 2 + s.config.refreshTokenLifespan } := by
      rw [hg', ex.config]; unfold expiry; rw [hcl]; rfl
    constructor
    · exact ex.config
    · exact GoMap.nodup_set ex.nodupA _ _
    · exact GoMap.nodup_del (GoMap.nodup_set ex.nodupR _ _) _
    · refine holds_step ex.access (fun sig _ => sig = a.signatureString) ?_ ?_
      · intro t g' hi
        rw [ends_access o]
        simp only [Option.some.injEq, exists_eq_left', reduceCtorEq, hrep, hhalf, and_false, or_false]
        exact eq_comm
      · intro sig cred
        show (GoMap.set _ _ _).get? _ = _ ↔ _
        rw [GoMap.get?_set]
        simp only [hiss, o.access, Option.some.injEq, reduceCtorEq, false_imp_iff, true_and]
        by_cases hs : sig = a.signatureString
        · subst hs
          simp only [if_true, Option.some.injEq, not_true, and_false, or_false]
          constructor
          · rintro rfl; exact ⟨a, _, rfl, ⟨rfl, rfl⟩, hga.symm⟩
          · rintro ⟨t, g', _, ⟨rfl, rfl⟩, rfl⟩; exact hga.symm
        · simp only [if_neg hs, hs, not_false_eq_true, and_true]
          constructor
          · exact .inr
          · rintro (⟨t, g', rfl, ⟨rfl, _⟩, _⟩ | h)
            · exact absurd rfl hs
            · exact h
    · refine holds_step ex.refresh
        (fun sig _ => sig = b.signatureString ∨ sig = x.signatureString) ?_ ?_
      · intro t g' hi
        rw [ends_refresh o]
        simp only [Option.some.injEq, exists_eq_left', reduceCtorEq, hrep, hhalf, and_false, false_or]
        rw [@eq_comm _ b.signatureString, @eq_comm _ x.signatureString]
      · intro sig cred
        show (GoMap.del (GoMap.set _ _ _) _).get? _ = _ ↔ _
        rw [GoMap.get?_del, GoMap.get?_set]
        simp only [hiss, o.refresh, Option.some.injEq, true_imp_iff]
        by_cases hsx : sig = x.signatureString
        · subst hsx
          simp only [if_true, reduceCtorEq, or_true, not_true, and_false, or_false, false_iff]
          rintro ⟨t, g', h1, ⟨rfl, h2, _⟩, _⟩
          exact h2 h1
        · rw [if_neg hsx]
          by_cases hs : sig = b.signatureString
          · subst hs
            simp only [if_true, Option.some.injEq, true_or, not_true, and_false, or_false]
            constructor
            · rintro rfl; exact ⟨b, _, rfl, ⟨rfl, hsx, rfl⟩, hgr.symm⟩
            · rintro ⟨t, g', _, ⟨rfl, _, rfl⟩, rfl⟩; exact hgr.symm
          · simp only [if_neg hs, hs, hsx, or_self, not_false_eq_true, and_true]
            constructor
            · exact .inr
            · rintro (⟨t, g', rfl, ⟨rfl, _⟩, _⟩ | h)
              · exact absurd rfl hs
              · exact h
    · exact holdsCodes_same ex.codes o
    · intro k t g' hi hor
      rcases inForce_cons.mp hi with hi | ⟨hi, _⟩
      · obtain ⟨_, _, rfl⟩ := (hiss k t g').mp hi
        rw [hg'] at hor
        exact absurd rfl hor
      · exact ex.origin k t g' hi hor
    · intro k t g' hi
      rcases inForce_cons.mp hi with hi | ⟨hi, _⟩
      · have := hi.hands
        cases k
        · rw [o.access] at this; cases this; exact (mint_valid (ex.config ▸ hg)).1
        · rw [o.refresh] at this; exact (mint_valid (ex.config ▸ hg)).2 t this
      · exact ex.valid k t g' hi
    · exact validCode_same ex.validCode o
  | revoke rq hp hq hc t ht ha hr =>
    rw [ex.config] at ht
    have o : Obs cfg ⟨c, Reply.revoked.answer⟩ none none none none none (some t.signatureString) := by
      show Obs cfg ⟨c, .answered (Reply.revoked.render {}).result⟩ none none none none none _
      apply obs_revoke hop hp
      intro sig
      rw [revoked_result, hq]
      constructor
      · rintro ⟨rq', t', h1, h2, rfl, _⟩
        cases h1
        rw [ht] at h2
        cases h2
        rfl
      · intro hs
        cases hs
        exact ⟨rq, t, rfl, ht, rfl, rfl⟩
    have hrep := fun sig => no_replay_path (cfg := cfg) (x := Reply.revoked.answer) hop
      (by rw [hp]; decide) sig
    have hhalf : ∀ t cl, ¬ HalfRevokes cfg ⟨c, Reply.revoked.answer⟩ t cl := by
      rintro t cl ⟨rq', res, h1, _, _, h4⟩
      obtain ⟨_, _, hx⟩ := (revocationCall_iff hop).mp h1
      cases hx
      exact no_jsonMember rfl _ _ h4
    constructor
    · exact ex.config
    · exact GoMap.nodup_del ex.nodupA _
    · exact GoMap.nodup_del ex.nodupR _
    · refine holds_step ex.access (fun sig _ => sig = t.signatureString) ?_ ?_
      · intro t' g hi
        rw [ends_access o]
        simp only [reduceCtorEq, false_and, exists_false, false_or, hrep, hhalf, and_false, or_false,
          Option.some.injEq]
        exact eq_comm
      · intro sig cred
        show (GoMap.del _ _).get? _ = _ ↔ _
        rw [GoMap.get?_del]
        simp only [not_issued rfl rfl o, false_and, and_false, exists_false, false_or]
        by_cases hs : sig = t.signatureString <;> simp [hs]
    · refine holds_step ex.refresh (fun sig _ => sig = t.signatureString) ?_ ?_
      · intro t' g hi
        rw [ends_refresh o]
        simp only [reduceCtorEq, false_and, exists_false, false_or, hrep, hhalf, and_false, or_false,
          Option.some.injEq]
        exact eq_comm
      · intro sig cred
        show (GoMap.del _ _).get? _ = _ ↔ _
        rw [GoMap.get?_del]
        simp only [not_issued rfl rfl o, false_and, and_false, exists_false, false_or]
        by_cases hs : sig = t.signatureString <;> simp [hs]
    · exact holdsCodes_same ex.codes o
    · intro k t g hi
      rcases inForce_cons.mp hi with hi | ⟨hi, _⟩
      · exact (not_issued rfl rfl o k t g hi).elim
      · exact ex.origin k t g hi
    · exact valid_same ex.valid (not_issued rfl rfl o)
    · exact validCode_same ex.validCode o
  | revokeHalf rq hp hq hc t ht ca ha hao cr hr hro =>
    rw [ex.config] at ht
    have hbody : ((Reply.error (invalidClient b!"wrong client")).render {}).result.body =
        (invalidClient b!"wrong client").json ++ [0x0A] := rfl
    have o : Quiet cfg ⟨c, (Reply.error (invalidClient b!"wrong client")).answer⟩ :=
      quiet_revoke hop hp (by decide +kernel)
    have hrep := fun sig => no_replay_path (cfg := cfg)
      (x := (Reply.error (invalidClient b!"wrong client")).answer) hop (by rw [hp]; decide) sig
    have hhalf : ∀ t' cl, HalfRevokes cfg
        ⟨c, (Reply.error (invalidClient b!"wrong client")).answer⟩ t' cl ↔
        t'.signatureString = t.signatureString ∧ cl = rq.clientID := by
      intro t' cl
      constructor
      · rintro ⟨rq', res, h1, ⟨x, h2, h3⟩, rfl, _⟩
        obtain ⟨_, hpq, _⟩ := (revocationCall_iff hop).mp h1
        rw [hq] at hpq
        cases hpq
        rw [ht] at h2
        cases h2
        exact ⟨h3.symm, rfl⟩
      · rintro ⟨h1, rfl⟩
        refine ⟨rq, _, (revocationCall_iff hop).mpr ⟨hp, hq, rfl⟩, ⟨t, ht, h1.symm⟩, rfl, ?_⟩
        rw [(error_jsonMember hbody _).2.1]
        exact ⟨by decide, sanitize_wrong.symm⟩
    constructor
    · exact ex.config
    · exact GoMap.nodup_del ex.nodupA _
    · exact ex.nodupR
    · refine holds_step ex.access (fun sig _ => sig = t.signatureString) ?_ ?_
      · intro t' g hi
        rw [ends_access o]
        simp only [reduceCtorEq, false_and, exists_false, false_or, hrep, hhalf, and_false]
        constructor
        · exact fun h => h.1
        · intro hs
          refine ⟨hs, ?_⟩
          have := (ex.access _ _).mpr ⟨t', g, hs, hi, rfl⟩
          rw [ha] at this
          rw [← hao, Option.some.inj this]
          rfl
      · intro sig cred
        show (GoMap.del _ _).get? _ = _ ↔ _
        rw [GoMap.get?_del]
        simp only [not_issued rfl rfl o, false_and, and_false, exists_false, false_or]
        by_cases hs : sig = t.signatureString <;> simp [hs]
    · refine holds_step ex.refresh (fun _ _ => False) ?_ ?_
      · intro t' g hi
        rw [ends_refresh o]
        simp only [reduceCtorEq, false_and, exists_false, false_or, hrep, and_false]
      · intro sig cred
        simp only [not_issued rfl rfl o, false_and, and_false, exists_false, false_or,
          not_false_eq_true, and_true]
    · exact holdsCodes_same ex.codes o
    · intro k t g hi
      rcases inForce_cons.mp hi with hi | ⟨hi, _⟩
      · exact (not_issued rfl rfl o k t g hi).elim
      · exact ex.origin k t g hi
    · exact valid_same ex.valid (not_issued rfl rfl o)
    · exact validCode_same ex.validCode o

theorem exact_step (ex : Exact cfg h s) (c : Call) :
    (step ⟨false, s⟩ c).2.locked = false ∧
      Exact cfg (⟨c, (step ⟨false, s⟩ c).1⟩ :: h) (step ⟨false, s⟩ c).2.st := by
  cases hop : c.op with
  | serve r =>
    rw [step_serve hop]
    exact ⟨rfl, exact_serve ex hop⟩
  | authorize r required =>
    rw [step_authorize hop]
    refine ⟨rfl, ?_⟩
    have hsil : Silent ⟨c, match s.authorizes r required (c.clock 0) with
      | none => .admitted
      | some e => .rejected (Server.challenge {} e).result⟩ :=
      silent_of_answer (by intro res hh; split at hh <;> cases hh)
    exact ex.same hsil.quiet (fun _ _ hh => (hsil.no_replay _ hh).elim)
      (fun _ _ _ hh => (hsil.no_half _ _ hh).elim) rfl rfl rfl rfl
  | configure cl us =>
    rw [step_configure hop]
    refine ⟨rfl, ?_⟩
    have hsil : Silent ⟨c, .configured⟩ := silent_of_answer (by intro res hh; cases hh)
    exact ex.same hsil.quiet (fun _ _ hh => (hsil.no_replay _ hh).elim)
      (fun _ _ _ hh => (hsil.no_half _ _ hh).elim) rfl rfl rfl rfl

/-- After every history the mutex is free and the server remembers exactly what an observer of the
history concludes. -/
theorem history_exact {s₀ : Server} (h0 : Started s₀) {h : List Event} {s : Shared Server}
    (hh : History s₀ h s) : s.locked = false ∧ Exact s₀.config h s.st := by
  induction hh with
  | start =>
    refine ⟨rfl, rfl, ?_, ?_, ?_, ?_, ?_, ?_, ?_, ?_⟩
    · rw [h0.access]; exact List.nodup_nil
    · rw [h0.refresh]; exact List.nodup_nil
    · intro sig cred
      rw [h0.access]
      simp [GoMap.get?_nil, inForce_nil]
    · intro sig cred
      rw [h0.refresh]
      simp [GoMap.get?_nil, inForce_nil]
    · intro sig cred
      rw [h0.codes]
      simp only [GoMap.get?_nil, reduceCtorEq, false_iff]
      rintro ⟨c, g, b, _, hc, _⟩
      cases hc
    · intro k t g hi
      exact (inForce_nil hi).elim
    · intro k t g hi
      exact (inForce_nil hi).elim
    · intro c g b hc
      cases hc
  | @next h s c _ ih =>
    obtain ⟨locked, st⟩ := s
    obtain ⟨rfl, ex⟩ := ih
    exact exact_step ex c

end OAuth2

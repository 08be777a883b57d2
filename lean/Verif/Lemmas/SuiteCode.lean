import Verif.Lemmas.SuiteGrants

/-!
The integration tests of the authorization code and of the refresh token grant.
-/

namespace OAuth2.Suite

open _root_.OAuth2.Spec

set_option linter.unusedSimpArgs false

section

variable {handler : Request → Handler Unit} {draws : Nat → Draw} {spec : Spec} {σ : Server}
  {required : Scope} {T₀ T₁ : Time} {gone : Str → Prop} {n : Nat} {s s' : Server}
  {Q : Unit → Server → Nat → Prop}

/-! ### The authorization code grant -/

theorem code_forged {tok uri id secret uri' err : Str}
    (h : HS256Token.parse s.config.secret tok = .error err) (client : ServerEntity) (l : Local) :
    s.grantReply (tokenRequest (codeForm spec tok uri) id secret uri') client l =
      (.error (invalidRequest err), s) := by
  rw [grantReply_code]
  unfold Server.codeReply
  rw [show HS256Token.parse s.config.secret
    (tokenRequest (codeForm spec tok uri) id secret uri').code = .error err from h]

theorem code_expired (S : Setting handler draws spec σ required T₀ T₁) (hn : n < requests)
    {tok uri id secret uri' : Str} {t : HS256Token} (ht : Is s tok t) {x : ServerCredential}
    (h : s.authorizationCodes.get? t.signatureString = some x) (hu : x.used = false)
    (he : x.expiresAt < T₀) (client : ServerEntity) :
    s.grantReply (tokenRequest (codeForm spec tok uri) id secret uri') client (draws n).local =
      (.error (invalidGrant b!"expired authorization code"), s) := by
  rw [grantReply_code]
  unfold Server.codeReply
  rw [show HS256Token.parse s.config.secret
    (tokenRequest (codeForm spec tok uri) id secret uri').code = .ok t from ht]
  simp only [h, hu]
  rw [if_neg (by simp), if_pos (by
    rw [show (draws n).local.clock (draws n).local.tick = (draws n).clock 0 from rfl]
    exact is_before S hn he 0)]

theorem code_used {tok uri id secret uri' : Str} {t : HS256Token} (ht : Is s tok t)
    {x : ServerCredential} (h : s.authorizationCodes.get? t.signatureString = some x)
    (hu : x.used = true) (client : ServerEntity) (l : Local) :
    s.grantReply (tokenRequest (codeForm spec tok uri) id secret uri') client l =
      (.error (invalidGrant b!"unknown authorization code"), { s with
        accessTokens := Server.deleteByCode s.accessTokens t.signatureString
        refreshTokens := Server.deleteByCode s.refreshTokens t.signatureString }) := by
  rw [grantReply_code]
  unfold Server.codeReply
  rw [show HS256Token.parse s.config.secret
    (tokenRequest (codeForm spec tok uri) id secret uri').code = .ok t from ht]
  simp only [h, hu, if_true]

/-- The request for an authorization code is refused. -/
theorem wp_refusals (S : Setting handler draws spec σ required T₀ T₁) (hs : Same σ s)
    (hR : RedirectsMatch spec) (hC : ConsentMatch spec σ) {k : Test Unit}
    (hq : wp handler draws k s (n + 4) Q) :
    wp handler draws (do
      let w ← Test.Do (authorizeReq spec spec.validAuthorizationParams
        spec.validAuthorizationHeaders b!"code" spec.invalidScope)
      expectRedirect query w b!"invalid_scope"
      let w ← Test.Do (authorizeReq spec spec.validAuthorizationParams
        spec.validAuthorizationHeaders b!"code" spec.exceedingScope)
      expectRedirect query w b!"invalid_scope"
      let w ← Test.Do {
        method := b!"POST", path := spec.authorizeEndpoint,
        form := authorizeForm spec b!"code" spec.validScope }
      expectRedirect query w b!"access_denied"
      let w ← Test.Do (authorizeReq spec spec.invalidAuthorizationParams
        spec.invalidAuthorizationHeaders b!"code" spec.validScope)
      expectRedirect query w b!"access_denied"
      k) s n Q := by
  obtain ⟨hv, hi, hx⟩ := Matches.scopes' S hs
  obtain ⟨u, hu, huq⟩ := hR.primary
  -- invalid scope
  rw [wp_bind]
  refine wp_authorize S rfl (reply := .error ((invalidScope []).setRedirect spec.primaryRedirectURI
    b!"xyz" false)) (s' := s) (fun path => ?_) (by simp) ?_
  · rw [authorize_req S hR (by decide) hC.maps.1, authorized_known S hs code_known, hi]
    rfl
  rw [wp_bind]
  refine wp_queryError handler draws hu huq (by decide) ?_
  -- exceeding scope
  rw [wp_bind]
  refine wp_authorize S rfl (reply := .error ((invalidScope []).setRedirect spec.primaryRedirectURI
    b!"xyz" false)) (s' := s) (fun path => ?_) (by simp) ?_
  · rw [authorize_req S hR (by decide) hC.maps.1, authorized_known S hs code_known, hx]
    rfl
  rw [wp_bind]
  refine wp_queryError handler draws hu huq (by decide) ?_
  -- access denied
  rw [wp_bind]
  refine wp_authorize S rfl (reply := .error ((accessDenied []).setRedirect spec.primaryRedirectURI
    b!"xyz" false)) (s' := s) (fun path => ?_) (by simp) ?_
  · rw [authorize_bare S hR (by decide), authorized_known S hs code_known, hv,
      not_userOK hs hC.missing]
    rfl
  rw [wp_bind]
  refine wp_queryError handler draws hu huq (by decide) ?_
  -- invalid password
  rw [wp_bind]
  refine wp_authorize S rfl (reply := .error ((accessDenied []).setRedirect spec.primaryRedirectURI
    b!"xyz" false)) (s' := s) (fun path => ?_) (by simp) ?_
  · rw [authorize_req S hR (by decide) hC.maps.2, authorized_known S hs code_known, hv,
      not_userOK hs hC.invalid]
    rfl
  rw [wp_bind]
  exact wp_queryError handler draws hu huq (by decide) hq

/-- The end of the tests of the authorization code grant. -/
theorem wp_replay (S : Setting handler draws spec σ required T₀ T₁)
    (hR : RedirectsMatch spec) (hC : ConsentMatch spec σ)
    (hI : Inv σ draws (fun _ => False) n s) (hn : n + 5 ≤ requests)
    (hq : ∀ s' n', Inv σ draws (fun _ => False) n' s' → n' ≤ n + 5 → Q () s' n') :
    wp handler draws (do
      let authorizationCode ← getCode spec
      let w ← Test.Do (confidentialReq spec spec.tokenEndpoint
        (codeForm spec authorizationCode spec.primaryRedirectURI))
      let x ← expectTokens spec w
      let w ← Test.Do (confidentialReq spec spec.tokenEndpoint
        (codeForm spec authorizationCode spec.primaryRedirectURI))
      expectError w 400 b!"invalid_grant"
      if spec.codeReplayMitigation then
        let w ← Test.Do (protectedReq spec x.1)
        Test.assert (code w = 401)
        let w ← Test.Do (confidentialReq spec spec.tokenEndpoint (refreshForm x.2))
        expectError w 400 b!"invalid_grant") s n Q := by
  -- get authorization code
  rw [wp_bind]
  refine wp_getCode S hR hC hI (by omega) (fun c x s1 hc hh hI1 hd => ?_)
  have hs1 : Same σ s1 := hI1.same
  have hd1 : Drawn σ draws (n + 1) c.signatureString := by
    rw [hd]; exact Drawn.last σ draws n (by omega)
  -- get access token
  obtain ⟨a, b, x₁, x₂, s2, hok, hi, h1, h2, y, hy, hu⟩ := code_ok S (fun _ h => h.elim) hI1
    (by omega) hc hh hd1
  rw [wp_bind]
  refine wp_confidential S hs1 (codeForm_known _ _) (understood_primary hR _)
    (fun client _ => hok client) (by simp) ?_
  rw [wp_bind]
  refine wp_expectTokens handler draws (by rw [hs1.config]; exact S.fits.expiresIn)
    S.fits.scopes.printed S.fits.scopes.utf8 S.fits.scopes.given.1 ?_
  -- get access token
  have hs2 : Same σ s2 := hi.inv.same
  have hA := Agree.replayed (X := fun k => False ∨ Drawn σ draws (n + 1 + 1) k) (s := s2)
    (code := c.signatureString) (fun e he => (hi.inv.entries e he).imp_right fun he => by
      rw [hd]
      exact (S.fair.new n (by omega) 0 (by omega)).2.2.2.1 e he)
  rw [wp_bind]
  refine wp_confidential S hs2 (codeForm_known _ _) (understood_primary hR _)
    (fun client _ => code_used (hs2.is.mpr (hs1.is.mp hc)) hy hu client _) (by simp) ?_
  rw [wp_bind]
  refine wp_invalidGrant handler draws ?_
  have ha3 := Agree.get?_deleteByCode_self hi.live.stored h1
  have hb3 := Agree.get?_deleteByCode_self hi.held.stored h2
  generalize hs3 : ({ s2 with
    accessTokens := Server.deleteByCode s2.accessTokens c.signatureString
    refreshTokens := Server.deleteByCode s2.refreshTokens c.signatureString } : Server) = s3 at hA ⊢
  have ha3 : s3.accessTokens.get? a.signatureString = none := by rw [← hs3]; exact ha3
  have hb3 : s3.refreshTokens.get? b.signatureString = none := by rw [← hs3]; exact hb3
  have hI3 : Inv σ draws (fun _ => False) (n + 1 + 1) s3 := hi.inv.step (Nat.le_refl _) hA
  have hpa : Is s3 a.string a := hA.same.is.mpr hi.access
  have hpb : Is s3 b.string b := hA.same.is.mpr hi.refresh
  -- check if code replay mitigation is supported
  refine wp_ite (fun _ => ?_) (fun _ => ?_)
  · -- check access token
    rw [wp_bind]
    refine wp_protected S hpa.ne_nil (resource_unknown hpa ha3) ?_
    rw [wp_bind, wp_assert]
    refine ⟨by decide +kernel, ?_⟩
    -- check refresh token
    rw [wp_bind]
    refine wp_confidential S hI3.same (uri := []) (refreshForm_known _) (understood_none rfl)
      (fun client _ => refresh_unknown hpb hb3 client _) (by simp) ?_
    refine wp_invalidGrant handler draws ?_
    exact hq _ _ (hI3.later (by omega)) (by omega)
  · exact hq _ _ (hI3.later (by omega)) (by omega)

/-- oauth2test/grants.go:352-691 passes. -/
theorem wp_authorizationCodeGrantTest (S : Setting handler draws spec σ required T₀ T₁)
    (hR : RedirectsMatch spec) (hC : ConsentMatch spec σ) (hM : CodesMatch spec σ T₀)
    (hI : Inv σ draws (fun _ => False) n s) (hn : n + 34 ≤ requests)
    (hq : ∀ s' n', Inv σ draws (fun _ => False) n' s' → n' ≤ n + 34 → Q () s' n') :
    wp handler draws (authorizationCodeGrantTest spec) s n Q := by
  unfold authorizationCodeGrantTest
  refine wp_refusals S hI.same hR hC ?_
  -- get authorization code
  rw [wp_bind]
  refine wp_getCode S hR hC (hI.later (n' := n + 4) (by omega)) (by omega)
    (fun c x s1 hc hh hI1 hd => ?_)
  have hs1 : Same σ s1 := hI1.same
  have hd1 : Drawn σ draws (n + 4 + 1) c.signatureString := by
    rw [hd]; exact Drawn.last σ draws _ (by omega)
  -- invalid client secret
  rw [wp_bind]
  refine wp_badSecret S hs1 (codeForm_known _ _) (understood_primary hR _) ?_
  rw [wp_bind]
  refine wp_invalidClient handler draws ?_
  -- invalid authorization code
  obtain ⟨err, herr⟩ := kept_forged hs1 hM.invalid
  rw [wp_bind]
  refine wp_confidential S hs1 (codeForm_known _ _) (understood_primary hR _)
    (fun client _ => code_forged herr client _) (by simp) ?_
  rw [wp_bind]
  refine wp_invalidRequest handler draws ?_
  -- unknown authorization code
  obtain ⟨sig, hg, hnone⟩ := hM.unknown
  obtain ⟨⟨t, ht, rfl⟩, -, -, hk⟩ := kept S hI1 (by omega) (by simp [mentioned]) hg (fun h => h)
  rw [wp_bind]
  refine wp_confidential S hs1 (codeForm_known _ _) (understood_primary hR _)
    (fun client _ => code_unknown ht (hk.trans hnone) client _) (by simp) ?_
  rw [wp_bind]
  refine wp_invalidGrant handler draws ?_
  -- expired authorization code
  obtain ⟨e, ⟨sig, hg, hsome⟩, hused, hexp⟩ := hM.expired
  obtain ⟨⟨t', ht', rfl⟩, -, -, hk'⟩ := kept S hI1 (by omega) (by simp [mentioned]) hg (fun h => h)
  rw [wp_bind]
  refine wp_confidential S hs1 (codeForm_known _ _) (understood_primary hR _)
    (fun client _ => code_expired S (by omega) ht' (hk'.trans hsome) hused hexp client) (by simp) ?_
  rw [wp_bind]
  refine wp_invalidGrant handler draws ?_
  -- wrong client
  rw [wp_bind]
  refine wp_public S hs1 (codeForm_known _ _) (understood_primary hR _)
    (reply := .error (invalidGrant b!"invalid authorization code ownership")) (s' := s1)
    (fun client _ => by
      rw [code_held S (by omega) hc hh client, if_pos S.fits.clients.distinct]) (by simp) ?_
  rw [wp_bind]
  refine wp_invalidGrant handler draws ?_
  -- wrong redirect uri
  obtain ⟨uri, u, hu1, hu2, hu3⟩ := hR.secondary
  rw [wp_bind]
  refine wp_confidential S hs1 (codeForm_known _ _) (uri := uri)
    ⟨hu1, .inr ⟨u, hu2, C17_fragment_never_seen hu2⟩⟩
    (reply := .error (invalidGrant b!"changed redirect uri")) (s' := s1)
    (fun client _ => by
      rw [code_held S (by omega) hc hh client, if_neg (not_not_intro rfl), if_pos (Ne.symm hu3)])
    (by simp) ?_
  rw [wp_bind]
  refine wp_invalidGrant handler draws ?_
  -- get access token
  obtain ⟨a, b, x₁, x₂, s2, hok, hi, -⟩ := code_ok S (fun _ h => h.elim)
    (hI1.later (n' := n + 11) (by omega)) (by omega) hc hh (hd1.mono (by omega))
  rw [wp_bind]
  refine wp_confidential S hs1 (codeForm_known _ _) (understood_primary hR _)
    (fun client _ => hok client) (by simp) ?_
  rw [wp_bind]
  refine wp_expectTokens handler draws (by rw [hs1.config]; exact S.fits.expiresIn)
    S.fits.scopes.printed S.fits.scopes.utf8 S.fits.scopes.given.1 ?_
  -- test access token
  rw [wp_bind]
  refine wp_issued_access S (by omega) hi (fun s3 n3 hI3 hb3 hh3 h1 h2 hd3 => ?_)
  -- test refresh token if present
  dsimp only
  refine wp_ite (fun _ => ?_) (fun hc => ?_)
  · rw [wp_bind]
    refine wp_issued_refresh S (fun _ h => h.elim) hI3 (by omega) hb3 hh3 hd3
      (fun s4 n4 hI4 h3 h4 => ?_)
    exact wp_replay S hR hC hI4 (by omega) (fun s' n' hI' h' => hq s' n' hI' (by omega))
  · exact absurd hb3.ne_nil hc

/-! ### The refresh token grant -/

theorem refresh_forged {tok id secret uri err : Str}
    (h : HS256Token.parse s.config.secret tok = .error err) (client : ServerEntity) (l : Local) :
    s.grantReply (tokenRequest (refreshForm tok) id secret uri) client l =
      (.error (invalidRequest err), s) := by
  rw [grantReply_refresh]
  unfold Server.refreshReply
  rw [show HS256Token.parse s.config.secret
    (tokenRequest (refreshForm tok) id secret uri).refreshToken = .error err from h]

theorem refresh_expired (S : Setting handler draws spec σ required T₀ T₁) (hn : n < requests)
    {tok id secret uri : Str} {t : HS256Token} (ht : Is s tok t) {x : ServerCredential}
    (h : s.refreshTokens.get? t.signatureString = some x) (he : x.expiresAt < T₀)
    (client : ServerEntity) :
    s.grantReply (tokenRequest (refreshForm tok) id secret uri) client (draws n).local =
      (.error (invalidGrant b!"expired refresh token"), s) := by
  rw [grantReply_refresh]
  unfold Server.refreshReply
  rw [show HS256Token.parse s.config.secret
    (tokenRequest (refreshForm tok) id secret uri).refreshToken = .ok t from ht]
  simp only [h]
  rw [if_pos (by
    rw [show (draws n).local.clock (draws n).local.tick = (draws n).clock 0 from rfl]
    exact is_before S hn he 0)]

theorem refresh_foreign (S : Setting handler draws spec σ required T₀ T₁) (hn : n < requests)
    {tok id secret uri : Str} {t : HS256Token} (ht : Is s tok t) {x : ServerCredential}
    (h : Held spec required T₁ s t x) (hid : spec.confidentialClientID ≠ id)
    (client : ServerEntity) :
    s.grantReply (tokenRequest (refreshForm tok) id secret uri) client (draws n).local =
      (.error (invalidGrant b!"invalid refresh token ownership"), s) := by
  rw [grantReply_refresh]
  unfold Server.refreshReply
  rw [show HS256Token.parse s.config.secret
    (tokenRequest (refreshForm tok) id secret uri).refreshToken = .ok t from ht]
  simp only [h.stored]
  rw [if_neg (by
    rw [show (draws n).local.clock (draws n).local.tick = (draws n).clock 0 from rfl,
      not_before S hn h.expiry]
    simp), if_pos (by rw [h.owner]; exact hid)]

/-- The form that asks for a scope. -/
def exceedingForm (spec : Spec) : GoMap Str :=
  refreshForm spec.validRefreshToken ++ [(b!"scope", spec.exceedingScope)]

theorem exceedingForm_known :
    knownGrantType ((setValues (exceedingForm spec)).get b!"grant_type") = true := by
  show knownGrantType b!"refresh_token" = true
  decide

/-- A scope that includes nothing has no items. -/
theorem exceeding_ne {sc : Str} {a : Scope} (h : ¬ Within (Scope.parse sc) a) :
    (Scope.parse sc).empty = false := by
  cases he : (Scope.parse sc).empty with
  | false => rfl
  | true =>
    refine absurd ?_ h
    intro i hi
    unfold Scope.empty at he
    simp at he
    unfold Scope.items at he hi
    rw [he] at hi
    cases hi

theorem refresh_exceeding (S : Setting handler draws spec σ required T₀ T₁) (hn : n < requests)
    {uri : Str} {t : HS256Token} (ht : Is s spec.validRefreshToken t) {x : ServerCredential}
    (h : Held spec required T₁ s t x) (hx : ¬ Within (Scope.parse spec.exceedingScope) x.scope)
    (client : ServerEntity) :
    s.grantReply (tokenRequest (exceedingForm spec) spec.confidentialClientID
        spec.confidentialClientSecret uri) client (draws n).local =
      (.error (invalidScope b!"scope exceeds the originally granted scope"), s) := by
  show s.refreshReply (tokenRequest (exceedingForm spec) spec.confidentialClientID
        spec.confidentialClientSecret uri) (draws n).local = _
  unfold Server.refreshReply
  rw [show HS256Token.parse s.config.secret (tokenRequest (exceedingForm spec)
    spec.confidentialClientID spec.confidentialClientSecret uri).refreshToken = .ok t from ht]
  simp only [h.stored]
  rw [show (tokenRequest (exceedingForm spec) spec.confidentialClientID
      spec.confidentialClientSecret uri).scope = Scope.parse spec.exceedingScope from rfl,
    exceeding_ne hx]
  rw [if_neg (by
    rw [show (draws n).local.clock (draws n).local.tick = (draws n).clock 0 from rfl,
      not_before S hn h.expiry]
    simp), if_neg (by rw [h.owner]; simp [tokenRequest])]
  simp only [Bool.false_eq_true, if_false]
  rw [if_pos (by rw [not_includes_of hx]; rfl)]

/-- oauth2test/grants.go:694-793 passes. -/
theorem wp_refreshTokenGrantTest (S : Setting handler draws spec σ required T₀ T₁)
    (hM : RefreshTokensMatch spec σ required T₀ T₁)
    (hI : Inv σ draws (fun _ => False) n s) (hn : n + 18 ≤ requests)
    (hq : ∀ gone s' n', (∀ k, gone k → σ.refreshTokens.get? k ≠ none) → Inv σ draws gone n' s' →
      n' ≤ n + 18 → Q () s' n') :
    wp handler draws (refreshTokenGrantTest spec) s n Q := by
  have hs : Same σ s := hI.same
  obtain ⟨x, ⟨sig, hg, hsome, hnone⟩, hid, hexp, hdate, hprint, hscope, hexc⟩ := hM.valid
  have hstored := hsome
  have hgenuine := hg
  obtain ⟨⟨t, ht, rfl⟩, hk1, hk2, -⟩ := kept S hI (by omega) (by simp [mentioned]) hg (fun h => h)
  have hh : Held spec required T₁ s t x :=
    ⟨hk2.trans hsome, hk1.trans hnone, hid, hscope, hexp, hdate, hprint⟩
  unfold refreshTokenGrantTest
  -- invalid client secret
  rw [wp_bind]
  refine wp_badSecret S hs (refreshForm_known _) (understood_none rfl) ?_
  rw [wp_bind]
  refine wp_invalidClient handler draws ?_
  -- invalid refresh token
  obtain ⟨err, herr⟩ := kept_forged hs hM.invalid
  rw [wp_bind]
  refine wp_confidential S hs (uri := []) (refreshForm_known _) (understood_none rfl)
    (fun client _ => refresh_forged herr client _) (by simp) ?_
  rw [wp_bind]
  refine wp_invalidRequest handler draws ?_
  -- unknown refresh token
  obtain ⟨sig, hg, ha, hr⟩ := hM.unknown
  obtain ⟨⟨t', ht', rfl⟩, -, hk, -⟩ := kept S hI (by omega) (by simp [mentioned]) hg (fun h => h)
  rw [wp_bind]
  refine wp_confidential S hs (uri := []) (refreshForm_known _) (understood_none rfl)
    (fun client _ => refresh_unknown ht' (hk.trans hr) client _) (by simp) ?_
  rw [wp_bind]
  refine wp_invalidGrant handler draws ?_
  -- expired refresh token
  obtain ⟨e, ⟨sig, hg, hsome, -⟩, he⟩ := hM.expired
  obtain ⟨⟨t'', ht'', rfl⟩, -, hk, -⟩ := kept S hI (by omega) (by simp [mentioned]) hg (fun h => h)
  rw [wp_bind]
  refine wp_confidential S hs (uri := []) (refreshForm_known _) (understood_none rfl)
    (fun client _ => refresh_expired S (by omega) ht'' (hk.trans hsome) he client) (by simp) ?_
  rw [wp_bind]
  refine wp_invalidGrant handler draws ?_
  -- wrong client
  rw [wp_bind]
  refine wp_public S hs (uri := []) (refreshForm_known _) (understood_none rfl)
    (fun client _ => refresh_foreign S (by omega) ht hh S.fits.clients.distinct client) (by simp) ?_
  rw [wp_bind]
  refine wp_invalidGrant handler draws ?_
  -- exceeding scope
  rw [wp_bind]
  refine wp_confidential S hs (uri := []) exceedingForm_known (understood_none rfl)
    (fun client _ => refresh_exceeding S (by omega) ht hh hexc client) (by simp) ?_
  rw [wp_bind]
  refine wp_invalidScope handler draws ?_
  -- test refresh token
  refine wp_refresh S (fun _ h => h.elim) (hI.later (by omega)) (by omega) ht hh
    (fun s' n' hA h1 h2 => ?_)
  refine hq (fun k => k = t.signatureString) s' n' ?_ ?_ (by omega)
  · rintro k rfl
    rw [hstored]
    simp
  · refine Inv.step (n := n) (hI.mono ?_) (by omega) hA
    rintro k (h | h)
    · exact h.elim
    · exact .inr h

end

end OAuth2.Suite

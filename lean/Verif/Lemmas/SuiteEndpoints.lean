import Verif.Lemmas.SuiteStages
import Verif.Props.Redirects

/-!
The integration tests of the endpoints.
-/

namespace OAuth2.Suite

open _root_.OAuth2.Spec

set_option linter.unusedSimpArgs false

section

variable {handler : Request → Handler Unit} {draws : Nat → Draw} {spec : Spec} {σ : Server}
  {required : Scope} {T₀ T₁ : Time} {gone : Str → Prop} {n : Nat} {s s' : Server}
  {Q : Unit → Server → Nat → Prop}

/-! ### What is mentioned in the specification stays as it is -/

/-- A token that is mentioned in the specification is still what it was. -/
theorem kept (S : Setting handler draws spec σ required T₀ T₁) (hI : Inv σ draws gone n s)
    (hn : n ≤ requests) {text sig : Str} (hm : text ∈ mentioned spec) (hg : Genuine σ text sig)
    (hx : ¬ gone sig) :
    (∃ t, Is s text t ∧ t.signatureString = sig) ∧
    s.accessTokens.get? sig = σ.accessTokens.get? sig ∧
    s.refreshTokens.get? sig = σ.refreshTokens.get? sig ∧
    s.authorizationCodes.get? sig = σ.authorizationCodes.get? sig := by
  have h : ¬ (gone sig ∨ Drawn σ draws n sig) := by
    rintro (h | h)
    · exact hx h
    · exact S.not_drawn hm hg hn h
  obtain ⟨t, h1, h2⟩ := Genuine.is hg
  exact ⟨⟨t, hI.same.is.mpr h1, h2⟩, hI.access _ h, hI.refresh _ h, hI.codes _ h⟩

theorem kept_forged (hs : Same σ s) {text : Str} (h : Forged σ text) :
    ∃ err, HS256Token.parse s.config.secret text = .error err := by
  rw [hs.config]
  exact Forged.error h

/-! ### The protected resource -/

theorem auth_malformed : auth (Server.challenge {} (invalidToken b!"malformed token")) b!"error" =
    some b!"invalid_token" := by decide +kernel

theorem auth_expired : auth (Server.challenge {} (invalidToken b!"expired token")) b!"error" =
    some b!"invalid_token" := by decide +kernel

/-- oauth2test/endpoints.go:414-495 passes. -/
theorem wp_protectedResourceTest (S : Setting handler draws spec σ required T₀ T₁)
    (hI : Inv σ draws (fun _ => False) n s) (hn : n + 6 ≤ requests) (hq : Q () s (n + 6)) :
    wp handler draws (protectedResourceTest spec) s n Q := by
  have hs : Same σ s := hI.same
  unfold protectedResourceTest
  -- missing token
  rw [wp_bind]
  refine wp_resource S rfl (e := some protectedResource) (fun req hh => ?_) ?_
  · unfold Server.authorizes parseBearerToken
    rw [hh]
    rfl
  rw [wp_bind, wp_assert]
  refine ⟨by decide +kernel, ?_⟩
  rw [wp_bind]
  unfold expectRealm
  rw [wp_bind, wp_ofOption]
  refine ⟨b!"OAuth2", by decide +kernel, ?_⟩
  rw [wp_assert]
  refine ⟨by decide +kernel, ?_⟩
  rw [wp_bind, wp_assert]
  refine ⟨by decide +kernel, ?_⟩
  -- invalid header
  rw [wp_bind]
  refine wp_resource S rfl (e := some (invalidRequest b!"malformed authorization header"))
    (fun req hh => ?_) ?_
  · unfold Server.authorizes parseBearerToken
    rw [hh]
    rfl
  rw [wp_bind]
  refine wp_challenge handler draws rfl (by decide +kernel) ?_
  -- invalid token
  rw [wp_bind]
  refine wp_protected S S.fits.tokens.given (e := some (invalidToken b!"malformed token")) ?_ ?_
  · obtain ⟨err, he⟩ := kept_forged hs S.fits.tokens.invalid
    unfold resourceReply
    rw [he]
  rw [wp_bind]
  refine wp_challenge handler draws rfl auth_malformed ?_
  -- unknown token
  rw [wp_bind]
  obtain ⟨sig, hg, hu, -⟩ := S.fits.tokens.unknown
  obtain ⟨⟨t, ht, rfl⟩, hk, -⟩ := kept S hI (by omega) (by simp [mentioned]) hg id
  refine wp_protected S ht.ne_nil (resource_unknown ht (hk.trans hu)) ?_
  rw [wp_bind]
  refine wp_challenge handler draws rfl auth_unknown ?_
  clear hg hu ht hk t
  -- expired token
  rw [wp_bind]
  obtain ⟨c, ⟨sig, hg, hc, -⟩, hexp⟩ := S.fits.tokens.expired
  obtain ⟨⟨t, ht, rfl⟩, hk, -⟩ := kept S hI (by omega) (by simp [mentioned]) hg id
  refine wp_protected S ht.ne_nil (e := some (invalidToken b!"expired token")) ?_ ?_
  · unfold resourceReply
    rw [show HS256Token.parse s.config.secret spec.expiredToken = .ok t from ht]
    simp only [hk.trans hc, is_before S (n := n + 1 + 1 + 1 + 1) (by omega) hexp 0, if_true]
  rw [wp_bind]
  refine wp_challenge handler draws rfl auth_expired ?_
  clear hg hc ht hk t hexp
  -- insufficient token
  rw [wp_bind]
  obtain ⟨c, ⟨sig, hg, hc, -⟩, hexp, hin⟩ := S.fits.tokens.insufficient
  obtain ⟨⟨t, ht, rfl⟩, hk, -⟩ := kept S hI (by omega) (by simp [mentioned]) hg id
  refine wp_protected S ht.ne_nil (e := some (insufficientScope required)) ?_ ?_
  · unfold resourceReply
    rw [show HS256Token.parse s.config.secret spec.insufficientToken = .ok t from ht]
    simp only [hk.trans hc, not_before S (n := n + 1 + 1 + 1 + 1 + 1) (by omega) hexp 0,
      not_includes_of hin]
    simp
  exact wp_challenge handler draws rfl (auth_insufficient required) hq

/-! ### The token endpoint -/

/-- The token endpoint after the request was parsed. -/
def identified (s : Server) (rq : TokenRequest) (l : Local) : Reply × Server :=
  if !knownGrantType rq.grantType then (.error (invalidRequest b!"unknown grant type"), s)
  else match s.clients.get? rq.clientID with
  | none => (.error (invalidClient b!"unknown client"), s)
  | some client =>
    if Server.wrongSecret client rq.clientSecret then
      (.error (invalidClient b!"unknown client"), s)
    else s.grantReply rq client l

theorem token_as {r : Req} {path gt id : Str} {l : Local} (hm : r.method = b!"POST")
    (hg : (setValues r.form).get b!"grant_type" = gt) (hgt : gt ≠ []) (hu : r.username = id)
    (hi : id ≠ []) (hc : (0x3A : UInt8) ∉ id)
    (hr : (setValues r.form).get b!"redirect_uri" = []) :
    s.tokenReply (r.sent path) l = identified s (tokenRequest r.form id r.password []) l := by
  subst hg hu
  unfold Server.tokenReply
  rw [parse_token (uri := []) path hm hgt hi hc (by rw [hr]; decide +kernel) (.inl rfl)]
  rfl

/-- oauth2test/endpoints.go:12-51 passes. -/
theorem wp_tokenEndpointTest (S : Setting handler draws spec σ required T₀ T₁)
    (hs : Same σ s) (hq : Q () s (n + 3)) :
    wp handler draws (tokenEndpointTest spec) s n Q := by
  unfold tokenEndpointTest
  -- invalid request
  rw [wp_bind]
  refine wp_token S rfl (reply := .error (invalidRequest b!"missing grant type")) (s' := s)
    (fun path => ?_) (by simp) ?_
  · unfold Server.tokenReply
    rw [parse_token_empty path rfl rfl]
  rw [wp_bind]
  refine wp_invalidRequest handler draws ?_
  -- unknown client
  rw [wp_bind]
  refine wp_token S rfl (reply := .error (invalidClient b!"unknown client")) (s' := s)
    (fun path => ?_) (by simp) ?_
  · refine (token_as (gt := b!"password") (id := b!"unknown") rfl rfl (by decide) rfl (by decide)
      (by decide) rfl).trans ?_
    unfold identified
    rw [if_neg (by show ¬ (!knownGrantType b!"password") = true; decide +kernel), hs.clients]
    rw [show (tokenRequest _ b!"unknown" _ _).clientID = b!"unknown" from rfl,
      S.fits.clients.unknown.1]
  rw [wp_bind]
  refine wp_invalidClient handler draws ?_
  -- invalid grant type
  rw [wp_bind]
  refine wp_token S rfl (reply := .error (invalidRequest b!"unknown grant type")) (s' := s)
    (fun path => ?_) (by simp) ?_
  · refine (token_as (gt := b!"invalid") (id := spec.confidentialClientID) rfl rfl (by decide) rfl
      S.fits.clients.given.1 S.fits.clients.colon.1 rfl).trans ?_
    unfold identified
    rw [if_pos (by show (!knownGrantType b!"invalid") = true; decide +kernel)]
  exact wp_invalidRequest handler draws hq

/-! ### The authorization endpoint -/

/-- The authorization endpoint after the request was parsed. -/
def authorized (s : Server) (method : Str) (rq : AuthorizationRequest) (username password : Str)
    (l : Local) : Reply × Server :=
  if !knownResponseType rq.responseType then (.error (invalidRequest b!"unknown response type"), s)
  else match s.clients.get? rq.clientID with
  | none => (.error (invalidClient b!"unknown client"), s)
  | some client =>
    if client.redirectURI ≠ rq.redirectURI then
      (.error (invalidRequest b!"invalid redirect URI"), s)
    else if method = b!"GET" then (.notice, s)
    else
      let implicit : Bool := rq.responseType = TokenResponseType
      if !s.config.allowedScope.includes rq.scope then
        (.error ((invalidScope []).setRedirect rq.redirectURI rq.state implicit), s)
      else if !s.userOK username password then
        (.error ((accessDenied []).setRedirect rq.redirectURI rq.state implicit), s)
      else if implicit then
        s.issue l l.tick false
          { clientID := rq.clientID, username := username, scope := rq.scope }
          (·.setRedirect rq.redirectURI rq.state)
      else match Server.gen s.config l.coins with
      | none => (.crash, s)
      | some (c, _) =>
        (.code { code := c.string, redirectURI := rq.redirectURI, state := rq.state },
          { s with authorizationCodes := s.authorizationCodes.set c.signatureString {
              clientID := rq.clientID, username := username, scope := rq.scope,
              expiresAt := l.clock l.tick + s.config.authorizationCodeLifespan,
              redirectURI := rq.redirectURI } })

theorem authorize_as {r : Req} {path rt id ru uri scope state : Str} {l : Local}
    (hm : r.method = b!"GET" ∨ r.method = b!"POST")
    (ht : (setValues r.form).get b!"response_type" = rt) (hrt : rt ≠ [])
    (hi : (setValues r.form).get b!"client_id" = id) (hid : id ≠ [])
    (hr : (setValues r.form).get b!"redirect_uri" = ru) (hru : queryUnescape ru = some uri)
    (hn : uri ≠ []) {u : URL} (hp : parseRequestURI uri = some u)
    (hsc : (setValues r.form).get b!"scope" = scope)
    (hst : (setValues r.form).get b!"state" = state) :
    s.authorizeReply (r.sent path) l = authorized s r.method {
      responseType := rt
      scope := Scope.parse scope
      clientID := id
      redirectURI := uri
      state := state }
      ((setValues r.form).get b!"username") ((setValues r.form).get b!"password") l := by
  subst ht hi hr hsc hst
  unfold Server.authorizeReply
  rw [parse_authorization path hm hrt hid hru hn hp (C17_fragment_never_seen hp)]
  rfl

theorem parse_authorization_or {r : Req} (path : Str) :
    (∃ d, parseAuthorizationRequest (r.sent path) = .error (invalidRequest d)) ∨
    ∃ uri u, queryUnescape ((setValues r.form).get b!"redirect_uri") = some uri ∧ uri ≠ [] ∧
      parseRequestURI uri = some u := by
  cases h : parseAuthorizationRequest (r.sent path) with
  | error e =>
    obtain ⟨d, rfl⟩ := Server.parseAuthorizationRequest_error h
    exact .inl ⟨d, rfl⟩
  | ok rq =>
    right
    unfold parseAuthorizationRequest at h
    rw [sent_parseForm] at h
    simp only [Option.getD_some, Bool.false_eq_true, if_false] at h
    split at h
    · cases h
    split at h
    · cases h
    split at h
    · cases h
    cases hq : queryUnescape ((setValues r.form).get b!"redirect_uri") with
    | none => rw [hq] at h; cases h
    | some uri =>
      rw [hq] at h
      simp only at h
      split at h
      · cases h
      cases hp : parseRequestURI uri with
      | none => rw [hp] at h; cases h
      | some u => exact ⟨uri, u, rfl, by assumption, hp⟩

/-- oauth2test/endpoints.go:54-126 passes. -/
theorem wp_authorizationEndpointTest (S : Setting handler draws spec σ required T₀ T₁)
    (hs : Same σ s) (hR : RedirectsMatch spec) (hq : Q () s (n + 5)) :
    wp handler draws (authorizationEndpointTest spec) s n Q := by
  obtain ⟨u, hu, -⟩ := hR.primary
  obtain ⟨client, hc1, hc2, hc3, hc4⟩ := confidential_client S hs
  unfold authorizationEndpointTest
  -- invalid request
  rw [wp_bind]
  refine wp_authorize S rfl (reply := .error (invalidRequest b!"missing response type")) (s' := s)
    (fun path => ?_) (by simp) ?_
  · unfold Server.authorizeReply
    rw [parse_authorization_empty path rfl rfl]
  rw [wp_bind]
  refine wp_invalidRequest handler draws ?_
  -- invalid client
  rw [wp_bind]
  refine wp_authorize S rfl (reply := .error (invalidClient b!"unknown client")) (s' := s)
    (fun path => ?_) (by simp) ?_
  · refine (authorize_as (.inr rfl) (rt := b!"code") rfl (by decide) (id := b!"invalid") rfl
      (by decide) (ru := spec.primaryRedirectURI) rfl hR.plain hR.given.1 hu.parsed rfl rfl).trans ?_
    unfold authorized
    simp only
    rw [if_neg (by decide +kernel), hs.clients, S.fits.clients.unknown.2]
  rw [wp_bind]
  refine wp_invalidClient handler draws ?_
  rw [wp_bind]
  refine wp_realm handler draws ?_
  -- invalid redirect uri
  rw [wp_bind]
  have key : ∃ d, s.authorizeReply (Req.sent {
      method := b!"POST"
      path := spec.authorizeEndpoint
      form := [(b!"response_type", b!"code"), (b!"client_id", spec.confidentialClientID),
        (b!"redirect_uri", spec.invalidRedirectURI)] } []) (draws (n + 1 + 1)).local =
      (.error (invalidRequest d), s) := by
    obtain ⟨d, h⟩ | ⟨uri, v, h1, h2, h3⟩ := parse_authorization_or (r := {
      method := b!"POST"
      path := spec.authorizeEndpoint
      form := [(b!"response_type", b!"code"), (b!"client_id", spec.confidentialClientID),
        (b!"redirect_uri", spec.invalidRedirectURI)] }) []
    · refine ⟨d, ?_⟩
      unfold Server.authorizeReply
      rw [h]
    · refine ⟨b!"invalid redirect URI", ?_⟩
      refine (authorize_as (.inr rfl) (rt := b!"code") rfl (by decide) (id := spec.confidentialClientID) rfl
        S.fits.clients.given.1 (ru := spec.invalidRedirectURI) rfl h1 h2 h3 rfl rfl).trans ?_
      unfold authorized
      simp only
      rw [if_neg (by decide +kernel), hc1]
      simp only
      rw [if_pos]
      rw [hc4]
      intro h
      exact hR.invalid (by rw [h]; exact h1)
  obtain ⟨d, key⟩ := key
  refine wp_authorize S rfl (fun _ => key) (by simp) ?_
  rw [wp_bind]
  refine wp_invalidRequest handler draws ?_
  -- invalid response type
  rw [wp_bind]
  refine wp_authorize S rfl (reply := .error (invalidRequest b!"unknown response type")) (s' := s)
    (fun path => ?_) (by simp) ?_
  · refine (authorize_as (.inr rfl) (rt := b!"invalid") rfl (by decide)
      (id := spec.confidentialClientID) rfl S.fits.clients.given.1 (ru := spec.primaryRedirectURI) rfl hR.plain hR.given.1 hu.parsed rfl rfl).trans ?_
    unfold authorized
    simp only
    rw [if_pos (by decide +kernel)]
  rw [wp_bind]
  refine wp_invalidRequest handler draws ?_
  -- must respond to GET request
  rw [wp_bind]
  refine wp_authorize S rfl (reply := .notice) (s' := s)
    (fun path => ?_) (by simp) ?_
  · refine (authorize_as (.inl rfl) (rt := b!"token") rfl (by decide)
      (id := spec.confidentialClientID) rfl S.fits.clients.given.1 (ru := spec.primaryRedirectURI) rfl hR.plain hR.given.1 hu.parsed rfl rfl).trans ?_
    unfold authorized
    simp only
    rw [if_neg (by decide +kernel), hc1]
    simp only
    rw [if_neg (by rw [hc4]; simp)]
    rfl
  rw [wp_assert]
  exact ⟨by decide +kernel, hq⟩

/-! ### Introspection and revocation -/

theorem introspect_hint {r : Req} {path : Str} (hm : r.method = b!"POST")
    (ht : (setValues r.form).get b!"token" ≠ []) (hu : r.username ≠ [])
    (hc : (0x3A : UInt8) ∉ r.username) (hh : (setValues r.form).get b!"token_type_hint" = b!"invalid") :
    s.introspectReply (r.sent path) = (.error (unsupportedTokenType []), s) := by
  unfold Server.introspectReply
  rw [parse_introspection path hm ht hu hc]
  simp only
  rw [if_pos (by rw [hh]; decide +kernel)]

theorem introspect_denied {r : Req} {path : Str} (hm : r.method = b!"POST")
    (ht : (setValues r.form).get b!"token" ≠ []) (hu : r.username ≠ [])
    (hc : (0x3A : UInt8) ∉ r.username) (hh : GoodHint r.form)
    (h : ∀ client, s.clients.get? r.username = some client →
      Server.wrongSecret client r.password = true) :
    s.introspectReply (r.sent path) = (.error (invalidClient b!"unknown client"), s) := by
  unfold Server.introspectReply
  rw [parse_introspection path hm ht hu hc]
  simp only
  rw [if_neg (by rcases hh with h | h <;> simp [h])]
  cases hcl : s.clients.get? r.username with
  | none => rfl
  | some client => simp only [h client hcl, if_true]

theorem revoke_hint {r : Req} {path : Str} (hm : r.method = b!"POST")
    (ht : (setValues r.form).get b!"token" ≠ []) (hu : r.username ≠ [])
    (hc : (0x3A : UInt8) ∉ r.username) (hh : (setValues r.form).get b!"token_type_hint" = b!"invalid") :
    s.revokeReply (r.sent path) = (.error (unsupportedTokenType []), s) := by
  unfold Server.revokeReply
  rw [parse_revocation path hm ht hu hc]
  simp only
  rw [if_pos (by rw [hh]; decide +kernel)]

theorem revoke_denied {r : Req} {path : Str} (hm : r.method = b!"POST")
    (ht : (setValues r.form).get b!"token" ≠ []) (hu : r.username ≠ [])
    (hc : (0x3A : UInt8) ∉ r.username) (hh : GoodHint r.form)
    (h : ∀ client, s.clients.get? r.username = some client →
      Server.wrongSecret client r.password = true) :
    s.revokeReply (r.sent path) = (.error (invalidClient b!"unknown client"), s) := by
  unfold Server.revokeReply
  rw [parse_revocation path hm ht hu hc]
  simp only
  rw [if_neg (by rcases hh with h | h <;> simp [h])]
  cases hcl : s.clients.get? r.username with
  | none => rfl
  | some client => simp only [h client hcl, if_true]

theorem introspect_error {r : Req}
    (h : r.method ≠ b!"POST" ∨ (setValues r.form).get b!"token" = [] ∨
      (r.username = [] ∧ r.header = [])) :
    ∃ d, ∀ path, s.introspectReply (r.sent path) = (.error (invalidRequest d), s) := by
  obtain ⟨d, hd⟩ := parse_introspection_error [] h
  refine ⟨d, fun path => ?_⟩
  unfold Server.introspectReply
  rw [show parseIntrospectionRequest (r.sent path) = .error (invalidRequest d) from hd]

theorem revoke_error {r : Req}
    (h : r.method ≠ b!"POST" ∨ (setValues r.form).get b!"token" = [] ∨
      (r.username = [] ∧ r.header = [])) :
    ∃ d, ∀ path, s.revokeReply (r.sent path) = (.error (invalidRequest d), s) := by
  obtain ⟨d, hd⟩ := parse_revocation_error [] h
  refine ⟨d, fun path => ?_⟩
  unfold Server.revokeReply
  rw [show parseRevocationRequest (r.sent path) = .error (invalidRequest d) from hd]

/-- The token at hand belongs to the confidential client. -/
theorem introspected_foreign {tok : Str} {t : HS256Token} (ht : Is s tok t) {c : ServerCredential}
    (h : Live spec required T₁ s t c) {id : Str} (hid : spec.confidentialClientID ≠ id) :
    introspected s tok id = (.error (invalidClient b!"wrong client"), s) := by
  unfold introspected
  rw [show HS256Token.parse s.config.secret tok = .ok t from ht]
  simp only [Server.foreign, h.stored, h.owner]
  simp [hid]

theorem revoked_foreign {tok : Str} {t : HS256Token} (ht : Is s tok t) {c : ServerCredential}
    (h : Live spec required T₁ s t c) {id : Str} (hid : spec.confidentialClientID ≠ id) :
    revoked s tok id = (.error (invalidClient b!"wrong client"), s) := by
  unfold revoked
  rw [show HS256Token.parse s.config.secret tok = .ok t from ht]
  simp only [Server.foreign, h.stored, h.owner]
  simp [hid]

theorem revoked_unknown {tok id : Str} {t : HS256Token} (ht : Is s tok t)
    (h1 : s.accessTokens.get? t.signatureString = none)
    (h2 : s.refreshTokens.get? t.signatureString = none) :
    revoked s tok id = (.revoked, s) := by
  unfold revoked
  rw [show HS256Token.parse s.config.secret tok = .ok t from ht]
  simp only [Server.foreign, h1, h2]
  simp

theorem unauthenticated (S : Setting handler draws spec σ required T₀ T₁) (hs : Same σ s) :
    ∀ client, s.clients.get? spec.confidentialClientID = some client →
      Server.wrongSecret client [] = true := by
  intro client h
  obtain ⟨client', h1, h2, h3, _⟩ := confidential_client S hs
  rw [h] at h1
  cases h1
  unfold Server.wrongSecret
  simp [h2, h3, S.fits.clients.secret.1]

theorem unknown_client (S : Setting handler draws spec σ required T₀ T₁) (hs : Same σ s)
    {secret : Str} : ∀ client, s.clients.get? b!"unknown" = some client →
      Server.wrongSecret client secret = true := by
  intro client h
  rw [hs.clients, S.fits.clients.unknown.1] at h
  cases h

/-- The valid access token of the specification, if it was not touched. -/
theorem valid_live (S : Setting handler draws spec σ required T₀ T₁) (hI : Inv σ draws gone n s)
    (hn : n ≤ requests) (hgr : ∀ k, gone k → σ.refreshTokens.get? k ≠ none) :
    ∃ t c, Is s spec.validToken t ∧ Live spec required T₁ s t c := by
  obtain ⟨c, ⟨sig, hg, hc, hr⟩, h1, h2, h3, h4⟩ := S.fits.tokens.valid
  obtain ⟨⟨t, ht, rfl⟩, hk1, hk2, -⟩ := kept S hI hn (by simp [mentioned]) hg
    (fun h => hgr _ h hr)
  exact ⟨t, c, ht, hk1.trans hc, hk2.trans hr, h1, h2, h3, h4⟩

theorem unknown_kept (S : Setting handler draws spec σ required T₀ T₁) (hI : Inv σ draws gone n s)
    (hn : n ≤ requests) (hgr : ∀ k, gone k → σ.refreshTokens.get? k ≠ none) :
    ∃ t, Is s spec.unknownToken t ∧ s.accessTokens.get? t.signatureString = none ∧
      s.refreshTokens.get? t.signatureString = none := by
  obtain ⟨sig, hg, ha, hr⟩ := S.fits.tokens.unknown
  obtain ⟨⟨t, ht, rfl⟩, hk1, hk2, -⟩ := kept S hI hn (by simp [mentioned]) hg
    (fun h => hgr _ h hr)
  exact ⟨t, ht, hk1.trans ha, hk2.trans hr⟩

theorem noHint (tok : Str) : GoodHint [(b!"token", tok)] := .inl rfl

theorem public_secret (S : Setting handler draws spec σ required T₀ T₁) (hs : Same σ s) :
    ∃ client, s.clients.get? spec.publicClientID = some client ∧
      Server.wrongSecret client [] = false := by
  obtain ⟨client, h1, h2⟩ := public_client S hs
  exact ⟨client, h1, by unfold Server.wrongSecret; simp [h2]⟩

/-- oauth2test/endpoints.go:261-411 passes. -/
theorem wp_introspectionEndpointTest (S : Setting handler draws spec σ required T₀ T₁)
    (hI : Inv σ draws gone n s) (hgr : ∀ k, gone k → σ.refreshTokens.get? k ≠ none)
    (he : spec.introspectionEndpoint ≠ []) (hn : n + 11 ≤ requests) (hq : Q () s (n + 11)) :
    wp handler draws (introspectionEndpointTest spec) s n Q := by
  have hs : Same σ s := hI.same
  obtain ⟨t, c, ht, hl⟩ := valid_live S hI (by omega) hgr
  have htn := ht.ne_nil
  unfold introspectionEndpointTest
  -- wrong method
  rw [wp_bind]
  obtain ⟨d, hd⟩ := introspect_error (s := s)
    (r := { method := b!"GET", path := spec.introspectionEndpoint }) (.inl (by show b!"GET" ≠ b!"POST"; decide))
  refine wp_introspect S he rfl hd (by simp) ?_
  rw [wp_bind]
  refine wp_invalidRequest handler draws ?_
  -- empty request
  rw [wp_bind]
  obtain ⟨d, hd⟩ := introspect_error (s := s)
    (r := { method := b!"POST", path := spec.introspectionEndpoint }) (.inr (.inl rfl))
  refine wp_introspect S he rfl hd (by simp) ?_
  rw [wp_bind]
  refine wp_invalidRequest handler draws ?_
  -- missing client
  rw [wp_bind]
  obtain ⟨d, hd⟩ := introspect_error (s := s)
    (r := { method := b!"POST", path := spec.introspectionEndpoint,
            form := [(b!"token", spec.validToken)] }) (.inr (.inr ⟨rfl, rfl⟩))
  refine wp_introspect S he rfl hd (by simp) ?_
  rw [wp_bind]
  refine wp_invalidRequest handler draws ?_
  -- missing token
  rw [wp_bind]
  obtain ⟨d, hd⟩ := introspect_error (s := s)
    (r := confidentialReq spec spec.introspectionEndpoint []) (.inr (.inl rfl))
  refine wp_introspect S he rfl hd (by simp) ?_
  rw [wp_bind]
  refine wp_invalidRequest handler draws ?_
  -- invalid token type hint
  rw [wp_bind]
  refine wp_introspect S he rfl (fun path => introspect_hint rfl htn S.fits.clients.given.1
    S.fits.clients.colon.1 rfl) (by simp) ?_
  rw [wp_bind]
  refine wp_unsupportedTokenType handler draws ?_
  -- unknown client
  rw [wp_bind]
  refine wp_introspect S he rfl (fun path => introspect_denied rfl htn (by simp) (by simp)
    (noHint _) (unknown_client S hs)) (by simp) ?_
  rw [wp_bind]
  refine wp_invalidClient handler draws ?_
  rw [wp_bind]
  refine wp_realm handler draws ?_
  -- unauthenticated client
  rw [wp_bind]
  refine wp_introspect S he rfl (fun path => introspect_denied rfl htn S.fits.clients.given.1
    S.fits.clients.colon.1 (noHint _) (unauthenticated S hs)) (by simp) ?_
  rw [wp_bind]
  refine wp_invalidClient handler draws ?_
  rw [wp_bind]
  refine wp_realm handler draws ?_
  -- wrong client
  rw [wp_bind]
  obtain ⟨client, hc1, hc2⟩ := public_secret S hs
  refine wp_introspect S he rfl (fun path => (introspect_known
    (r := publicReq spec spec.introspectionEndpoint [(b!"token", spec.validToken)]) rfl htn S.fits.clients.given.2
    S.fits.clients.colon.2 (noHint _) hc1 hc2).trans
      (introspected_foreign ht hl S.fits.clients.distinct)) (by simp) ?_
  rw [wp_bind]
  refine wp_invalidClient handler draws ?_
  -- invalid token
  rw [wp_bind]
  obtain ⟨err, herr⟩ := kept_forged hs S.fits.tokens.invalid
  refine wp_introspection S hs he (tok := spec.invalidToken)
    (reply := .error (invalidRequest err)) (s' := s) rfl S.fits.tokens.given (noHint _)
    (by unfold introspected; rw [herr]) (by simp) ?_
  rw [wp_bind]
  refine wp_invalidRequest handler draws ?_
  -- unknown token
  rw [wp_bind]
  obtain ⟨t', ht', hu1, hu2⟩ := unknown_kept S hI (by omega) hgr
  refine wp_introspection S hs he rfl ht'.ne_nil (noHint _) (introspected_unknown ht' hu1 hu2)
    (by simp) ?_
  rw [wp_bind, wp_assert]
  refine ⟨by simp [(introspection_fields {} rfl fits_zero rfl rfl).1], ?_⟩
  -- valid access token
  rw [wp_bind]
  refine wp_introspection S hs he (tokenForm_token _ _) htn (tokenForm_good_access _)
    (introspected_access ht hl) (by simp) ?_
  obtain ⟨h1, h2, -⟩ := introspection_fields (Server.describe AccessToken c) rfl hl.dated rfl rfl
  rw [wp_bind, wp_assert]
  refine ⟨by simp [h1], ?_⟩
  rw [wp_assert]
  exact ⟨by rw [h2]; rfl, hq⟩

/-- oauth2test/endpoints.go:129-258 passes. -/
theorem wp_revocationEndpointTest (S : Setting handler draws spec σ required T₀ T₁)
    (hI : Inv σ draws gone n s) (hgr : ∀ k, gone k → σ.refreshTokens.get? k ≠ none)
    (he : spec.revocationEndpoint ≠ []) (hn : n + 14 ≤ requests)
    (hq : ∀ s' n', n' ≤ n + 14 → Q () s' n') :
    wp handler draws (revocationEndpointTest spec) s n Q := by
  have hs : Same σ s := hI.same
  obtain ⟨t, c, ht, hl⟩ := valid_live S hI (by omega) hgr
  have htn := ht.ne_nil
  unfold revocationEndpointTest
  -- empty request
  rw [wp_bind]
  obtain ⟨d, hd⟩ := revoke_error (s := s)
    (r := { method := b!"POST", path := spec.revocationEndpoint }) (.inr (.inl rfl))
  refine wp_revoke S he rfl hd (by simp) ?_
  rw [wp_bind]
  refine wp_invalidRequest handler draws ?_
  -- missing client
  rw [wp_bind]
  obtain ⟨d, hd⟩ := revoke_error (s := s)
    (r := { method := b!"POST", path := spec.revocationEndpoint,
            form := [(b!"token", spec.validToken)] }) (.inr (.inr ⟨rfl, rfl⟩))
  refine wp_revoke S he rfl hd (by simp) ?_
  rw [wp_bind]
  refine wp_invalidRequest handler draws ?_
  -- missing token
  rw [wp_bind]
  obtain ⟨d, hd⟩ := revoke_error (s := s)
    (r := confidentialReq spec spec.revocationEndpoint []) (.inr (.inl rfl))
  refine wp_revoke S he rfl hd (by simp) ?_
  rw [wp_bind]
  refine wp_invalidRequest handler draws ?_
  -- invalid token type hint
  rw [wp_bind]
  refine wp_revoke S he rfl (fun path => revoke_hint rfl htn S.fits.clients.given.1
    S.fits.clients.colon.1 rfl) (by simp) ?_
  rw [wp_bind]
  refine wp_unsupportedTokenType handler draws ?_
  -- unknown client
  rw [wp_bind]
  refine wp_revoke S he rfl (fun path => revoke_denied rfl htn (by simp) (by simp)
    (noHint _) (unknown_client S hs)) (by simp) ?_
  rw [wp_bind]
  refine wp_invalidClient handler draws ?_
  rw [wp_bind]
  refine wp_realm handler draws ?_
  -- unauthenticated client
  rw [wp_bind]
  refine wp_revoke S he rfl (fun path => revoke_denied rfl htn S.fits.clients.given.1
    S.fits.clients.colon.1 (noHint _) (unauthenticated S hs)) (by simp) ?_
  rw [wp_bind]
  refine wp_invalidClient handler draws ?_
  rw [wp_bind]
  refine wp_realm handler draws ?_
  -- wrong client
  rw [wp_bind]
  obtain ⟨client, hc1, hc2⟩ := public_secret S hs
  refine wp_revoke S he rfl (fun path => (revoke_known
    (r := publicReq spec spec.revocationEndpoint [(b!"token", spec.validToken)]) rfl htn S.fits.clients.given.2
    S.fits.clients.colon.2 (noHint _) hc1 hc2).trans
      (revoked_foreign ht hl S.fits.clients.distinct)) (by simp) ?_
  rw [wp_bind]
  refine wp_invalidClient handler draws ?_
  -- invalid token
  rw [wp_bind]
  obtain ⟨err, herr⟩ := kept_forged hs S.fits.tokens.invalid
  refine wp_revocation S hs he (tok := spec.invalidToken)
    (reply := .error (invalidRequest err)) (s' := s) rfl S.fits.tokens.given (noHint _)
    (by unfold revoked; rw [herr]) (by simp) ?_
  rw [wp_bind]
  refine wp_invalidRequest handler draws ?_
  -- unknown token
  rw [wp_bind]
  obtain ⟨t', ht', hu1, hu2⟩ := unknown_kept S hI (by omega) hgr
  refine wp_revocation S hs he rfl ht'.ne_nil (noHint _) (revoked_unknown ht' hu1 hu2)
    (by simp) ?_
  rw [wp_bind, wp_assert]
  refine ⟨by simp [revoked_code], ?_⟩
  -- test existence and revocation
  exact wp_access S hs (by omega) ht hl (fun s' n' _ _ h => hq s' n' (by omega))

end

end OAuth2.Suite

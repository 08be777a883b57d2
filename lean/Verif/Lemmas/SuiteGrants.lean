import Verif.Lemmas.SuiteEndpoints

/-!
The integration tests of the grants.
-/

namespace OAuth2.Suite

open _root_.OAuth2.Spec

set_option linter.unusedSimpArgs false

section

variable {handler : Request → Handler Unit} {draws : Nat → Draw} {spec : Spec} {σ : Server}
  {required : Scope} {T₀ T₁ : Time} {gone : Str → Prop} {n : Nat} {s s' : Server}
  {Q : Unit → Server → Nat → Prop}

/-! ### Tokens that were issued -/

/-- Two tokens made before request `n`, the data in them apart, and the state they are in. -/
structure Issued (spec : Spec) (required : Scope) (T₁ : Time) (σ : Server) (draws : Nat → Draw)
    (gone : Str → Prop) (n : Nat) (s : Server) (a b : HS256Token) (x y : ServerCredential) :
    Prop where
  access : Is s a.string a
  refresh : Is s b.string b
  live : Live spec required T₁ s a x
  held : Held spec required T₁ s b y
  ne : a.signatureString ≠ b.signatureString
  drawnA : Drawn σ draws n a.signatureString
  drawnB : Drawn σ draws n b.signatureString
  inv : Inv σ draws gone n s

theorem Issued.agree {a b : HS256Token} {x y : ServerCredential}
    (h : Issued spec required T₁ σ draws gone n s a b x y) {X : Str → Prop} (hX : Agree X s s')
    (ha : ¬ X a.signatureString) (hb : ¬ X b.signatureString)
    (hd : ∀ k, X k → gone k ∨ Drawn σ draws n k) :
    Issued spec required T₁ σ draws gone n s' a b x y :=
  ⟨hX.same.is.mpr h.access, hX.same.is.mpr h.refresh, h.live.agree hX ha, h.held.agree hX hb, h.ne,
    h.drawnA, h.drawnB, h.inv.step (Nat.le_refl _) (hX.mono hd)⟩

theorem issue_ok (S : Setting handler draws spec σ required T₀ T₁)
    (hg : ∀ k, gone k → ∀ m < requests, ∀ i < 2, k ≠ drawn σ draws m i)
    (hI : Inv σ draws gone n s) (hn : n < requests) (tick : Nat) {cred : ServerCredential}
    (h1 : cred.clientID = spec.confidentialClientID) (h2 : Within required cred.scope)
    (h3 : cred.scope.string = spec.validScope) :
    ∃ a b e₁ e₂ s1, s.issue (draws n).local tick true cred id =
        (.token (Server.grantResponse s.config a (some b) cred.scope), s1) ∧
      s1.authorizationCodes = s.authorizationCodes ∧
      a.signatureString = drawn σ draws n 0 ∧ b.signatureString = drawn σ draws n 1 ∧
      Issued spec required T₁ σ draws gone (n + 1) s1 a b { cred with expiresAt := e₁ }
        { cred with expiresAt := e₂ } := by
  have hs : Same σ s := hI.same
  obtain ⟨a, b, hmint, ha, hb, hpa, hpb⟩ := S.mint (s := s) hn hs.config
  obtain ⟨-, fa, -⟩ := S.fresh hg hI (m := n) (i := 0) (by omega) hn (by omega)
  obtain ⟨fb, -⟩ := S.fresh hg hI (m := n) (i := 1) (by omega) hn (by omega)
  rw [← ha] at fa
  rw [← hb] at fb
  have hab : a.signatureString ≠ b.signatureString := by
    rw [ha, hb]
    intro he
    have := (S.fair.distinct n hn n hn 0 (by omega) 1 (by omega) he).2
    omega
  have hda : Drawn σ draws (n + 1) a.signatureString := by
    rw [ha]; exact Drawn.last σ draws n (by omega)
  have hdb : Drawn σ draws (n + 1) b.signatureString := by
    rw [hb]; exact Drawn.last σ draws n (by omega)
  have hlh := granted S hs (i := tick) (j := tick + 1) hn fa fb hab h1 h2 h3 rfl
  have hA : Agree (fun k => gone k ∨ Drawn σ draws (n + 1) k) s
      (s.grant a (some b) ((draws n).clock tick) ((draws n).clock (tick + 1)) cred) := by
    refine Agree.granted s _ _ _ (.inr hda) ?_
    intro z hz
    cases hz
    exact .inr hdb
  refine ⟨a, b, _, _, s.grant a (some b) ((draws n).clock tick) ((draws n).clock (tick + 1)) cred,
    ?_, rfl, ha, hb, hA.same.is.mpr hpa, hA.same.is.mpr hpb, hlh.1, hlh.2, hab, hda,
    hdb, hI.step (by omega) hA⟩
  unfold Server.issue
  rw [show (draws n).local.coins = (draws n).coins from rfl, hmint]
  rfl

/-- Testing the access token leaves the refresh token. -/
theorem wp_issued_access (S : Setting handler draws spec σ required T₀ T₁)
    (hn : n + 5 ≤ requests) {a b : HS256Token} {x y : ServerCredential}
    (h : Issued spec required T₁ σ draws gone n s a b x y)
    (hq : ∀ s' n', Inv σ draws gone n' s' → Is s' b.string b → Held spec required T₁ s' b y →
      n ≤ n' → n' ≤ n + 5 → Drawn σ draws n' b.signatureString → Q () s' n') :
    wp handler draws (accessTokenTest spec a.string) s n Q := by
  refine wp_access S h.inv.same hn h.access h.live (fun s' n' hA h1 h2 => ?_)
  refine hq s' n' ?_ (hA.same.is.mpr h.refresh) (h.held.agree hA (Ne.symm h.ne)) h1 h2
    (h.drawnB.mono h1)
  refine h.inv.step h1 (hA.mono fun k hk => .inr ?_)
  rw [hk]
  exact h.drawnA.mono h1

theorem wp_issued_refresh (S : Setting handler draws spec σ required T₀ T₁)
    (hg : ∀ k, gone k → ∀ m < requests, ∀ i < 2, k ≠ drawn σ draws m i)
    (hI : Inv σ draws gone n s) (hn : n + 12 ≤ requests) {b : HS256Token}
    (ht : Is s b.string b) {y : ServerCredential} (h : Held spec required T₁ s b y)
    (hd : Drawn σ draws n b.signatureString)
    (hq : ∀ s' n', Inv σ draws gone n' s' → n ≤ n' → n' ≤ n + 12 → Q () s' n') :
    wp handler draws (refreshTokenTest spec b.string) s n Q := by
  refine wp_refresh S hg hI hn ht h (fun s' n' hA h1 h2 => hq s' n' ?_ h1 h2)
  refine hI.step h1 (hA.mono fun k hk => .inr ?_)
  rcases hk with rfl | hk
  · exact hd.mono h1
  · exact hk

/-- The end of the tests of the password and of the client credentials grant. -/
theorem wp_issued (S : Setting handler draws spec σ required T₀ T₁)
    (hg : ∀ k, gone k → ∀ m < requests, ∀ i < 2, k ≠ drawn σ draws m i)
    (hn : n + 17 ≤ requests) {a b : HS256Token} {x y : ServerCredential}
    (h : Issued spec required T₁ σ draws gone n s a b x y)
    (hq : ∀ s' n', Inv σ draws gone n' s' → n' ≤ n + 17 → Q () s' n') :
    wp handler draws (do
      accessTokenTest spec a.string
      if b.string ≠ [] then refreshTokenTest spec b.string) s n Q := by
  rw [wp_bind]
  refine wp_issued_access S (by omega) h (fun s' n' hI hb hh h1 h2 hd => ?_)
  refine wp_ite (fun _ => ?_) (fun hc => ?_)
  · exact wp_issued_refresh S hg hI (by omega) hb hh hd
      (fun s'' n'' hI' _ h4 => hq s'' n'' hI' (by omega))
  · exact absurd hb.ne_nil hc

/-! ### The password grant -/

theorem Matches.scopes' (S : Setting handler draws spec σ required T₀ T₁) (hs : Same σ s) :
    s.config.allowedScope.includes (Scope.parse spec.validScope) = true ∧
    s.config.allowedScope.includes (Scope.parse spec.invalidScope) = false ∧
    s.config.allowedScope.includes (Scope.parse spec.exceedingScope) = false := by
  rw [hs.config]
  exact ⟨includes_of S.fits.scopes.valid, not_includes_of S.fits.scopes.invalid,
    not_includes_of S.fits.scopes.exceeding⟩

theorem userOK_same (hs : Same σ s) {u p : Str} (h : Password σ u p) : s.userOK u p = true := by
  rw [Server.userOK_iff]
  unfold Password
  rw [hs.users]
  exact h

theorem not_userOK (hs : Same σ s) {u p : Str} (h : ¬ Password σ u p) : s.userOK u p = false := by
  cases hb : s.userOK u p with
  | false => rfl
  | true =>
    rw [Server.userOK_iff] at hb
    unfold Password at hb
    rw [hs.users] at hb
    exact absurd hb h

theorem passwordForm_known (u p sc : Str) :
    knownGrantType ((setValues (passwordForm u p sc)).get b!"grant_type") = true := by
  show knownGrantType b!"password" = true
  decide

theorem grantReply_password (s : Server) (u p sc id secret uri : Str) (client : ServerEntity)
    (l : Local) :
    s.grantReply (tokenRequest (passwordForm u p sc) id secret uri) client l =
      if !s.userOK u p then (.error (accessDenied []), s)
      else if !s.config.allowedScope.includes (Scope.parse sc) then (.error (invalidScope []), s)
      else s.issue l l.tick true
        { clientID := id, username := u, scope := Scope.parse sc } _root_.id := rfl

/-- oauth2test/grants.go:13-139 passes. -/
theorem wp_passwordGrantTest (S : Setting handler draws spec σ required T₀ T₁)
    (hg : ∀ k, gone k → ∀ m < requests, ∀ i < 2, k ≠ drawn σ draws m i)
    (hO : OwnerMatch spec σ) (hI : Inv σ draws gone n s) (hn : n + 23 ≤ requests)
    (hq : ∀ s' n', Inv σ draws gone n' s' → n' ≤ n + 23 → Q () s' n') :
    wp handler draws (passwordGrantTest spec) s n Q := by
  have hs : Same σ s := hI.same
  obtain ⟨hv, hi, hx⟩ := Matches.scopes' S hs
  have hu := understood_none (form := passwordForm spec.resourceOwnerUsername
    spec.resourceOwnerPassword spec.validScope) rfl
  unfold passwordGrantTest
  -- invalid client secret
  rw [wp_bind]
  refine wp_badSecret S hs (passwordForm_known _ _ _) hu ?_
  rw [wp_bind]
  refine wp_invalidClient handler draws ?_
  -- invalid username
  rw [wp_bind]
  refine wp_confidential S hs (passwordForm_known _ _ _) (understood_none rfl)
    (reply := .error (accessDenied [])) (s' := s)
    (fun client _ => by rw [grantReply_password, not_userOK hs hO.username]; rfl) (by simp) ?_
  rw [wp_bind]
  refine wp_accessDenied handler draws ?_
  -- invalid password
  rw [wp_bind]
  refine wp_confidential S hs (passwordForm_known _ _ _) (understood_none rfl)
    (reply := .error (accessDenied [])) (s' := s)
    (fun client _ => by rw [grantReply_password, not_userOK hs hO.password]; rfl) (by simp) ?_
  rw [wp_bind]
  refine wp_accessDenied handler draws ?_
  -- invalid scope
  rw [wp_bind]
  refine wp_confidential S hs (passwordForm_known _ _ _) (understood_none rfl)
    (reply := .error (invalidScope [])) (s' := s)
    (fun client _ => by rw [grantReply_password, userOK_same hs hO.valid, hi]; rfl) (by simp) ?_
  rw [wp_bind]
  refine wp_invalidScope handler draws ?_
  -- exceeding scope
  rw [wp_bind]
  refine wp_confidential S hs (passwordForm_known _ _ _) (understood_none rfl)
    (reply := .error (invalidScope [])) (s' := s)
    (fun client _ => by rw [grantReply_password, userOK_same hs hO.valid, hx]; rfl) (by simp) ?_
  rw [wp_bind]
  refine wp_invalidScope handler draws ?_
  -- get access token
  obtain ⟨a, b, e₁, e₂, s1, hiss, -, -, -, h⟩ := issue_ok S hg (hI.later (n' := n + 5) (by omega))
    (by omega) 0 (cred := {
      clientID := spec.confidentialClientID
      username := spec.resourceOwnerUsername
      scope := Scope.parse spec.validScope }) rfl S.fits.scopes.sufficient S.fits.scopes.printed
  rw [wp_bind]
  refine wp_confidential S hs (passwordForm_known _ _ _) (understood_none rfl)
    (reply := .token (Server.grantResponse s.config a (some b) (Scope.parse spec.validScope)))
    (s' := s1)
    (fun client _ => by
      rw [grantReply_password, userOK_same hs hO.valid, hv]
      exact hiss) (by simp) ?_
  rw [wp_bind]
  refine wp_expectTokens handler draws (by rw [hs.config]; exact S.fits.expiresIn)
    S.fits.scopes.printed S.fits.scopes.utf8 S.fits.scopes.given.1 ?_
  exact wp_issued S hg (by omega) h (fun s' n' hI' h' => hq s' n' hI' (by omega))

/-! ### The client credentials grant -/

theorem credentialsForm_known (sc : Str) :
    knownGrantType ((setValues (credentialsForm sc)).get b!"grant_type") = true := by
  show knownGrantType b!"client_credentials" = true
  decide

theorem grantReply_credentials (s : Server) (sc id secret uri : Str) (client : ServerEntity)
    (l : Local) :
    s.grantReply (tokenRequest (credentialsForm sc) id secret uri) client l =
      if !client.confidential then (.error (invalidClient b!"unknown client"), s)
      else if !s.config.allowedScope.includes (Scope.parse sc) then (.error (invalidScope []), s)
      else s.issue l l.tick true { clientID := id, scope := Scope.parse sc } _root_.id := rfl

/-- oauth2test/grants.go:142-241 passes. -/
theorem wp_clientCredentialsGrantTest (S : Setting handler draws spec σ required T₀ T₁)
    (hg : ∀ k, gone k → ∀ m < requests, ∀ i < 2, k ≠ drawn σ draws m i)
    (hI : Inv σ draws gone n s) (hn : n + 22 ≤ requests)
    (hq : ∀ s' n', Inv σ draws gone n' s' → n' ≤ n + 22 → Q () s' n') :
    wp handler draws (clientCredentialsGrantTest spec) s n Q := by
  have hs : Same σ s := hI.same
  obtain ⟨hv, hi, hx⟩ := Matches.scopes' S hs
  unfold clientCredentialsGrantTest
  -- invalid client secret
  rw [wp_bind]
  refine wp_badSecret S hs (credentialsForm_known _) (understood_none rfl) ?_
  rw [wp_bind]
  refine wp_invalidClient handler draws ?_
  rw [wp_bind]
  refine wp_realm handler draws ?_
  -- public client
  rw [wp_bind]
  refine wp_public S hs (credentialsForm_known _) (understood_none rfl)
    (reply := .error (invalidClient b!"unknown client")) (s' := s)
    (fun client hc => by rw [grantReply_credentials, hc]; rfl) (by simp) ?_
  rw [wp_bind]
  refine wp_invalidClient handler draws ?_
  rw [wp_bind]
  refine wp_realm handler draws ?_
  -- invalid scope
  rw [wp_bind]
  refine wp_confidential S hs (credentialsForm_known _) (understood_none rfl)
    (reply := .error (invalidScope [])) (s' := s)
    (fun client hc => by rw [grantReply_credentials, hc, hi]; rfl) (by simp) ?_
  rw [wp_bind]
  refine wp_invalidScope handler draws ?_
  -- exceeding scope
  rw [wp_bind]
  refine wp_confidential S hs (credentialsForm_known _) (understood_none rfl)
    (reply := .error (invalidScope [])) (s' := s)
    (fun client hc => by rw [grantReply_credentials, hc, hx]; rfl) (by simp) ?_
  rw [wp_bind]
  refine wp_invalidScope handler draws ?_
  -- get access token
  obtain ⟨a, b, e₁, e₂, s1, hiss, -, -, -, h⟩ := issue_ok S hg (hI.later (n' := n + 4) (by omega))
    (by omega) 0 (cred := {
      clientID := spec.confidentialClientID
      scope := Scope.parse spec.validScope }) rfl S.fits.scopes.sufficient S.fits.scopes.printed
  rw [wp_bind]
  refine wp_confidential S hs (credentialsForm_known _) (understood_none rfl)
    (reply := .token (Server.grantResponse s.config a (some b) (Scope.parse spec.validScope)))
    (s' := s1)
    (fun client hc => by
      rw [grantReply_credentials, hc, hv]
      exact hiss) (by simp) ?_
  rw [wp_bind]
  refine wp_expectTokens handler draws (by rw [hs.config]; exact S.fits.expiresIn)
    S.fits.scopes.printed S.fits.scopes.utf8 S.fits.scopes.given.1 ?_
  exact wp_issued S hg (by omega) h (fun s' n' hI' h' => hq s' n' hI' (by omega))

/-! ### Consent -/

theorem authorizeForm_nodup (rt sc : Str) : (authorizeForm spec rt sc).keys.Nodup := by
  show [b!"response_type", b!"client_id", b!"redirect_uri", b!"scope", b!"state"].Nodup
  decide

theorem authorizeReq_get {params headers : Option (GoMap Str)} {rt sc k : Str}
    (hn : (params.getD []).keys.Nodup) :
    (setValues (authorizeReq spec params headers rt sc).form).get k =
      (((authorizeForm spec rt sc).get? k).or ((params.getD []).get? k)).getD [] :=
  extend_get hn (authorizeForm_nodup rt sc) k

/-- What the tests ask for at the authorization endpoint. -/
def consentRequest (spec : Spec) (rt sc : Str) : AuthorizationRequest where
  responseType := rt
  scope := Scope.parse sc
  clientID := spec.confidentialClientID
  redirectURI := spec.primaryRedirectURI
  state := b!"xyz"

theorem authorize_req (S : Setting handler draws spec σ required T₀ T₁) (hR : RedirectsMatch spec)
    {params headers : Option (GoMap Str)} {rt sc path : Str} {l : Local} (hrt : rt ≠ [])
    (hn : (params.getD []).keys.Nodup) :
    s.authorizeReply ((authorizeReq spec params headers rt sc).sent path) l =
      authorized s b!"POST" (consentRequest spec rt sc) (OAuth2.Spec.authParam params b!"username")
        (OAuth2.Spec.authParam params b!"password") l := by
  obtain ⟨u, hu, -⟩ := hR.primary
  refine (authorize_as (.inr rfl) (rt := rt) (by rw [authorizeReq_get hn]; rfl) hrt
    (id := spec.confidentialClientID) (by rw [authorizeReq_get hn]; rfl) S.fits.clients.given.1
    (ru := spec.primaryRedirectURI) (by rw [authorizeReq_get hn]; rfl) hR.plain hR.given.1 hu.parsed
    (scope := sc) (by rw [authorizeReq_get hn]; rfl)
    (state := b!"xyz") (by rw [authorizeReq_get hn]; rfl)).trans ?_
  rw [authorizeReq_get hn, authorizeReq_get hn]
  rfl

theorem authorize_bare (S : Setting handler draws spec σ required T₀ T₁) (hR : RedirectsMatch spec)
    {rt sc path : Str} {l : Local} (hrt : rt ≠ []) :
    s.authorizeReply (Req.sent {
      method := b!"POST"
      path := spec.authorizeEndpoint
      form := authorizeForm spec rt sc } path) l =
      authorized s b!"POST" (consentRequest spec rt sc) [] [] l := by
  obtain ⟨u, hu, -⟩ := hR.primary
  exact authorize_as (.inr rfl) (rt := rt) rfl hrt (id := spec.confidentialClientID) rfl
    S.fits.clients.given.1 (ru := spec.primaryRedirectURI) rfl hR.plain hR.given.1 hu.parsed
    (scope := sc) rfl (state := b!"xyz") rfl

/-- A request that is understood, for one of the two response types. -/
theorem authorized_known (S : Setting handler draws spec σ required T₀ T₁) (hs : Same σ s)
    {rt sc u p : Str} {l : Local} (hk : knownResponseType rt = true) :
    authorized s b!"POST" (consentRequest spec rt sc) u p l =
      if !s.config.allowedScope.includes (Scope.parse sc) then
        (.error ((invalidScope []).setRedirect spec.primaryRedirectURI b!"xyz"
          (decide (rt = TokenResponseType))), s)
      else if !s.userOK u p then
        (.error ((accessDenied []).setRedirect spec.primaryRedirectURI b!"xyz"
          (decide (rt = TokenResponseType))), s)
      else if decide (rt = TokenResponseType) then
        s.issue l l.tick false
          { clientID := spec.confidentialClientID, username := u, scope := Scope.parse sc }
          (·.setRedirect spec.primaryRedirectURI b!"xyz")
      else match Server.gen s.config l.coins with
      | none => (.crash, s)
      | some (c, _) =>
        (.code { code := c.string, redirectURI := spec.primaryRedirectURI, state := b!"xyz" },
          { s with authorizationCodes := s.authorizationCodes.set c.signatureString {
              clientID := spec.confidentialClientID, username := u, scope := Scope.parse sc,
              expiresAt := l.clock l.tick + s.config.authorizationCodeLifespan,
              redirectURI := spec.primaryRedirectURI } }) := by
  obtain ⟨client, hc1, hc2, hc3, hc4⟩ := confidential_client S hs
  unfold authorized
  simp only [consentRequest, hk, hc1]
  rw [if_neg (by simp)]
  refine (if_neg (not_not_intro hc4)).trans ?_
  refine (if_neg (show ¬ b!"POST" = b!"GET" by decide)).trans ?_
  rfl

theorem token_known : knownResponseType b!"token" = true := by decide

theorem code_known : knownResponseType b!"code" = true := by decide

/-! ### The implicit grant -/

/-- oauth2test/grants.go:244-349 passes. -/
theorem wp_implicitGrantTest (S : Setting handler draws spec σ required T₀ T₁)
    (hg : ∀ k, gone k → ∀ m < requests, ∀ i < 2, k ≠ drawn σ draws m i)
    (hR : RedirectsMatch spec) (hC : ConsentMatch spec σ)
    (hI : Inv σ draws gone n s) (hn : n + 10 ≤ requests)
    (hq : ∀ s' n', Inv σ draws gone n' s' → n' ≤ n + 10 → Q () s' n') :
    wp handler draws (implicitGrantTest spec) s n Q := by
  have hs : Same σ s := hI.same
  obtain ⟨hv, hi, hx⟩ := Matches.scopes' S hs
  obtain ⟨u, hu, huq⟩ := hR.primary
  unfold implicitGrantTest
  -- invalid scope
  rw [wp_bind]
  refine wp_authorize S rfl (reply := .error ((invalidScope []).setRedirect spec.primaryRedirectURI
    b!"xyz" true)) (s' := s) (fun path => ?_) (by simp) ?_
  · rw [authorize_req S hR (by decide) hC.maps.1, authorized_known S hs token_known, hi]
    rfl
  rw [wp_bind]
  refine wp_fragmentError handler draws hu (by decide) ?_
  -- exceeding scope
  rw [wp_bind]
  refine wp_authorize S rfl (reply := .error ((invalidScope []).setRedirect spec.primaryRedirectURI
    b!"xyz" true)) (s' := s) (fun path => ?_) (by simp) ?_
  · rw [authorize_req S hR (by decide) hC.maps.1, authorized_known S hs token_known, hx]
    rfl
  rw [wp_bind]
  refine wp_fragmentError handler draws hu (by decide) ?_
  -- access denied
  rw [wp_bind]
  refine wp_authorize S rfl (reply := .error ((accessDenied []).setRedirect spec.primaryRedirectURI
    b!"xyz" true)) (s' := s) (fun path => ?_) (by simp) ?_
  · rw [authorize_bare S hR (by decide), authorized_known S hs token_known, hv,
      not_userOK hs hC.missing]
    rfl
  rw [wp_bind]
  refine wp_fragmentError handler draws hu (by decide) ?_
  -- invalid password
  rw [wp_bind]
  refine wp_authorize S rfl (reply := .error ((accessDenied []).setRedirect spec.primaryRedirectURI
    b!"xyz" true)) (s' := s) (fun path => ?_) (by simp) ?_
  · rw [authorize_req S hR (by decide) hC.maps.2, authorized_known S hs token_known, hv,
      not_userOK hs hC.invalid]
    rfl
  rw [wp_bind]
  refine wp_fragmentError handler draws hu (by decide) ?_
  -- get access token
  obtain ⟨a, hmint, ha, hpa⟩ := S.mint_access (s := s) (n := n + 1 + 1 + 1 + 1) (by omega) hs.config
  obtain ⟨-, fa, -⟩ := S.fresh hg hI (m := n + 1 + 1 + 1 + 1) (i := 0) (by omega) (by omega)
    (by omega)
  rw [← ha] at fa
  have hda : Drawn σ draws (n + 1 + 1 + 1 + 1 + 1) a.signatureString := by
    rw [ha]; exact Drawn.last σ draws _ (by omega)
  generalize hcred : ({
    clientID := spec.confidentialClientID
    username := OAuth2.Spec.authParam spec.validAuthorizationParams b!"username"
    scope := Scope.parse spec.validScope } : ServerCredential) = cred
  have hA : Agree (fun k => gone k ∨ Drawn σ draws (n + 1 + 1 + 1 + 1 + 1) k) s
      (s.grant a none ((draws (n + 1 + 1 + 1 + 1)).clock 0) ((draws (n + 1 + 1 + 1 + 1)).clock 1)
        cred) := Agree.granted s _ _ _ (.inr hda) (fun _ hz => nomatch hz)
  rw [wp_bind]
  refine wp_authorize S rfl (reply := .token ((Server.grantResponse s.config a none
    (Scope.parse spec.validScope)).setRedirect spec.primaryRedirectURI b!"xyz"))
    (s' := s.grant a none ((draws (n + 1 + 1 + 1 + 1)).clock 0)
      ((draws (n + 1 + 1 + 1 + 1)).clock 1) cred)
    (fun path => ?_) (by simp) ?_
  · rw [authorize_req S hR (by decide) hC.maps.1, authorized_known S hs token_known, hv,
      userOK_same hs hC.valid, hcred]
    unfold Server.issue
    rw [show (draws (n + 1 + 1 + 1 + 1)).local.coins = (draws (n + 1 + 1 + 1 + 1)).coins from rfl,
      hmint, ← hcred]
    rfl
  have hlive : Live spec required T₁ (s.grant a none ((draws (n + 1 + 1 + 1 + 1)).clock 0)
      ((draws (n + 1 + 1 + 1 + 1)).clock 1) cred) a { cred with
        expiresAt := (draws (n + 1 + 1 + 1 + 1)).clock 0 + s.config.accessTokenLifespan } := by
    have hi := (S.fair.clock (n + 1 + 1 + 1 + 1) (by omega) 0).1
    obtain ⟨l1, -⟩ := S.fair.lifespans
    rw [← hs.config] at l1
    refine ⟨?_, fa, by rw [← hcred], by rw [← hcred]; exact S.fits.scopes.sufficient, ?_,
      dated_access S hs (by omega) 0⟩
    · show (s.accessTokens.set _ _).get? _ = _
      rw [GoMap.get?_set, if_pos rfl]
    · show T₁ ≤ (draws (n + 1 + 1 + 1 + 1)).clock 0 + s.config.accessTokenLifespan
      unfold Time at *
      omega
  generalize s.grant a none ((draws (n + 1 + 1 + 1 + 1)).clock 0)
      ((draws (n + 1 + 1 + 1 + 1)).clock 1) cred = s1 at hA hlive
  obtain ⟨w, hw, w1, w2, w3, w4, w5, w6, w7⟩ := implicit_fields hu s.config a
    (scope := Scope.parse spec.validScope) (by
      intro h
      have := S.fits.scopes.printed
      rw [h] at this
      exact S.fits.scopes.given.1 this.symm)
  rw [hw]
  rw [wp_bind, wp_assert]
  refine ⟨by simp [w1], ?_⟩
  rw [wp_bind, wp_ofOption]
  refine ⟨_, w2, ?_⟩
  rw [wp_bind, wp_assert]
  refine ⟨by simp, ?_⟩
  rw [wp_bind, wp_ofOption]
  refine ⟨_, w3, ?_⟩
  rw [wp_bind, wp_assert]
  refine ⟨by simp [S.fits.scopes.printed], ?_⟩
  rw [wp_bind, wp_ofOption]
  refine ⟨_, w4, ?_⟩
  rw [wp_bind, wp_assert]
  refine ⟨by rw [hs.config, ← S.fits.expiresIn.1]; simp, ?_⟩
  rw [wp_bind, wp_ofOption]
  refine ⟨_, w5, ?_⟩
  rw [wp_bind, wp_assert]
  refine ⟨by simp, ?_⟩
  rw [wp_bind, wp_ofOption]
  refine ⟨_, w6, ?_⟩
  rw [wp_bind, wp_assert]
  refine ⟨by simp, ?_⟩
  rw [wp_bind, wp_ofOption]
  refine ⟨_, w7, ?_⟩
  have hpa1 : Is s1 a.string a := hA.same.is.mpr hpa
  rw [wp_bind, wp_assert]
  refine ⟨by simp [hpa1.ne_nil], ?_⟩
  -- test access token
  refine wp_access S (hs.agree hA) (by omega) hpa1 hlive (fun s' n' hA' h1 h2 => ?_)
  refine hq s' n' ?_ (by omega)
  refine (hI.step (by omega) hA).step h1 (hA'.mono fun k hk => .inr ?_)
  rw [hk]
  exact hda.mono h1

/-! ### The authorization code grant -/

/-- The server has this code of the confidential client, not used yet. -/
structure CodeHeld (spec : Spec) (T₁ : Time) (s : Server) (c : HS256Token) (x : ServerCredential) :
    Prop where
  stored : s.authorizationCodes.get? c.signatureString = some x
  owner : x.clientID = spec.confidentialClientID
  scope : x.scope = Scope.parse spec.validScope
  expiry : T₁ ≤ x.expiresAt
  redirect : x.redirectURI = spec.primaryRedirectURI
  used : x.used = false

/-- Asking for a code. -/
theorem wp_getCode (S : Setting handler draws spec σ required T₀ T₁)
    (hR : RedirectsMatch spec) (hC : ConsentMatch spec σ)
    (hI : Inv σ draws gone n s) (hn : n < requests) {Q : Str → Server → Nat → Prop}
    (hq : ∀ c x s', Is s' c.string c → CodeHeld spec T₁ s' c x → Inv σ draws gone (n + 1) s' →
      c.signatureString = drawn σ draws n 0 → Q c.string s' (n + 1)) :
    wp handler draws (getCode spec) s n Q := by
  have hs : Same σ s := hI.same
  obtain ⟨hv, -⟩ := Matches.scopes' S hs
  obtain ⟨u, hu, huq⟩ := hR.primary
  obtain ⟨c, rest, hgen, hc, hpc⟩ := S.gen (s := s) hn hs.config
  have hd : Drawn σ draws (n + 1) c.signatureString := by
    rw [hc]; exact Drawn.last σ draws _ (by omega)
  generalize hcred : ({
    clientID := spec.confidentialClientID
    username := OAuth2.Spec.authParam spec.validAuthorizationParams b!"username"
    scope := Scope.parse spec.validScope
    expiresAt := (draws n).clock 0 + s.config.authorizationCodeLifespan
    redirectURI := spec.primaryRedirectURI } : ServerCredential) = cred
  have hA := Agree.setCode (X := fun k => gone k ∨ Drawn σ draws (n + 1) k) s cred (.inr hd)
  unfold getCode
  rw [wp_bind]
  refine wp_authorize S rfl
    (reply := .code { code := c.string, redirectURI := spec.primaryRedirectURI, state := b!"xyz" })
    (s' := { s with authorizationCodes := s.authorizationCodes.set c.signatureString cred })
    (fun path => ?_) (by simp) ?_
  · rw [authorize_req S hR (by decide) hC.maps.1, authorized_known S hs code_known, hv,
      userOK_same hs hC.valid, show (draws n).local.coins = (draws n).coins from rfl, hgen, ← hcred]
    rfl
  obtain ⟨w, hw, w1, w2, w3⟩ := code_fields hu huq c
  rw [hw]
  rw [wp_bind, wp_assert]
  refine ⟨by simp [w1], ?_⟩
  rw [wp_bind, wp_ofOption]
  refine ⟨_, w2, ?_⟩
  rw [wp_bind, wp_assert]
  refine ⟨by simp, ?_⟩
  rw [wp_bind, wp_ofOption]
  refine ⟨_, w3, ?_⟩
  rw [wp_bind, wp_assert]
  refine ⟨by simp [Is.ne_nil (s := s) hpc], ?_⟩
  rw [wp_pure]
  refine hq c _ _ (hA.same.is.mpr hpc) ⟨by
      show (s.authorizationCodes.set _ _).get? _ = _
      rw [GoMap.get?_set, if_pos rfl], by rw [← hcred], by rw [← hcred], ?_, by rw [← hcred],
      by rw [← hcred]⟩ (hI.step (by omega) hA) hc
  rw [← hcred]
  have hi := (S.fair.clock n hn 0).1
  obtain ⟨-, -, l3⟩ := S.fair.lifespans
  rw [← hs.config] at l3
  show T₁ ≤ (draws n).clock 0 + s.config.authorizationCodeLifespan
  unfold Time at *
  omega

theorem codeForm_known (c uri : Str) :
    knownGrantType ((setValues (codeForm spec c uri)).get b!"grant_type") = true := by
  show knownGrantType b!"authorization_code" = true
  decide

theorem grantReply_code (s : Server) (c uri id secret uri' : Str) (client : ServerEntity)
    (l : Local) :
    s.grantReply (tokenRequest (codeForm spec c uri) id secret uri') client l =
      s.codeReply (tokenRequest (codeForm spec c uri) id secret uri') l := rfl

theorem understood_primary (hR : RedirectsMatch spec) (c : Str) :
    Understood (codeForm spec c spec.primaryRedirectURI) spec.primaryRedirectURI := by
  obtain ⟨u, hu, -⟩ := hR.primary
  exact ⟨hR.plain, .inr ⟨u, hu.parsed, C17_fragment_never_seen hu.parsed⟩⟩

theorem code_unknown {tok uri id secret uri' : Str} {t : HS256Token} (ht : Is s tok t)
    (h : s.authorizationCodes.get? t.signatureString = none) (client : ServerEntity) (l : Local) :
    s.grantReply (tokenRequest (codeForm spec tok uri) id secret uri') client l =
      (.error (invalidGrant b!"unknown authorization code"), s) := by
  rw [grantReply_code]
  unfold Server.codeReply
  rw [show HS256Token.parse s.config.secret
    (tokenRequest (codeForm spec tok uri) id secret uri').code = .ok t from ht]
  simp only [h]

/-- A code that is used, in time. -/
theorem code_held (S : Setting handler draws spec σ required T₀ T₁) (hn : n < requests)
    {tok uri id secret uri' : Str} {t : HS256Token} (ht : Is s tok t) {x : ServerCredential}
    (h : CodeHeld spec T₁ s t x) (client : ServerEntity) :
    s.grantReply (tokenRequest (codeForm spec tok uri) id secret uri') client (draws n).local =
      if spec.confidentialClientID ≠ id then
        (.error (invalidGrant b!"invalid authorization code ownership"), s)
      else if spec.primaryRedirectURI ≠ uri' then
        (.error (invalidGrant b!"changed redirect uri"), s)
      else
        match s.issue (draws n).local 1 true
          { clientID := id, username := x.username, scope := Scope.parse spec.validScope,
            code := t.signatureString } _root_.id with
        | (.token r, s) => (.token r, { s with
            authorizationCodes := s.authorizationCodes.update t.signatureString
              fun c => { c with used := true } })
        | x => x := by
  rw [grantReply_code]
  unfold Server.codeReply
  rw [show HS256Token.parse s.config.secret
    (tokenRequest (codeForm spec tok uri) id secret uri').code = .ok t from ht]
  simp only [h.stored, h.used, h.owner, h.redirect, h.scope]
  rw [if_neg (by simp), if_neg (by
    rw [show (draws n).local.clock (draws n).local.tick = (draws n).clock 0 from rfl,
      not_before S hn h.expiry]
    simp)]
  rfl

/-- The code is exchanged for tokens. -/
theorem code_ok (S : Setting handler draws spec σ required T₀ T₁)
    (hg : ∀ k, gone k → ∀ m < requests, ∀ i < 2, k ≠ drawn σ draws m i)
    (hI : Inv σ draws gone n s) (hn : n < requests) {c : HS256Token} {x : ServerCredential}
    (ht : Is s c.string c) (h : CodeHeld spec T₁ s c x) (hd : Drawn σ draws n c.signatureString) :
    ∃ a b x₁ x₂ s1, (∀ client, s.grantReply (tokenRequest
        (codeForm spec c.string spec.primaryRedirectURI) spec.confidentialClientID
        spec.confidentialClientSecret spec.primaryRedirectURI) client (draws n).local =
        (.token (Server.grantResponse s.config a (some b) (Scope.parse spec.validScope)), s1)) ∧
      Issued spec required T₁ σ draws gone (n + 1) s1 a b x₁ x₂ ∧
      x₁.code = c.signatureString ∧ x₂.code = c.signatureString ∧
      ∃ y, s1.authorizationCodes.get? c.signatureString = some y ∧ y.used = true := by
  obtain ⟨a, b, e₁, e₂, s1, hiss, hcodes, ha, hb, hi⟩ := issue_ok S hg hI hn 1 (cred := {
      clientID := spec.confidentialClientID
      username := x.username
      scope := Scope.parse spec.validScope
      code := c.signatureString }) rfl S.fits.scopes.sufficient S.fits.scopes.printed
  have hA := Agree.updateCode (X := fun k => k = c.signatureString) s1 (k := c.signatureString)
    (fun c => { c with used := true }) rfl
  have hca : ∀ {t : HS256Token}, (∃ i, i < 2 ∧ t.signatureString = drawn σ draws n i) →
      ¬ t.signatureString = c.signatureString := by
    rintro t ⟨i, hi, ht⟩ he
    obtain ⟨m, hm, j, hj, hc⟩ := hd
    rw [ht, hc] at he
    have := (S.fair.distinct n hn m (by omega) i hi j hj he).1
    omega
  refine ⟨a, b, _, _, _, fun client => ?_,
    hi.agree hA (hca ⟨0, by omega, ha⟩) (hca ⟨1, by omega, hb⟩) ?_, rfl, rfl, ?_⟩
  · rw [code_held S hn ht h client, if_neg (not_not_intro rfl), if_neg (not_not_intro rfl), hiss]
  · rintro k rfl
    exact .inr (hd.mono (by omega))
  · refine ⟨{ x with used := true }, ?_, rfl⟩
    rw [GoMap.get?_update, if_pos rfl, hcodes, h.stored]
    rfl

end

end OAuth2.Suite

import Verif.Lemmas.SuiteCode

/-!
All integration tests in a row.
-/

namespace OAuth2.Suite

open _root_.OAuth2.Spec

set_option linter.unusedSimpArgs false

section

variable {handler : Request → Handler Unit} {draws : Nat → Draw} {spec : Spec} {σ : Server}
  {required : Scope} {T₀ T₁ : Time} {n : Nat} {s : Server}

theorem Serves.ne_nil {uri endpoint : Str} (h : Serves handler uri endpoint) (he : endpoint ≠ []) :
    uri ≠ [] := by
  rintro rfl
  obtain ⟨u, h1, -, h3, -⟩ := h
  rw [show parseURL [] = some {} from by decide +kernel] at h1
  cases h1
  rw [lastSegment_iff] at h3
  exact he h3.symm

theorem Genuine.ne_nil {text sig : Str} (h : Genuine s text sig) : text ≠ [] := by
  obtain ⟨t, ht, -⟩ := Genuine.is h
  exact ht.ne_nil

theorem params_given (hC : ConsentMatch spec σ) :
    spec.validAuthorizationParams.isSome = true := by
  cases hp : spec.validAuthorizationParams with
  | some p => rfl
  | none =>
    have h := hC.valid
    rw [hp] at h
    exact absurd h hC.missing

theorem wp_mustAuthorization (hC : ConsentMatch spec σ) {Q : Unit → Server → Nat → Prop}
    (hq : Q () s n) : wp handler draws (mustAuthorization spec) s n Q := by
  unfold mustAuthorization
  rw [wp_bind, wp_must]
  refine ⟨?_, ?_⟩
  · rcases hC.given with h | h <;> simp [h]
  rw [wp_must]
  exact ⟨by simp [params_given hC], hq⟩

open Test

/-- One condition on the specification. -/
theorem wp_given {c : Prop} [Decidable c] (hc : c) {k : Test Unit} {Q : Unit → Server → Nat → Prop}
    (hk : wp handler draws k s n Q) : wp handler draws (must (decide c) >>= fun _ => k) s n Q := by
  rw [wp_bind, wp_must]
  exact ⟨by simp [hc], hk⟩

/-- The tests of introspection and revocation. -/
def afterRefresh (spec : Spec) : Test Unit := do
  if spec.introspectionEndpoint ≠ [] then introspectionEndpointTest spec
  if spec.revocationEndpoint ≠ [] then revocationEndpointTest spec

/-- The tests from this stage on. -/
def afterCode (spec : Spec) : Test Unit := do
  if spec.refreshTokenGrantSupport then
    must (spec.invalidRefreshToken ≠ [])
    must (spec.unknownRefreshToken ≠ [])
    must (spec.validRefreshToken ≠ [])
    must (spec.expiredRefreshToken ≠ [])
    refreshTokenGrantTest spec
  afterRefresh spec

/-- The tests from this stage on. -/
def afterImplicit (spec : Spec) : Test Unit := do
  if spec.authorizationCodeGrantSupport then
    mustAuthorization spec
    must (spec.invalidAuthorizationCode ≠ [])
    must (spec.unknownAuthorizationCode ≠ [])
    must (spec.expiredAuthorizationCode ≠ [])
    authorizationCodeGrantTest spec
  afterCode spec

/-- The tests from this stage on. -/
def afterCredentials (spec : Spec) : Test Unit := do
  if spec.implicitGrantSupport then
    mustAuthorization spec
    implicitGrantTest spec
  afterImplicit spec

/-- The tests from this stage on. -/
def afterPassword (spec : Spec) : Test Unit := do
  if spec.clientCredentialsGrantSupport then clientCredentialsGrantTest spec
  afterCredentials spec

/-- The tests from this stage on. -/
def afterAuthorize (spec : Spec) : Test Unit := do
  if spec.passwordGrantSupport then
    must (spec.resourceOwnerUsername ≠ [])
    must (spec.resourceOwnerPassword ≠ [])
    passwordGrantTest spec
  afterPassword spec

/-- The tests from this stage on. -/
def afterToken (spec : Spec) : Test Unit := do
  if spec.implicitGrantSupport || spec.authorizationCodeGrantSupport then
    must (spec.invalidRedirectURI ≠ [])
    must (spec.primaryRedirectURI ≠ [])
    must (spec.secondaryRedirectURI ≠ [])
    authorizationEndpointTest spec
  afterAuthorize spec

/-- The tests from this stage on. -/
def afterResource (spec : Spec) : Test Unit := do
  if spec.passwordGrantSupport || spec.clientCredentialsGrantSupport ||
      spec.authorizationCodeGrantSupport || spec.refreshTokenGrantSupport then
    tokenEndpointTest spec
  afterToken spec


abbrev Ok : Unit → Server → Nat → Prop := fun _ _ n => n ≤ requests

theorem wp_afterRefresh (S : Setting handler draws spec σ required T₀ T₁) {gone : Str → Prop}
    (hI : Inv σ draws gone n s) (hgr : ∀ k, gone k → σ.refreshTokens.get? k ≠ none)
    (hn : n + 25 ≤ requests) : wp handler draws (afterRefresh spec) s n Ok := by
  have hrest : ∀ m, n ≤ m → m ≤ n + 11 → wp handler draws (do
      if spec.revocationEndpoint ≠ [] then revocationEndpointTest spec) s m Ok := by
    intro m hm' hm
    refine wp_ite (fun he => ?_) (fun _ => ?_)
    · exact wp_revocationEndpointTest S (hI.later hm') hgr he (by omega)
        (fun s' n' h => by show n' ≤ _; omega)
    · rw [wp_pure]
      show m ≤ _
      omega
  unfold afterRefresh
  dsimp only
  refine wp_ite (fun he => ?_) (fun _ => ?_)
  · rw [wp_bind]
    exact wp_introspectionEndpointTest S hI hgr he (by omega) (hrest _ (by omega) (by omega))
  · exact hrest _ (by omega) (by omega)

theorem wp_afterCode (S : Setting handler draws spec σ required T₀ T₁)
    (hI : Inv σ draws (fun _ => False) n s) (hn : n + 43 ≤ requests) :
    wp handler draws (afterCode spec) s n Ok := by
  unfold afterCode
  dsimp only
  refine wp_ite (fun h => ?_) (fun _ => wp_afterRefresh S hI (fun _ h => h.elim) (by omega))
  have hM := S.fits.refresh h
  obtain ⟨_, hu, -⟩ := hM.unknown
  obtain ⟨_, ⟨_, hv, -⟩, -⟩ := hM.valid
  obtain ⟨_, ⟨_, he, -⟩, -⟩ := hM.expired
  refine wp_given hM.given (wp_given (Genuine.ne_nil hu) (wp_given (Genuine.ne_nil hv)
    (wp_given (Genuine.ne_nil he) ?_)))
  rw [wp_bind]
  exact wp_refreshTokenGrantTest S hM hI (by omega)
    (fun gone s' n' hg hI' hn' => wp_afterRefresh S hI' hg (by omega))

theorem wp_afterImplicit (S : Setting handler draws spec σ required T₀ T₁)
    (hI : Inv σ draws (fun _ => False) n s) (hn : n + 77 ≤ requests) :
    wp handler draws (afterImplicit spec) s n Ok := by
  unfold afterImplicit
  dsimp only
  refine wp_ite (fun h => ?_) (fun _ => wp_afterCode S hI (by omega))
  obtain ⟨hR, hC⟩ := S.fits.redirects (.inr h)
  have hM := S.fits.codes h
  obtain ⟨_, hu, -⟩ := hM.unknown
  obtain ⟨_, ⟨_, he, -⟩, -⟩ := hM.expired
  rw [wp_bind]
  refine wp_mustAuthorization hC ?_
  refine wp_given hM.given (wp_given (Genuine.ne_nil hu) (wp_given (Genuine.ne_nil he) ?_))
  rw [wp_bind]
  exact wp_authorizationCodeGrantTest S hR hC hM hI (by omega)
    (fun s' n' hI' hn' => wp_afterCode S hI' (by omega))

theorem wp_afterCredentials (S : Setting handler draws spec σ required T₀ T₁)
    (hI : Inv σ draws (fun _ => False) n s) (hn : n + 87 ≤ requests) :
    wp handler draws (afterCredentials spec) s n Ok := by
  unfold afterCredentials
  dsimp only
  refine wp_ite (fun h => ?_) (fun _ => wp_afterImplicit S hI (by omega))
  obtain ⟨hR, hC⟩ := S.fits.redirects (.inl h)
  rw [wp_bind]
  refine wp_mustAuthorization hC ?_
  rw [wp_bind]
  exact wp_implicitGrantTest S (fun _ h => h.elim) hR hC hI (by omega)
    (fun s' n' hI' hn' => wp_afterImplicit S hI' (by omega))

theorem wp_afterPassword (S : Setting handler draws spec σ required T₀ T₁)
    (hI : Inv σ draws (fun _ => False) n s) (hn : n + 109 ≤ requests) :
    wp handler draws (afterPassword spec) s n Ok := by
  unfold afterPassword
  dsimp only
  refine wp_ite (fun h => ?_) (fun _ => wp_afterCredentials S hI (by omega))
  rw [wp_bind]
  exact wp_clientCredentialsGrantTest S (fun _ h => h.elim) hI (by omega)
    (fun s' n' hI' hn' => wp_afterCredentials S hI' (by omega))

theorem wp_afterAuthorize (S : Setting handler draws spec σ required T₀ T₁)
    (hI : Inv σ draws (fun _ => False) n s) (hn : n + 132 ≤ requests) :
    wp handler draws (afterAuthorize spec) s n Ok := by
  unfold afterAuthorize
  dsimp only
  refine wp_ite (fun h => ?_) (fun _ => wp_afterPassword S hI (by omega))
  have hO := S.fits.owner h
  refine wp_given hO.given.1 (wp_given hO.given.2 ?_)
  rw [wp_bind]
  exact wp_passwordGrantTest S (fun _ h => h.elim) hO hI (by omega)
    (fun s' n' hI' hn' => wp_afterPassword S hI' (by omega))

theorem wp_afterToken (S : Setting handler draws spec σ required T₀ T₁)
    (hI : Inv σ draws (fun _ => False) n s) (hn : n + 137 ≤ requests) :
    wp handler draws (afterToken spec) s n Ok := by
  unfold afterToken
  dsimp only
  refine wp_ite (fun h => ?_) (fun _ => wp_afterAuthorize S hI (by omega))
  obtain ⟨hR, hC⟩ := S.fits.redirects (by simpa using h)
  refine wp_given hR.given.2.2 (wp_given hR.given.1 (wp_given hR.given.2.1 ?_))
  rw [wp_bind]
  exact wp_authorizationEndpointTest S hI.same hR
    (wp_afterAuthorize S (hI.later (by omega)) (by omega))

theorem wp_afterResource (S : Setting handler draws spec σ required T₀ T₁)
    (hI : Inv σ draws (fun _ => False) n s) (hn : n + 140 ≤ requests) :
    wp handler draws (afterResource spec) s n Ok := by
  unfold afterResource
  dsimp only
  refine wp_ite (fun h => ?_) (fun _ => wp_afterToken S hI (by omega))
  rw [wp_bind]
  exact wp_tokenEndpointTest S hI.same (wp_afterToken S (hI.later (by omega)) (by omega))

/-- oauth2test/spec.go:124-220 passes. -/
theorem wp_all (S : Setting handler draws spec σ required T₀ T₁) :
    wp handler draws (run spec) σ 0 Ok := by
  have hI : Inv σ draws (fun _ => False) 0 σ := Agree.refl _ _
  have hc := S.fits.clients
  have hs := S.fits.scopes
  have ht := S.fits.tokens
  obtain ⟨_, ⟨_, hv, -⟩, -⟩ := ht.valid
  obtain ⟨_, hu, -⟩ := ht.unknown
  obtain ⟨_, ⟨_, he, -⟩, -⟩ := ht.expired
  unfold run
  refine wp_given (Serves.ne_nil S.routes.token (by decide)) ?_
  refine wp_given (Serves.ne_nil S.routes.authorize (by decide)) ?_
  refine wp_given S.routes.given ?_
  refine wp_given hc.given.1 (wp_given hc.secret.1 (wp_given hc.given.2 ?_))
  refine wp_given hs.given.2.1 (wp_given hs.given.1 (wp_given hs.given.2.2 ?_))
  refine wp_given ht.given (wp_given (Genuine.ne_nil hv) (wp_given (Genuine.ne_nil hu)
    (wp_given (Genuine.ne_nil he) ?_)))
  rw [wp_bind]
  exact wp_protectedResourceTest S hI (by decide)
    (wp_afterResource S (hI.later (by omega)) (by decide))

end

end OAuth2.Suite

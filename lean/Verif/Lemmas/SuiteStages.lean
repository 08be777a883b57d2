import Verif.Lemmas.SuiteServe

/-!
The parts of the integration tests, one by one.
-/

namespace OAuth2.Suite

open _root_.OAuth2.Spec

set_option linter.unusedSimpArgs false

section

variable {handler : Request → Handler Unit} {draws : Nat → Draw} {spec : Spec} {σ : Server}
  {required : Scope} {T₀ T₁ : Time} {n : Nat} {s s' : Server}
  {Q : Unit → Server → Nat → Prop}

theorem wp_ite {α : Type} {c : Prop} [Decidable c] {t t' : Test α}
    {Q : α → Server → Nat → Prop} (h1 : c → wp handler draws t s n Q)
    (h2 : ¬ c → wp handler draws t' s n Q) : wp handler draws (if c then t else t') s n Q := by
  split
  · exact h1 (by assumption)
  · exact h2 (by assumption)

theorem not_before (S : Setting handler draws spec σ required T₀ T₁) (hn : n < requests)
    {e : Time} (h : T₁ ≤ e) (i : Nat) : Time.before e ((draws n).clock i) = false := by
  have := (S.fair.clock n hn i).2
  unfold Time.before
  have h' : ¬ e < (draws n).clock i := Int.not_lt.mpr (Int.le_trans this h)
  simpa using h'

theorem is_before (S : Setting handler draws spec σ required T₀ T₁) (hn : n < requests)
    {e : Time} (h : e < T₀) (i : Nat) : Time.before e ((draws n).clock i) = true := by
  have := (S.fair.clock n hn i).1
  unfold Time.before
  have h' : e < (draws n).clock i := Int.lt_of_lt_of_le h this
  simpa using h'

theorem includes_of {a b : Scope} (h : Within b a) : a.includes b = true := (C07_includes a b).mpr h

theorem not_includes_of {a b : Scope} (h : ¬ Within b a) : a.includes b = false := by
  cases hb : a.includes b with
  | false => rfl
  | true => exact absurd ((C07_includes a b).mp hb) h

/-- The server has this access token of the confidential client, good for the resource. -/
structure Live (spec : Spec) (required : Scope) (T₁ : Time) (s : Server) (t : HS256Token)
    (c : ServerCredential) : Prop where
  stored : s.accessTokens.get? t.signatureString = some c
  only : s.refreshTokens.get? t.signatureString = none
  owner : c.clientID = spec.confidentialClientID
  scope : Within required c.scope
  expiry : T₁ ≤ c.expiresAt
  dated : FitsInt64 c.expiresAt.unix

theorem tokenForm_token (tok hint : Str) :
    (setValues (tokenForm tok hint)).get b!"token" = tok := rfl

theorem tokenForm_good_access (tok : Str) : GoodHint (tokenForm tok b!"access_token") :=
  .inr (by show knownTokenType b!"access_token" = true; decide)

theorem tokenForm_good_refresh (tok : Str) : GoodHint (tokenForm tok b!"refresh_token") :=
  .inr (by show knownTokenType b!"refresh_token" = true; decide)

theorem introspected_access {tok : Str} {t : HS256Token} (ht : Is s tok t) {c : ServerCredential}
    (h : Live spec required T₁ s t c) :
    introspected s tok spec.confidentialClientID =
      (.introspection (Server.describe AccessToken c), s) := by
  unfold introspected
  rw [show HS256Token.parse s.config.secret tok = .ok t from ht]
  simp only [Server.foreign, h.stored, h.only, h.owner]
  simp

theorem introspected_unknown {tok id : Str} {t : HS256Token} (ht : Is s tok t)
    (h1 : s.accessTokens.get? t.signatureString = none)
    (h2 : s.refreshTokens.get? t.signatureString = none) :
    introspected s tok id = (.introspection {}, s) := by
  unfold introspected
  rw [show HS256Token.parse s.config.secret tok = .ok t from ht]
  simp only [Server.foreign, h1, h2]
  simp

theorem revoked_access {tok : Str} {t : HS256Token} (ht : Is s tok t) {c : ServerCredential}
    (h : Live spec required T₁ s t c) :
    revoked s tok spec.confidentialClientID =
      (.revoked, { s with accessTokens := s.accessTokens.del t.signatureString }) := by
  unfold revoked
  rw [show HS256Token.parse s.config.secret tok = .ok t from ht]
  simp only [Server.foreign, h.stored, h.only, h.owner]
  simp

theorem resource_unknown {tok : Str} {t : HS256Token} (ht : Is s tok t) {now : Time}
    (h1 : s.accessTokens.get? t.signatureString = none) :
    resourceReply s required now tok = some (invalidToken b!"unknown token") := by
  unfold resourceReply
  rw [show HS256Token.parse s.config.secret tok = .ok t from ht]
  simp only [h1]

theorem auth_unknown : auth (Server.challenge {} (invalidToken b!"unknown token")) b!"error" =
    some b!"invalid_token" := by decide +kernel

/-- oauth2test/general.go:13-95 passes for a token that is good. -/
theorem wp_access (S : Setting handler draws spec σ required T₀ T₁) (hs : Same σ s)
    (hn : n + 5 ≤ requests) {tok : Str} {t : HS256Token} (ht : Is s tok t) {c : ServerCredential}
    (h : Live spec required T₁ s t c)
    (hq : ∀ s' n', Agree (fun k => k = t.signatureString) s s' → n ≤ n' → n' ≤ n + 5 →
      Q () s' n') :
    wp handler draws (accessTokenTest spec tok) s n Q := by
  have htn := ht.ne_nil
  unfold accessTokenTest
  -- check token functionality
  rw [wp_bind]
  refine wp_protected S htn (e := none) ?_ ?_
  · unfold resourceReply
    rw [show HS256Token.parse s.config.secret tok = .ok t from ht]
    simp only [h.stored, not_before S (n := n) (by omega) h.expiry, includes_of h.scope]
    simp
  rw [wp_bind, wp_assert]
  refine ⟨by decide, ?_⟩
  -- check if access token is active
  dsimp only
  suffices hrest : ∀ m, n + 1 ≤ m → m ≤ n + 2 →
      wp handler draws (if spec.revocationEndpoint = [] then pure () else do
        let w ← Test.Do (confidentialReq spec spec.revocationEndpoint
          (tokenForm tok b!"access_token"))
        Test.assert (code w = 200)
        let w ← Test.Do (protectedReq spec tok)
        Test.assert (code w = 401)
        Test.assert ((← Test.ofOption (auth w b!"error")) = b!"invalid_token")
        if spec.introspectionEndpoint ≠ [] then
          let w ← Test.Do (confidentialReq spec spec.introspectionEndpoint
            (tokenForm tok b!"access_token"))
          Test.assert (code w = 200)
          Test.assert (!jsonFieldBool w b!"active")) s m Q by
    refine wp_ite (fun hi => ?_) (fun _ => ?_)
    · rw [wp_bind]
      refine wp_introspection S hs hi (tokenForm_token _ _) htn (tokenForm_good_access _)
        (introspected_access ht h) (by simp) ?_
      obtain ⟨h1, h2, h3⟩ := introspection_fields (Server.describe AccessToken c) rfl h.dated rfl rfl
      have h3 := h3 (by show AccessToken ≠ []; decide)
      rw [wp_bind, wp_assert]
      refine ⟨by simp [h1], ?_⟩
      rw [wp_bind, wp_assert]
      refine ⟨by rw [h2]; rfl, ?_⟩
      rw [wp_bind, wp_assert]
      refine ⟨?_, hrest _ (by omega) (by omega)⟩
      rw [h3, show sanitize (Server.describe AccessToken c).tokenType = b!"access_token" by
        show sanitize AccessToken = _
        decide +kernel]
      simp
    · exact hrest _ (by omega) (by omega)
  intro m hm1 hm2
  refine wp_ite (fun _ => ?_) (fun hr => ?_)
  · exact hq s m (Agree.refl _ _) (by omega) (by omega)
  -- revoke access token
  rw [wp_bind]
  refine wp_revocation S hs hr (tokenForm_token _ _) htn (tokenForm_good_access _)
    (revoked_access ht h) (by simp) ?_
  rw [wp_bind, wp_assert]
  refine ⟨by simp [revoked_code], ?_⟩
  have hA := Agree.delAccess (X := fun k => k = t.signatureString) s (k := t.signatureString) rfl
  generalize hs1 : { s with accessTokens := s.accessTokens.del t.signatureString } = s1 at hA ⊢
  have hgone : s1.accessTokens.get? t.signatureString = none := by
    rw [← hs1]; exact GoMap.get?_del_self _ _
  have hgone' : s1.refreshTokens.get? t.signatureString = none := by
    rw [← hs1]; exact h.only
  have ht1 : Is s1 tok t := hA.same.is.mpr ht
  have hs' : Same σ s1 := hs.agree hA
  -- check token functionality
  rw [wp_bind]
  refine wp_protected S htn (resource_unknown ht1 hgone) ?_
  rw [wp_bind, wp_assert]
  refine ⟨by decide +kernel, ?_⟩
  rw [wp_bind, wp_ofOption]
  refine ⟨_, auth_unknown, ?_⟩
  rw [wp_bind, wp_assert]
  refine ⟨by simp, ?_⟩
  -- check if access token is now inactive
  refine wp_ite (fun hi => ?_) (fun _ => ?_)
  · rw [wp_bind]
    refine wp_introspection S hs' hi (tokenForm_token _ _) htn (tokenForm_good_access _)
      (introspected_unknown ht1 hgone hgone') (by simp) ?_
    obtain ⟨h1, h2, _⟩ := introspection_fields {} rfl fits_zero rfl rfl
    rw [wp_bind, wp_assert]
    refine ⟨by simp [h1], ?_⟩
    rw [wp_assert]
    exact ⟨by simp [h2], hq _ _ hA (by omega) (by omega)⟩
  · exact hq _ _ hA (by omega) (by omega)

/-! ### Refresh tokens -/

/-- The server has this refresh token of the confidential client, good for tokens with the valid
scope. -/
structure Held (spec : Spec) (required : Scope) (T₁ : Time) (s : Server) (t : HS256Token)
    (c : ServerCredential) : Prop where
  stored : s.refreshTokens.get? t.signatureString = some c
  only : s.accessTokens.get? t.signatureString = none
  owner : c.clientID = spec.confidentialClientID
  scope : Within required c.scope
  expiry : T₁ ≤ c.expiresAt
  dated : FitsInt64 c.expiresAt.unix
  printed : c.scope.string = spec.validScope

theorem Live.agree {t : HS256Token} {c : ServerCredential} {X : Str → Prop}
    (h : Live spec required T₁ s t c) (ha : Agree X s s') (hx : ¬ X t.signatureString) :
    Live spec required T₁ s' t c :=
  ⟨(ha.access _ hx).trans h.stored, (ha.refresh _ hx).trans h.only, h.owner, h.scope, h.expiry,
    h.dated⟩

theorem Held.agree {t : HS256Token} {c : ServerCredential} {X : Str → Prop}
    (h : Held spec required T₁ s t c) (ha : Agree X s s') (hx : ¬ X t.signatureString) :
    Held spec required T₁ s' t c :=
  ⟨(ha.refresh _ hx).trans h.stored, (ha.access _ hx).trans h.only, h.owner, h.scope, h.expiry,
    h.dated, h.printed⟩

theorem introspected_refresh {tok : Str} {t : HS256Token} (ht : Is s tok t) {c : ServerCredential}
    (h : Held spec required T₁ s t c) :
    introspected s tok spec.confidentialClientID =
      (.introspection (Server.describe RefreshToken c), s) := by
  unfold introspected
  rw [show HS256Token.parse s.config.secret tok = .ok t from ht]
  simp only [Server.foreign, h.stored, h.only, h.owner]
  simp

theorem revoked_refresh {tok : Str} {t : HS256Token} (ht : Is s tok t) {c : ServerCredential}
    (h : Held spec required T₁ s t c) :
    revoked s tok spec.confidentialClientID =
      (.revoked, { s with refreshTokens := s.refreshTokens.del t.signatureString }) := by
  unfold revoked
  rw [show HS256Token.parse s.config.secret tok = .ok t from ht]
  simp only [Server.foreign, h.stored, h.only, h.owner]
  simp

theorem understood_none {form : GoMap Str} (h : (setValues form).get b!"redirect_uri" = []) :
    Understood form [] := ⟨by rw [h]; decide +kernel, .inl rfl⟩

theorem refreshForm_known (tok : Str) :
    knownGrantType ((setValues (refreshForm tok)).get b!"grant_type") = true := by
  show knownGrantType b!"refresh_token" = true
  decide

theorem grantReply_refresh (s : Server) (tok id secret uri : Str) (client : ServerEntity)
    (l : Local) :
    s.grantReply (tokenRequest (refreshForm tok) id secret uri) client l =
      s.refreshReply (tokenRequest (refreshForm tok) id secret uri) l := rfl

theorem refresh_unknown {tok id secret uri : Str} {t : HS256Token} (ht : Is s tok t)
    (h : s.refreshTokens.get? t.signatureString = none) (client : ServerEntity) (l : Local) :
    s.grantReply (tokenRequest (refreshForm tok) id secret uri) client l =
      (.error (invalidGrant b!"unknown refresh token"), s) := by
  rw [grantReply_refresh]
  unfold Server.refreshReply
  rw [show HS256Token.parse s.config.secret
    (tokenRequest (refreshForm tok) id secret uri).refreshToken = .ok t from ht]
  simp only [h]

theorem fits_between {t u v : Time} (h1 : FitsInt64 t.unix) (h2 : FitsInt64 v.unix)
    (htu : t ≤ u) (huv : u ≤ v) : FitsInt64 u.unix := by
  have e1 : t.unix ≤ u.unix := Int.ediv_le_ediv (by decide) htu
  have e2 : u.unix ≤ v.unix := Int.ediv_le_ediv (by decide) huv
  exact ⟨Int.le_trans h1.1 e1, Int.lt_of_le_of_lt e2 h2.2⟩

theorem dated_access (S : Setting handler draws spec σ required T₀ T₁) (hs : Same σ s)
    (hn : n < requests) (i : Nat) :
    FitsInt64 ((draws n).clock i + s.config.accessTokenLifespan).unix := by
  have hi := S.fair.clock n hn i
  obtain ⟨l1, l2, _⟩ := S.fair.lifespans
  obtain ⟨d0, d1, d2⟩ := S.fair.dates
  rw [← hs.config] at l1 d1
  exact fits_between d0 d1 (by unfold Time at *; omega) (by unfold Time at *; omega)

theorem dated_refresh (S : Setting handler draws spec σ required T₀ T₁) (hs : Same σ s)
    (hn : n < requests) (i : Nat) :
    FitsInt64 ((draws n).clock i + s.config.refreshTokenLifespan).unix := by
  have hi := S.fair.clock n hn i
  obtain ⟨l1, l2, _⟩ := S.fair.lifespans
  obtain ⟨d0, d1, d2⟩ := S.fair.dates
  rw [← hs.config] at l2 d2
  exact fits_between d0 d2 (by unfold Time at *; omega) (by unfold Time at *; omega)

/-- The token endpoint issues tokens to the confidential client. -/
theorem granted (S : Setting handler draws spec σ required T₀ T₁) (hs : Same σ s)
    (hn : n < requests) {a b : HS256Token} {i j : Nat} {cred : ServerCredential}
    (ha : s.refreshTokens.get? a.signatureString = none)
    (hb : s.accessTokens.get? b.signatureString = none)
    (hab : a.signatureString ≠ b.signatureString)
    (h1 : cred.clientID = spec.confidentialClientID) (h2 : Within required cred.scope)
    (h3 : cred.scope.string = spec.validScope) {s1 : Server}
    (he : s.grant a (some b) ((draws n).clock i) ((draws n).clock j) cred = s1) :
    Live spec required T₁ s1 a { cred with
      expiresAt := (draws n).clock i + s.config.accessTokenLifespan } ∧
    Held spec required T₁ s1 b { cred with
      expiresAt := (draws n).clock j + s.config.refreshTokenLifespan } := by
  subst he
  have hi := (S.fair.clock n hn i).1
  have hj := (S.fair.clock n hn j).1
  obtain ⟨l1, l2, _⟩ := S.fair.lifespans
  have d1 := dated_access S hs hn i
  have d2 := dated_refresh S hs hn j
  rw [← hs.config] at l1 l2
  unfold Server.grant
  refine ⟨⟨?_, ?_, h1, h2, ?_, d1⟩, ⟨?_, ?_, h1, h2, ?_, d2, h3⟩⟩
  · rw [GoMap.get?_set, if_pos rfl]
  · rw [GoMap.get?_set, if_neg hab]; exact ha
  · show T₁ ≤ (draws n).clock i + s.config.accessTokenLifespan
    unfold Time at *
    omega
  · rw [GoMap.get?_set, if_pos rfl]
  · rw [GoMap.get?_set, if_neg (Ne.symm hab)]; exact hb
  · show T₁ ≤ (draws n).clock j + s.config.refreshTokenLifespan
    unfold Time at *
    omega

/-- oauth2test/general.go:99-235 passes for a token that is good. -/
theorem wp_refresh (S : Setting handler draws spec σ required T₀ T₁) {gone : Str → Prop}
    (hg : ∀ k, gone k → ∀ m < requests, ∀ i < 2, k ≠ drawn σ draws m i)
    (hI : Inv σ draws gone n s) (hn : n + 12 ≤ requests) {tok : Str} {t : HS256Token}
    (ht : Is s tok t) {c : ServerCredential} (h : Held spec required T₁ s t c)
    (hq : ∀ s' n', Agree (fun k => k = t.signatureString ∨ Drawn σ draws n' k) s s' → n ≤ n' →
      n' ≤ n + 12 → Q () s' n') :
    wp handler draws (refreshTokenTest spec tok) s n Q := by
  have htn := ht.ne_nil
  have hs : Same σ s := hI.same
  unfold refreshTokenTest
  dsimp only
  suffices hrest : ∀ m, n ≤ m → m ≤ n + 1 → wp handler draws (do
      let w ← Test.Do (confidentialReq spec spec.tokenEndpoint (refreshForm tok))
      let x ← expectTokens spec w
      accessTokenTest spec x.1
      let w ← Test.Do (confidentialReq spec spec.tokenEndpoint (refreshForm tok))
      expectError w 400 b!"invalid_grant"
      if spec.introspectionEndpoint ≠ [] then
        let w ← Test.Do (confidentialReq spec spec.introspectionEndpoint
          (tokenForm tok b!"refresh_token"))
        Test.assert (code w = 200)
        Test.assert (!jsonFieldBool w b!"active")
      if spec.revocationEndpoint = [] then return ()
      else
        let w ← Test.Do (confidentialReq spec spec.revocationEndpoint
          (tokenForm x.2 b!"refresh_token"))
        Test.assert (code w = 200)
        let w ← Test.Do (confidentialReq spec spec.tokenEndpoint (refreshForm x.2))
        expectError w 400 b!"invalid_grant"
        if spec.introspectionEndpoint ≠ [] then
          let w ← Test.Do (confidentialReq spec spec.introspectionEndpoint
            (tokenForm x.2 b!"refresh_token"))
          Test.assert (code w = 200)
          Test.assert (!jsonFieldBool w b!"active")) s m Q by
    refine wp_ite (fun hi => ?_) (fun _ => ?_)
    · rw [wp_bind]
      refine wp_introspection S hs hi (tokenForm_token _ _) htn (tokenForm_good_refresh _)
        (introspected_refresh ht h) (by simp) ?_
      obtain ⟨h1, h2, h3⟩ := introspection_fields (Server.describe RefreshToken c) rfl h.dated rfl rfl
      have h3 := h3 (by show RefreshToken ≠ []; decide)
      rw [wp_bind, wp_assert]
      refine ⟨by simp [h1], ?_⟩
      rw [wp_bind, wp_assert]
      refine ⟨by rw [h2]; rfl, ?_⟩
      rw [wp_bind, wp_assert]
      refine ⟨?_, hrest _ (by omega) (by omega)⟩
      rw [h3, show sanitize (Server.describe RefreshToken c).tokenType = b!"refresh_token" by
        show sanitize RefreshToken = _
        decide +kernel]
      simp
    · exact hrest _ (by omega) (by omega)
  intro m hm1 hm2
  -- test refresh token grant
  obtain ⟨a, b, hmint, ha, hb, hpa, hpb⟩ := S.mint (s := s) (n := m) (by omega) hs.config
  obtain ⟨fa1, fa2, -⟩ := S.fresh hg hI (m := m) (i := 0) (by omega) (by omega) (by omega)
  obtain ⟨fb1, fb2, -⟩ := S.fresh hg hI (m := m) (i := 1) (by omega) (by omega) (by omega)
  rw [← ha] at fa1 fa2
  rw [← hb] at fb1 fb2
  have hab : a.signatureString ≠ b.signatureString := by
    rw [ha, hb]
    intro he
    have := (S.fair.distinct m (by omega) m (by omega) 0 (by omega) 1 (by omega) he).2
    omega
  have hta : t.signatureString ≠ a.signatureString := by
    intro he; rw [← he, h.stored] at fa2; cases fa2
  have htb : t.signatureString ≠ b.signatureString := by
    intro he; rw [← he, h.stored] at fb2; cases fb2
  generalize hcred : ({
    clientID := spec.confidentialClientID
    username := c.username
    scope := c.scope } : ServerCredential) = cred
  have hlh := granted S hs (n := m) (i := 1) (j := 2) (by omega) fa2 fb1 hab
    (cred := cred) (by rw [← hcred]) (by rw [← hcred]; exact h.scope)
    (by rw [← hcred]; exact h.printed) rfl
  generalize hs1 : s.grant a (some b) ((draws m).clock 1) ((draws m).clock 2) cred = s1 at hlh
  have hg1 : Agree (fun k => k = t.signatureString ∨ Drawn σ draws (m + 1) k) s s1 := by
    rw [← hs1]
    refine Agree.granted s _ _ _ (.inr ?_) ?_
    · rw [ha]; exact Drawn.last σ draws m (by omega)
    · intro z hz
      cases hz
      rw [hb]
      exact .inr (Drawn.last σ draws m (by omega))
  rw [wp_bind]
  refine wp_confidential S hs (uri := []) (refreshForm_known _) (understood_none rfl)
    (reply := .token (Server.grantResponse s.config a (some b) c.scope))
    (s' := { s1 with refreshTokens := s1.refreshTokens.del t.signatureString })
    (fun client _ => ?_) (by simp) ?_
  · rw [grantReply_refresh]
    unfold Server.refreshReply
    rw [show HS256Token.parse s.config.secret
      (tokenRequest (refreshForm tok) _ _ _).refreshToken = .ok t from ht]
    simp only [h.stored]
    rw [show (tokenRequest (refreshForm tok) spec.confidentialClientID
      spec.confidentialClientSecret []).scope.empty = true from rfl]
    rw [if_neg (by
      rw [show (draws m).local.clock (draws m).local.tick = (draws m).clock 0 from rfl,
        not_before S (by omega) h.expiry]
      simp), if_neg (by rw [h.owner]; simp [tokenRequest])]
    simp only [if_true]
    rw [if_neg (by rw [includes_of (fun i hi => hi)]; simp)]
    rw [show (tokenRequest (refreshForm tok) spec.confidentialClientID
      spec.confidentialClientSecret []).clientID = spec.confidentialClientID from rfl, hcred]
    unfold Server.issue
    rw [show (draws m).local.coins = (draws m).coins from rfl, hmint]
    simp only [id, ← hcred]
    rw [← hs1, ← hcred]
    rfl
  generalize hs2 : { s1 with refreshTokens := s1.refreshTokens.del t.signatureString } = s2
  have hg2 : Agree (fun k => k = t.signatureString ∨ Drawn σ draws (m + 1) k) s s2 := by
    rw [← hs2]
    exact hg1.trans (Agree.delRefresh s1 (.inl rfl))
  have hd12 : Agree (fun k => k = t.signatureString) s1 s2 := by
    rw [← hs2]; exact Agree.delRefresh s1 rfl
  have hl2 := hlh.1.agree hd12 (Ne.symm hta)
  have hh2 := hlh.2.agree hd12 (Ne.symm htb)
  have ht2 : s2.refreshTokens.get? t.signatureString = none := by
    rw [← hs2]; exact GoMap.get?_del_self _ _
  have ht2' : s2.accessTokens.get? t.signatureString = none := by
    rw [← hs2, ← hs1]
    show (s.accessTokens.set _ _).get? _ = _
    rw [GoMap.get?_set, if_neg hta]
    exact h.only
  have hsame2 : Same σ s2 := hs.agree hg2
  have hpa2 : Is s2 a.string a := hg2.same.is.mpr hpa
  rw [wp_bind]
  refine wp_expectTokens handler draws (by rw [hs.config]; exact S.fits.expiresIn) h.printed
    S.fits.scopes.utf8 S.fits.scopes.given.1 ?_
  -- test access token
  rw [wp_bind]
  refine wp_access S hsame2 (by omega) hpa2 hl2 (fun s3 n3 hA hn3 hn3' => ?_)
  have hsame3 : Same σ s3 := hsame2.agree hA
  have hg3 : Agree (fun k => k = t.signatureString ∨ Drawn σ draws (m + 1) k) s s3 :=
    hg2.trans (hA.mono fun k hk => .inr (by
      rw [hk, ha]
      exact Drawn.last σ draws m (by omega)))
  have ht3 := (hA.refresh _ hta).trans ht2
  have ht3' := (hA.access _ hta).trans ht2'
  have hh3 := hh2.agree hA (Ne.symm hab)
  have hp3 : Is s3 tok t := hg3.same.is.mpr ht
  have hpb3 : Is s3 b.string b := hg3.same.is.mpr hpb
  -- check if refresh token is spent
  rw [wp_bind]
  refine wp_confidential S hsame3 (uri := []) (refreshForm_known _) (understood_none rfl)
    (fun client _ => refresh_unknown hp3 ht3 client _) (by simp) ?_
  rw [wp_bind]
  refine wp_invalidGrant handler draws ?_
  -- check if refresh token is now inactive
  suffices hrest : ∀ m', n3 + 1 ≤ m' → m' ≤ n3 + 2 → wp handler draws (do
      if spec.revocationEndpoint = [] then return ()
      else
        let w ← Test.Do (confidentialReq spec spec.revocationEndpoint
          (tokenForm b.string b!"refresh_token"))
        Test.assert (code w = 200)
        let w ← Test.Do (confidentialReq spec spec.tokenEndpoint (refreshForm b.string))
        expectError w 400 b!"invalid_grant"
        if spec.introspectionEndpoint ≠ [] then
          let w ← Test.Do (confidentialReq spec spec.introspectionEndpoint
            (tokenForm b.string b!"refresh_token"))
          Test.assert (code w = 200)
          Test.assert (!jsonFieldBool w b!"active")) s3 m' Q by
    refine wp_ite (fun hi => ?_) (fun _ => ?_)
    · rw [wp_bind]
      refine wp_introspection S hsame3 hi (tokenForm_token _ _) htn (tokenForm_good_refresh _)
        (introspected_unknown hp3 ht3' ht3) (by simp) ?_
      obtain ⟨h1, h2, _⟩ := introspection_fields {} rfl fits_zero rfl rfl
      rw [wp_bind, wp_assert]
      refine ⟨by simp [h1], ?_⟩
      rw [wp_bind, wp_assert]
      exact ⟨by simp [h2], hrest _ (by omega) (by omega)⟩
    · exact hrest _ (by omega) (by omega)
  intro m' hm1' hm2'
  have later : ∀ {k}, k = t.signatureString ∨ Drawn σ draws (m + 1) k →
      ∀ j, m + 1 ≤ j → k = t.signatureString ∨ Drawn σ draws j k :=
    fun hk j hj => hk.imp_right (·.mono hj)
  refine wp_ite (fun _ => ?_) (fun hr => ?_)
  · exact hq s3 m' (hg3.mono fun k hk => later hk _ (by omega)) (by omega) (by omega)
  -- revoke new refresh token
  rw [wp_bind]
  refine wp_revocation S hsame3 hr (tokenForm_token _ _) hpb3.ne_nil (tokenForm_good_refresh _)
    (revoked_refresh hpb3 hh3) (by simp) ?_
  rw [wp_bind, wp_assert]
  refine ⟨by simp [revoked_code], ?_⟩
  have hA4 := Agree.delRefresh (X := fun k => k = b.signatureString) s3 (k := b.signatureString) rfl
  generalize hs4 : { s3 with refreshTokens := s3.refreshTokens.del b.signatureString } = s4 at hA4 ⊢
  have hgone : s4.refreshTokens.get? b.signatureString = none := by
    rw [← hs4]; exact GoMap.get?_del_self _ _
  have hgone' : s4.accessTokens.get? b.signatureString = none := by
    rw [← hs4]; exact hh3.only
  have hsame4 := hsame3.agree hA4
  have hpb4 : Is s4 b.string b := hA4.same.is.mpr hpb3
  have hg4 : Agree (fun k => k = t.signatureString ∨ Drawn σ draws (m + 1) k) s s4 :=
    hg3.trans (hA4.mono fun k hk => .inr (by
      rw [hk, hb]
      exact Drawn.last σ draws m (by omega)))
  -- check if new refresh token is revoked
  rw [wp_bind]
  refine wp_confidential S hsame4 (uri := []) (refreshForm_known _) (understood_none rfl)
    (fun client _ => refresh_unknown hpb4 hgone client _) (by simp) ?_
  rw [wp_bind]
  refine wp_invalidGrant handler draws ?_
  -- check if new refresh token is now inactive
  refine wp_ite (fun hi => ?_) (fun _ => ?_)
  · rw [wp_bind]
    refine wp_introspection S hsame4 hi (tokenForm_token _ _) hpb4.ne_nil (tokenForm_good_refresh _)
      (introspected_unknown hpb4 hgone' hgone) (by simp) ?_
    obtain ⟨h1, h2, _⟩ := introspection_fields {} rfl fits_zero rfl rfl
    rw [wp_bind, wp_assert]
    refine ⟨by simp [h1], ?_⟩
    rw [wp_assert]
    exact ⟨by simp [h2], hq _ _ (hg4.mono fun k hk => later hk _ (by omega)) (by omega) (by omega)⟩
  · exact hq _ _ (hg4.mono fun k hk => later hk _ (by omega)) (by omega) (by omega)

end

end OAuth2.Suite

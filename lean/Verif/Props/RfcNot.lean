import Verif.Lemmas.RfcDemo

/-!
C80, the other half: the sentences of the specifications (Verif/Spec/Rfc.lean) that the server does not
meet. Each is refuted by an exchange of the session in Verif/Lemmas/Demo.lean, or of one that goes the
same way.
-/

namespace OAuth2

open Spec Rfc

/-! ### RFC 6749 -/

/-- A server whose client `c1` has the secret `s/1`. -/
def Demo.slash : Server := { Demo.server with
  clients := [(b!"c1", {
    secret := b!"s/1", redirectURI := b!"http://example.com/cb", confidential := true })] }

/-- **C80.** Not met: the client has encoded its secret, as it must, and is not recognized. -/
theorem C80_6749_basic_refuted : ¬ Upheld Rfc6749.basic := by
  intro hu
  exact absurd (by decide +kernel)
    (hu _ (demo_happens (s₀ := Demo.slash) (s := Demo.slash) ⟨rfl, rfl, rfl⟩ .start b!"/token" b!"c1:s%2F1"
      b!"grant_type=client_credentials" [1, 2, 3, 4] 1000) _ _ b!"c1" b!"s%2F1" b!"c1" b!"s/1" _
      ⟨rfl, by decide +kernel, (by decide +kernel : _ = Answer.answered (step ⟨false, Demo.slash⟩
        (Demo.post b!"/token" b!"c1:s%2F1" b!"grant_type=client_credentials" [1, 2, 3, 4] 1000)).1.response)⟩
      ((C75_credentials (Demo.request b!"/token" b!"c1:s%2F1" b!"grant_type=client_credentials") _ _).mp
        (by decide +kernel))
      ((C75_escapes _ _).mp (by decide +kernel)) ((C75_escapes _ _).mp (by decide +kernel)) rfl rfl rfl)

/-- **C80.** Not met: a redirect URI that was encoded twice is accepted. -/
theorem C80_6749_redirectMatch_refuted : ¬ Upheld Rfc6749.redirectMatch := by
  intro hu
  obtain ⟨fields, ht, hf⟩ := demo_authorization (s₀ := Demo.server) (s := Demo.server) (h := []) (auth := [])
    (coins := [1, 2]) (time := 1000) (path := b!"/authorize")
    (form := b!"response_type=code&client_id=c1&redirect_uri=http%253A%252F%252Fexample.com%252Fcb&" ++
      b!"username=u1&password=p1") (by decide +kernel) (by decide +kernel) (by decide +kernel)
  have := hu _ (demo_happens Demo.started .start ..) fields _ Demo.client1 ht
    (by rw [hf]; decide +kernel) (by rw [hf]; decide +kernel)
    (by rw [hf]; decide +kernel)
    ⟨_, Demo.client1_uri⟩
  rw [hf] at this
  refine absurd (this.mpr fun name he => ?_) (by decide +kernel)
  exact absurd he.1 (by decide +kernel)

/-- **C80.** Not met: a state with a slash is not what was sent. -/
theorem C80_6749_stateImplicit_refuted : ¬ Upheld Rfc6749.stateImplicit := by
  intro hu
  obtain ⟨fields, ht, hf⟩ := demo_authorization (s₀ := Demo.server) (s := Demo.server) (h := []) (auth := [])
    (coins := [1, 2]) (time := 1000) (path := b!"/authorize")
    (form := b!"response_type=token&client_id=c1&redirect_uri=http%3A%2F%2Fexample.com%2Fcb&" ++
      b!"state=a%2Fb&username=u1&password=p1") (by decide +kernel) (by decide +kernel) (by decide +kernel)
  have := fragmentForm_values ( hu _ (demo_happens Demo.started .start ..) fields _ Demo.client1 _ ht
    (by rw [hf]; decide +kernel)
    (by rw [hf]; decide +kernel)
    Demo.client1_uri
    (by decide +kernel) (by rw [hf]; decide +kernel))
  rw [hf] at this
  exact absurd this (by decide +kernel)

/-- **C80.** Not met: the request is not redirected back if the response type is unknown. -/
theorem C80_6749_errorRedirect_refuted : ¬ Upheld Rfc6749.errorRedirect := by
  intro hu
  obtain ⟨fields, ht, hf⟩ := demo_authorization (s₀ := Demo.server) (s := Demo.server) (h := []) (auth := [])
    (coins := [1, 2]) (time := 1000) (path := b!"/authorize")
    (form := b!"response_type=foo&client_id=c1&redirect_uri=http%3A%2F%2Fexample.com%2Fcb&" ++
      b!"username=u1&password=p1") (by decide +kernel) (by decide +kernel) (by decide +kernel)
  exact hu _ (demo_happens Demo.started .start ..) fields _ Demo.client1 ht (by rw [hf]; decide +kernel)
    (by rw [hf]; decide +kernel)
    (by rw [hf, ← C75_escapes]; decide +kernel)
    ⟨_, Demo.client1_uri⟩
    b!"invalid_request" (by decide +kernel)

/-- **C80.** Not met: the code is replayed, and the access token that was issued for the refresh token
that was issued for it stays in force. -/
theorem C80_6749_codeRevokes_refuted : ¬ Upheld Rfc6749.codeRevokes := by
  intro hu
  obtain ⟨fields, ht, hf⟩ := demo_token_fields (s₀ := Demo.server) (s := Demo.s4) (h := [Demo.e4, Demo.e3, Demo.e2, Demo.e1])
    (auth := []) (coins := [15, 16, 17, 18]) (time := 1040) (path := b!"/token")
    (form := b!"grant_type=authorization_code&client_id=c2&redirect_uri=http%3A%2F%2Fexample.org%2Fcb%3Fx%3D1&" ++
      b!"code=" ++ Demo.x2.string)
    b!"c2" [] (by decide +kernel) (by decide +kernel) (by decide +kernel) (by decide +kernel)
    (by decide +kernel)
  refine hu _ (demo_happens Demo.started Demo.history4 ..) fields _ _ _ Demo.x2 _ b!"http://example.org/cb?x=1" ht
    (by rw [hf]; decide +kernel) ⟨_, rfl, by decide⟩ (by decide) (by rw [hf, ← C75_escapes]; decide +kernel)
    ⟨{ scheme := b!"http", host := b!"example.org", path := b!"/cb", rawQuery := b!"x=1" },
      by decide +kernel, by decide, by decide, .inr (by decide)⟩
    (by rw [hf]; decide +kernel) Demo.code4 Demo.e4 Demo.e3 Demo.r3 Demo.a4 _ (List.mem_cons_self ..)
    (List.mem_cons_of_mem _ (List.mem_cons_self ..)) (by decide +kernel) (by decide +kernel)
    (by decide +kernel) (by decide +kernel) (.later Demo.access4 ?_)
  exact not_ends (by decide +kernel) (by decide +kernel) (by simp) (by decide +kernel)

/-- **C80.** Not met: the client credentials grant comes with a refresh token. -/
theorem C80_6749_clientNoRefresh_refuted : ¬ Upheld Rfc6749.clientNoRefresh := by
  intro hu
  obtain ⟨fields, ht, hv, hf⟩ := demo_token (s₀ := Demo.server) (s := Demo.server) (h := [])
    (auth := b!"c1:s1") (coins := [1, 2, 3, 4]) (time := 1000) (path := b!"/token")
    (form := b!"grant_type=client_credentials")
    b!"c1" b!"s1" (by decide +kernel) (by decide +kernel) (by decide +kernel)
    (by decide +kernel)
  exact hu _ (demo_happens Demo.started .start ..) fields _ _ _ ht (by rw [hf]; decide +kernel) Demo.r1.string
    (by decide +kernel)

/-- **C80.** Not met: a wrong password is answered with the status 403. -/
theorem C80_6749_errorStatus_refuted : ¬ Upheld Rfc6749.errorStatus := by
  intro hu
  obtain ⟨fields, ht, hv, hf⟩ := demo_token (s₀ := Demo.server) (s := Demo.server) (h := [])
    (auth := b!"c1:s1") (coins := [1, 2, 3, 4]) (time := 1000) (path := b!"/token")
    (form := b!"grant_type=password&username=u1&password=p2")
    b!"c1" b!"s1" (by decide +kernel) (by decide +kernel) (by decide +kernel)
    (by decide +kernel)
  obtain ⟨r, _, hat, _⟩ := ht
  exact absurd (hu _ (demo_happens Demo.started .start ..) r _ b!"access_denied" hat (by decide +kernel))
    (by decide +kernel)

/-- **C80.** Not met: a wrong password is answered with the error code access_denied. -/
theorem C80_6749_errorCode_refuted : ¬ Upheld Rfc6749.errorCode := by
  intro hu
  obtain ⟨fields, ht, hv, hf⟩ := demo_token (s₀ := Demo.server) (s := Demo.server) (h := [])
    (auth := b!"c1:s1") (coins := [1, 2, 3, 4]) (time := 1000) (path := b!"/token")
    (form := b!"grant_type=password&username=u1&password=p2")
    b!"c1" b!"s1" (by decide +kernel) (by decide +kernel) (by decide +kernel)
    (by decide +kernel)
  obtain ⟨r, _, hat, _⟩ := ht
  exact absurd (hu _ (demo_happens Demo.started .start ..) r _ b!"access_denied" hat (by decide +kernel))
    (by decide +kernel)

/-- **C80.** Not met: a parameter is repeated, and tokens are issued. -/
theorem C80_6749_repeated_refuted : ¬ Upheld Rfc6749.repeated := by
  intro hu
  obtain ⟨fields, ht, hv, hf⟩ := demo_token (s₀ := Demo.server) (s := Demo.server) (h := [])
    (auth := b!"c1:s1") (coins := [1, 2, 3, 4]) (time := 1000) (path := b!"/token")
    (form := b!"grant_type=client_credentials&scope=foo&scope=bar")
    b!"c1" b!"s1" (by decide +kernel) (by decide +kernel) (by decide +kernel)
    (by decide +kernel)
  exact absurd (hu _ (demo_happens Demo.started .start ..) fields _ _ _ b!"scope" ht (by decide)
    (by rw [hv]; decide +kernel)) (by decide +kernel)

/-- **C80.** Not met: the client names itself in two ways, with two secrets, and gets tokens. -/
theorem C80_6749_oneMechanism_refuted : ¬ Upheld Rfc6749.oneMechanism := by
  intro hu
  obtain ⟨fields, ht, hv, hf⟩ := demo_token (s₀ := Demo.server) (s := Demo.server) (h := [])
    (auth := b!"c1:s1") (coins := [1, 2, 3, 4]) (time := 1000) (path := b!"/token")
    (form := b!"grant_type=client_credentials&client_id=c2&client_secret=s2")
    b!"c1" b!"s1" (by decide +kernel) (by decide +kernel) (by decide +kernel)
    (by decide +kernel)
  obtain ⟨r, query, hat, hp, hb⟩ := ht
  have hr : r = Demo.request b!"/token" b!"c1:s1" b!"grant_type=client_credentials&client_id=c2&client_secret=s2" := by
    have := hat.1
    cases this
    rfl
  subst hr
  exact absurd (hu _ (demo_happens Demo.started .start ..) _ fields _ _ _ _ hat hp
    ((C75_credentials _ b!"c1" b!"s1").mp (by decide +kernel)) (by rw [hf]; decide +kernel)) (by decide +kernel)

/-- **C80.** Not met: an unknown grant type is an invalid request. -/
theorem C80_6749_unsupportedGrantType_refuted : ¬ Upheld Rfc6749.unsupportedGrantType := by
  intro hu
  obtain ⟨fields, ht, hv, hf⟩ := demo_token (s₀ := Demo.server) (s := Demo.server) (h := [])
    (auth := b!"c1:s1") (coins := [1, 2, 3, 4]) (time := 1000) (path := b!"/token")
    (form := b!"grant_type=foo")
    b!"c1" b!"s1" (by decide +kernel) (by decide +kernel) (by decide +kernel)
    (by decide +kernel)
  exact absurd (hu _ (demo_happens Demo.started .start ..) fields _ _ _ ht ⟨Demo.client1, rfl, fun _ => rfl⟩
    (by rw [hf]; decide +kernel) (by rw [hf]; decide +kernel) (by rw [hf]; decide +kernel)) (by decide +kernel)

/-- **C80.** Not met: a wrong password is a denied access. -/
theorem C80_6749_badPassword_refuted : ¬ Upheld Rfc6749.badPassword := by
  intro hu
  obtain ⟨fields, ht, hv, hf⟩ := demo_token (s₀ := Demo.server) (s := Demo.server) (h := [])
    (auth := b!"c1:s1") (coins := [1, 2, 3, 4]) (time := 1000) (path := b!"/token")
    (form := b!"grant_type=password&username=u1&password=p2")
    b!"c1" b!"s1" (by decide +kernel) (by decide +kernel) (by decide +kernel)
    (by decide +kernel)
  refine absurd (hu _ (demo_happens Demo.started .start ..) fields _ _ _ ht ⟨Demo.client1, rfl, fun _ => rfl⟩
    (by rw [hf]; decide +kernel) (by rw [hf]; decide +kernel) ?_) (by decide +kernel)
  rw [hf, hf]
  change ¬ Password Demo.server _ _
  decide +kernel

/-- **C80.** Not met: a code that is not one at all is an invalid request. -/
theorem C80_6749_badCode_refuted : ¬ Upheld Rfc6749.badCode := by
  intro hu
  obtain ⟨fields, ht, hv, hf⟩ := demo_token (s₀ := Demo.server) (s := Demo.server) (h := [])
    (auth := b!"c1:s1") (coins := [1, 2, 3, 4]) (time := 1000) (path := b!"/token")
    (form := b!"grant_type=authorization_code&code=foo&redirect_uri=http%3A%2F%2Fexample.com%2Fcb")
    b!"c1" b!"s1" (by decide +kernel) (by decide +kernel) (by decide +kernel)
    (by decide +kernel)
  refine absurd (hu _ (demo_happens Demo.started .start ..) fields _ _ _ b!"http://example.com/cb" ht
    ⟨Demo.client1, rfl, fun _ => rfl⟩ (by decide) (by rw [hf]; decide +kernel) (by rw [hf, ← C75_escapes]; decide +kernel)
    ⟨_, Demo.client1_uri⟩ ?_) (by decide +kernel)
  rintro ⟨c, g, hc, _⟩
  cases hc

/-- **C80.** Not met: the new refresh token has the narrower scope that was asked for. -/
theorem C80_6749_refreshScope_refuted : ¬ Upheld Rfc6749.refreshScope := by
  intro hu
  obtain ⟨fields, ht, hf⟩ := demo_token_fields (s₀ := Demo.server) (s := Demo.s3) (h := [Demo.e3, Demo.e2, Demo.e1])
    (auth := []) (coins := [11, 12, 13, 14]) (time := 1030) (path := b!"/token")
    (form := b!"grant_type=refresh_token&client_id=c2&scope=foo&refresh_token=" ++ Demo.r3.string)
    b!"c2" [] (by decide +kernel) (by decide +kernel) (by decide +kernel) (by decide +kernel)
    (by decide +kernel)
  have := hu _ (demo_happens Demo.started Demo.history3 ..) fields _ _ _ _ ht (by rw [hf]; decide +kernel)
    ⟨Demo.r3, Demo.refresh3, (by rw [hf]; decide +kernel), by decide +kernel, rfl⟩ Demo.r4 {
      client := b!"c2", user := b!"u1", scope := some [b!"foo"], expires := 605832 * second }
    (by decide +kernel) ?_
  · cases this
  · refine .refresh (rq := {
      grantType := b!"refresh_token", clientID := b!"c2", scope := some [b!"foo"],
      refreshToken := Demo.r3.string }) (res := Demo.response Demo.s3 (Demo.post b!"/token" [] (
        b!"grant_type=refresh_token&client_id=c2&scope=foo&refresh_token=" ++ Demo.r3.string) [11, 12, 13, 14]
        1030)) (by decide +kernel) rfl
      (by decide +kernel) Demo.refresh3 (by decide +kernel) (fun _ => by decide +kernel)

/-! ### RFC 7009 -/

/-- **C80.** Not met: the refresh token is revoked, and the access token that came with it stays. -/
theorem C80_7009_cascades_refuted : ¬ Upheld Rfc7009.cascades := by
  intro hu
  obtain ⟨fields, ht, hf⟩ := demo_about (endpoint := b!"revoke") (s₀ := Demo.server) (s := Demo.s1) (h := [Demo.e1])
    (auth := b!"c1:s1") (coins := []) (time := 1000) (path := b!"/revoke")
    (form := b!"token=" ++ Demo.r1.string)
    b!"c1" b!"s1" (by decide +kernel) (by decide +kernel) (by decide +kernel) (by decide +kernel)
  refine hu _ (demo_happens Demo.started Demo.history1 ..) fields _ _ _ ht (by decide +kernel) Demo.e1 Demo.r1
    Demo.a1 _ (List.mem_cons_self ..) (by decide +kernel) (by decide +kernel) (by rw [hf]; decide +kernel)
    (.later demo_access1 ?_)
  exact not_ends (by decide +kernel) (by decide +kernel) (by simp) (by decide +kernel)

/-- **C80.** Not met: a token that is not one at all is an invalid request. -/
theorem C80_7009_invalidToken_refuted : ¬ Upheld Rfc7009.invalidToken := by
  intro hu
  obtain ⟨fields, ht, hf⟩ := demo_about (endpoint := b!"revoke") (s₀ := Demo.server) (s := Demo.server) (h := [])
    (auth := b!"c1:s1") (coins := []) (time := 1000) (path := b!"/revoke")
    (form := b!"token=foo")
    b!"c1" b!"s1" (by decide +kernel) (by decide +kernel) (by decide +kernel) (by decide +kernel)
  refine absurd (hu _ (demo_happens Demo.started .start ..) fields _ _ _ ht ⟨Demo.client1, rfl, fun _ => rfl⟩
    (by rw [hf]; decide +kernel) (by rw [hf]; decide +kernel) ?_) (by decide +kernel)
  intro k t g hi
  cases hi

/-! ### RFC 7662 -/

/-- **C80.** Not met: a public client needs no secret. -/
theorem C80_7662_authorization_refuted : ¬ Upheld Rfc7662.authorization := by
  intro hu
  obtain ⟨fields, ht, hf⟩ := demo_about (endpoint := b!"introspect") (s₀ := Demo.server) (s := Demo.server) (h := [])
    (auth := b!"c2:") (coins := []) (time := 1000) (path := b!"/introspect")
    (form := b!"token=" ++ Demo.a1.string)
    b!"c2" [] (by decide +kernel) (by decide +kernel) (by decide +kernel) (by decide +kernel)
  obtain ⟨e, he, hc, _⟩ := hu _ (demo_happens Demo.started .start ..) fields _ _ _ ht (by decide +kernel)
  have : e = { redirectURI := b!"http://example.org/cb?x=1", confidential := false } := by
    cases he
    rfl
  rw [this] at hc
  cases hc

/-- **C80.** Not met: an expired token is active. -/
theorem C80_7662_notExpired_refuted : ¬ Upheld Rfc7662.notExpired := by
  intro hu
  obtain ⟨fields, ht, hf⟩ := demo_about (endpoint := b!"introspect") (s₀ := Demo.server) (s := Demo.s1) (h := [Demo.e1])
    (auth := b!"c1:s1") (coins := []) (time := 700000) (path := b!"/introspect")
    (form := b!"token=" ++ Demo.a1.string)
    b!"c1" b!"s1" (by decide +kernel) (by decide +kernel) (by decide +kernel) (by decide +kernel)
  have hb : (Demo.response Demo.s1 (Demo.post b!"/introspect" b!"c1:s1" (b!"token=" ++ Demo.a1.string) []
      700000)).body = b!"{\"active\":true,\"scope\":\"foo\",\"client_id\":\"c1\",\"username\":\"u1\"," ++
        b!"\"token_type\":\"access_token\",\"exp\":4600}\n" := by decide +kernel
  obtain ⟨k, t, g, _, hi, _, hx⟩ := hu _ (demo_happens Demo.started Demo.history1 ..) fields _ _ _ _ ht
    (by decide +kernel) (by rw [hb]; rfl) (List.mem_cons_self ..)
  have hi : InForce Demo.server.config [Demo.e1] k t g := hi
  rw [(demo_inForce hi).2.1] at hx
  refine absurd hx ?_
  cases k <;> decide +kernel

/-- **C80.** Not met: a token that is not one at all is an invalid request. -/
theorem C80_7662_unknown_refuted : ¬ Upheld Rfc7662.unknown := by
  intro hu
  obtain ⟨fields, ht, hf⟩ := demo_about (endpoint := b!"introspect") (s₀ := Demo.server) (s := Demo.server) (h := [])
    (auth := b!"c1:s1") (coins := []) (time := 1000) (path := b!"/introspect")
    (form := b!"token=foo")
    b!"c1" b!"s1" (by decide +kernel) (by decide +kernel) (by decide +kernel) (by decide +kernel)
  refine absurd (hu _ (demo_happens Demo.started .start ..) fields _ _ _ ht ⟨Demo.client1, rfl, fun _ => rfl⟩
    (by rw [hf]; decide +kernel) (by rw [hf]; decide +kernel) ?_).1 (by decide +kernel)
  intro k t g hi
  cases hi

/-- **C80.** Not met: the token of another client is answered with the status 401. -/
theorem C80_7662_foreign_refuted : ¬ Upheld Rfc7662.foreign := by
  intro hu
  obtain ⟨fields, ht, hf⟩ := demo_about (endpoint := b!"introspect") (s₀ := Demo.server) (s := Demo.s1) (h := [Demo.e1])
    (auth := b!"c2:") (coins := []) (time := 1000) (path := b!"/introspect")
    (form := b!"token=" ++ Demo.a1.string)
    b!"c2" [] (by decide +kernel) (by decide +kernel) (by decide +kernel) (by decide +kernel)
  exact absurd (hu _ (demo_happens Demo.started Demo.history1 ..) fields _ _ _ ht ⟨_, rfl, by decide⟩
    ⟨.access, Demo.a1, _, demo_access1, (by rw [hf]; decide +kernel), by decide⟩).1 (by decide +kernel)

/-- **C80.** Not met: the type of the token is whether it is an access token or a refresh token. -/
theorem C80_7662_tokenType_refuted : ¬ Upheld Rfc7662.tokenType := by
  intro hu
  obtain ⟨fields, ht, hf⟩ := demo_about (endpoint := b!"introspect") (s₀ := Demo.server) (s := Demo.s1) (h := [Demo.e1])
    (auth := b!"c1:s1") (coins := []) (time := 1000) (path := b!"/introspect")
    (form := b!"token=" ++ Demo.a1.string)
    b!"c1" b!"s1" (by decide +kernel) (by decide +kernel) (by decide +kernel) (by decide +kernel)
  obtain ⟨r, _, hat, _⟩ := ht
  exact absurd (hu _ (demo_happens Demo.started Demo.history1 ..) r _ b!"access_token" hat (by decide +kernel))
    (by decide)

end OAuth2

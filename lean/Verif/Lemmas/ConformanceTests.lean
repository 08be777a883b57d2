import Verif.Lemmas.Conformance

/-!
What each of the integration tests shows when it passes.
-/

namespace OAuth2.Suite

open _root_.OAuth2.Conformance

set_option linter.unusedSimpArgs false

/-- What every run requires of the specification. -/
structure Given (spec : Spec) : Prop where
  confidential : spec.confidentialClientID ≠ []
  nonconfidential : spec.publicClientID ≠ []
  scope : spec.validScope ≠ []

/-- Proves that the keys of a form that is written out are distinct. -/
macro "distinct" : tactic => `(tactic| (
  simp only [GoMap.keys, tokenForm, refreshForm, codeForm, authorizeForm, passwordForm,
    credentialsForm, naming, refreshing, exchanging, authorizing, owning, crediting, List.map_cons, List.map_nil, List.cons_append, List.nil_append]
  decide))

variable {spec : Spec} {req : Request}

theorem post_of (hg : Given spec) {uri : Str} {form : GoMap Str} (hn : form.keys.Nodup)
    (h : (confidentialReq spec uri form).request = some req) : Post spec uri form req :=
  postAs_of hn hg.confidential h

theorem postPublic_of (hg : Given spec) {uri : Str} {form : GoMap Str} (hn : form.keys.Nodup)
    (h : (publicReq spec uri form).request = some req) : PostPublic spec uri form req :=
  postAs_of hn hg.nonconfidential h

theorem postWrong_of (hg : Given spec) {uri : Str} {form : GoMap Str} (hn : form.keys.Nodup)
    (h : Req.request { confidentialReq spec uri form with
      password := b!"invalid" } = some req) :
    PostAs spec.confidentialClientID b!"invalid" uri form req :=
  postAs_of hn hg.confidential h

theorem naming_of (hg : Given spec) {uri token hint : Str}
    (h : (confidentialReq spec uri (tokenForm token hint)).request = some req) :
    Post spec uri (naming token hint) req :=
  post_of hg (by distinct) h

theorem refreshing_of (hg : Given spec) {token : Str}
    (h : (confidentialReq spec spec.tokenEndpoint (refreshForm token)).request = some req) :
    Post spec spec.tokenEndpoint (refreshing token) req :=
  post_of hg (by distinct) h

/-! ### The resource and the endpoints -/

theorem plays_resource (spec : Spec) :
    Plays (protectedResourceTest spec) fun _ tr => AllMet (resourceRows spec) tr := by
  unfold protectedResourceTest
  refine plays_do fun q1 w1 r1 => plays_assert fun a1 => plays_realm fun b1 =>
    plays_assert fun c1 => ?_
  refine plays_do fun q2 w2 r2 => plays_challenge (by decide) fun a2 => ?_
  refine plays_do fun q3 w3 r3 => plays_challenge (by decide) fun a3 => ?_
  refine plays_do fun q4 w4 r4 => plays_challenge (by decide) fun a4 => ?_
  refine plays_do fun q5 w5 r5 => plays_challenge (by decide) fun a5 => ?_
  refine plays_do fun q6 w6 r6 => plays_last (plays_challenge (by decide) fun a6 => plays_ret ?_)
  exact allMet_cons ⟨fetch_none r1, status_of a1, b1, by simpa using c1⟩ <|
    allMet_cons ⟨fetch_header r2, a2⟩ <| allMet_cons ⟨fetch_of r3, a3⟩ <|
    allMet_cons ⟨fetch_of r4, a4⟩ <| allMet_cons ⟨fetch_of r5, a5⟩ <|
    allMet_cons ⟨fetch_of r6, a6⟩ <| allMet_nil _

theorem plays_tokenEndpoint (hg : Given spec) :
    Plays (tokenEndpointTest spec) fun _ tr => AllMet (tokenRows spec) tr := by
  unfold tokenEndpointTest
  refine plays_do fun q1 w1 r1 => plays_error (by decide) fun a1 => ?_
  refine plays_do fun q2 w2 r2 => plays_error (by decide) fun a2 => ?_
  refine plays_do fun q3 w3 r3 => plays_last (plays_error (by decide) fun a3 => plays_ret ?_)
  exact allMet_cons ⟨anonymous_of (by distinct) r1, a1⟩ <|
    allMet_cons ⟨postAs_of (by distinct) (by decide) r2, a2⟩ <|
    allMet_cons ⟨post_of hg (by distinct) r3, a3⟩ <| allMet_nil _

theorem plays_authorizationEndpoint (hg : Given spec) :
    Plays (authorizationEndpointTest spec) fun _ tr => AllMet (authorizationRows spec) tr := by
  unfold authorizationEndpointTest
  refine plays_do fun q1 w1 r1 => plays_error (by decide) fun a1 => ?_
  refine plays_do fun q2 w2 r2 => plays_error (by decide) fun a2 => plays_realm fun b2 => ?_
  refine plays_do fun q3 w3 r3 => plays_error (by decide) fun a3 => ?_
  refine plays_do fun q4 w4 r4 => plays_error (by decide) fun a4 => ?_
  refine plays_do fun q5 w5 r5 => plays_assert_last fun a5 => ?_
  refine allMet_cons ⟨anonymous_of (by distinct) r1, a1⟩ <|
    allMet_cons ⟨anonymous_of (by distinct) r2, a2, b2⟩ <|
    allMet_cons ⟨anonymous_of (by distinct) r3, a3⟩ <|
    allMet_cons ⟨postAs_of (by distinct) hg.confidential r4, a4⟩ <|
    allMet_cons ⟨⟨(request_some r5).1, basic_of r5 hg.confidential,
      form_of (by distinct) (request_some r5).2.2⟩, fun h => ?_⟩ <| allMet_nil _
  have h1 : code w5 ≠ 404 := of_decide_eq_true a5
  unfold Status at h
  unfold code at h1
  cases hw : w5.sent with
  | none => rw [hw] at h; cases h
  | some x => rw [hw] at h h1; exact h1 h

/-! ### The life of tokens -/

theorem plays_access (hg : Given spec) (token : Str) :
    Plays (accessTokenTest spec token) fun _ tr => InOrder tr (accessLife spec token) := by
  unfold accessTokenTest accessLife
  by_cases hi : spec.introspectionEndpoint ≠ []
  · by_cases hv : spec.revocationEndpoint = []
    · simp only [whenever, if_pos hi, if_pos hv, if_neg (show ¬ spec.revocationEndpoint ≠ [] from fun h => h hv)]
      refine plays_do fun q1 w1 r1 => plays_assert fun a1 => ?_
      refine plays_do fun q2 w2 r2 => plays_assert fun a2 => plays_assert fun b2 =>
        plays_assert fun c2 => ?_
      refine plays_ret ?_
      exact inOrder_cons ⟨fetch_of r1, status_of a1⟩ <|
        inOrder_cons ⟨naming_of hg r2, status_of a2, member_true b2,
        member_str (by decide) (of_decide_eq_true c2)⟩ <| trivial
    · simp only [whenever, if_pos hi, if_neg hv, if_pos (show spec.revocationEndpoint ≠ [] from hv)]
      refine plays_do fun q1 w1 r1 => plays_assert fun a1 => ?_
      refine plays_do fun q2 w2 r2 => plays_assert fun a2 => plays_assert fun b2 =>
        plays_assert fun c2 => ?_
      refine plays_do fun q3 w3 r3 => plays_assert fun a3 => ?_
      refine plays_do fun q4 w4 r4 => plays_assert fun a4 => plays_ofOption fun v b4 =>
        plays_assert fun c4 => ?_
      rw [of_decide_eq_true c4] at b4
      refine plays_do fun q5 w5 r5 => plays_assert fun a5 => plays_assert_last fun b5 => ?_
      exact inOrder_cons ⟨fetch_of r1, status_of a1⟩ <|
        inOrder_cons ⟨naming_of hg r2, status_of a2, member_true b2,
        member_str (by decide) (of_decide_eq_true c2)⟩ <|
        inOrder_cons ⟨naming_of hg r3, status_of a3⟩ <|
        inOrder_cons ⟨fetch_of r4, status_of a4, challenge_of b4 (by decide)⟩ <|
        inOrder_cons ⟨naming_of hg r5, status_of a5, not_member b5⟩ <| trivial
  · by_cases hv : spec.revocationEndpoint = []
    · simp only [whenever, if_neg hi, if_pos hv, if_neg (show ¬ spec.revocationEndpoint ≠ [] from fun h => h hv)]
      refine plays_do fun q1 w1 r1 => plays_assert fun a1 => ?_
      refine plays_ret ?_
      exact inOrder_cons ⟨fetch_of r1, status_of a1⟩ <| trivial
    · simp only [whenever, if_neg hi, if_neg hv, if_pos (show spec.revocationEndpoint ≠ [] from hv)]
      refine plays_do fun q1 w1 r1 => plays_assert fun a1 => ?_
      refine plays_do fun q3 w3 r3 => plays_assert fun a3 => ?_
      refine plays_do fun q4 w4 r4 => plays_assert fun a4 => plays_ofOption fun v b4 =>
        plays_assert fun c4 => ?_
      rw [of_decide_eq_true c4] at b4
      refine plays_ret ?_
      exact inOrder_cons ⟨fetch_of r1, status_of a1⟩ <|
        inOrder_cons ⟨naming_of hg r3, status_of a3⟩ <|
        inOrder_cons ⟨fetch_of r4, status_of a4, challenge_of b4 (by decide)⟩ <| trivial

theorem plays_refresh (hg : Given spec) (token : Str) :
    Plays (refreshTokenTest spec token) fun _ tr =>
      ∃ a r, InOrder tr (refreshLife spec token a r) := by
  unfold refreshTokenTest refreshLife
  by_cases hi : spec.introspectionEndpoint ≠ []
  · by_cases hv : spec.revocationEndpoint = []
    · simp only [whenever, if_pos hi, if_pos hv, if_neg (show ¬ spec.revocationEndpoint ≠ [] from fun h => h hv)]
      refine plays_do fun q2 w2 r2 => plays_assert fun a2 => plays_assert fun b2 =>
        plays_assert fun c2 => ?_
      refine plays_do fun q3 w3 r3 => plays_tokens hg.scope fun a r h3 => ?_
      refine plays_bind (plays_access hg a) fun _ tr h => ?_
      refine plays_do fun q4 w4 r4 => plays_error (by decide) fun a4 => ?_
      refine plays_do fun q5 w5 r5 => plays_assert fun a5 => plays_assert fun b5 => ?_
      refine plays_ret ?_
      refine ⟨a, r, ?_⟩
      simp only [List.nil_append, List.append_nil, List.cons_append, List.append_assoc]
      exact inOrder_cons ⟨naming_of hg r2, status_of a2, member_true b2,
        member_str (by decide) (of_decide_eq_true c2)⟩ <|
        inOrder_cons ⟨refreshing_of hg r3, h3⟩ <|
        inOrder_append h <|
        inOrder_cons ⟨refreshing_of hg r4, a4⟩ <|
        inOrder_cons ⟨naming_of hg r5, status_of a5, not_member b5⟩ <| trivial
    · simp only [whenever, if_pos hi, if_neg hv, if_pos (show spec.revocationEndpoint ≠ [] from hv)]
      refine plays_do fun q2 w2 r2 => plays_assert fun a2 => plays_assert fun b2 =>
        plays_assert fun c2 => ?_
      refine plays_do fun q3 w3 r3 => plays_tokens hg.scope fun a r h3 => ?_
      refine plays_bind (plays_access hg a) fun _ tr h => ?_
      refine plays_do fun q4 w4 r4 => plays_error (by decide) fun a4 => ?_
      refine plays_do fun q5 w5 r5 => plays_assert fun a5 => plays_assert fun b5 => ?_
      refine plays_do fun q6 w6 r6 => plays_assert fun a6 => ?_
      refine plays_do fun q7 w7 r7 => plays_error (by decide) fun a7 => ?_
      refine plays_do fun q8 w8 r8 => plays_assert fun a8 => plays_assert_last fun b8 => ?_
      refine ⟨a, r, ?_⟩
      simp only [List.nil_append, List.append_nil, List.cons_append, List.append_assoc]
      exact inOrder_cons ⟨naming_of hg r2, status_of a2, member_true b2,
        member_str (by decide) (of_decide_eq_true c2)⟩ <|
        inOrder_cons ⟨refreshing_of hg r3, h3⟩ <|
        inOrder_append h <|
        inOrder_cons ⟨refreshing_of hg r4, a4⟩ <|
        inOrder_cons ⟨naming_of hg r5, status_of a5, not_member b5⟩ <|
        inOrder_cons ⟨naming_of hg r6, status_of a6⟩ <|
        inOrder_cons ⟨refreshing_of hg r7, a7⟩ <|
        inOrder_cons ⟨naming_of hg r8, status_of a8, not_member b8⟩ <| trivial
  · by_cases hv : spec.revocationEndpoint = []
    · simp only [whenever, if_neg hi, if_pos hv, if_neg (show ¬ spec.revocationEndpoint ≠ [] from fun h => h hv)]
      refine plays_do fun q3 w3 r3 => plays_tokens hg.scope fun a r h3 => ?_
      refine plays_bind (plays_access hg a) fun _ tr h => ?_
      refine plays_do fun q4 w4 r4 => plays_error (by decide) fun a4 => ?_
      refine plays_ret ?_
      refine ⟨a, r, ?_⟩
      simp only [List.nil_append, List.append_nil, List.cons_append, List.append_assoc]
      exact inOrder_cons ⟨refreshing_of hg r3, h3⟩ <|
        inOrder_append h <|
        inOrder_cons ⟨refreshing_of hg r4, a4⟩ <| trivial
    · simp only [whenever, if_neg hi, if_neg hv, if_pos (show spec.revocationEndpoint ≠ [] from hv)]
      refine plays_do fun q3 w3 r3 => plays_tokens hg.scope fun a r h3 => ?_
      refine plays_bind (plays_access hg a) fun _ tr h => ?_
      refine plays_do fun q4 w4 r4 => plays_error (by decide) fun a4 => ?_
      refine plays_do fun q6 w6 r6 => plays_assert fun a6 => ?_
      refine plays_do fun q7 w7 r7 => plays_error (by decide) fun a7 => ?_
      refine plays_ret ?_
      refine ⟨a, r, ?_⟩
      simp only [List.nil_append, List.append_nil, List.cons_append, List.append_assoc]
      exact inOrder_cons ⟨refreshing_of hg r3, h3⟩ <|
        inOrder_append h <|
        inOrder_cons ⟨refreshing_of hg r4, a4⟩ <|
        inOrder_cons ⟨naming_of hg r6, status_of a6⟩ <|
        inOrder_cons ⟨refreshing_of hg r7, a7⟩ <| trivial

/-! ### Introspection and revocation -/

theorem plays_introspection (hg : Given spec) :
    Plays (introspectionEndpointTest spec) fun _ tr => AllMet (introspectionRows spec) tr := by
  unfold introspectionEndpointTest
  refine plays_do fun q0 w0 r0 => plays_error (by decide) fun a0 => ?_
  refine plays_do fun q1 w1 r1 => plays_error (by decide) fun a1 => ?_
  refine plays_do fun q2 w2 r2 => plays_error (by decide) fun a2 => ?_
  refine plays_do fun q3 w3 r3 => plays_error (by decide) fun a3 => ?_
  refine plays_do fun q4 w4 r4 => plays_error (by decide) fun a4 => ?_
  refine plays_do fun q5 w5 r5 => plays_error (by decide) fun a5 => plays_realm fun b5 => ?_
  refine plays_do fun q6 w6 r6 => plays_error (by decide) fun a6 => plays_realm fun b6 => ?_
  refine plays_do fun q7 w7 r7 => plays_error (by decide) fun a7 => ?_
  refine plays_do fun q8 w8 r8 => plays_error (by decide) fun a8 => ?_
  refine plays_do fun q9 w9 r9 => plays_assert fun a9 => ?_
  refine plays_do fun q10 w10 r10 => plays_assert fun a10 => plays_assert_last fun b10 => ?_
  exact allMet_cons ⟨⟨(request_some r0).1, noAuth_of r0 rfl rfl,
      form_of (by distinct) (request_some r0).2.2⟩, a0⟩ <|
    allMet_cons ⟨anonymous_of (by distinct) r1, a1⟩ <|
    allMet_cons ⟨anonymous_of (by distinct) r2, a2⟩ <|
    allMet_cons ⟨post_of hg (by distinct) r3, a3⟩ <|
    allMet_cons ⟨naming_of hg r4, a4⟩ <|
    allMet_cons ⟨postAs_of (by distinct) (by decide) r5, a5, b5⟩ <|
    allMet_cons ⟨postAs_of (by distinct) hg.confidential r6, a6, b6⟩ <|
    allMet_cons ⟨postPublic_of hg (by distinct) r7, a7⟩ <|
    allMet_cons ⟨post_of hg (by distinct) r8, a8⟩ <|
    allMet_cons ⟨post_of hg (by distinct) r9, status_of a9⟩ <|
    allMet_cons ⟨naming_of hg r10, status_of a10, member_true b10⟩ <| allMet_nil _

theorem plays_revocation (hg : Given spec) :
    Plays (revocationEndpointTest spec) fun _ tr =>
      AllMet (endpointRows spec spec.revocationEndpoint) tr ∧
      InOrder tr (accessLife spec spec.validToken) := by
  unfold revocationEndpointTest
  refine plays_do fun q1 w1 r1 => plays_error (by decide) fun a1 => ?_
  refine plays_do fun q2 w2 r2 => plays_error (by decide) fun a2 => ?_
  refine plays_do fun q3 w3 r3 => plays_error (by decide) fun a3 => ?_
  refine plays_do fun q4 w4 r4 => plays_error (by decide) fun a4 => ?_
  refine plays_do fun q5 w5 r5 => plays_error (by decide) fun a5 => plays_realm fun b5 => ?_
  refine plays_do fun q6 w6 r6 => plays_error (by decide) fun a6 => plays_realm fun b6 => ?_
  refine plays_do fun q7 w7 r7 => plays_error (by decide) fun a7 => ?_
  refine plays_do fun q8 w8 r8 => plays_error (by decide) fun a8 => ?_
  refine plays_do fun q9 w9 r9 => plays_assert fun a9 => ?_
  refine Plays.mono (plays_access hg _) fun _ tr h => ⟨?_, ?_⟩
  · exact allMet_cons ⟨anonymous_of (by distinct) r1, a1⟩ <|
      allMet_cons ⟨anonymous_of (by distinct) r2, a2⟩ <|
      allMet_cons ⟨post_of hg (by distinct) r3, a3⟩ <|
      allMet_cons ⟨naming_of hg r4, a4⟩ <|
      allMet_cons ⟨postAs_of (by distinct) (by decide) r5, a5, b5⟩ <|
      allMet_cons ⟨postAs_of (by distinct) hg.confidential r6, a6, b6⟩ <|
      allMet_cons ⟨postPublic_of hg (by distinct) r7, a7⟩ <|
      allMet_cons ⟨post_of hg (by distinct) r8, a8⟩ <|
      allMet_cons ⟨post_of hg (by distinct) r9, status_of a9⟩ <| allMet_nil _
  · exact inOrder_back (tr := [_, _, _, _, _, _, _, _, _]) h

/-! ### Grants -/

/-- The end of the tests of grants: the tokens. -/
theorem plays_lives (hg : Given spec) {form : GoMap Str} (hn : form.keys.Nodup) :
    Plays (do
      let w ← Test.Do (confidentialReq spec spec.tokenEndpoint form)
      let (accessToken, refreshToken) ← expectTokens spec w
      accessTokenTest spec accessToken
      if refreshToken ≠ [] then refreshTokenTest spec refreshToken) fun _ tr =>
      ∃ a r a' r', InOrder tr (grantLife spec form a r a' r') := by
  refine plays_do fun q1 w1 r1 => plays_tokens hg.scope fun a r h1 => ?_
  refine plays_bind (plays_access hg a) fun _ tr2 ht2 => ?_
  rw [if_pos h1.2.2.2.2.2.2.2]
  refine Plays.mono (plays_refresh hg r) fun _ tr ⟨a', r', h⟩ => ⟨a, r, a', r', ?_⟩
  exact inOrder_append (inOrder_append (tr := [⟨q1, w1⟩]) (ps := [_])
    (inOrder_cons ⟨post_of hg hn r1, h1⟩ trivial) ht2) h

theorem plays_password (hg : Given spec) :
    Plays (passwordGrantTest spec) fun _ tr => AllMet (passwordRows spec) tr ∧
      ∃ a r a' r', InOrder tr (grantLife spec (owning spec.resourceOwnerUsername
        spec.resourceOwnerPassword spec.validScope) a r a' r') := by
  unfold passwordGrantTest
  refine plays_do fun q1 w1 r1 => plays_error (by decide) fun a1 => ?_
  refine plays_do fun q2 w2 r2 => plays_error (by decide) fun a2 => ?_
  refine plays_do fun q3 w3 r3 => plays_error (by decide) fun a3 => ?_
  refine plays_do fun q4 w4 r4 => plays_error (by decide) fun a4 => ?_
  refine plays_do fun q5 w5 r5 => plays_error (by decide) fun a5 => ?_
  refine Plays.mono (plays_lives hg (by distinct)) fun _ tr ⟨a, r, a', r', h⟩ =>
    ⟨?_, a, r, a', r', ?_⟩
  · exact allMet_cons ⟨postWrong_of hg (by distinct) r1, a1⟩ <|
      allMet_cons ⟨post_of hg (by distinct) r2, a2⟩ <|
      allMet_cons ⟨post_of hg (by distinct) r3, a3⟩ <|
      allMet_cons ⟨post_of hg (by distinct) r4, a4⟩ <|
      allMet_cons ⟨post_of hg (by distinct) r5, a5⟩ <| allMet_nil _
  · exact inOrder_back (tr := [_, _, _, _, _]) h

theorem plays_clientCredentials (hg : Given spec) :
    Plays (clientCredentialsGrantTest spec) fun _ tr => AllMet (credentialsRows spec) tr ∧
      ∃ a r a' r', InOrder tr (grantLife spec (crediting spec.validScope) a r a' r') := by
  unfold clientCredentialsGrantTest
  refine plays_do fun q1 w1 r1 => plays_error (by decide) fun a1 => plays_realm fun b1 => ?_
  refine plays_do fun q2 w2 r2 => plays_error (by decide) fun a2 => plays_realm fun b2 => ?_
  refine plays_do fun q3 w3 r3 => plays_error (by decide) fun a3 => ?_
  refine plays_do fun q4 w4 r4 => plays_error (by decide) fun a4 => ?_
  refine Plays.mono (plays_lives hg (by distinct)) fun _ tr ⟨a, r, a', r', h⟩ =>
    ⟨?_, a, r, a', r', ?_⟩
  · exact allMet_cons ⟨postWrong_of hg (by distinct) r1, a1, b1⟩ <|
      allMet_cons ⟨postPublic_of hg (by distinct) r2, a2, b2⟩ <|
      allMet_cons ⟨post_of hg (by distinct) r3, a3⟩ <|
      allMet_cons ⟨post_of hg (by distinct) r4, a4⟩ <| allMet_nil _
  · exact inOrder_back (tr := [_, _, _, _]) h

theorem plays_implicit (hg : Given spec) (hm : Maps spec) :
    Plays (implicitGrantTest spec) fun _ tr =>
      AllMet (consentRows spec b!"token" RedirectFragment) tr ∧
      ∃ a, InOrder tr (implicitLife spec a) := by
  unfold implicitGrantTest
  refine plays_do fun q1 w1 r1 => plays_denied_fragment fun a1 => ?_
  refine plays_do fun q2 w2 r2 => plays_denied_fragment fun a2 => ?_
  refine plays_do fun q3 w3 r3 => plays_denied_fragment fun a3 => ?_
  refine plays_do fun q4 w4 r4 => plays_denied_fragment fun a4 => ?_
  refine plays_do fun q5 w5 r5 => plays_assert fun a5 => ?_
  refine plays_ofOption fun v1 b1 => plays_assert fun c1 => ?_
  refine plays_ofOption fun v2 b2 => plays_assert fun c2 => ?_
  refine plays_ofOption fun v3 b3 => plays_assert fun c3 => ?_
  refine plays_ofOption fun v4 b4 => plays_assert fun c4 => ?_
  refine plays_ofOption fun v5 b5 => plays_assert fun c5 => ?_
  refine plays_ofOption fun a b6 => plays_assert fun c6 => ?_
  rw [of_decide_eq_true c1] at b1
  rw [of_decide_eq_true c2] at b2
  rw [of_decide_eq_true c3] at b3
  rw [of_decide_eq_true c4] at b4
  rw [of_decide_eq_true c5] at b5
  refine Plays.mono (plays_access hg a) fun _ tr h => ⟨?_, a, ?_⟩
  · exact allMet_cons ⟨consent_of hm.1 r1, a1⟩ <| allMet_cons ⟨consent_of hm.1 r2, a2⟩ <|
      allMet_cons ⟨anonymous_of (by distinct) r3, a3⟩ <|
      allMet_cons ⟨consent_of hm.2 r4, a4⟩ <| allMet_nil _
  · exact inOrder_back (tr := [_, _, _, _]) (inOrder_cons ⟨consent_of hm.1 r5,
      redirectFragment_cons b1 (redirectFragment_cons b2 (redirectFragment_cons b3
        (redirectFragment_cons b4 (redirectFragment_cons b5
          (redirectFragment_one (status_of a5) b6))))), of_decide_eq_true c6⟩ h)

theorem plays_getCode (hm : Maps spec) :
    Plays (getCode spec) fun c tr => ∃ e, tr = [e] ∧ codeGiven spec c e := by
  unfold getCode
  refine plays_do fun q1 w1 r1 => plays_assert fun a1 => ?_
  refine plays_ofOption fun v b1 => plays_assert fun c1 => ?_
  refine plays_ofOption fun c b2 => plays_assert fun c2 => plays_ret ⟨_, rfl, ?_⟩
  rw [of_decide_eq_true c1] at b1
  exact ⟨consent_of hm.1 r1, redirectQuery_cons b1 (redirectQuery_one (status_of a1) b2),
    of_decide_eq_true c2⟩

theorem plays_code (hg : Given spec) (hm : Maps spec) :
    Plays (authorizationCodeGrantTest spec) fun _ tr =>
      AllMet (consentRows spec b!"code" RedirectQuery ++ codeRows spec) tr ∧
      ∃ c a r a' r' c' b s, InOrder tr (codeLife spec c a r a' r' ++ codeReplay spec c' b s) := by
  unfold authorizationCodeGrantTest
  refine plays_do fun q1 w1 r1 => plays_denied_query fun a1 => ?_
  refine plays_do fun q2 w2 r2 => plays_denied_query fun a2 => ?_
  refine plays_do fun q3 w3 r3 => plays_denied_query fun a3 => ?_
  refine plays_do fun q4 w4 r4 => plays_denied_query fun a4 => ?_
  refine plays_bind (plays_getCode hm) fun c tr5 ht5 => ?_
  obtain ⟨e5, rfl, h5⟩ := ht5
  refine plays_do fun q6 w6 r6 => plays_error (by decide) fun a6 => ?_
  refine plays_do fun q7 w7 r7 => plays_error (by decide) fun a7 => ?_
  refine plays_do fun q8 w8 r8 => plays_error (by decide) fun a8 => ?_
  refine plays_do fun q9 w9 r9 => plays_error (by decide) fun a9 => ?_
  refine plays_do fun q10 w10 r10 => plays_error (by decide) fun a10 => ?_
  refine plays_do fun q11 w11 r11 => plays_error (by decide) fun a11 => ?_
  refine plays_do fun q12 w12 r12 => plays_tokens hg.scope fun a r h12 => ?_
  refine plays_bind (plays_access hg a) fun _ tr13 h13 => ?_
  simp only
  rw [if_pos h12.2.2.2.2.2.2.2]
  refine plays_bind (plays_refresh hg r) fun _ tr14 ⟨a', r', h14⟩ => ?_
  refine plays_bind (plays_getCode hm) fun c' tr15 ht15 => ?_
  obtain ⟨e15, rfl, h15⟩ := ht15
  refine plays_do fun q16 w16 r16 => plays_tokens hg.scope fun b s h16 => ?_
  refine plays_do fun q17 w17 r17 => plays_error (by decide) fun a17 => ?_
  refine Plays.mono (K := fun _ tr => InOrder tr (whenever (spec.codeReplayMitigation = true)
    [says (FetchWith spec b) (Status 401),
     says (Post spec spec.tokenEndpoint (refreshing s)) (Refused 400 b!"invalid_grant")])) ?_
    fun _ tr h => ⟨?_, c, a, r, a', r', c', b, s, ?_⟩
  · unfold whenever
    simp only
    by_cases hc : spec.codeReplayMitigation = true
    · rw [if_pos hc, if_pos hc]
      refine plays_do fun q1 w1 r1 => plays_assert fun a1 => ?_
      refine plays_do fun q2 w2 r2 => plays_last (plays_error (by decide) fun a2 => plays_ret ?_)
      exact inOrder_cons ⟨fetch_of r1, status_of a1⟩
        (inOrder_cons ⟨refreshing_of hg r2, a2⟩ trivial)
    · rw [if_neg hc, if_neg hc]
      exact plays_ret trivial
  · refine allMet_cons ⟨consent_of hm.1 r1, a1⟩ <| allMet_cons ⟨consent_of hm.1 r2, a2⟩ <|
      allMet_cons ⟨anonymous_of (by distinct) r3, a3⟩ <|
      allMet_cons ⟨consent_of hm.2 r4, a4⟩ <| allMet_skip <|
      allMet_cons ⟨postWrong_of hg (by distinct) r6, a6⟩ <|
      allMet_cons ⟨post_of hg (by distinct) r7, a7⟩ <|
      allMet_cons ⟨post_of hg (by distinct) r8, a8⟩ <|
      allMet_cons ⟨post_of hg (by distinct) r9, a9⟩ <| allMet_nil _
  · refine inOrder_back (tr := [_, _, _, _]) ?_
    unfold codeLife grantLife codeReplay
    have h20 := inOrder_append (inOrder_append h13 h14)
      (inOrder_cons h15 (inOrder_cons
      (p := says (Post spec spec.tokenEndpoint (exchanging spec c' spec.primaryRedirectURI))
        (Tokens spec b s)) (e := ⟨q16, w16⟩)
      ⟨post_of hg (by distinct) r16, h16⟩ (inOrder_cons (e := ⟨q17, w17⟩)
      (p := says (Post spec spec.tokenEndpoint (exchanging spec c' spec.primaryRedirectURI))
        (Refused 400 b!"invalid_grant"))
      ⟨post_of hg (by distinct) r17, a17⟩ h)))
    have h21 := inOrder_cons h5 (inOrder_skip (e := ⟨q6, w6⟩) (inOrder_skip (e := ⟨q7, w7⟩)
      (inOrder_skip (e := ⟨q8, w8⟩) (inOrder_skip (e := ⟨q9, w9⟩)
      (inOrder_cons (e := ⟨q10, w10⟩)
        (p := says (PostPublic spec spec.tokenEndpoint (exchanging spec c spec.primaryRedirectURI))
          (Refused 400 b!"invalid_grant")) ⟨postPublic_of hg (by distinct) r10, a10⟩
      (inOrder_cons (e := ⟨q11, w11⟩)
        (p := says (Post spec spec.tokenEndpoint (exchanging spec c spec.secondaryRedirectURI))
          (Refused 400 b!"invalid_grant")) ⟨post_of hg (by distinct) r11, a11⟩
      (inOrder_cons (e := ⟨q12, w12⟩)
        (p := says (Post spec spec.tokenEndpoint (exchanging spec c spec.primaryRedirectURI))
          (Tokens spec a r)) ⟨post_of hg (by distinct) r12, h12⟩ h20)))))))
    simpa using h21

theorem plays_refreshGrant (hg : Given spec) :
    Plays (refreshTokenGrantTest spec) fun _ tr => AllMet (refreshRows spec) tr ∧
      ∃ a r, InOrder tr (refreshLife spec spec.validRefreshToken a r) := by
  unfold refreshTokenGrantTest
  refine plays_do fun q1 w1 r1 => plays_error (by decide) fun a1 => ?_
  refine plays_do fun q2 w2 r2 => plays_error (by decide) fun a2 => ?_
  refine plays_do fun q3 w3 r3 => plays_error (by decide) fun a3 => ?_
  refine plays_do fun q4 w4 r4 => plays_error (by decide) fun a4 => ?_
  refine plays_do fun q5 w5 r5 => plays_error (by decide) fun a5 => ?_
  refine plays_do fun q6 w6 r6 => plays_error (by decide) fun a6 => ?_
  refine Plays.mono (plays_refresh hg _) fun _ tr ⟨a, r, h⟩ => ⟨?_, a, r, ?_⟩
  · exact allMet_cons ⟨postWrong_of hg (by distinct) r1, a1⟩ <|
      allMet_cons ⟨refreshing_of hg r2, a2⟩ <| allMet_cons ⟨refreshing_of hg r3, a3⟩ <|
      allMet_cons ⟨refreshing_of hg r4, a4⟩ <|
      allMet_cons ⟨postPublic_of hg (by distinct) r5, a5⟩ <|
      allMet_cons ⟨post_of hg (by distinct) r6, a6⟩ <| allMet_nil _
  · exact inOrder_back (tr := [_, _, _, _, _, _]) h

/-! ### The run -/

/-- Saying more does not undo it. -/
def Stable (P : List Exchange → Prop) : Prop :=
  ∀ tr tr', (P tr → P (tr ++ tr')) ∧ (P tr' → P (tr ++ tr'))

theorem stable_met (rows : List Requirement) : Stable (AllMet rows) :=
  fun _ _ => ⟨allMet_front, allMet_back⟩

theorem stable_order (ps : List (Exchange → Prop)) : Stable fun tr => InOrder tr ps :=
  fun _ _ => ⟨inOrder_front, inOrder_back⟩

theorem stable_and {P Q : List Exchange → Prop} (hp : Stable P) (hq : Stable Q) :
    Stable fun tr => P tr ∧ Q tr :=
  fun tr tr' => ⟨fun h => ⟨(hp tr tr').1 h.1, (hq tr tr').1 h.2⟩,
    fun h => ⟨(hp tr tr').2 h.1, (hq tr tr').2 h.2⟩⟩

theorem stable_exists {ι : Type} {P : ι → List Exchange → Prop} (h : ∀ i, Stable (P i)) :
    Stable fun tr => ∃ i, P i tr :=
  fun tr tr' => ⟨fun ⟨i, hi⟩ => ⟨i, (h i tr tr').1 hi⟩, fun ⟨i, hi⟩ => ⟨i, (h i tr tr').2 hi⟩⟩

/-- What the parts of a run show, each if its condition holds. -/
def After (parts : List (Prop × (List Exchange → Prop))) (tr : List Exchange) : Prop :=
  ∀ c ∈ parts, c.1 → c.2 tr

theorem after_back {parts : List (Prop × (List Exchange → Prop))}
    (hs : ∀ c ∈ parts, Stable c.2) {tr tr' : List Exchange} (h : After parts tr') :
    After parts (tr ++ tr') := fun c hc h1 => (hs c hc tr tr').2 (h c hc h1)

theorem after_cons {c : Prop} {P : List Exchange → Prop}
    {parts : List (Prop × (List Exchange → Prop))} {tr : List Exchange} (h1 : c → P tr)
    (h2 : After parts tr) : After ((c, P) :: parts) tr := by
  intro d hd h
  rcases List.mem_cons.mp hd with rfl | hd
  · exact h1 h
  · exact h2 d hd h

theorem plays_then {A : Test Unit} {f : Unit → Test Unit} {c : Prop} {P : List Exchange → Prop}
    {parts : List (Prop × (List Exchange → Prop))} (hP : Stable P) (hs : ∀ c ∈ parts, Stable c.2)
    (hA : Plays A fun _ tr => P tr) (hf : Plays (f ()) fun _ tr => After parts tr) :
    Plays (A >>= f) fun _ tr => After ((c, P) :: parts) tr :=
  plays_bind hA fun _ _ h => Plays.mono hf fun _ _ h' =>
    after_cons (fun _ => (hP _ _).1 h) (after_back hs h')

theorem plays_part {c : Prop} [Decidable c] {t : Test Unit} {f : Unit → Test Unit}
    {P : List Exchange → Prop} {parts : List (Prop × (List Exchange → Prop))}
    (hf : Plays (f ()) fun _ tr => After parts tr)
    (ht : Plays t fun _ tr => After ((c, P) :: parts) tr) :
    Plays (if c then t else f ()) fun _ tr => After ((c, P) :: parts) tr := by
  by_cases hc : c
  · rw [if_pos hc]
    exact ht
  · rw [if_neg hc]
    exact Plays.mono hf fun _ _ h => after_cons (fun h' => absurd h' hc) h

/-- What a run shows. -/
def shown (spec : Spec) : List (Prop × (List Exchange → Prop)) :=
  [(True, AllMet (resourceRows spec)),
   ((spec.passwordGrantSupport || spec.clientCredentialsGrantSupport ||
      spec.authorizationCodeGrantSupport || spec.refreshTokenGrantSupport) = true,
    AllMet (tokenRows spec)),
   ((spec.implicitGrantSupport || spec.authorizationCodeGrantSupport) = true,
    AllMet (authorizationRows spec)),
   (spec.passwordGrantSupport = true, fun tr => AllMet (passwordRows spec) tr ∧
      ∃ a r a' r', InOrder tr (grantLife spec (owning spec.resourceOwnerUsername
        spec.resourceOwnerPassword spec.validScope) a r a' r')),
   (spec.clientCredentialsGrantSupport = true, fun tr => AllMet (credentialsRows spec) tr ∧
      ∃ a r a' r', InOrder tr (grantLife spec (crediting spec.validScope) a r a' r')),
   (spec.implicitGrantSupport = true, fun tr =>
      AllMet (consentRows spec b!"token" RedirectFragment) tr ∧
      ∃ a, InOrder tr (implicitLife spec a)),
   (spec.authorizationCodeGrantSupport = true, fun tr =>
      AllMet (consentRows spec b!"code" RedirectQuery ++ codeRows spec) tr ∧
      ∃ c a r a' r' c' b s, InOrder tr (codeLife spec c a r a' r' ++ codeReplay spec c' b s)),
   (spec.refreshTokenGrantSupport = true, fun tr => AllMet (refreshRows spec) tr ∧
      ∃ a r, InOrder tr (refreshLife spec spec.validRefreshToken a r)),
   (spec.introspectionEndpoint ≠ [], AllMet (introspectionRows spec)),
   (spec.revocationEndpoint ≠ [], fun tr =>
      AllMet (endpointRows spec spec.revocationEndpoint) tr ∧
      InOrder tr (accessLife spec spec.validToken))]

theorem shown_stable (spec : Spec) : ∀ c ∈ shown spec, Stable c.2 := by
  intro c hc
  unfold shown at hc
  simp only [List.mem_cons, List.not_mem_nil, or_false] at hc
  rcases hc with rfl | rfl | rfl | rfl | rfl | rfl | rfl | rfl | rfl | rfl
  · exact stable_met _
  · exact stable_met _
  · exact stable_met _
  · exact stable_and (stable_met _) (stable_exists fun _ => stable_exists fun _ =>
      stable_exists fun _ => stable_exists fun _ => stable_order _)
  · exact stable_and (stable_met _) (stable_exists fun _ => stable_exists fun _ =>
      stable_exists fun _ => stable_exists fun _ => stable_order _)
  · exact stable_and (stable_met _) (stable_exists fun _ => stable_order _)
  · exact stable_and (stable_met _) (stable_exists fun _ => stable_exists fun _ =>
      stable_exists fun _ => stable_exists fun _ => stable_exists fun _ => stable_exists fun _ =>
      stable_exists fun _ => stable_exists fun _ => stable_order _)
  · exact stable_and (stable_met _) (stable_exists fun _ => stable_exists fun _ => stable_order _)
  · exact stable_met _
  · exact stable_and (stable_met _) (stable_order _)

theorem plays_run (hm : Maps spec) : Plays (run spec) fun _ tr => After (shown spec) tr := by
  have hs := shown_stable spec
  unfold run
  refine plays_must fun _ => plays_must fun _ => plays_must fun _ => plays_must fun g1 =>
    plays_must fun _ => plays_must fun g2 => plays_must fun _ => plays_must fun g3 =>
    plays_must fun _ => plays_must fun _ => plays_must fun _ => plays_must fun _ =>
    plays_must fun _ => ?_
  have hg : Given spec :=
    ⟨of_decide_eq_true g1, of_decide_eq_true g2, of_decide_eq_true g3⟩
  unfold shown at hs ⊢
  have tail {c : Prop × (List Exchange → Prop)} {parts : List (Prop × (List Exchange → Prop))}
      (h : ∀ d ∈ c :: parts, Stable d.2) : Stable c.2 ∧ ∀ d ∈ parts, Stable d.2 :=
    ⟨h c List.mem_cons_self, fun d hd => h d (List.mem_cons_of_mem _ hd)⟩
  have s1 := tail hs
  have s2 := tail s1.2
  have s3 := tail s2.2
  have s4 := tail s3.2
  have s5 := tail s4.2
  have s6 := tail s5.2
  have s7 := tail s6.2
  have s8 := tail s7.2
  have s9 := tail s8.2
  have s10 := tail s9.2
  extract_lets j10 j9 j8 j7 j6 j5 j4 j3
  have h10 : Plays (j10 ()) fun _ tr => After _ tr :=
    plays_part (parts := []) (f := fun _ => pure ()) (plays_ret fun _ h => nomatch h)
      (plays_last (plays_then s10.1 s10.2 (plays_revocation hg)
        (plays_ret fun _ h => nomatch h)))
  have h9 : Plays (j9 ()) fun _ tr => After _ tr :=
    plays_part h10 (plays_then s9.1 s9.2 (plays_introspection hg) h10)
  have h8 : Plays (j8 ()) fun _ tr => After _ tr :=
    plays_part h9 (plays_must fun _ => plays_must fun _ => plays_must fun _ =>
      plays_must fun _ => plays_then s8.1 s8.2 (plays_refreshGrant hg) h9)
  have h7 : Plays (j7 ()) fun _ tr => After _ tr :=
    plays_part h8 (plays_assoc (plays_must fun _ => plays_must fun _ => plays_must fun _ =>
      plays_must fun _ => plays_must fun _ => plays_then s7.1 s7.2 (plays_code hg hm) h8))
  have h6 : Plays (j6 ()) fun _ tr => After _ tr :=
    plays_part h7 (plays_assoc (plays_must fun _ => plays_must fun _ =>
      plays_then s6.1 s6.2 (plays_implicit hg hm) h7))
  have h5 : Plays (j5 ()) fun _ tr => After _ tr :=
    plays_part h6 (plays_then s5.1 s5.2 (plays_clientCredentials hg) h6)
  have h4 : Plays (j4 ()) fun _ tr => After _ tr :=
    plays_part h5 (plays_must fun _ => plays_must fun _ =>
      plays_then s4.1 s4.2 (plays_password hg) h5)
  have h3 : Plays (j3 ()) fun _ tr => After _ tr :=
    plays_part h4 (plays_must fun _ => plays_must fun _ => plays_must fun _ =>
      plays_then s3.1 s3.2 (plays_authorizationEndpoint hg) h4)
  refine plays_then s1.1 s1.2 (plays_resource spec) ?_
  exact plays_part h3 (plays_then s2.1 s2.2 (plays_tokenEndpoint hg) h3)

end OAuth2.Suite

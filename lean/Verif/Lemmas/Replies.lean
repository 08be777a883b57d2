import Verif.Lemmas.Seen

/-! What the server replies to well-formed requests of identified clients. -/

namespace OAuth2

open Spec

set_option linter.unusedSimpArgs false

/-- Answering with an error document. -/
theorem refusedWith_error {e : Error} {status : Nat} {name : Str} (hr : e.redirectURI = [])
    (hs : e.status.toNat = status) (hn : sanitize e.name = name) :
    RefusedWith (Reply.error e).answer status name := by
  refine ⟨_, rfl, ?_, ?_⟩
  · rw [error_result hr]; exact hs
  · rw [(error_jsonMember (by rw [error_result hr]) _).1]
    exact hn.symm

theorem refused_grant (d : Str) :
    RefusedWith (Reply.error (invalidGrant d)).answer 400 b!"invalid_grant" :=
  refusedWith_error rfl rfl (sanitize_ascii (by decide) : sanitize b!"invalid_grant" = _)

theorem refused_client (d : Str) :
    RefusedWith (Reply.error (invalidClient d)).answer 401 b!"invalid_client" :=
  refusedWith_error rfl rfl (sanitize_ascii (by decide) : sanitize b!"invalid_client" = _)

theorem refused_request (d : Str) :
    RefusedWith (Reply.error (invalidRequest d)).answer 400 b!"invalid_request" :=
  refusedWith_error rfl rfl (sanitize_ascii (by decide) : sanitize b!"invalid_request" = _)

theorem refused_scope (d : Str) :
    RefusedWith (Reply.error (invalidScope d)).answer 400 b!"invalid_scope" :=
  refusedWith_error rfl rfl (sanitize_ascii (by decide) : sanitize b!"invalid_scope" = _)

theorem refused_type (d : Str) :
    RefusedWith (Reply.error (unsupportedTokenType d)).answer 400 b!"unsupported_token_type" :=
  refusedWith_error rfl rfl (sanitize_ascii (by decide) : sanitize b!"unsupported_token_type" = _)

theorem refused_denied (d : Str) :
    RefusedWith (Reply.error (accessDenied d)).answer 403 b!"access_denied" :=
  refusedWith_error rfl rfl (sanitize_ascii (by decide) : sanitize b!"access_denied" = _)

variable {s : Server} {c : Call}

/-- The request behind a well-formed token request. -/
theorem step_token {rq : TokenRequest} (h : AsksToken c rq) :
    ∃ r, c.op = .serve r ∧ Server.lastSegment r.path = b!"token" ∧ parseTokenRequest r = .ok rq ∧
      step ⟨false, s⟩ c = ((s.tokenReply r c.local).1.answer, ⟨false, (s.tokenReply r c.local).2⟩) := by
  obtain ⟨r, h1, h2, h3⟩ := h
  rw [lastSegment_iff] at h2
  refine ⟨r, h1, h2, h3, ?_⟩
  rw [step_serve h1]
  have : s.handle r c.local = s.tokenReply r c.local := by
    unfold Server.handle
    simp only [h2]
    rfl
  rw [this]

/-- An identified client gets to the grant. -/
theorem step_grant {rq : TokenRequest} (h : AsksToken c rq)
    (hi : Identified s rq.clientID rq.clientSecret) (hk : knownGrantType rq.grantType = true) :
    ∃ client, s.clients.get? rq.clientID = some client ∧
      step ⟨false, s⟩ c = ((s.grantReply rq client c.local).1.answer,
        ⟨false, (s.grantReply rq client c.local).2⟩) := by
  obtain ⟨r, h1, h2, h3, h4⟩ := step_token (s := s) h
  obtain ⟨client, hc, hs⟩ := hi
  refine ⟨client, hc, ?_⟩
  rw [h4]
  have hw := (Server.wrongSecret_iff hc).mpr ⟨client, hc, hs⟩
  have : s.tokenReply r c.local = s.grantReply rq client c.local := by
    unfold Server.tokenReply
    rw [h3]
    simp only [hk, Bool.not_true, Bool.false_eq_true, if_false, hc, hw]
  rw [this]

theorem step_code {rq : TokenRequest} (h : AsksToken c rq)
    (hi : Identified s rq.clientID rq.clientSecret) (hg : rq.grantType = b!"authorization_code") :
    step ⟨false, s⟩ c = ((s.codeReply rq c.local).1.answer, ⟨false, (s.codeReply rq c.local).2⟩) := by
  obtain ⟨client, _, h2⟩ := step_grant h hi (by rw [hg]; decide)
  rw [h2]
  have : s.grantReply rq client c.local = s.codeReply rq c.local := by
    unfold Server.grantReply
    rw [hg]
    rfl
  rw [this]

theorem step_refresh {rq : TokenRequest} (h : AsksToken c rq)
    (hi : Identified s rq.clientID rq.clientSecret) (hg : rq.grantType = b!"refresh_token") :
    step ⟨false, s⟩ c =
      ((s.refreshReply rq c.local).1.answer, ⟨false, (s.refreshReply rq c.local).2⟩) := by
  obtain ⟨client, _, h2⟩ := step_grant h hi (by rw [hg]; decide)
  rw [h2]
  have : s.grantReply rq client c.local = s.refreshReply rq c.local := by
    unfold Server.grantReply
    rw [hg]
    rfl
  rw [this]

theorem step_introspect {rq : IntrospectionRequest} (h : AsksIntrospection c rq) :
    ∃ r, c.op = .serve r ∧ parseIntrospectionRequest r = .ok rq ∧
      step ⟨false, s⟩ c = ((s.introspectReply r).1.answer, ⟨false, (s.introspectReply r).2⟩) := by
  obtain ⟨r, h1, h2, h3⟩ := h
  rw [lastSegment_iff] at h2
  refine ⟨r, h1, h3, ?_⟩
  rw [step_serve h1]
  have : s.handle r c.local = s.introspectReply r := by
    unfold Server.handle
    simp only [h2]
    rfl
  rw [this]

theorem step_revoke {rq : RevocationRequest} (h : AsksRevocation c rq) :
    ∃ r, c.op = .serve r ∧ parseRevocationRequest r = .ok rq ∧
      step ⟨false, s⟩ c = ((s.revokeReply r).1.answer, ⟨false, (s.revokeReply r).2⟩) := by
  obtain ⟨r, h1, h2, h3⟩ := h
  rw [lastSegment_iff] at h2
  refine ⟨r, h1, h3, ?_⟩
  rw [step_serve h1]
  have : s.handle r c.local = s.revokeReply r := by
    unfold Server.handle
    simp only [h2]
    rfl
  rw [this]

theorem step_submit {rq : AuthorizationRequest} {u p : Str} (h : AsksAuthorization c rq u p) :
    ∃ r, c.op = .serve r ∧ parseAuthorizationRequest r = .ok rq ∧ r.method ≠ b!"GET" ∧
      u = (r.parseForm.1.postForm.getD []).get b!"username" ∧
      p = (r.parseForm.1.postForm.getD []).get b!"password" ∧
      step ⟨false, s⟩ c = ((s.authorizeReply r c.local).1.answer,
        ⟨false, (s.authorizeReply r c.local).2⟩) := by
  obtain ⟨r, h1, h2, h3, h4, h5, h6⟩ := h
  rw [lastSegment_iff] at h2
  refine ⟨r, h1, h4, h3, h5, h6, ?_⟩
  rw [step_serve h1]
  have : s.handle r c.local = s.authorizeReply r c.local := by
    unfold Server.handle
    simp only [h2]
    rfl
  rw [this]

end OAuth2

import Verif.Props.Responses
import Verif.Props.EndToEnd

/-!
C54: what the client library makes of the answers of any server.
-/

namespace OAuth2

open Spec

variable {cfg : ClientConfig} {t : Transport}

/-- **C54.** `Authenticate` returns a token response only if a token request sent to the token endpoint
of the configuration was answered with status 200 and the body reads as that response, within the
configured limit. -/
theorem C54_token {rq : TokenRequest} {trs : TokenResponse}
    (h : (newClient cfg t).authenticate rq = .ok trs) :
    ∃ r res, buildTokenRequest (cfg.baseURI ++ cfg.tokenEndpoint) rq = some r ∧ t r = some res ∧
      res.statusCode = 200 ∧ parseTokenResponse res (ResponseLimit cfg) = .ok trs := by
  obtain ⟨h1, h2, h3, h4, h5, h6⟩ := newClient_limit cfg t
  unfold Client.authenticate at h
  simp only [h1, h2, h3, h6] at h
  cases hb : buildTokenRequest (cfg.baseURI ++ cfg.tokenEndpoint) rq with
  | none => rw [hb] at h; cases h
  | some r =>
    rw [hb] at h
    simp only at h
    cases ht : t r with
    | none => rw [ht] at h; cases h
    | some res =>
      rw [ht] at h
      simp only at h
      split at h
      · cases h
      · next hs => exact ⟨r, res, rfl, ht, Classical.not_not.mp hs, h⟩

/-- **C54.** The same for `Introspect`. -/
theorem C54_introspection {rq : IntrospectionRequest} {irs : IntrospectionResponse}
    (h : (newClient cfg t).introspect rq = .ok irs) :
    ∃ r res, buildIntrospectionRequest (cfg.baseURI ++ cfg.introspectionEndpoint) rq = some r ∧
      t r = some res ∧ res.statusCode = 200 ∧
      parseIntrospectionResponse res (ResponseLimit cfg) = .ok irs := by
  obtain ⟨h1, h2, h3, h4, h5, h6⟩ := newClient_limit cfg t
  unfold Client.introspect at h
  simp only [h1, h2, h4, h6] at h
  cases hb : buildIntrospectionRequest (cfg.baseURI ++ cfg.introspectionEndpoint) rq with
  | none => rw [hb] at h; cases h
  | some r =>
    rw [hb] at h
    simp only at h
    cases ht : t r with
    | none => rw [ht] at h; cases h
    | some res =>
      rw [ht] at h
      simp only at h
      split at h
      · cases h
      · next hs => exact ⟨r, res, rfl, ht, Classical.not_not.mp hs, h⟩

/-- **C54.** `Revoke` returns no error exactly if a revocation request sent to the revocation endpoint
of the configuration was answered with status 200. -/
theorem C54_revocation {rq : RevocationRequest} :
    (newClient cfg t).revoke rq = none ↔
    ∃ r res, buildRevocationRequest (cfg.baseURI ++ cfg.revocationEndpoint) rq = some r ∧
      t r = some res ∧ res.statusCode = 200 := by
  obtain ⟨h1, h2, h3, h4, h5, h6⟩ := newClient_limit cfg t
  unfold Client.revoke
  simp only [h1, h2, h5, h6]
  cases hb : buildRevocationRequest (cfg.baseURI ++ cfg.revocationEndpoint) rq with
  | none => simp
  | some r =>
    simp only
    cases ht : t r with
    | none => simp [ht]
    | some res =>
      simp only [ne_eq, ite_not]
      by_cases hs : res.statusCode = 200
      · simp only [hs, if_true, true_iff]
        exact ⟨r, res, rfl, ht, hs⟩
      · simp only [hs, if_false, reduceCtorEq, false_iff]
        rintro ⟨r', res', h7, h8, h9⟩
        cases h7
        rw [ht] at h8
        cases h8
        exact hs h9

theorem reflects (res : Response) (limit : Int) : Reflects res (parseRequestError res limit) := by
  unfold parseRequestError
  simp only
  split
  · exact .inl ⟨_, rfl, rfl⟩
  · exact .inr rfl

/-- **C54.** A response with another status is an error that tells the status: an OAuth2 error with this
status, or a message with the status line. -/
theorem C54_status (res : Response) (hs : res.statusCode ≠ 200) :
    (∀ rq r, buildTokenRequest (cfg.baseURI ++ cfg.tokenEndpoint) rq = some r → t r = some res →
      ∃ err, (newClient cfg t).authenticate rq = .error err ∧ Reflects res err) ∧
    (∀ rq r, buildIntrospectionRequest (cfg.baseURI ++ cfg.introspectionEndpoint) rq = some r →
      t r = some res →
      ∃ err, (newClient cfg t).introspect rq = .error err ∧ Reflects res err) ∧
    (∀ rq r, buildRevocationRequest (cfg.baseURI ++ cfg.revocationEndpoint) rq = some r →
      t r = some res → ∃ err, (newClient cfg t).revoke rq = some err ∧ Reflects res err) := by
  obtain ⟨h1, h2, h3, h4, h5, h6⟩ := newClient_limit cfg t
  refine ⟨fun rq r hb ht => ⟨_, ?_, reflects res (ResponseLimit cfg)⟩,
    fun rq r hb ht => ⟨_, ?_, reflects res (ResponseLimit cfg)⟩,
    fun rq r hb ht => ⟨_, ?_, reflects res (ResponseLimit cfg)⟩⟩
  · unfold Client.authenticate
    simp only [h1, h2, h3, h6, hb, ht]
    rw [if_pos hs]
  · unfold Client.introspect
    simp only [h1, h2, h4, h6, hb, ht]
    rw [if_pos hs]
  · unfold Client.revoke
    simp only [h1, h2, h5, h6, hb, ht]
    rw [if_pos hs]

/-- **C54.** Any server that reports an error with `WriteError` (a status from 201 to 999) is understood:
the library returns an OAuth2 error with that status, name, description and address. -/
theorem C54_error_document {σ : Type} {e : Error} (hr : e.redirectURI = []) (h1 : 201 ≤ e.status)
    (h2 : e.status ≤ 999) (s : Shared σ) (l : Local) (hw : l.w.Fresh) :
    ∃ l', exec (writeError (.oauth e)) s l = (.ret true, s, l') ∧
      ((l'.w.result.body.length : Int) ≤ ResponseLimit cfg →
        ∃ e' : Error, e'.status = e.status ∧ Replaced e.name e'.name ∧
          Replaced e.description e'.description ∧ Replaced e.uri e'.uri ∧
          (∀ rq r, buildTokenRequest (cfg.baseURI ++ cfg.tokenEndpoint) rq = some r →
            t r = some l'.w.result → (newClient cfg t).authenticate rq = .error (.oauth e')) ∧
          (∀ rq r, buildIntrospectionRequest (cfg.baseURI ++ cfg.introspectionEndpoint) rq = some r →
            t r = some l'.w.result → (newClient cfg t).introspect rq = .error (.oauth e')) ∧
          (∀ rq r, buildRevocationRequest (cfg.baseURI ++ cfg.revocationEndpoint) rq = some r →
            t r = some l'.w.result → (newClient cfg t).revoke rq = some (.oauth e'))) := by
  refine ⟨_, exec_writeError hr (by omega) h2 s l hw, ?_⟩
  intro hl
  obtain ⟨k1, k2, k3, k4, k5, k6⟩ := newClient_limit cfg t
  have hst : ((e.status.toNat : Nat) : Int) = e.status := by omega
  generalize hres : Recorder.result _ = res at hl
  have hsc : res.statusCode = e.status.toNat := by rw [← hres]; rfl
  have hbd : res.body = e.json ++ [0x0A] := by rw [← hres]; rfl
  have hne : res.statusCode ≠ 200 := by rw [hsc]; omega
  have hparse : parseRequestError res (ResponseLimit cfg) = .oauth { e.wire with status := e.status } := by
    unfold parseRequestError Response.readAll
    have : res.body.take (ResponseLimit cfg).toNat = e.json ++ [0x0A] := by
      rw [hbd] at hl ⊢
      exact List.take_of_length_le (by omega)
    simp only [this, Error.unmarshal_json, hsc, hst]
  refine ⟨{ e.wire with status := e.status }, rfl, sanitize_replaced _, sanitize_replaced _, sanitize_replaced _, ?_, ?_, ?_⟩
  · intro rq r hb ht
    unfold Client.authenticate
    simp only [k1, k2, k3, k6, hb, ht]
    rw [if_pos hne]
    exact congrArg _ hparse
  · intro rq r hb ht
    unfold Client.introspect
    simp only [k1, k2, k4, k6, hb, ht]
    rw [if_pos hne]
    exact congrArg _ hparse
  · intro rq r hb ht
    unfold Client.revoke
    simp only [k1, k2, k5, k6, hb, ht]
    rw [if_pos hne]
    exact congrArg _ hparse

/-- **C54.** A request that cannot be sent is an error, and so is one that is not answered. -/
theorem C54_broken (ht : ∀ r, t r = none) :
    (∀ rq, ∃ err, (newClient cfg t).authenticate rq = .error err) ∧
    (∀ rq, ∃ err, (newClient cfg t).introspect rq = .error err) ∧
    ∀ rq, ∃ err, (newClient cfg t).revoke rq = some err := by
  obtain ⟨h1, h2, h3, h4, h5, h6⟩ := newClient_limit cfg t
  refine ⟨fun rq => ⟨.lib, ?_⟩, fun rq => ⟨.lib, ?_⟩, fun rq => ⟨.lib, ?_⟩⟩
  · unfold Client.authenticate
    simp only [h6, ht]
    split <;> rfl
  · unfold Client.introspect
    simp only [h6, ht]
    split <;> rfl
  · unfold Client.revoke
    simp only [h6, ht]
    split <;> rfl

/-- Non-vacuity: a server that always answers with a gateway error, and one that always reports an
error document with status 503. -/
example :
    (newClient demoClient fun _ => some {
      statusCode := 502, status := b!"502 Bad Gateway", body := b!"<html>" }).authenticate {
        grantType := b!"password", clientID := b!"c1" } =
      .error (.msg b!"unexpected response: 502 Bad Gateway") ∧
    (newClient demoClient fun _ => some {
      statusCode := 503, status := b!"503 Service Unavailable",
      body := b!"{\"error\":\"temporarily_unavailable\"}" }).revoke {
        token := b!"x", clientID := b!"c1" } =
      some (.oauth { name := b!"temporarily_unavailable", status := 503 }) ∧
    (newClient demoClient fun _ => some {
      statusCode := 200, status := b!"200 OK", header := jsonHeader [],
      body := b!"{\"token_type\":\"bearer\",\"access_token\":\"a\",\"expires_in\":5}" }).authenticate {
        grantType := b!"password", clientID := b!"c1" } =
      .ok { tokenType := b!"bearer", accessToken := b!"a", expiresIn := 5 } := by
  refine ⟨by decide +kernel, by decide +kernel, by decide +kernel⟩

end OAuth2

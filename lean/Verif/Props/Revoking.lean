import Verif.Props.EndToEnd

/-!
C63: revoking twice is revoking once, and what the answer to a revocation request says.
-/

namespace OAuth2

open Spec

variable {s₀ : Server} {s : Shared Server} {h : List Event} {c : Call}

theorem del_del {α : Type} (m : GoMap α) (k : Str) : (m.del k).del k = m.del k := by
  unfold GoMap.del
  rw [List.filter_filter]
  congr 1
  funext e
  simp

theorem error_not_ok {e : Error} (hr : e.redirectURI = []) (hs : 400 ≤ e.status) {res : Response}
    (ha : (Reply.error e).answer = .answered res) : res.statusCode ≠ 200 := by
  have : res = ((Reply.error e).render {}).result := by cases ha; rfl
  rw [this, error_result hr]
  simp only
  omega

/-- A revocation that succeeds. -/
theorem revoked_cases {st : Server} {rq : RevocationRequest} (hc : AsksRevocation c rq)
    {res : Response} (ha : (step ⟨false, st⟩ c).1 = .answered res) (h200 : res.statusCode = 200) :
    Identified st rq.clientID rq.clientSecret ∧
    rq.tokenTypeHint ∈ [[], b!"access_token", b!"refresh_token"] ∧
    ∃ t, HS256Token.parse st.config.secret rq.token = .ok t ∧
      (∀ c, st.accessTokens.get? t.signatureString = some c → c.clientID = rq.clientID) ∧
      (∀ c, st.refreshTokens.get? t.signatureString = some c → c.clientID = rq.clientID) ∧
      step ⟨false, st⟩ c = (.answered { statusCode := 200 }, ⟨false, { st with
        accessTokens := st.accessTokens.del t.signatureString,
        refreshTokens := st.refreshTokens.del t.signatureString }⟩) := by
  have hhint : rq.tokenTypeHint ∈ [[], b!"access_token", b!"refresh_token"] := by
    by_cases hh : rq.tokenTypeHint ≠ [] ∧ (!knownTokenType rq.tokenTypeHint) = true
    · exfalso
      obtain ⟨r, h1, h3, h4⟩ := step_revoke (s := st) hc
      have h5 : st.revokeReply r = (.error (unsupportedTokenType []), st) := by
        unfold Server.revokeReply
        rw [h3]
        simp only
        rw [if_pos hh]
      rw [h4, h5] at ha
      exact error_not_ok (e := unsupportedTokenType []) rfl (by decide) ha h200
    · by_cases h1 : rq.tokenTypeHint = []
      · simp [h1]
      · have : knownTokenType rq.tokenTypeHint = true := by simpa [h1] using hh
        unfold knownTokenType at this
        rw [Bool.or_eq_true, decide_eq_true_eq, decide_eq_true_eq] at this
        rcases this with h | h <;> rw [h] <;> decide
  obtain ⟨r, reply, s', h1, h2, h3, h4, h5⟩ := revocation_served (st := st) hc
  rw [h4] at ha ⊢
  rcases h5 with ⟨e, rfl, hs, hr, rfl, _⟩ | ⟨hid, t, ht, hac, ⟨rfl, hrc, rfl⟩ | ⟨rfl, _⟩⟩
  · exact absurd h200 (error_not_ok hr hs.1 ha)
  · exact ⟨hid, hhint, t, ht, hac, hrc, rfl⟩
  · exact absurd h200 (error_not_ok (e := invalidClient b!"wrong client") rfl (by decide) ha)

/-- **C63.** A revocation that succeeds says nothing but that: the answer has status 200, no headers
and no body. -/
theorem C63_answer (st : Server) {rq : RevocationRequest} (hc : AsksRevocation c rq)
    {res : Response} (ha : (step ⟨false, st⟩ c).1 = .answered res) (h200 : res.statusCode = 200) :
    res = { statusCode := 200, header := [], body := [] } := by
  obtain ⟨_, _, t, _, _, _, h1⟩ := revoked_cases hc ha h200
  rw [h1] at ha
  cases ha
  rfl

/-- **C63.** Revoking twice is revoking once: after a revocation that succeeded, a revocation of the
same token by the same client succeeds again, and changes nothing. -/
theorem C63_twice (st : Server) {c c' : Call} {rq : RevocationRequest} (hc : AsksRevocation c rq)
    (hc' : AsksRevocation c' rq) {res : Response} (ha : (step ⟨false, st⟩ c).1 = .answered res)
    (h200 : res.statusCode = 200) :
    step (step ⟨false, st⟩ c).2 c' = step ⟨false, st⟩ c := by
  obtain ⟨hid, hhint, t, ht, _, _, h1⟩ := revoked_cases hc ha h200
  rw [h1]
  have hid' : Identified { st with
        accessTokens := st.accessTokens.del t.signatureString,
        refreshTokens := st.refreshTokens.del t.signatureString } rq.clientID rq.clientSecret := hid
  have h2 := revoke_reply hc' hhint hid' (t := t) ht
  have h3 : ∀ m : GoMap ServerCredential,
      Server.foreign (m.del t.signatureString) t.signatureString rq.clientID = false := by
    intro m
    unfold Server.foreign
    rw [GoMap.get?_del, if_pos rfl]
  simp only [h3, Bool.false_eq_true, if_false] at h2
  obtain ⟨_, _, t', ht', _, _, h4⟩ := revoked_cases (res := { statusCode := 200 }) hc' h2 rfl
  simp only at ht'
  rw [ht] at ht'
  cases ht'
  rw [h4]
  simp only [del_del]

/-- **C63.** A revocation succeeds exactly if the hint is one of the two or missing, the client
identifies itself, the token is genuine, and no token in force that is presented by this text belongs
to another client. Whether it is in force at all makes no difference. -/
theorem C63_succeeds_iff (h0 : Started s₀) (hh : History s₀ h s) {rq : RevocationRequest}
    (hc : AsksRevocation c rq) :
    (step s c).1 = .answered { statusCode := 200 } ↔
      rq.tokenTypeHint ∈ [[], b!"access_token", b!"refresh_token"] ∧
      Identified s.st rq.clientID rq.clientSecret ∧
      (∃ t, HS256Token.parse s₀.config.secret rq.token = .ok t) ∧
      ∀ k t g, SameToken s₀.config rq.token t → InForce s₀.config h k t g →
        g.client = rq.clientID := by
  obtain ⟨st, rfl, ex⟩ := history_state h0 hh
  constructor
  · intro ha
    obtain ⟨hid, hhint, t, ht, hac, hrc, _⟩ := revoked_cases hc ha rfl
    rw [ex.config] at ht
    refine ⟨hhint, hid, ⟨t, ht⟩, ?_⟩
    rintro k t' g ⟨t'', h1, h2⟩ hi
    rw [ht] at h1
    cases h1
    cases k with
    | access => exact hac _ ((ex.access _ _).mpr ⟨t', g, h2.symm, hi, rfl⟩)
    | refresh => exact hrc _ ((ex.refresh _ _).mpr ⟨t', g, h2.symm, hi, rfl⟩)
  · rintro ⟨hhint, hid, ⟨t, ht⟩, ho⟩
    have ht' := ht
    rw [← ex.config] at ht
    rw [revoke_reply hc hhint hid ht,
      not_foreign ex.access (fun x g' h1 => ho .access x g' ⟨t, ht', h1.symm⟩),
      not_foreign ex.refresh (fun x g' h1 => ho .refresh x g' ⟨t, ht', h1.symm⟩)]
    rfl

/-- Non-vacuity: `c1` revokes its access token in the sixth event of the session; again; and a genuine
token that never was in force. -/
example : (∃ rq, AsksRevocation Demo.c6 rq) ∧
    (step ⟨false, Demo.s5⟩ Demo.c6).1 = .answered { statusCode := 200 } ∧
    step ⟨false, Demo.s6⟩ Demo.c6 = step ⟨false, Demo.s5⟩ Demo.c6 ∧
    (step ⟨false, Demo.s5⟩ (Demo.post b!"/oauth2/revoke" b!"c1:s1" (b!"token=" ++
      (HS256Token.fromKey Demo.server.config.secret [9, 9, 9]).string) [] 1050)).1 =
      .answered { statusCode := 200 } := by
  refine ⟨⟨{ token := Demo.a1.string, clientID := b!"c1", clientSecret := b!"s1" }, by decide +kernel⟩,
    by decide +kernel, by decide +kernel, by decide +kernel⟩

end OAuth2

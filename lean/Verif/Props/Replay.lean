import Verif.Props.Effects
import Verif.Props.Rights

/-!
C57: exactly what replaying a code takes away, and who can take a token away.
-/

namespace OAuth2

open Spec

variable {s₀ : Server} {s : Shared Server} {h : List Event} {c : Call}

theorem token_not_revocation {e : Event} {rq : TokenRequest} {rq' : RevocationRequest}
    {res res' : Response} (h : TokenCall e rq res) (h' : RevocationCall e rq' res') : False := by
  obtain ⟨r, h1, h2, -⟩ := h
  obtain ⟨r', h1', h2', -⟩ := h'
  rw [h1] at h1'; cases h1'
  rw [lastSegment_iff] at h2 h2'
  rw [h2] at h2'
  exact absurd h2' (by decide)

/-- **C57.** After a replay of a code, exactly those tokens are in force that were before and were
not issued in exchange for this code. -/
theorem C57_replay_exact (h0 : Started s₀) {e : Event} (hh : History s₀ (e :: h) s) {sig : Str}
    (hr : Replays s₀.config e sig) (k : Kind) (t : HS256Token) (g : Grant) :
    InForce s₀.config (e :: h) k t g ↔ InForce s₀.config h k t g ∧ g.origin ≠ sig := by
  obtain ⟨st, _, _, _, hseen⟩ := history_seen (new := []) h0 hh
  have hnone := replay_hands_nothing hseen hr
  obtain ⟨rq, res, x, hc, hgt, hx, hsig, _, _⟩ := id hr
  have hne : sig ≠ [] := by rw [← hsig]; exact parsed_signature_ne_nil hx
  rw [inForce_cons]
  constructor
  · rintro (hi | ⟨hi, he⟩)
    · exact (hnone k t hi.hands).elim
    · refine ⟨hi, fun ho => he (.inr (.inr (.inl ⟨by rw [ho]; exact hne, ?_⟩)))⟩
      rw [ho]
      exact hr
  · rintro ⟨hi, ho⟩
    refine .inr ⟨hi, ?_⟩
    rintro (⟨t', ht, _⟩ | ⟨rq', res', hv, _⟩ | ⟨_, rq', res', x', hc', _, hx', hs', _⟩ |
      ⟨_, rq', res', a, hc', hgt', _⟩ | ⟨_, rq', res', hv, _⟩)
    · exact hnone k t' ht
    · exact token_not_revocation hc hv
    · obtain ⟨rfl, _⟩ := tokenCall_unique hc hc'
      rw [hx] at hx'
      cases hx'
      exact ho (hs'.symm.trans hsig)
    · obtain ⟨rfl, _⟩ := tokenCall_unique hc hc'
      rw [hgt] at hgt'
      exact absurd hgt' (by decide)
    · exact token_not_revocation hc hv

/-- **C57.** Whatever was obtained with a refresh token stays in force when a code is replayed, also
the code that the refresh token came from. -/
theorem C57_refreshed_survives (h0 : Started s₀) {new old : List Event} {e e' : Event}
    (hh : History s₀ (e' :: (new ++ e :: old)) s) {rq : TokenRequest} {res : Response}
    (hc : TokenCall e rq res) (hgt : rq.grantType = b!"refresh_token") {k : Kind} {t : HS256Token}
    (ht : Hands e k t)
    (hn : ∀ z ∈ new, ∀ t', Hands z k t' → t'.signatureString ≠ t.signatureString) {sig : Str}
    (hr : Replays s₀.config e' sig) {t' : HS256Token} {g : Grant}
    (hs : t'.signatureString = t.signatureString)
    (hi : InForce s₀.config (new ++ e :: old) k t' g) :
    InForce s₀.config (e' :: (new ++ e :: old)) k t' g := by
  rw [C57_replay_exact h0 hh hr]
  refine ⟨hi, ?_⟩
  obtain ⟨rq', res', x, _, _, hx, hsig, _⟩ := hr
  have hne : sig ≠ [] := by rw [← hsig]; exact parsed_signature_ne_nil hx
  have h1 := inForce_since ht hn hs hi
  rw [issued_token hc, hgt] at h1
  obtain ⟨_, ⟨hh, _⟩ | ⟨hh, _⟩ | ⟨hh, _⟩ | ⟨_, _, _, _, _, _, rfl⟩⟩ := h1
  · exact absurd hh (by decide)
  · exact absurd hh (by decide)
  · exact absurd hh (by decide)
  · exact fun h => hne h.symm

/-- Non-vacuity: the third event of the session redeems a code, the fourth uses the refresh token,
and the fifth replays the code. -/
example : (∃ rq res, TokenCall Demo.e4 rq res ∧ rq.grantType = b!"refresh_token") ∧
    Hands Demo.e4 .access Demo.a4 ∧ Replays Demo.server.config Demo.e5 Demo.x2.signatureString := by
  refine ⟨⟨_, _, ⟨_, rfl, by decide +kernel, rfl, rfl⟩, by decide +kernel⟩, by decide +kernel,
    by decide +kernel⟩

/-- Only an identified client can replay a code. -/
theorem replay_identified {st : Server} {sig : Str}
    (hr : Replays st.config ⟨c, (step ⟨false, st⟩ c).1⟩ sig) :
    ∃ rq x, AsksToken c rq ∧ rq.grantType = b!"authorization_code" ∧
      HS256Token.parse st.config.secret rq.code = .ok x ∧ x.signatureString = sig ∧
      Identified st rq.clientID rq.clientSecret := by
  obtain ⟨rq, res, x, hc, hgt, hx, hsig, herr, _⟩ := hr
  have ha := tokenCall_asks hc
  refine ⟨rq, x, ha, hgt, hx, hsig, ?_⟩
  obtain ⟨r, h1, h2, h3, h4⟩ := step_token (s := st) ha
  obtain ⟨r', h1', _, _, hans⟩ := hc
  simp only at hans
  rw [h4] at hans
  unfold Server.tokenReply at hans
  rw [h3] at hans
  simp only at hans
  have hk : knownGrantType rq.grantType = true := by rw [hgt]; decide
  rw [hk] at hans
  simp only [Bool.not_true, Bool.false_eq_true, if_false] at hans
  have hinv : ∀ d, (Reply.error (invalidClient d)).answer = .answered res → False := by
    intro d hans
    obtain ⟨_, rfl⟩ := answer_eq hans
    have := ((error_jsonMember (e := invalidClient d) rfl _).1.mp herr)
    exact absurd this (by
      show b!"invalid_grant" ≠ sanitize b!"invalid_client"
      decide +kernel)
  cases hcl : st.clients.get? rq.clientID with
  | none =>
    rw [hcl] at hans
    exact (hinv _ hans).elim
  | some client =>
    rw [hcl] at hans
    simp only at hans
    cases hw : Server.wrongSecret client rq.clientSecret with
    | true =>
      rw [hw] at hans
      exact (hinv _ hans).elim
    | false => exact (Server.wrongSecret_iff hcl).mp hw

/-- **C57.** Who can take a token away: if a token is in force before a call and not after it, then
the call handed out another token of this kind with the same signature; or it was a revocation
request for this token by the client it belongs to; or the token is a refresh token and was used
up by the client it belongs to; or the token was issued for a code and an identified client
presented this code again. -/
theorem C57_who_ends (h0 : Started s₀) (hh : History s₀ h s) {k : Kind} {t : HS256Token} {g : Grant}
    (hi : InForce s₀.config h k t g) (hn : ¬ InForce s₀.config (⟨c, (step s c).1⟩ :: h) k t g) :
    (∃ t', Hands ⟨c, (step s c).1⟩ k t' ∧ t'.signatureString = t.signatureString) ∨
    (∃ rq, AsksRevocation c rq ∧ SameToken s₀.config rq.token t ∧ rq.clientID = g.client ∧
      Identified s.st rq.clientID rq.clientSecret) ∨
    (∃ rq, k = .refresh ∧ AsksToken c rq ∧ rq.grantType = b!"refresh_token" ∧
      SameToken s₀.config rq.refreshToken t ∧ rq.clientID = g.client ∧
      Identified s.st rq.clientID rq.clientSecret) ∨
    (∃ rq x, AsksToken c rq ∧ rq.grantType = b!"authorization_code" ∧
      HS256Token.parse s₀.config.secret rq.code = .ok x ∧ x.signatureString = g.origin ∧
      g.origin ≠ [] ∧ Identified s.st rq.clientID rq.clientSecret) := by
  have hend : Ends s₀.config ⟨c, (step s c).1⟩ k t g := by
    apply Classical.byContradiction
    intro he
    exact hn (inForce_cons.mpr (.inr ⟨hi, he⟩))
  have hrev : ∀ rq res, RevocationCall ⟨c, (step s c).1⟩ rq res →
      ∃ rq, AsksRevocation c rq ∧ SameToken s₀.config rq.token t ∧ rq.clientID = g.client ∧
        Identified s.st rq.clientID rq.clientSecret := by
    rintro rq res ⟨r, h1, h2, h3, _⟩
    have ha : AsksRevocation c rq := ⟨r, h1, h2, h3⟩
    obtain ⟨h4, h5, h6⟩ := C30_only_own h0 hh ha hi hn
    exact ⟨rq, ha, h4, h5.symm, h6⟩
  rcases hend with h1 | ⟨rq, res, hv, _⟩ | ⟨hne, hr⟩ | ⟨rfl, hu⟩ | ⟨_, rq, res, hv, _⟩
  · exact .inl h1
  · exact .inr (.inl (hrev _ _ hv))
  · obtain ⟨st, rfl, ex⟩ := history_state h0 hh
    rw [← ex.config] at hr
    obtain ⟨rq, x, h1, h2, h3, h4, h5⟩ := replay_identified hr
    rw [ex.config] at h3
    exact .inr (.inr (.inr ⟨rq, x, h1, h2, h3, h4, hne, h5⟩))
  · obtain ⟨st, rfl, ex⟩ := history_state h0 hh
    have hseen := seen ex c
    obtain ⟨rq, res, a, hc, hgt, hsame, hm⟩ := id hu
    have hno : ∀ {rq'} {res'}, TokenCall ⟨c, (step ⟨false, st⟩ c).1⟩ rq' res' →
        rq'.grantType ≠ b!"refresh_token" → False := by
      intro rq' res' hc' hne
      obtain ⟨rfl, _⟩ := tokenCall_unique hc hc'
      exact hne hgt
    cases hseen with
    | quiet q => rw [q.usesUp] at hu; cases hu
    | revoke sig o => rw [o.usesUp] at hu; cases hu
    | implicit r' rq' res' a' hop hf hm ht hs hu' hcall o => exact (not_both hc hcall).elim
    | code r' rq' res' x hop hf hm ht hs hu' hcall o => exact (not_both hc hcall).elim
    | password r' rq' res' a' b' hop hf ht hs hu' hcall o hrep =>
      exact (hno hcall (by rw [ht]; decide)).elim
    | client r' rq' res' a' b' hop hf ht hcl hs hcall o hrep =>
      exact (hno hcall (by rw [ht]; decide)).elim
    | exchange r' rq' res' a' b' y g' hop hf ht hy hsame' hx ho hr hcall o hrep =>
      exact (hno hcall (by rw [ht]; decide)).elim
    | refresh r' rq' res' a' b' y g' hop hf ht hy hsame' hx ho hs hcall o hrep =>
      obtain ⟨rfl, _⟩ := tokenCall_unique hc hcall
      obtain ⟨x, h1, h2⟩ := hsame
      obtain ⟨x', h1', h2'⟩ := hsame'
      rw [h1] at h1'
      cases h1'
      have := token_unique ex hy hi (h2'.symm.trans h2)
      subst this
      exact .inr (.inr (.inl ⟨_, rfl, tokenCall_asks hc, hgt, ⟨x, h1, h2⟩, ho.symm, hf.client⟩))
  · exact .inr (.inl (hrev _ _ hv))

/-- Non-vacuity: the replay in the session takes the access token of the exchange away. -/
example : ∃ t g, t.signatureString = Demo.a3.signatureString ∧
    InForce Demo.server.config [Demo.e4, Demo.e3, Demo.e2, Demo.e1] .access t g ∧
    ¬ InForce Demo.server.config [Demo.e5, Demo.e4, Demo.e3, Demo.e2, Demo.e1] .access t g := by
  obtain ⟨_, ex⟩ := history_exact Demo.started Demo.history4
  obtain ⟨t, g, h1, h2, h3⟩ := (ex.access Demo.a3.signatureString _).mp
    (by rfl : Demo.s4.accessTokens.get? Demo.a3.signatureString = some _)
  refine ⟨t, g, h1, h2, ?_⟩
  rw [C57_replay_exact Demo.started Demo.history5
    (by decide +kernel : Replays Demo.server.config Demo.e5 Demo.x2.signatureString)]
  rintro ⟨_, h4⟩
  apply h4
  have : g.cred.code = Demo.x2.signatureString := by
    rw [← h3]
    decide +kernel
  exact this

end OAuth2

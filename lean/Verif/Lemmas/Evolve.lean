import Verif.Spec.Store
import Verif.Lemmas.Seen

/-! What a call makes of the maps of a server in any state. -/

namespace OAuth2

open Spec

variable {s : Server} {c : Call} {r : Request}

/-- What a call makes of the maps, by what is observed. -/
inductive Evolves (s : Server) (e : Event) : Server → Prop
  | same {s'} (q : Quiet s.config e)
      (hrep : ∀ sig x, Replays s.config e sig → s.authorizationCodes.get? sig ≠ some x)
      (hhalf : ∀ t client x, HalfRevokes s.config e t client →
        s.accessTokens.get? t.signatureString = some x → x.clientID ≠ client)
      (ha : s'.accessTokens = s.accessTokens) (hr : s'.refreshTokens = s.refreshTokens)
      (hc : s'.authorizationCodes = s.authorizationCodes) : Evolves s e s'
  | code {s'} {rq : AuthorizationRequest} {u : Str} {res : Response} {x : HS256Token}
      (hcall : AuthorizationCall e rq u res)
      (o : Obs s.config e none none (some x) none none none)
      (hrep : ∀ sig, ¬ Replays s.config e sig)
      (hhalf : ∀ t client, ¬ HalfRevokes s.config e t client)
      (ha : s'.accessTokens = s.accessTokens) (hr : s'.refreshTokens = s.refreshTokens)
      (hc : s'.authorizationCodes = s.authorizationCodes.set x.signatureString {
          clientID := rq.clientID, username := u, scope := rq.scope,
          expiresAt := e.call.clock 0 + s.config.authorizationCodeLifespan,
          redirectURI := rq.redirectURI }) : Evolves s e s'
  | grant {s'} {a : HS256Token} {b : Option HS256Token} {red use : Option Str}
      {cred : Kind → ServerCredential}
      (o : Obs s.config e (some a) b none red use none)
      (hred : ∀ sig, red = some sig → ∃ t : HS256Token, t.signatureString = sig)
      (huse : ∀ sig, use = some sig → ∃ t : HS256Token, t.signatureString = sig)
      (hrec : ∀ k x, Records s e k x ↔ x = cred k)
      (hrep : ∀ sig, ¬ Replays s.config e sig)
      (hhalf : ∀ t client, ¬ HalfRevokes s.config e t client)
      (ha : s'.accessTokens = s.accessTokens.set a.signatureString (cred .access))
      (hr : ∀ sig, s'.refreshTokens.get? sig = if use = some sig then none else
        if b.map (·.signatureString) = some sig then some (cred .refresh)
        else s.refreshTokens.get? sig)
      (hc : ∀ sig, s'.authorizationCodes.get? sig = if red = some sig then
        (s.authorizationCodes.get? sig).map fun x => { x with used := true }
        else s.authorizationCodes.get? sig) : Evolves s e s'
  | replay {s'} {sig : Str} {x : ServerCredential} (q : Quiet s.config e)
      (hrep : ∀ sig', Replays s.config e sig' ↔ sig' = sig)
      (hx : s.authorizationCodes.get? sig = some x)
      (hhalf : ∀ t client, ¬ HalfRevokes s.config e t client)
      (ha : s'.accessTokens = Server.deleteByCode s.accessTokens sig)
      (hr : s'.refreshTokens = Server.deleteByCode s.refreshTokens sig)
      (hc : s'.authorizationCodes = s.authorizationCodes) : Evolves s e s'
  | revoke {s'} {sig : Str} (o : Obs s.config e none none none none none (some sig))
      (hsig : ∃ t : HS256Token, t.signatureString = sig)
      (hrep : ∀ sig, ¬ Replays s.config e sig)
      (hhalf : ∀ t client, ¬ HalfRevokes s.config e t client)
      (ha : s'.accessTokens = s.accessTokens.del sig)
      (hr : s'.refreshTokens = s.refreshTokens.del sig)
      (hc : s'.authorizationCodes = s.authorizationCodes) : Evolves s e s'
  | half {s'} {sig client : Str} {x : ServerCredential} (q : Quiet s.config e)
      (hrep : ∀ sig, ¬ Replays s.config e sig)
      (hhalf : ∀ t cl, HalfRevokes s.config e t cl ↔ t.signatureString = sig ∧ cl = client)
      (hsig : ∃ t : HS256Token, t.signatureString = sig)
      (hx : s.accessTokens.get? sig = some x) (ho : x.clientID = client)
      (ha : s'.accessTokens = s.accessTokens.del sig)
      (hr : s'.refreshTokens = s.refreshTokens)
      (hc : s'.authorizationCodes = s.authorizationCodes) : Evolves s e s'

theorem evolves_silent {e : Event} {s' : Server} (hsil : Silent e)
    (ha : s'.accessTokens = s.accessTokens) (hr : s'.refreshTokens = s.refreshTokens)
    (hc : s'.authorizationCodes = s.authorizationCodes) : Evolves s e s' :=
  .same hsil.quiet (fun _ _ hh => (hsil.no_replay _ hh).elim)
    (fun _ _ _ hh => (hsil.no_half _ _ hh).elim) ha hr hc

theorem records_token {e : Event} {k : Kind} {x : ServerCredential} {rq : TokenRequest}
    {res : Response} (hc : TokenCall e rq res) : Records s e k x ↔
      (rq.grantType = b!"password" ∧ x = {
          clientID := rq.clientID, username := rq.username, scope := rq.scope,
          expiresAt := expiry s.config e 0 k }) ∨
      (rq.grantType = b!"client_credentials" ∧ x = {
          clientID := rq.clientID, username := [], scope := rq.scope,
          expiresAt := expiry s.config e 0 k }) ∨
      (rq.grantType = b!"authorization_code" ∧ ∃ t code,
          HS256Token.parse s.config.secret rq.code = .ok t ∧
          s.authorizationCodes.get? t.signatureString = some code ∧ x = {
            clientID := code.clientID, username := code.username, scope := code.scope,
            expiresAt := expiry s.config e 1 k, code := t.signatureString }) ∨
      (rq.grantType = b!"refresh_token" ∧ ∃ t old,
          HS256Token.parse s.config.secret rq.refreshToken = .ok t ∧
          s.refreshTokens.get? t.signatureString = some old ∧ x = {
            clientID := old.clientID, username := old.username,
            scope := if rq.scope.empty then old.scope else rq.scope,
            expiresAt := expiry s.config e 1 k }) := by
  constructor
  · intro hr
    cases hr with
    | implicit h1 h2 => exact (not_both hc h1).elim
    | password h1 h2 =>
      obtain ⟨rfl, _⟩ := tokenCall_unique hc h1
      exact .inl ⟨h2, rfl⟩
    | client h1 h2 =>
      obtain ⟨rfl, _⟩ := tokenCall_unique hc h1
      exact .inr (.inl ⟨h2, rfl⟩)
    | exchange h1 h2 h3 h4 =>
      obtain ⟨rfl, _⟩ := tokenCall_unique hc h1
      exact .inr (.inr (.inl ⟨h2, _, _, h3, h4, rfl⟩))
    | refresh h1 h2 h3 h4 =>
      obtain ⟨rfl, _⟩ := tokenCall_unique hc h1
      exact .inr (.inr (.inr ⟨h2, _, _, h3, h4, rfl⟩))
  · rintro (⟨h2, rfl⟩ | ⟨h2, rfl⟩ | ⟨h2, t, code, h3, h4, rfl⟩ | ⟨h2, t, old, h3, h4, rfl⟩)
    · exact .password hc h2
    · exact .client hc h2
    · exact .exchange hc h2 h3 h4
    · exact .refresh hc h2 h3 h4

/-- Serving a request. -/
theorem evolves_serve (hop : c.op = .serve r) :
    Evolves s ⟨c, (s.handle r c.local).1.answer⟩ (s.handle r c.local).2 := by
  have hserved := Server.served s r c.local
  generalize (s.handle r c.local).1 = reply at hserved ⊢
  generalize (s.handle r c.local).2 = s' at hserved ⊢
  cases hserved with
  | notFound h1 h2 h3 h4 => exact evolves_silent (silent_of_path hop h1 h2 h4) rfl rfl rfl
  | refused e hs hr hp hh hcode hrev =>
    have hres := error_result hr
    have hbody : ((Reply.error e).render {}).result.body = e.json ++ [0x0A] := by rw [hres]
    refine .same (quiet_refused hop hs hr hh) ?_ ?_ rfl rfl rfl
    · rintro sig x ⟨rq, res, c', h1, h2, h3, rfl, h4, h5⟩ hx
      obtain ⟨hp, hpq, hx'⟩ := (tokenCall_iff hop).mp h1
      obtain ⟨_, rfl⟩ : True ∧ ((Reply.error e).render {}).result = res := ⟨trivial, by cases hx'; rfl⟩
      have := hcode hp (error_description hbody (by decide) h5) rq c' hpq h2 h3
      rw [this] at hx
      cases hx
    · rintro t client cred ⟨rq, res, h1, ⟨t', h2, h3⟩, rfl, h4⟩ hx
      obtain ⟨hp, hpq, hx'⟩ := (revocationCall_iff hop).mp h1
      obtain ⟨_, rfl⟩ : True ∧ ((Reply.error e).render {}).result = res := ⟨trivial, by cases hx'; rfl⟩
      rw [← h3] at hx
      exact hrev hp (error_description hbody (by decide) h4) rq t' hpq h2 cred hx
  | crash hs hp => exact evolves_silent (silent_of_answer (by intro res hh; cases hh)) rfl rfl rfl
  | notice rq hf hm =>
    refine .same (quiet_authorize hop hf.path ?_)
      (fun _ _ hh => (no_replay_path hop (by rw [hf.path]; decide) _ hh).elim)
      (fun _ _ _ hh => (no_half_path hop (by rw [hf.path]; decide) _ _ hh).elim) rfl rfl rfl
    rw [notice_result]
    rfl
  | introspect rq hp hq hc t ht ha hr i hi =>
    exact evolves_silent (silent_of_path hop (by rw [hp]; decide) (by rw [hp]; decide)
      (by rw [hp]; decide)) rfl rfl rfl
  | refusedRedirect rq hf hm e he =>
    refine .same (quiet_redirect_error hop hf.path hm hf.parsed ?_ ?_)
      (fun _ _ hh => (no_replay_path hop (by rw [hf.path]; decide) _ hh).elim)
      (fun _ _ _ hh => (no_half_path hop (by rw [hf.path]; decide) _ _ hh).elim) rfl rfl rfl
    · rcases he with rfl | rfl <;> rfl
    · rcases he with rfl | rfl <;> decide
  | implicit rq hf hm ht hs hu a hg =>
    obtain ⟨o, res, hcall⟩ := implicit_obs (cfg := s.config) (a := a) s.config hop hf hm ht
    refine .grant (cred := fun k => {
          clientID := rq.clientID, username := Server.formUser r, scope := rq.scope,
          expiresAt := expiry s.config ⟨c, .admitted⟩ 0 k }) o (fun _ h => nomatch h)
      (fun _ h => nomatch h) ?_ ?_ ?_ rfl ?_ ?_
    · intro k x
      constructor
      · intro hr
        cases hr with
        | implicit h1 h2 =>
          obtain ⟨rfl, rfl, _⟩ := authorizationCall_unique hcall h1
          rfl
        | password h1 => exact (not_both h1 hcall).elim
        | client h1 => exact (not_both h1 hcall).elim
        | exchange h1 => exact (not_both h1 hcall).elim
        | refresh h1 => exact (not_both h1 hcall).elim
      · rintro rfl
        exact .implicit hcall ht
    · exact fun sig => no_replay_path hop (by rw [hf.path]; decide) sig
    · exact fun t cl => no_half_path hop (by rw [hf.path]; decide) t cl
    · exact fun sig => by simp [Server.grant]
    · exact fun sig => by simp [Server.grant]
  | code rq hf hm ht hs hu x rest hg =>
    obtain ⟨o, res, hcall⟩ := code_obs (cfg := s.config) (x := x) hop hf hm ht
    exact .code hcall o (fun sig => no_replay_path hop (by rw [hf.path]; decide) sig)
      (fun t cl => no_half_path hop (by rw [hf.path]; decide) t cl) rfl rfl rfl
  | password rq hf ht hs hu a b hg =>
    obtain ⟨o, ⟨res, hcall⟩, hrep, hhalf⟩ := exact_token (cfg := s.config) (scope := rq.scope) hop hf
      (a := a) (b := b) (red := none) (use := none) (by rw [ht]; simp [PasswordGrantType])
      (by rw [ht]; simp [PasswordGrantType])
    refine .grant (cred := fun k => {
          clientID := rq.clientID, username := rq.username, scope := rq.scope,
          expiresAt := expiry s.config ⟨c, .admitted⟩ 0 k }) o (fun _ h => nomatch h)
      (fun _ h => nomatch h) ?_ hrep hhalf rfl ?_ ?_
    · intro k x
      rw [records_token hcall, ht]
      simp [PasswordGrantType]
      exact Iff.rfl
    · intro sig
      show (GoMap.set _ _ _).get? _ = _
      rw [GoMap.get?_set]
      simp [eq_comm]
      rfl
    · exact fun sig => by simp [Server.grant]
  | client rq hf ht hc hs a b hg =>
    obtain ⟨o, ⟨res, hcall⟩, hrep, hhalf⟩ := exact_token (cfg := s.config) (scope := rq.scope) hop hf
      (a := a) (b := b) (red := none) (use := none) (by rw [ht]; simp [ClientCredentialsGrantType])
      (by rw [ht]; simp [ClientCredentialsGrantType])
    refine .grant (cred := fun k => {
          clientID := rq.clientID, username := [], scope := rq.scope,
          expiresAt := expiry s.config ⟨c, .admitted⟩ 0 k }) o (fun _ h => nomatch h)
      (fun _ h => nomatch h) ?_ hrep hhalf rfl ?_ ?_
    · intro k x
      rw [records_token hcall, ht]
      simp [ClientCredentialsGrantType]
      exact Iff.rfl
    · intro sig
      show (GoMap.set _ _ _).get? _ = _
      rw [GoMap.get?_set]
      simp [eq_comm]
      rfl
    · exact fun sig => by simp [Server.grant]
  | replay rq hf ht x hc stored hst hu =>
    have hres : (Reply.error (invalidGrant b!"unknown authorization code")).answer =
        .answered ((Reply.error (invalidGrant b!"unknown authorization code")).render {}).result := rfl
    have hbody : ((Reply.error (invalidGrant b!"unknown authorization code")).render {}).result.body =
        (invalidGrant b!"unknown authorization code").json ++ [0x0A] := rfl
    refine .replay (sig := x.signatureString) (quiet_token_error hop hf.path hbody) ?_ hst
      (fun t cl => no_half_path hop (by rw [hf.path]; decide) t cl) rfl rfl rfl
    intro sig
    constructor
    · rintro ⟨rq', res, c', h1, h2, h3, rfl, _, _⟩
      obtain ⟨_, hpq, _⟩ := (tokenCall_iff hop).mp h1
      rw [hf.parsed] at hpq
      cases hpq
      rw [hc] at h3
      cases h3
      rfl
    · rintro rfl
      refine ⟨rq, _, x, (tokenCall_iff hop).mpr ⟨hf.path, hf.parsed, hres⟩, ht, hc, rfl, ?_, ?_⟩
      · rw [(error_jsonMember hbody _).1]
        exact (sanitize_ascii (by decide)).symm
      · rw [(error_jsonMember hbody _).2.1]
        exact ⟨by decide, sanitize_unknown.symm⟩
  | exchange rq hf ht x hc stored hst hu hx ho hr a b hg =>
    obtain ⟨o, ⟨res, hcall⟩, hrep, hhalf⟩ := exact_token (cfg := s.config) (scope := stored.scope) hop hf
      (a := a) (b := b) (red := some x.signatureString) (use := none)
      (by intro sig; rw [ht, hc]; simp [AuthorizationCodeGrantType])
      (by rw [ht]; simp [AuthorizationCodeGrantType])
    refine .grant (cred := fun k => {
          clientID := rq.clientID, username := stored.username, scope := stored.scope,
          expiresAt := expiry s.config ⟨c, .admitted⟩ 1 k, code := x.signatureString }) o
      (fun _ h => ⟨x, Option.some.inj h⟩) (fun _ h => nomatch h) ?_ hrep hhalf rfl ?_ ?_
    · intro k y
      rw [records_token hcall, ht, hc]
      simp [AuthorizationCodeGrantType, hst, ho]
      exact Iff.rfl
    · intro sig
      show (GoMap.set _ _ _).get? _ = _
      rw [GoMap.get?_set]
      simp [eq_comm]
      rfl
    · intro sig
      simp only [GoMap.get?_update, Option.some.injEq, eq_comm]
  | refresh rq hf ht x hc stored hst hx ho scope hsc hs a b hg =>
    obtain ⟨o, ⟨res, hcall⟩, hrep, hhalf⟩ := exact_token (cfg := s.config) (scope := scope) hop hf
      (a := a) (b := b) (red := none) (use := some x.signatureString)
      (by rw [ht]; simp [RefreshTokenGrantType])
      (by intro sig; rw [ht, hc]; simp [RefreshTokenGrantType])
    refine .grant (cred := fun k => {
          clientID := rq.clientID, username := stored.username, scope := scope,
          expiresAt := expiry s.config ⟨c, .admitted⟩ 1 k }) o
      (fun _ h => nomatch h) (fun _ h => ⟨x, Option.some.inj h⟩) ?_ hrep hhalf rfl ?_ ?_
    · intro k y
      rw [records_token hcall, ht, hc]
      simp [RefreshTokenGrantType, hst, ho, hsc]
      exact Iff.rfl
    · intro sig
      show (GoMap.del (GoMap.set _ _ _) _).get? _ = _
      rw [GoMap.get?_del, GoMap.get?_set]
      simp [eq_comm]
      rfl
    · exact fun sig => by simp [Server.grant]
  | revoke rq hp hq hc t ht ha hr =>
    refine .revoke (sig := t.signatureString) ?_ ⟨t, rfl⟩ (fun sig => no_replay_path hop (by rw [hp]; decide) sig)
      ?_ rfl rfl rfl
    · show Obs s.config ⟨c, .answered (Reply.revoked.render {}).result⟩ none none none none none _
      apply obs_revoke hop hp
      intro sig
      rw [revoked_result, hq]
      constructor
      · rintro ⟨rq', t', h1, h2, rfl, _⟩
        cases h1
        rw [ht] at h2
        cases h2
        rfl
      · intro hs
        cases hs
        exact ⟨rq, t, rfl, ht, rfl, rfl⟩
    · rintro t cl ⟨rq', res, h1, _, _, h4⟩
      obtain ⟨_, _, hx⟩ := (revocationCall_iff hop).mp h1
      cases hx
      exact no_jsonMember rfl _ _ h4
  | revokeHalf rq hp hq hc t ht ca ha hao cr hr hro =>
    have hbody : ((Reply.error (invalidClient b!"wrong client")).render {}).result.body =
        (invalidClient b!"wrong client").json ++ [0x0A] := rfl
    refine .half (sig := t.signatureString) (client := rq.clientID)
      (quiet_revoke hop hp (by decide +kernel))
      (fun sig => no_replay_path hop (by rw [hp]; decide) sig) ?_ ⟨t, rfl⟩ ha hao rfl rfl rfl
    intro t' cl
    constructor
    · rintro ⟨rq', res, h1, ⟨x, h2, h3⟩, rfl, _⟩
      obtain ⟨_, hpq, _⟩ := (revocationCall_iff hop).mp h1
      rw [hq] at hpq
      cases hpq
      rw [ht] at h2
      cases h2
      exact ⟨h3.symm, rfl⟩
    · rintro ⟨h1, rfl⟩
      refine ⟨rq, _, (revocationCall_iff hop).mpr ⟨hp, hq, rfl⟩, ⟨t, ht, h1.symm⟩, rfl, ?_⟩
      rw [(error_jsonMember hbody _).2.1]
      exact ⟨by decide, sanitize_wrong.symm⟩

/-- Any call. -/
theorem evolves (s : Server) (c : Call) :
    Evolves s ⟨c, (step ⟨false, s⟩ c).1⟩ (step ⟨false, s⟩ c).2.st := by
  cases hop : c.op with
  | serve r =>
    rw [step_serve hop]
    exact evolves_serve hop
  | authorize r required =>
    rw [step_authorize hop]
    exact evolves_silent (silent_of_answer (by intro res hh; split at hh <;> cases hh)) rfl rfl rfl
  | configure cl us =>
    rw [step_configure hop]
    exact evolves_silent (silent_of_answer (by intro res hh; cases hh)) rfl rfl rfl

end OAuth2

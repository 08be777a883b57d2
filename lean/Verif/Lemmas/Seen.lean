import Verif.Lemmas.Exactness

/-!
What an observer sees of a call, together with what the server checked before it answered so.
-/

namespace OAuth2

open Spec

set_option linter.unusedSimpArgs false

/-- An answer and the checks that led to it. `h` is the history before the event `e` and `s` the
server before it. -/
inductive Seen (cfg : ServerConfig) (h : List Event) (s : Server) (e : Event) : Prop
  | quiet (q : Quiet cfg e)
  | revoke (sig : Str) (o : Obs cfg e none none none none none (some sig))
  | implicit (r : Request) (rq : AuthorizationRequest) (res : Response) (a : HS256Token)
      (hop : e.call.op = .serve r) (hf : Server.AuthorizationFor s r rq) (hm : r.method ≠ b!"GET")
      (ht : rq.responseType = TokenResponseType)
      (hs : cfg.allowedScope.includes rq.scope = true)
      (hu : Password s (Server.formUser r) (Server.formPassword r))
      (hcall : AuthorizationCall e rq (Server.formUser r) res)
      (o : Obs cfg e (some a) none none none none none)
  | code (r : Request) (rq : AuthorizationRequest) (res : Response) (x : HS256Token)
      (hop : e.call.op = .serve r) (hf : Server.AuthorizationFor s r rq) (hm : r.method ≠ b!"GET")
      (ht : rq.responseType = CodeResponseType)
      (hs : cfg.allowedScope.includes rq.scope = true)
      (hu : Password s (Server.formUser r) (Server.formPassword r))
      (hcall : AuthorizationCall e rq (Server.formUser r) res)
      (o : Obs cfg e none none (some x) none none none)
  | password (r : Request) (rq : TokenRequest) (res : Response) (a b : HS256Token)
      (hop : e.call.op = .serve r) (hf : Server.TokenRequestFor s r rq)
      (ht : rq.grantType = PasswordGrantType)
      (hs : cfg.allowedScope.includes rq.scope = true)
      (hu : Password s rq.username rq.password)
      (hcall : TokenCall e rq res)
      (o : Obs cfg e (some a) (some b) none none none none) (hrep : ∀ sig, ¬ Replays cfg e sig)
  | client (r : Request) (rq : TokenRequest) (res : Response) (a b : HS256Token)
      (hop : e.call.op = .serve r) (hf : Server.TokenRequestFor s r rq)
      (ht : rq.grantType = ClientCredentialsGrantType)
      (hc : ∃ c, s.clients.get? rq.clientID = some c ∧ c.confidential = true)
      (hs : cfg.allowedScope.includes rq.scope = true)
      (hcall : TokenCall e rq res)
      (o : Obs cfg e (some a) (some b) none none none none) (hrep : ∀ sig, ¬ Replays cfg e sig)
  | exchange (r : Request) (rq : TokenRequest) (res : Response) (a b y : HS256Token) (g : CodeGrant)
      (hop : e.call.op = .serve r) (hf : Server.TokenRequestFor s r rq)
      (ht : rq.grantType = AuthorizationCodeGrantType)
      (hy : Code cfg h y g false) (hsame : SameToken cfg rq.code y)
      (hx : e.call.clock 0 ≤ g.expires) (ho : g.client = rq.clientID)
      (hr : g.redirectURI = rq.redirectURI)
      (hcall : TokenCall e rq res)
      (o : Obs cfg e (some a) (some b) none (some y.signatureString) none none)
      (hrep : ∀ sig, ¬ Replays cfg e sig)
  | refresh (r : Request) (rq : TokenRequest) (res : Response) (a b y : HS256Token) (g : Grant)
      (hop : e.call.op = .serve r) (hf : Server.TokenRequestFor s r rq)
      (ht : rq.grantType = RefreshTokenGrantType)
      (hy : InForce cfg h .refresh y g) (hsame : SameToken cfg rq.refreshToken y)
      (hx : e.call.clock 0 ≤ g.expires) (ho : g.client = rq.clientID)
      (hs : g.scope.includes (if rq.scope.empty then g.scope else rq.scope) = true)
      (hcall : TokenCall e rq res)
      (o : Obs cfg e (some a) (some b) none none (some y.signatureString) none)
      (hrep : ∀ sig, ¬ Replays cfg e sig)

variable {cfg : ServerConfig} {s : Server} {c : Call} {r : Request} {h : List Event}

theorem quiet_refused {e : Error} (hop : c.op = .serve r)
    (hs : 400 ≤ e.status ∧ e.status ≤ 403) (hr : e.redirectURI = [])
    (hh : e.headers = [] ∨ e.headers = [(b!"WWW-Authenticate", b!"Basic realm=\"OAuth2\"")]) :
    Quiet cfg ⟨c, (Reply.error e).answer⟩ := by
  have hans : (Reply.error e).answer = .answered ((Reply.error e).render {}).result := rfl
  have hres := error_result hr
  have hbody : ((Reply.error e).render {}).result.body = e.json ++ [0x0A] := by rw [hres]
  have hstat : ((Reply.error e).render {}).result.statusCode ≠ 200 := by
    rw [hres]
    show e.status.toNat ≠ 200
    omega
  have hloc : ((Reply.error e).render {}).result.header.all b!"Location" = [] := by
    rw [hres]
    exact (errorHeaders_location hh).2
  rw [hans]
  by_cases h1 : Server.lastSegment r.path = b!"authorize"
  · exact quiet_authorize hop h1 hloc
  by_cases h2 : Server.lastSegment r.path = b!"token"
  · exact quiet_token_error hop h2 hbody
  by_cases h3 : Server.lastSegment r.path = b!"revoke"
  · exact quiet_revoke hop h3 hstat
  exact (silent_of_path hop h1 h2 h3).quiet

theorem implicit_obs {rq : AuthorizationRequest} {a : HS256Token} (cfg' : ServerConfig)
    (hop : c.op = .serve r) (hf : Server.AuthorizationFor s r rq) (hm : r.method ≠ b!"GET")
    (ht : rq.responseType = TokenResponseType) :
    let e : Event := ⟨c, (Reply.token ((Server.grantResponse cfg' a none rq.scope).setRedirect
      rq.redirectURI rq.state)).answer⟩
    Obs cfg e (some a) none none none none none ∧
      ∃ res, AuthorizationCall e rq (Server.formUser r) res := by
  intro e
  obtain ⟨hne, u, huri⟩ := authorizationRequest_uri hf.parsed
  obtain ⟨tr, htr⟩ : ∃ tr, tr = (Server.grantResponse cfg' a none rq.scope).setRedirect
    rq.redirectURI rq.state := ⟨_, rfl⟩
  have he : e = ⟨c, (Reply.token tr).answer⟩ := by rw [htr]
  rw [he]
  have hta : tr.accessToken = a.string := by rw [htr]; rfl
  have htu : tr.redirectURI = rq.redirectURI := by rw [htr]; rfl
  obtain ⟨L, hL⟩ := redirectLocation_isSome huri tr.map true
  have hres : (Reply.token tr).answer = .answered (redirectTo {} rq.redirectURI tr.map true).result := by
    show Answer.answered ((if tr.redirectURI ≠ [] then _ else _ : Recorder)).result = _
    rw [if_pos (by rw [htu]; exact hne), htu]
  have hloc := (redirectTo_result (h := []) rfl hL).1
  constructor
  · rw [hres]
    apply obs_authorize hop hf.path hm hf.parsed
    · intro t
      rw [fragmentParameter_iff tr.map_nodup (by simp [TokenResponse.map]) hL hloc,
        tr.map_get?, hta]
      simp only [Option.some.injEq]
      exact ⟨fun h => string_injective h.2, fun h => ⟨ht, by rw [h]⟩⟩
    · intro t
      rw [ht]
      simp [TokenResponseType]
  · refine ⟨(redirectTo {} rq.redirectURI tr.map true).result, ?_⟩
    rw [authorizationCall_iff hop]
    exact ⟨hf.path, hm, hf.parsed, rfl, hres⟩

theorem code_obs {rq : AuthorizationRequest} {x : HS256Token}
    (hop : c.op = .serve r) (hf : Server.AuthorizationFor s r rq) (hm : r.method ≠ b!"GET")
    (ht : rq.responseType = CodeResponseType) :
    let e : Event := ⟨c, (Reply.code ⟨x.string, rq.state, rq.redirectURI⟩).answer⟩
    Obs cfg e none none (some x) none none none ∧
      ∃ res, AuthorizationCall e rq (Server.formUser r) res := by
  intro e
  obtain ⟨hne, u, huri⟩ := authorizationRequest_uri hf.parsed
  obtain ⟨cr, hcr⟩ : ∃ cr : CodeResponse, cr =
    ⟨x.string, rq.state, rq.redirectURI⟩ := ⟨_, rfl⟩
  have he : e = ⟨c, (Reply.code cr).answer⟩ := by rw [hcr]
  rw [he]
  have hta : cr.code = x.string := by rw [hcr]
  have htu : cr.redirectURI = rq.redirectURI := by rw [hcr]
  obtain ⟨L, hL⟩ := redirectLocation_isSome huri cr.map false
  have hres : (Reply.code cr).answer = .answered (redirectTo {} rq.redirectURI cr.map false).result := by
    show Answer.answered (redirectTo {} cr.redirectURI cr.map false).result = _
    rw [htu]
  have hloc := (redirectTo_result (h := []) rfl hL).1
  constructor
  · rw [hres]
    apply obs_authorize hop hf.path hm hf.parsed
    · intro t
      rw [ht]
      simp [CodeResponseType]
    · intro t
      rw [addedParameter_iff cr.map_nodup (by simp [CodeResponse.map]) hL hloc,
        cr.map_get?, hta]
      simp only [Option.some.injEq]
      exact ⟨fun h => string_injective h.2, fun h => ⟨ht, by rw [h]⟩⟩
  · refine ⟨(redirectTo {} rq.redirectURI cr.map false).result, ?_⟩
    rw [authorizationCall_iff hop]
    exact ⟨hf.path, hm, hf.parsed, rfl, hres⟩

theorem seen_serve (ex : Exact cfg h s) (hop : c.op = .serve r) :
    Seen cfg h s ⟨c, (s.handle r c.local).1.answer⟩ := by
  have hserved := Server.served s r c.local
  generalize (s.handle r c.local).1 = reply at hserved ⊢
  generalize (s.handle r c.local).2 = s' at hserved
  cases hserved with
  | notFound h1 h2 h3 h4 => exact .quiet (silent_of_path hop h1 h2 h4).quiet
  | refused e hs hr hp hh hcode hrev => exact .quiet (quiet_refused hop hs hr hh)
  | crash hs hp => exact .quiet (silent_of_answer (by intro res hh; cases hh)).quiet
  | notice rq hf hm =>
    refine .quiet (quiet_authorize hop hf.path ?_)
    rw [notice_result]
    rfl
  | introspect rq hp hq hc t ht ha hr i hi =>
    exact .quiet (silent_of_path hop (by rw [hp]; decide) (by rw [hp]; decide)
      (by rw [hp]; decide)).quiet
  | refusedRedirect rq hf hm e he =>
    refine .quiet (quiet_redirect_error hop hf.path hm hf.parsed ?_ ?_)
    · rcases he with rfl | rfl <;> rfl
    · rcases he with rfl | rfl <;> decide
  | replay rq hf ht x hc stored hst hu => exact .quiet (quiet_token_error hop hf.path rfl)
  | revokeHalf rq hp hq hc t ht ca ha hao cr hr hro =>
    exact .quiet (quiet_revoke hop hp (by decide +kernel))
  | revoke rq hp hq hc t ht ha hr =>
    rw [ex.config] at ht
    refine .revoke t.signatureString ?_
    show Obs cfg ⟨c, .answered (Reply.revoked.render {}).result⟩ none none none none none _
    apply obs_revoke hop hp
    intro sig
    rw [revoked_result, hq]
    constructor
    · rintro ⟨rq', t', h1, h2, rfl, _⟩
      cases h1
      rw [ht] at h2
      cases h2
      rfl
    · intro hs
      cases hs
      exact ⟨rq, t, rfl, ht, rfl, rfl⟩
  | implicit rq hf hm ht hs hu a hg =>
    obtain ⟨o, res, hcall⟩ := implicit_obs (cfg := cfg) (a := a) s.config hop hf hm ht
    exact .implicit r rq res a hop hf hm ht (ex.config ▸ hs) hu hcall o
  | code rq hf hm ht hs hu x rest hg =>
    obtain ⟨o, res, hcall⟩ := code_obs (cfg := cfg) (x := x) hop hf hm ht
    exact .code r rq res x hop hf hm ht (ex.config ▸ hs) hu hcall o
  | password rq hf ht hs hu a b hg =>
    obtain ⟨o, ⟨res, hcall⟩, hrep, hhalf⟩ := exact_token (cfg := cfg) (scope := rq.scope) hop hf
      (a := a) (b := b) (red := none) (use := none) (by rw [ht]; simp [PasswordGrantType])
      (by rw [ht]; simp [PasswordGrantType])
    exact .password r rq res a b hop hf ht (ex.config ▸ hs) hu hcall o hrep
  | client rq hf ht hc hs a b hg =>
    obtain ⟨o, ⟨res, hcall⟩, hrep, hhalf⟩ := exact_token (cfg := cfg) (scope := rq.scope) hop hf
      (a := a) (b := b) (red := none) (use := none) (by rw [ht]; simp [ClientCredentialsGrantType])
      (by rw [ht]; simp [ClientCredentialsGrantType])
    exact .client r rq res a b hop hf ht hc (ex.config ▸ hs) hcall o hrep
  | exchange rq hf ht x hc stored hst hu hx ho hr a b hg =>
    rw [ex.config] at hc
    obtain ⟨o, ⟨res, hcall⟩, hrep, hhalf⟩ := exact_token (cfg := cfg) (scope := stored.scope) hop hf
      (a := a) (b := b) (red := some x.signatureString) (use := none)
      (by intro sig; rw [ht, hc]; simp [AuthorizationCodeGrantType])
      (by rw [ht]; simp [AuthorizationCodeGrantType])
    obtain ⟨y, g, bc, hys, hcode, rfl⟩ := (ex.codes _ _).mp hst
    have hbc : bc = false := hu
    subst hbc
    rw [← hys] at o
    exact .exchange r rq res a b y g hop hf ht hcode ⟨x, hc, hys.symm⟩ hx ho hr hcall o hrep
  | refresh rq hf ht x hc stored hst hx ho scope hsc hs a b hg =>
    rw [ex.config] at hc
    obtain ⟨o, ⟨res, hcall⟩, hrep, hhalf⟩ := exact_token (cfg := cfg) (scope := scope) hop hf
      (a := a) (b := b) (red := none) (use := some x.signatureString)
      (by rw [ht]; simp [RefreshTokenGrantType])
      (by intro sig; rw [ht, hc]; simp [RefreshTokenGrantType])
    obtain ⟨y, g, hys, hy, rfl⟩ := (ex.refresh _ _).mp hst
    rw [← hys] at o
    exact .refresh r rq res a b y g hop hf ht hy ⟨x, hc, hys.symm⟩ hx ho (hsc ▸ hs) hcall o hrep

/-- What is seen of any call. -/
theorem seen (ex : Exact cfg h s) (c : Call) : Seen cfg h s ⟨c, (step ⟨false, s⟩ c).1⟩ := by
  cases hop : c.op with
  | serve r =>
    rw [step_serve hop]
    exact seen_serve ex hop
  | authorize r required =>
    rw [step_authorize hop]
    exact .quiet (silent_of_answer (by intro res hh; split at hh <;> cases hh)).quiet
  | configure cl us =>
    rw [step_configure hop]
    exact .quiet (silent_of_answer (by intro res hh; cases hh)).quiet

/-! ### Histories -/

/-- Every history, with the mutex made explicit. -/
theorem history_state {s₀ : Server} (h0 : Started s₀) {s : Shared Server} (hh : History s₀ h s) :
    ∃ st, s = ⟨false, st⟩ ∧ Exact s₀.config h st := by
  obtain ⟨l, st⟩ := s
  obtain ⟨rfl, ex⟩ := history_exact h0 hh
  exact ⟨st, rfl, ex⟩

/-- Every part of a history is a history, and the next event is a call made then. -/
theorem history_split {s₀ : Server} {new old : List Event} {e : Event} {s : Shared Server}
    (hh : History s₀ (new ++ e :: old) s) :
    ∃ s₁, History s₀ old s₁ ∧ e.answer = (step s₁ e.call).1 ∧
      History s₀ (e :: old) (step s₁ e.call).2 := by
  induction new generalizing s with
  | nil =>
    cases hh with
    | next c hh => exact ⟨_, hh, rfl, .next c hh⟩
  | cons x new ih =>
    cases hh with
    | next c hh => exact ih hh

/-- What is seen of an event of a history. -/
theorem history_seen {s₀ : Server} (h0 : Started s₀) {new old : List Event} {e : Event}
    {s : Shared Server} (hh : History s₀ (new ++ e :: old) s) :
    ∃ st, History s₀ old ⟨false, st⟩ ∧ Exact s₀.config old st ∧
      e.answer = (step ⟨false, st⟩ e.call).1 ∧ Seen s₀.config old st e := by
  obtain ⟨s₁, h1, h2, _⟩ := history_split hh
  obtain ⟨st, rfl, ex⟩ := history_state h0 h1
  refine ⟨st, h1, ex, h2, ?_⟩
  have := seen ex e.call
  rw [← h2] at this
  exact this

theorem inForce_hands {k : Kind} {t : HS256Token} {g : Grant} (hi : InForce cfg h k t g) :
    ∃ new e old, h = new ++ e :: old ∧ Issued cfg old e k t g ∧
      ∀ e' ∈ new, ¬ Ends cfg e' k t g := by
  induction h with
  | nil => cases hi
  | cons e h ih =>
    rcases inForce_cons.mp hi with hi | ⟨hi, hn⟩
    · exact ⟨[], e, h, rfl, hi, by simp⟩
    · obtain ⟨new, e', old, rfl, h1, h2⟩ := ih hi
      refine ⟨e :: new, e', old, rfl, h1, ?_⟩
      intro x hx
      rcases List.mem_cons.mp hx with rfl | hx
      · exact hn
      · exact h2 x hx

theorem inForce_later {k : Kind} {t : HS256Token} {g : Grant} (hi : InForce cfg h k t g)
    {new : List Event} (hn : ∀ e ∈ new, ¬ Ends cfg e k t g) : InForce cfg (new ++ h) k t g := by
  induction new with
  | nil => exact hi
  | cons e new ih =>
    exact .later (ih fun x hx => hn x (List.mem_cons_of_mem _ hx)) (hn e (by simp))

/-- What an event hands out is in force after it, except that a refresh token with the signature
of the one that is used up is not. -/
theorem hands_inForce {e : Event} (hs : Seen cfg h s e) {k : Kind}
    {t : HS256Token} (ht : Hands e k t) (hk : k = .refresh → ¬ UsesUp cfg e t) :
    ∃ g, InForce cfg (e :: h) k t g := by
  cases hs with
  | quiet q => cases k <;> first | (rw [q.access] at ht; cases ht) | (rw [q.refresh] at ht; cases ht)
  | revoke sig q => cases k <;> first | (rw [q.access] at ht; cases ht) | (rw [q.refresh] at ht; cases ht)
  | code r rq res x hop hf hm hr hs hu hcall q =>
    cases k <;> first | (rw [q.access] at ht; cases ht) | (rw [q.refresh] at ht; cases ht)
  | implicit r rq res a hop hf hm hr hs hu hcall q =>
    cases k
    · exact ⟨_, .implicit hcall ht⟩
    · rw [q.refresh] at ht; cases ht
  | password r rq res a b hop hf hr hs hu hcall q _ => exact ⟨_, .password hcall hr ht⟩
  | client r rq res a b hop hf hr hs hu hcall q _ => exact ⟨_, .client hcall hr ht⟩
  | exchange r rq res a b y g hop hf hr hy hsame hx ho hru hcall q _ =>
    exact ⟨_, .exchange hcall hr ht hy hsame⟩
  | refresh r rq res a b y g hop hf hr hy hsame hx ho hru hcall q _ =>
    refine ⟨_, .refresh hcall hr ht hy hsame ?_⟩
    intro hk' he
    apply hk hk'
    rw [q.usesUp, he]

/-- A refused replay hands out no token. -/
theorem replay_hands_nothing {e : Event} (hs : Seen cfg h s e) {sig : Str}
    (hr : Replays cfg e sig) (k : Kind) (t : HS256Token) : ¬ Hands e k t := by
  intro ht
  have hcall : ∀ {rq u res}, ¬ AuthorizationCall e rq u res := by
    obtain ⟨_, _, _, h1, _⟩ := hr
    exact fun h2 => not_both h1 h2
  cases hs with
  | quiet q => cases k <;> first | (rw [q.access] at ht; cases ht) | (rw [q.refresh] at ht; cases ht)
  | revoke sig q => cases k <;> first | (rw [q.access] at ht; cases ht) | (rw [q.refresh] at ht; cases ht)
  | code r rq res x hop hf hm hr hs hu hc q => exact hcall hc
  | implicit r rq res a hop hf hm hr hs hu hc q => exact hcall hc
  | password _ _ _ _ _ _ _ _ _ _ _ _ hrep => exact hrep _ hr
  | client _ _ _ _ _ _ _ _ _ _ _ _ hrep => exact hrep _ hr
  | exchange _ _ _ _ _ _ _ _ _ _ _ _ _ _ _ _ _ hrep => exact hrep _ hr
  | refresh _ _ _ _ _ _ _ _ _ _ _ _ _ _ _ _ _ hrep => exact hrep _ hr

/-- A token in force with the signature of one that was handed out and not again since then was
put in force by that event. -/
theorem inForce_since {k : Kind} {t t' : HS256Token} {g : Grant} {new old : List Event} {e : Event}
    (ht : Hands e k t)
    (hn : ∀ z ∈ new, ∀ t', Hands z k t' → t'.signatureString ≠ t.signatureString)
    (hs : t'.signatureString = t.signatureString) (hi : InForce cfg (new ++ e :: old) k t' g) :
    Issued cfg old e k t' g := by
  induction new with
  | nil =>
    rcases inForce_cons.mp hi with hi | ⟨_, hi⟩
    · exact hi
    · exact absurd (.inl ⟨t, ht, hs.symm⟩) hi
  | cons z new ih =>
    rcases inForce_cons.mp hi with hi | ⟨hi, _⟩
    · exact absurd hs (hn z (by simp) t' hi.hands)
    · exact ih (fun x hx => hn x (List.mem_cons_of_mem _ hx)) hi

end OAuth2

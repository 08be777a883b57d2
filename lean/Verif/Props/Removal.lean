import Verif.Spec.Removal
import Verif.Props.Rights
import Verif.Props.Random
/-
C105: what removing a client or a user takes away, and what it does not.
-/

namespace OAuth2

open Spec

variable {s : Server} {c : Call}

namespace Server

/-- Other clients and users. Auxiliary, no code. -/
abbrev swap (s : Server) (x y : GoMap ServerEntity) : Server := { s with clients := x, users := y }

/-- The same reply, and the same state up to clients and users. Auxiliary, no code. -/
abbrev swapped (p : Reply × Server) (x y : GoMap ServerEntity) : Reply × Server := (p.1, p.2.swap x y)

variable (s) (x y : GoMap ServerEntity)

theorem issue_swap (l : Local) (tick : Nat) (b : Bool) (cred : ServerCredential) (f : TokenResponse → TokenResponse) :
    (s.swap x y).issue l tick b cred f = swapped (s.issue l tick b cred f) x y := by
  unfold issue
  simp only
  split <;> rfl

theorem codeReply_swap (rq : TokenRequest) (l : Local) :
    (s.swap x y).codeReply rq l = swapped (s.codeReply rq l) x y := by
  unfold codeReply
  simp only [issue_swap]
  split
  · rfl
  split
  · rfl
  split
  · rfl
  split
  · rfl
  split
  · rfl
  split
  · rfl
  · cases h : s.issue l (l.tick + 1) true _ id with
    | mk a b => cases a <;> rfl

theorem refreshReply_swap (rq : TokenRequest) (l : Local) :
    (s.swap x y).refreshReply rq l = swapped (s.refreshReply rq l) x y := by
  unfold refreshReply
  simp only [issue_swap]
  split
  · rfl
  split
  · rfl
  split
  · rfl
  split
  · rfl
  generalize (if rq.scope.empty = true then _ else rq.scope) = scope
  split
  · rfl
  · cases h : s.issue l (l.tick + 1) true _ id with
    | mk a b => cases a <;> rfl

theorem grantReply_swap (rq : TokenRequest) (client : ServerEntity) (l : Local)
    (hu : rq.grantType = PasswordGrantType → y.get? rq.username = s.users.get? rq.username) :
    (s.swap x y).grantReply rq client l = swapped (s.grantReply rq client l) x y := by
  unfold grantReply
  simp only [issue_swap, codeReply_swap, refreshReply_swap]
  split
  · next h =>
    have : (s.swap x y).userOK rq.username rq.password = s.userOK rq.username rq.password := by
      unfold userOK
      simp only [hu h]
    rw [this]
    split
    · rfl
    split <;> rfl
  split
  · split
    · rfl
    split <;> rfl
  split <;> rfl

theorem tokenReply_swap (r : Request) (l : Local)
    (hc : ∀ rq, parseTokenRequest r = .ok rq → x.get? rq.clientID = s.clients.get? rq.clientID)
    (hu : ∀ rq, parseTokenRequest r = .ok rq → rq.grantType = PasswordGrantType →
      y.get? rq.username = s.users.get? rq.username) :
    (s.swap x y).tokenReply r l = swapped (s.tokenReply r l) x y := by
  unfold tokenReply
  cases hq : parseTokenRequest r with
  | error e => rfl
  | ok rq =>
    simp only [hc rq hq]
    split
    · rfl
    split
    · rfl
    split
    · rfl
    · exact grantReply_swap s x y rq _ l (hu rq hq)

theorem revokeReply_swap (r : Request)
    (hc : ∀ rq, parseRevocationRequest r = .ok rq → x.get? rq.clientID = s.clients.get? rq.clientID) :
    (s.swap x y).revokeReply r = swapped (s.revokeReply r) x y := by
  unfold revokeReply
  cases hq : parseRevocationRequest r with
  | error e => rfl
  | ok rq =>
    simp only [hc rq hq]
    split
    · rfl
    split
    · rfl
    split
    · rfl
    split
    · rfl
    split
    · rfl
    cases h1 : s.accessTokens.get? _ with
    | none =>
      simp only
      split
      · rfl
      cases h2 : s.refreshTokens.get? _ <;> rfl
    | some a =>
      simp only
      split
      · rfl
      cases h2 : s.refreshTokens.get? _ <;> rfl

theorem introspectReply_swap (r : Request)
    (hc : ∀ rq, parseIntrospectionRequest r = .ok rq → x.get? rq.clientID = s.clients.get? rq.clientID) :
    (s.swap x y).introspectReply r = swapped (s.introspectReply r) x y := by
  unfold introspectReply
  cases hq : parseIntrospectionRequest r with
  | error e => rfl
  | ok rq =>
    simp only [hc rq hq]
    split
    · rfl
    split
    · rfl
    split
    · rfl
    split
    · rfl
    split
    · rfl
    split
    · rfl
    split
    · rfl
    split <;> rfl

theorem authorizeReply_swap (r : Request) (l : Local)
    (hc : ∀ rq, parseAuthorizationRequest r = .ok rq → x.get? rq.clientID = s.clients.get? rq.clientID)
    (hu : ∀ rq, parseAuthorizationRequest r = .ok rq → r.method ≠ b!"GET" →
      y.get? (formUser r) = s.users.get? (formUser r)) :
    (s.swap x y).authorizeReply r l = swapped (s.authorizeReply r l) x y := by
  unfold authorizeReply
  cases hq : parseAuthorizationRequest r with
  | error e => rfl
  | ok rq =>
    simp only [hc rq hq, issue_swap]
    split
    · rfl
    split
    · rfl
    split
    · rfl
    split
    · rfl
    next hm =>
    have : (s.swap x y).userOK ((r.parseForm.1.postForm.getD []).get b!"username")
        ((r.parseForm.1.postForm.getD []).get b!"password") = s.userOK
        ((r.parseForm.1.postForm.getD []).get b!"username") ((r.parseForm.1.postForm.getD []).get b!"password") := by
      have := hu rq hq hm
      unfold formUser at this
      unfold userOK
      simp only [this]
    rw [this]
    split
    · rfl
    split
    · rfl
    split
    · rfl
    split <;> rfl

end Server

/-- **C105.** Which clients and users are registered makes no difference to `Authorize`: the access tokens of a client
or a user that is removed are admitted as before. -/
theorem C105_admitted {r : Request} {required : Scope} (h : c.op = .authorize r required)
    (clients users : GoMap ServerEntity) :
    (step ⟨false, { s with clients := clients, users := users }⟩ c).1 = (step ⟨false, s⟩ c).1 := by
  rw [step_authorize h, step_authorize h]
  rfl

theorem step_swap {r : Request} (hop : c.op = .serve r) (x y : GoMap ServerEntity)
    (hc : ∀ id, InNameOf c id → x.get? id = s.clients.get? id)
    (hu : ∀ u, WithPassword c u → y.get? u = s.users.get? u) :
    step ⟨false, { s with clients := x, users := y }⟩ c =
      ((step ⟨false, s⟩ c).1, ⟨false, { (step ⟨false, s⟩ c).2.st with clients := x, users := y }⟩) := by
  rw [step_serve hop, step_serve hop]
  have : (s.swap x y).handle r c.local = Server.swapped (s.handle r c.local) x y := by
    unfold Server.handle
    simp only
    split
    · next hp =>
      apply Server.authorizeReply_swap
      · exact fun rq hq => hc _ (.authorization hop ((lastSegment_iff _ _).mpr hp) hq rfl)
      · intro rq hq hm
        exact hu _ (.authorization ⟨r, hop, (lastSegment_iff _ _).mpr hp, hm, hq, rfl, rfl⟩)
    split
    · next hp =>
      apply Server.tokenReply_swap
      · exact fun rq hq => hc _ (.token ⟨r, hop, (lastSegment_iff _ _).mpr hp, hq⟩ rfl)
      · exact fun rq hq hgt => hu _ (.token ⟨r, hop, (lastSegment_iff _ _).mpr hp, hq⟩ hgt rfl)
    split
    · next hp =>
      apply Server.introspectReply_swap
      exact fun rq hq => hc _ (.introspection ⟨r, hop, (lastSegment_iff _ _).mpr hp, hq⟩ rfl)
    split
    · next hp =>
      apply Server.revokeReply_swap
      exact fun rq hq => hc _ (.revocation ⟨r, hop, (lastSegment_iff _ _).mpr hp, hq⟩ rfl)
    · rfl
  show ((Server.handle (s.swap x y) r c.local).1.answer, _) = _
  rw [this]

/-- **C105.** Clients in whose name a call is not made and users whose password it does not present make no difference
to it: it gets the same answer and has the same effect, whoever else is registered. -/
theorem C105_others {clients users : GoMap ServerEntity} (hn : ¬ Registers c)
    (hc : ∀ client, InNameOf c client → clients.get? client = s.clients.get? client)
    (hu : ∀ user, WithPassword c user → users.get? user = s.users.get? user) :
    step ⟨false, { s with clients := clients, users := users }⟩ c =
      ((step ⟨false, s⟩ c).1, ⟨false, { (step ⟨false, s⟩ c).2.st with clients := clients, users := users }⟩) := by
  cases hop : c.op with
  | serve r => exact step_swap hop clients users hc hu
  | authorize r required => rw [step_authorize hop, step_authorize hop]; rfl
  | configure x y => exact absurd ⟨x, y, hop⟩ hn

theorem registered_same (hn : ¬ Registers c) (s : Server) :
    (step ⟨false, s⟩ c).2 = ⟨false, { (step ⟨false, s⟩ c).2.st with clients := s.clients, users := s.users }⟩ :=
  congrArg Prod.snd (C105_others (s := s) (clients := s.clients) (users := s.users) hn (fun _ _ => rfl)
    fun _ _ => rfl)

theorem registered_kept {s₀ : Server} {h : List Event} {s : Shared Server} (hh : History s₀ h s)
    (hn : ∀ e ∈ h, ¬ Registers e.call) : ∃ st : Server, s = ⟨false, st⟩ ∧ st.clients = s₀.clients ∧
      st.users = s₀.users := by
  induction hh with
  | start => exact ⟨s₀, rfl, rfl, rfl⟩
  | @next h s c _ ih =>
    obtain ⟨st, rfl, h1, h2⟩ := ih fun e he => hn e (List.mem_cons_of_mem _ he)
    have := registered_same (hn _ List.mem_cons_self) st
    refine ⟨_, this, h1, h2⟩

/-- **C105.** So when a user is removed, everything that does not take their password goes on as before, call after call:
their access tokens are admitted, their codes and refresh tokens are worth tokens. -/
theorem C105_user_tokens {s₀ : Server} {h : List Event} {s : Shared Server} (hh : History s₀ h s) {user : Str}
    (hn : ∀ e ∈ h, ¬ Registers e.call ∧ ¬ WithPassword e.call user) :
    History { s₀ with users := s₀.users.del user } h { s with st := { s.st with users := s₀.users.del user } } := by
  induction hh with
  | start => exact .start
  | @next h s c hh ih =>
    have h1 := ih fun e he => hn e (List.mem_cons_of_mem _ he)
    obtain ⟨hr, hp⟩ := hn _ List.mem_cons_self
    obtain ⟨st, rfl, hc, hu⟩ := registered_kept hh fun e he => (hn e (List.mem_cons_of_mem _ he)).1
    have h2 := History.next c h1
    have h3 := C105_others (s := st) (clients := st.clients) (users := s₀.users.del user) hr (fun _ _ => rfl)
      (fun u hu' => by
        have hx : u ≠ user := by rintro rfl; exact hp hu'
        rw [GoMap.get?_del_of_ne _ hx, hu])
    have h4 := registered_same hr st
    have h5 : step ⟨false, { st with users := s₀.users.del user }⟩ c = ((step ⟨false, st⟩ c).1,
        { (step ⟨false, st⟩ c).2 with st := { (step ⟨false, st⟩ c).2.st with users := s₀.users.del user } }) := by
      refine h3.trans ?_
      rw [h4]
    simp only [h5] at h2
    exact h2

/-- **C105.** And when a client is removed, everything that is not done in its name goes on as before: its access tokens
are admitted. -/
theorem C105_client_tokens {s₀ : Server} {h : List Event} {s : Shared Server} (hh : History s₀ h s) {client : Str}
    (hn : ∀ e ∈ h, ¬ Registers e.call ∧ ¬ InNameOf e.call client) :
    History { s₀ with clients := s₀.clients.del client } h
      { s with st := { s.st with clients := s₀.clients.del client } } := by
  induction hh with
  | start => exact .start
  | @next h s c hh ih =>
    have h1 := ih fun e he => hn e (List.mem_cons_of_mem _ he)
    obtain ⟨hr, hp⟩ := hn _ List.mem_cons_self
    obtain ⟨st, rfl, hc, hu⟩ := registered_kept hh fun e he => (hn e (List.mem_cons_of_mem _ he)).1
    have h2 := History.next c h1
    have h3 := C105_others (s := st) (clients := s₀.clients.del client) (users := st.users) hr
      (fun u hu' => by
        have hx : u ≠ client := by rintro rfl; exact hp hu'
        rw [GoMap.get?_del_of_ne _ hx, hc]) (fun _ _ => rfl)
    have h4 := registered_same hr st
    have h5 : step ⟨false, { st with clients := s₀.clients.del client }⟩ c = ((step ⟨false, st⟩ c).1,
        { (step ⟨false, st⟩ c).2 with st := { (step ⟨false, st⟩ c).2.st with clients := s₀.clients.del client } }) := by
      refine h3.trans ?_
      rw [h4]
    simp only [h5] at h2
    exact h2

/-- **C105.** But a call in the name of a client that is not registered is refused, gives nothing and changes nothing. -/
theorem C105_removed_client {client : Str} (hc : s.clients.get? client = none) (h : InNameOf c client) :
    (∃ res, step ⟨false, s⟩ c = (.answered res, ⟨false, s⟩) ∧ 400 ≤ res.statusCode ∧ res.statusCode ≤ 401) ∧
      GivesNothing ⟨c, (step ⟨false, s⟩ c).1⟩ := by
  have key : ∃ r e, c.op = .serve r ∧ s.handle r c.local = (.error e, s) ∧
      (e = invalidClient b!"unknown client" ∨ e = invalidRequest b!"unknown grant type" ∨
        e = invalidRequest b!"unknown response type" ∨ e = unsupportedTokenType []) := by
    cases h with
    | @token rq h1 h2 =>
      obtain ⟨r, hop, hp, hq⟩ := h1
      rw [lastSegment_iff] at hp
      subst h2
      have e : s.handle r c.local = s.tokenReply r c.local := by unfold Server.handle; simp only [hp]; rfl
      unfold Server.tokenReply at e
      simp only [hq, hc] at e
      split at e
      · exact ⟨r, _, hop, e, .inr (.inl rfl)⟩
      · exact ⟨r, _, hop, e, .inl rfl⟩
    | @authorization r rq hop hp hq h2 =>
      rw [lastSegment_iff] at hp
      subst h2
      have e : s.handle r c.local = s.authorizeReply r c.local := by unfold Server.handle; simp only [hp]; rfl
      unfold Server.authorizeReply at e
      simp only [hq, hc] at e
      split at e
      · exact ⟨r, _, hop, e, .inr (.inr (.inl rfl))⟩
      · exact ⟨r, _, hop, e, .inl rfl⟩
    | @introspection rq h1 h2 =>
      obtain ⟨r, hop, hp, hq⟩ := h1
      rw [lastSegment_iff] at hp
      subst h2
      have e : s.handle r c.local = s.introspectReply r := by unfold Server.handle; simp only [hp]; rfl
      unfold Server.introspectReply at e
      simp only [hq, hc] at e
      split at e
      · exact ⟨r, _, hop, e, .inr (.inr (.inr rfl))⟩
      · exact ⟨r, _, hop, e, .inl rfl⟩
    | @revocation rq h1 h2 =>
      obtain ⟨r, hop, hp, hq⟩ := h1
      rw [lastSegment_iff] at hp
      subst h2
      have e : s.handle r c.local = s.revokeReply r := by unfold Server.handle; simp only [hp]; rfl
      unfold Server.revokeReply at e
      simp only [hq, hc] at e
      split at e
      · exact ⟨r, _, hop, e, .inr (.inr (.inr rfl))⟩
      · exact ⟨r, _, hop, e, .inl rfl⟩
  obtain ⟨r, e, hop, h1, he⟩ := key
  have hr : e.redirectURI = [] := by rcases he with rfl | rfl | rfl | rfl <;> rfl
  have hs : 400 ≤ e.status ∧ e.status ≤ 401 := by rcases he with rfl | rfl | rfl | rfl <;> decide
  have hh : e.headers = [] ∨ e.headers = [(b!"WWW-Authenticate", b!"Basic realm=\"OAuth2\"")] := by
    rcases he with rfl | rfl | rfl | rfl
    · exact .inr rfl
    · exact .inl rfl
    · exact .inl rfl
    · exact .inl rfl
  have o : Quiet s.config ⟨c, (Reply.error e).answer⟩ := quiet_refused hop ⟨hs.1, by omega⟩ hr hh
  have hstep : step ⟨false, s⟩ c = ((Reply.error e).answer, ⟨false, s⟩) := by rw [step_serve hop, h1]
  refine ⟨⟨((Reply.error e).render {}).result, hstep, ?_, ?_⟩, ?_⟩
  · rw [error_result hr]
    show 400 ≤ e.status.toNat
    omega
  · rw [error_result hr]
    show e.status.toNat ≤ 401
    omega
  · rw [hstep]
    exact ⟨fun k t => o.not_hands, fun x hx => nomatch (o.code x).mp hx⟩

/-- **C105.** A call with the password of a user that is not registered gives nothing and changes nothing. -/
theorem C105_removed_user {user : Str} (hu : s.users.get? user = none) (h : WithPassword c user) :
    (∃ res, step ⟨false, s⟩ c = (.answered res, ⟨false, s⟩)) ∧ GivesNothing ⟨c, (step ⟨false, s⟩ c).1⟩ := by
  have np : ∀ p, s.userOK user p = false := by
    intro p
    unfold Server.userOK
    rw [hu]
  have key : ∃ r e, c.op = .serve r ∧ s.handle r c.local = (.error e, s) := by
    cases h with
    | @authorization rq p h1 =>
      obtain ⟨r, hop, hp, hm, hq, h2, h3⟩ := h1
      rw [lastSegment_iff] at hp
      have e : s.handle r c.local = s.authorizeReply r c.local := by unfold Server.handle; simp only [hp]; rfl
      unfold Server.authorizeReply at e
      simp only [hq, ← h2, np] at e
      repeat' split at e
      all_goals first | exact ⟨r, _, hop, e⟩ | (exfalso; first | exact hm ‹_› | simp_all)
    | @token rq h1 h2 h3 =>
      obtain ⟨r, hop, hp, hq⟩ := h1
      rw [lastSegment_iff] at hp
      subst h3
      have e : s.handle r c.local = s.tokenReply r c.local := by unfold Server.handle; simp only [hp]; rfl
      unfold Server.tokenReply Server.grantReply at e
      rw [hq] at e
      simp only [np, if_pos (show rq.grantType = PasswordGrantType from h2), Bool.not_false, if_true] at e
      repeat' split at e
      all_goals exact ⟨r, _, hop, e⟩
  obtain ⟨r, e, hop, h1⟩ := key
  have hstep : step ⟨false, s⟩ c = ((Reply.error e).answer, ⟨false, s⟩) := by rw [step_serve hop, h1]
  refine ⟨⟨((Reply.error e).render {}).result, hstep⟩, ?_⟩
  have quiet : Quiet s.config ⟨c, (step ⟨false, s⟩ c).1⟩ → GivesNothing ⟨c, (step ⟨false, s⟩ c).1⟩ :=
    fun o => ⟨fun k t => o.not_hands, fun x hx => nomatch (o.code x).mp hx⟩
  apply quiet
  have np' : ∀ {r rq}, parseTokenRequest r = .ok rq → c.op = .serve r → Server.lastSegment r.path = b!"token" →
      rq.grantType = b!"password" ∧ rq.username = user := by
    intro r' rq' hq' hop' hp'
    rw [hop] at hop'
    cases hop'
    cases h with
    | authorization h1 =>
      obtain ⟨r'', hop'', hp, _⟩ := h1
      rw [hop] at hop''
      cases hop''
      rw [lastSegment_iff, hp'] at hp
      exact absurd hp (by decide)
    | token h1 h2 h3 =>
      obtain ⟨r'', hop'', hp, hq⟩ := h1
      rw [hop] at hop''
      cases hop''
      rw [hq'] at hq
      cases hq
      exact ⟨h2, h3⟩
  have na : Server.lastSegment r.path = b!"authorize" → Server.formUser r = user := by
    intro hp'
    cases h with
    | authorization h1 =>
      obtain ⟨r'', hop'', hp, _, _, hx, _⟩ := h1
      rw [hop] at hop''
      cases hop''
      exact hx.symm
    | token h1 h2 h3 =>
      obtain ⟨r'', hop'', hp, hq⟩ := h1
      rw [hop] at hop''
      cases hop''
      rw [lastSegment_iff, hp'] at hp
      exact absurd hp (by decide)
  obtain ⟨reply, st, h2, h3, _⟩ := step_served hop s
  rw [h2]
  have noPassword : ∀ p, ¬ Password s user p := by
    intro p hp
    rw [← Server.userOK_iff, np p] at hp
    cases hp
  cases h3 with
  | notFound h3 h4 h5 h6 => exact (silent_of_path hop h3 h4 h6).quiet
  | refused e hs hr hp hh hcode hrev => exact quiet_refused hop hs hr hh
  | crash hs hp => exact (silent_of_answer (by intro res hh; cases hh)).quiet
  | notice rq' hf hm =>
    refine quiet_authorize hop hf.path ?_
    rw [notice_result]
    rfl
  | introspect rq hp =>
    exact (silent_of_path hop (by rw [hp]; decide) (by rw [hp]; decide) (by rw [hp]; decide)).quiet
  | refusedRedirect rq' hf hm e he =>
    refine quiet_redirect_error hop hf.path hm hf.parsed ?_ ?_
    · rcases he with rfl | rfl <;> rfl
    · rcases he with rfl | rfl <;> decide
  | replay rq hf => exact quiet_token_error hop hf.path rfl
  | revokeHalf rq hp => exact quiet_revoke hop hp (by decide +kernel)
  | revoke rq hp =>
    have : LastSegment r.path b!"authorize" ∨ LastSegment r.path b!"token" := by
      cases h with
      | authorization h1 =>
        obtain ⟨_, hop', hp', _⟩ := h1
        rw [hop] at hop'
        cases hop'
        exact .inl hp'
      | token h1 =>
        obtain ⟨_, hop', hp', _⟩ := h1
        rw [hop] at hop'
        cases hop'
        exact .inr hp'
    rw [lastSegment_iff, lastSegment_iff, hp] at this
    exact absurd this (by decide)
  | implicit rq hf hm ht hs hu => exact absurd (na hf.path ▸ hu) (noPassword _)
  | code rq hf hm ht hs hu => exact absurd (na hf.path ▸ hu) (noPassword _)
  | password rq hf ht hs hu => exact absurd ((np' hf.parsed hop hf.path).2 ▸ hu) (noPassword _)
  | client rq hf ht =>
    exact absurd (ht.symm.trans (np' hf.parsed hop hf.path).1) (by decide)
  | exchange rq hf ht =>
    exact absurd (ht.symm.trans (np' hf.parsed hop hf.path).1) (by decide)
  | refresh rq hf ht =>
    exact absurd (ht.symm.trans (np' hf.parsed hop hf.path).1) (by decide)

/-- **C105.** As long as nothing is registered, all calls in the name of the client are refused, and none gives
anything. -/
theorem C105_removed_client_history {s₀ : Server} {h : List Event} {s : Shared Server} (hh : History s₀ h s)
    {client : Str} (hc : s₀.clients.get? client = none) (hn : ∀ e ∈ h, ¬ Registers e.call) :
    ∀ e ∈ h, InNameOf e.call client →
      (∃ res, e.answer = .answered res ∧ 400 ≤ res.statusCode ∧ res.statusCode ≤ 401) ∧ GivesNothing e := by
  induction hh with
  | start => exact fun e he => nomatch he
  | @next h s c hh ih =>
    have hn' : ∀ e ∈ h, ¬ Registers e.call := fun e he => hn e (List.mem_cons_of_mem _ he)
    intro e he hx
    rcases List.mem_cons.mp he with rfl | he
    · obtain ⟨st, rfl, h1, _⟩ := registered_kept hh hn'
      obtain ⟨⟨res, h2, h3⟩, h4⟩ := C105_removed_client (h1 ▸ hc) hx
      exact ⟨⟨res, by simp only [h2], h3⟩, h4⟩
    · exact ih hn' e he hx

/-- **C105.** And all calls with a password of the user. -/
theorem C105_removed_user_history {s₀ : Server} {h : List Event} {s : Shared Server} (hh : History s₀ h s)
    {user : Str} (hu : s₀.users.get? user = none) (hn : ∀ e ∈ h, ¬ Registers e.call) :
    ∀ e ∈ h, WithPassword e.call user → (∃ res, e.answer = .answered res) ∧ GivesNothing e := by
  induction hh with
  | start => exact fun e he => nomatch he
  | @next h s c hh ih =>
    have hn' : ∀ e ∈ h, ¬ Registers e.call := fun e he => hn e (List.mem_cons_of_mem _ he)
    intro e he hx
    rcases List.mem_cons.mp he with rfl | he
    · obtain ⟨st, rfl, _, h1⟩ := registered_kept hh hn'
      obtain ⟨⟨res, h2⟩, h4⟩ := C105_removed_user (h1 ▸ hu) hx
      exact ⟨⟨res, by simp only [h2]⟩, h4⟩
    · exact ih hn' e he hx

/-- **C105.** When the name is registered again, by whomever, the server is as if it had been registered all the time:
what the client had works again, for the one to whom the name then belongs. -/
theorem C105_restored {s₀ : Server} {h : List Event} {s : Shared Server} (hh : History s₀ h s) {client : Str}
    (hn : ∀ e ∈ h, ¬ Registers e.call ∧ ¬ InNameOf e.call client) (hc : Registers c) :
    History { s₀ with clients := s₀.clients.del client } (⟨c, (step s c).1⟩ :: h) (step s c).2 := by
  have h1 := History.next c (C105_client_tokens hh hn)
  obtain ⟨x, y, hc⟩ := hc
  rw [step_configure hc] at h1 ⊢
  exact h1

/-- The refresh request of the examples. -/
def Demo.refreshing : Call := Demo.post b!"/token" b!"c2:new"
  (b!"grant_type=refresh_token&refresh_token=" ++ Demo.r3.string)
  [21, 22, 23, 24] 1040

/-- Non-vacuity: after the user is removed, their refresh token is still worth tokens. -/
example : (¬ Registers Demo.refreshing ∧ ¬ WithPassword Demo.refreshing b!"u1") ∧
    (step ⟨false, { Demo.s3 with users := Demo.s3.users.del b!"u1" }⟩ Demo.refreshing).2.st.accessTokens.length =
      Demo.s3.accessTokens.length + 1 := by
  refine ⟨⟨?_, ?_⟩, by decide +kernel⟩
  · rintro ⟨x, y, h⟩
    cases h
  · have hq : AsksToken Demo.refreshing {
        grantType := b!"refresh_token", clientID := b!"c2", clientSecret := b!"new",
        refreshToken := Demo.r3.string } := ⟨_, rfl, by decide +kernel, by decide +kernel⟩
    rintro (⟨⟨r, hop, hp, _⟩⟩ | ⟨⟨r, hop, _, hq'⟩, hg, _⟩)
    · obtain ⟨_, hop', hp', _⟩ := hq
      rw [hop] at hop'
      cases hop'
      rw [lastSegment_iff] at hp hp'
      exact absurd (hp.symm.trans hp') (by decide)
    · obtain ⟨_, hop', _, hq⟩ := hq
      rw [hop] at hop'
      cases hop'
      rw [hq] at hq'
      cases hq'
      exact absurd hg (by decide)

/-- Non-vacuity: a client that is removed is refused; under its name another client then uses what the first had. -/
example : (Demo.s3.clients.del b!"c2").get? b!"c2" = none ∧ InNameOf Demo.refreshing b!"c2" ∧
    (step ⟨false, { Demo.s3 with clients := Demo.s3.clients.del b!"c2" }⟩ Demo.refreshing).2.st.accessTokens.length =
      Demo.s3.accessTokens.length ∧
    (step ⟨false, { Demo.s3 with clients := [(b!"c2", { secret := b!"new", confidential := true })] }⟩
      Demo.refreshing).2.st.accessTokens.length = Demo.s3.accessTokens.length + 1 :=
  ⟨by decide +kernel, .token (rq := {
      grantType := b!"refresh_token", clientID := b!"c2", clientSecret := b!"new",
      refreshToken := Demo.r3.string }) ⟨_, rfl, by decide +kernel, by decide +kernel⟩ rfl,
    by decide +kernel, by decide +kernel⟩

/-- Non-vacuity: a password grant of a user that is removed. -/
example : WithPassword Demo.c1 b!"u1" ∧ (Demo.server.users.del b!"u1").get? b!"u1" = none :=
  ⟨.token (rq := {
      grantType := b!"password", clientID := b!"c1", clientSecret := b!"s1", scope := some [b!"foo"],
      username := b!"u1", password := b!"p1" }) ⟨_, rfl, by decide +kernel, by decide +kernel⟩ rfl rfl,
    by decide +kernel⟩

end OAuth2

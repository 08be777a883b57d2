import Verif.Lemmas.Pointer
import Verif.Lemmas.Serve

namespace OAuth2

open Spec (Fill contents Memory Whole Unshared Kept stored entitiesOf credentialsOf)

variable {α β : Type}

/-- The two programs do the same, or the first panics over something nil before it writes
anything. -/
def SimAt (quiet : Prop) (Q : RefServer → Server → Prop) (r : RefServer) (s : Server)
    (p : Prog RefServer α) (q : Prog Server α) : Prop :=
  ∀ b l,
    (∃ r' l', exec p ⟨b, r⟩ l = (.panic, ⟨b, r'⟩, l') ∧ l'.w = l.w ∧ Steps r r' ∧ ¬ Whole r) ∨
    (∃ o r' s' l', exec p ⟨b, r⟩ l = (o, ⟨b, r'⟩, l') ∧ exec q ⟨b, s⟩ l = (o, ⟨b, s'⟩, l') ∧
      Q r' s' ∧ Steps r r' ∧ (quiet → l'.w = l.w))

namespace SimAt

variable {quiet : Prop} {Q Q' : RefServer → Server → Prop} {r : RefServer} {s : Server}

theorem bind {p : Prog RefServer α} {q : Prog Server α} {f : α → Prog RefServer β}
    {g : α → Prog Server β} (h : SimAt True Q' r s p q)
    (hf : ∀ a r' s', Q' r' s' → Steps r r' → SimAt quiet Q r' s' (f a) (g a))
    (hq : ∀ r' s', Q' r' s' → Steps r r' → Q r' s') :
    SimAt quiet Q r s (p >>= f) (q >>= g) := by
  intro b l
  rcases h b l with ⟨r', l', h1, h2, h3, h4⟩ | ⟨o, r', s', l', h1, h2, h3, h4, h5⟩
  · exact .inl ⟨r', l', exec_bind_panic h1, h2, h3, h4⟩
  · cases o with
    | ret a =>
      rcases hf a r' s' h3 h4 b l' with ⟨r'', l'', k1, k2, k3, k4⟩ | ⟨o, r'', s'', l'', k1, k2, k3, k4, k5⟩
      · exact .inl ⟨r'', l'', (exec_bind_ret h1).trans k1, k2.trans (h5 trivial), h4.trans k3,
          fun hw => k4 (h4.whole hw)⟩
      · exact .inr ⟨o, r'', s'', l'', (exec_bind_ret h1).trans k1, (exec_bind_ret h2).trans k2, k3,
          h4.trans k4, fun hq => (k5 hq).trans (h5 trivial)⟩
    | panic =>
      exact .inr ⟨.panic, r', s', l', exec_bind_panic h1, exec_bind_panic h2, hq _ _ h3 h4, h4,
        fun _ => h5 trivial⟩
    | deadlock =>
      refine .inr ⟨.deadlock, r', s', l', ?_, ?_, hq _ _ h3 h4, h4, fun _ => h5 trivial⟩
      · rw [exec_bind, h1]
      · rw [exec_bind, h2]

theorem twin {p : Prog RefServer α} {q : Prog Server α} (h : Twin p q) (hq : Q r s) :
    SimAt False Q r s p q := by
  intro b l
  obtain ⟨o, l', h1, h2⟩ := h.exec b r s l
  exact .inr ⟨o, r, s, l', h1, h2, hq, .refl r, fun h => h.elim⟩

theorem pure (a : α) (hq : Q r s) : SimAt quiet Q r s (Pure.pure a) (Pure.pure a) := fun _ l =>
  .inr ⟨_, r, s, l, rfl, rfl, hq, .refl r, fun _ => rfl⟩

theorem panic (hq : Q r s) : SimAt quiet Q r s (.panic : Prog RefServer α) .panic := fun _ l =>
  .inr ⟨_, r, s, l, rfl, rfl, hq, .refl r, fun _ => rfl⟩

theorem mono {p : Prog RefServer α} {q : Prog Server α} (h : SimAt quiet Q' r s p q)
    (hq : ∀ r' s', Q' r' s' → Steps r r' → Q r' s') : SimAt quiet Q r s p q := by
  intro b l
  rcases h b l with h1 | ⟨o, r', s', l', h1, h2, h3, h4, h5⟩
  · exact .inl h1
  · exact .inr ⟨o, r', s', l', h1, h2, hq _ _ h3 h4, h4, h5⟩

theorem quieter {p : Prog RefServer α} {q : Prog Server α} (h : SimAt True Q r s p q) :
    SimAt quiet Q r s p q := by
  intro b l
  rcases h b l with h1 | ⟨o, r', s', l', h1, h2, h3, h4, h5⟩
  · exact .inl h1
  · exact .inr ⟨o, r', s', l', h1, h2, h3, h4, fun _ => h5 trivial⟩

theorem getS {f : RefServer → Prog RefServer α} {g : Server → Prog Server α}
    (h : SimAt quiet Q r s (f r) (g s)) : SimAt quiet Q r s (Prog.getS >>= f) (Prog.getS >>= g) := h

theorem getL {f : RefServer → Prog RefServer α} {q : Prog Server α}
    (h : SimAt quiet Q r s (f r) q) : SimAt quiet Q r s (Prog.getS >>= f) q := h

theorem getR {p : Prog RefServer α} {g : Server → Prog Server α}
    (h : SimAt quiet Q r s p (g s)) : SimAt quiet Q r s p (Prog.getS >>= g) := h

theorem timeNow {f : Time → Prog RefServer α} {g : Time → Prog Server α}
    (h : ∀ t, SimAt quiet Q r s (f t) (g t)) :
    SimAt quiet Q r s (Prog.timeNow >>= f) (Prog.timeNow >>= g) := fun b l =>
  h (l.clock l.tick) b { l with tick := l.tick + 1 }

/-- Reading the object of a stored pointer. -/
theorem loadEntity {p : Ptr} {f : ServerEntity → Prog RefServer α} {q : Prog Server α}
    (hp : r.entity p = none → ¬ Whole r) (h : ∀ e, r.entity p = some e → SimAt quiet Q r s (f e) q) :
    SimAt quiet Q r s (RefServer.loadEntity p >>= f) q := by
  intro b l
  cases he : r.entity p with
  | none =>
    refine .inl ⟨r, l, exec_bind_panic ?_, rfl, .refl r, hp he⟩
    unfold RefServer.loadEntity
    rw [exec_getS_bind, he]
    rfl
  | some e =>
    have h1 : exec (RefServer.loadEntity p >>= f) ⟨b, r⟩ l = exec (f e) ⟨b, r⟩ l := by
      refine exec_bind_ret ?_
      unfold RefServer.loadEntity
      rw [exec_getS_bind, he]
      rfl
    rw [h1]
    exact h e he b l

theorem loadCredential {p : Ptr} {f : ServerCredential → Prog RefServer α} {q : Prog Server α}
    (hp : r.credential p = none → ¬ Whole r)
    (h : ∀ c, r.credential p = some c → SimAt quiet Q r s (f c) q) :
    SimAt quiet Q r s (RefServer.loadCredential p >>= f) q := by
  intro b l
  cases he : r.credential p with
  | none =>
    refine .inl ⟨r, l, exec_bind_panic ?_, rfl, .refl r, hp he⟩
    unfold RefServer.loadCredential
    rw [exec_getS_bind, he]
    rfl
  | some e =>
    have h1 : exec (RefServer.loadCredential p >>= f) ⟨b, r⟩ l = exec (f e) ⟨b, r⟩ l := by
      refine exec_bind_ret ?_
      unfold RefServer.loadCredential
      rw [exec_getS_bind, he]
      rfl
    rw [h1]
    exact h e he b l

/-- One write on both sides. -/
theorem modify {f : RefServer → RefServer} {g : Server → Server} (hs : Steps r (f r))
    (hq : Q (f r) (g s)) : SimAt quiet Q r s (Prog.modifyS f) (Prog.modifyS g) := fun _ l =>
  .inr ⟨_, _, _, l, rfl, rfl, hq, hs, fun _ => rfl⟩

theorem mustGenerate (c : ServerConfig) (hq : Q r s) :
    SimAt True Q r s (c.mustGenerate : Prog RefServer HS256Token) c.mustGenerate := by
  intro b l
  obtain ⟨o, l', h1, h2⟩ := (Twin.mustGenerate c).exec b r s l
  refine .inr ⟨o, r, s, l', h1, h2, hq, .refl r, fun _ => ?_⟩
  have : (exec (c.mustGenerate : Prog RefServer HS256Token) ⟨b, r⟩ l).2.2.w = l.w := by
    have h := Server.exec_mustGenerate c (⟨b, r⟩ : Shared RefServer) l
    split at h
    · obtain ⟨l', h, hw⟩ := h
      rw [h]; exact hw
    · rw [h]
  rw [h1] at this
  exact this

end SimAt

theorem not_whole_credential {r : RefServer} {k : Str} {p : Ptr} (h : (k, p) ∈ stored r)
    (hn : r.credential p = none) : ¬ Whole r := fun hw => by
  have := hw.credentials k p h
  rw [hn] at this
  cases this

theorem not_whole_client {r : RefServer} {k : Str} {p : Ptr} (h : r.clients.lookup k = some p)
    (hn : r.entity p = none) : ¬ Whole r := fun hw => by
  have := hw.entities k p (List.mem_append.2 (.inl (lookup_mem h)))
  rw [hn] at this
  cases this

theorem not_whole_user {r : RefServer} {k : Str} {p : Ptr} (h : r.users.lookup k = some p)
    (hn : r.entity p = none) : ¬ Whole r := fun hw => by
  have := hw.entities k p (List.mem_append.2 (.inr (lookup_mem h)))
  rw [hn] at this
  cases this

/-- The states agree: following the pointers gives the other state. -/
def Agree (d : Fill) (r : RefServer) (s : Server) : Prop := contents d r = s

/-- The states agree but for marks on shared objects. -/
def AgreeMarked (d : Fill) (r : RefServer) (s : Server) : Prop := contents d r = Spec.spread r s

section
variable {d : Fill} {r : RefServer}

theorem Agree.marked (hr : Memory r) {s : Server} (h : Agree d r s) : AgreeMarked d r s := by
  unfold AgreeMarked
  rw [← h, spread_contents hr]

theorem sim_putAccessToken (hr : Memory r) (k : Str) (c : ServerCredential)
    {Q : RefServer → Server → Prop}
    (hq : ∀ r', contents d r' =
        { contents d r with accessTokens := GoMap.set (contents d r).accessTokens k c } →
      r'.authorizationCodes = r.authorizationCodes →
      Q r' { contents d r with accessTokens := GoMap.set (contents d r).accessTokens k c }) :
    SimAt True Q r (contents d r) (RefServer.putAccessToken k c)
      (.modifyS fun s => { s with accessTokens := s.accessTokens.set k c }) := by
  unfold RefServer.putAccessToken
  refine .getL ?_
  cases hm : r.accessTokens with
  | none => exact fun b l => .inl ⟨r, l, rfl, rfl, .refl r, fun hw => hw.accessTokens hm⟩
  | some m => exact .modify (added_access hm k c).steps (hq _ (contents_put_access hr hm k c) rfl)

theorem sim_putRefreshToken (hr : Memory r) (k : Str) (c : ServerCredential)
    {Q : RefServer → Server → Prop}
    (hq : ∀ r', contents d r' =
        { contents d r with refreshTokens := GoMap.set (contents d r).refreshTokens k c } →
      r'.authorizationCodes = r.authorizationCodes →
      Q r' { contents d r with refreshTokens := GoMap.set (contents d r).refreshTokens k c }) :
    SimAt True Q r (contents d r) (RefServer.putRefreshToken k c)
      (.modifyS fun s => { s with refreshTokens := s.refreshTokens.set k c }) := by
  unfold RefServer.putRefreshToken
  refine .getL ?_
  cases hm : r.refreshTokens with
  | none => exact fun b l => .inl ⟨r, l, rfl, rfl, .refl r, fun hw => hw.refreshTokens hm⟩
  | some m => exact .modify (added_refresh hm k c).steps (hq _ (contents_put_refresh hr hm k c) rfl)

theorem sim_putAuthorizationCode (hr : Memory r) (k : Str) (c : ServerCredential) :
    SimAt True (Agree d) r (contents d r) (RefServer.putAuthorizationCode k c)
      (.modifyS fun s => { s with authorizationCodes := s.authorizationCodes.set k c }) := by
  unfold RefServer.putAuthorizationCode
  refine .getL ?_
  cases hm : r.authorizationCodes with
  | none => exact fun b l => .inl ⟨r, l, rfl, rfl, .refl r, fun hw => hw.authorizationCodes hm⟩
  | some m => exact .modify (added_code hm k c).steps (contents_put_code hr hm k c)

/-- The states agree and the codes are the same as before. -/
def AgreeCodes (d : Fill) (m : RefMap) (r : RefServer) (s : Server) : Prop :=
  contents d r = s ∧ r.authorizationCodes = m

theorem sim_issueTokens (hr : Memory r) (issue : Bool) (scope : Scope)
    (clientID username code : Str) :
    SimAt True (AgreeCodes d r.authorizationCodes) r (contents d r)
      (RefServer.issueTokens issue scope clientID username code)
      (Server.issueTokens issue scope clientID username code) := by
  unfold RefServer.issueTokens Server.issueTokens
  refine .getS ?_
  refine .bind (Q' := fun r' s' => r = r' ∧ contents d r = s') (.mustGenerate _ ⟨rfl, rfl⟩) ?_
    (fun r' s' h _ => by rw [← h.1, ← h.2]; exact ⟨rfl, rfl⟩)
  rintro accessToken _ _ ⟨rfl, rfl⟩ -
  refine .bind (Q' := fun r' s' => r = r' ∧ contents d r = s') ?_ ?_
    (fun r' s' h _ => by rw [← h.1, ← h.2]; exact ⟨rfl, rfl⟩)
  · cases issue with
    | false => exact .pure _ ⟨rfl, rfl⟩
    | true =>
      refine .getS (.bind (Q' := fun r' s' => r = r' ∧ contents d r = s')
        (.mustGenerate _ ⟨rfl, rfl⟩) ?_ (fun r' s' h _ => h))
      rintro t _ _ ⟨rfl, rfl⟩ -
      exact .pure _ ⟨rfl, rfl⟩
  rintro refreshToken _ _ ⟨rfl, rfl⟩ -
  refine .getS (.timeNow fun now => ?_)
  refine .bind (Q' := AgreeCodes d r.authorizationCodes) ?_ ?_ (fun _ _ h _ => h)
  · exact sim_putAccessToken hr _ _ fun r' h1 h2 => ⟨h1, h2⟩
  rintro _ r' _ ⟨rfl, hcodes⟩ hst
  cases refreshToken with
  | none => exact .pure _ ⟨rfl, hcodes⟩
  | some t =>
    refine .getL (.timeNow fun now' => ?_)
    refine .bind (Q' := AgreeCodes d r.authorizationCodes) ?_ ?_ (fun _ _ h _ => h)
    · exact sim_putRefreshToken (hst.memory hr) _ _ fun r' h1 h2 => ⟨h1, h2.trans hcodes⟩
    · intro _ _ _ h _
      exact .pure _ h

theorem sim_revokeToken (clientID : Str) (access : Bool) (signature : Str) :
    SimAt True (Agree d) r (contents d r)
      (RefServer.revokeToken clientID access signature)
      (Server.revokeToken clientID access signature) := by
  unfold RefServer.revokeToken Server.revokeToken
  refine .getS ?_
  cases access with
  | true =>
    simp only [if_true, contents_access]
    cases hl : r.accessTokens.lookup signature with
    | none => exact .pure _ rfl
    | some p =>
      refine .loadCredential (not_whole_credential (mem_stored_access (lookup_mem hl)))
        fun c hc => ?_
      simp only [Option.map_some, hc, Option.getD_some]
      split
      · exact .pure _ rfl
      · exact .modify (fewer_access r signature).steps (contents_delete_access signature)
  | false =>
    simp only [Bool.false_eq_true, if_false, contents_refresh]
    cases hl : r.refreshTokens.lookup signature with
    | none => exact .pure _ rfl
    | some p =>
      refine .loadCredential (not_whole_credential (mem_stored_refresh (lookup_mem hl)))
        fun c hc => ?_
      simp only [Option.map_some, hc, Option.getD_some]
      split
      · exact .pure _ rfl
      · exact .modify (fewer_refresh r signature).steps (contents_delete_refresh signature)

/-- `found && owner.Secret == password` as the other model has it. -/
def knows (s : Server) (username password : Str) : Bool := match s.users.get? username with
  | none => false
  | some owner => owner.secret = password

theorem sim_checkUser {α : Type} {Q : RefServer → Server → Prop} {quiet : Prop} {s : Server}
    (username password : Str) {f : Bool → Prog RefServer α} {q : Prog Server α}
    (h : SimAt quiet Q r s (f (knows (contents d r) username password)) q) :
    SimAt quiet Q r s (RefServer.checkUser username password >>= f) q := by
  intro b l
  unfold knows at h
  rw [contents_user] at h
  cases hl : r.users.lookup username with
  | none =>
    rw [hl] at h
    have h1 : exec (RefServer.checkUser username password >>= f) ⟨b, r⟩ l =
        exec (f false) ⟨b, r⟩ l := by
      refine exec_bind_ret ?_
      unfold RefServer.checkUser
      rw [exec_getS_bind, hl]
      rfl
    rw [h1]
    exact h b l
  | some p =>
    rw [hl] at h
    cases he : r.entity p with
    | none =>
      refine .inl ⟨r, l, exec_bind_panic ?_, rfl, .refl r, not_whole_user hl he⟩
      unfold RefServer.checkUser RefServer.loadEntity
      rw [exec_getS_bind, hl]
      show exec (_ >>= _) _ _ = _
      rw [exec_bind, exec_getS_bind, he]
      rfl
    | some owner =>
      have h1 : exec (RefServer.checkUser username password >>= f) ⟨b, r⟩ l =
          exec (f (decide (owner.secret = password))) ⟨b, r⟩ l := by
        refine exec_bind_ret ?_
        unfold RefServer.checkUser RefServer.loadEntity
        rw [exec_getS_bind, hl]
        show exec (_ >>= _) _ _ = _
        rw [exec_bind, exec_getS_bind, he]
        rfl
      rw [h1]
      simp only [Option.map_some, he, Option.getD_some] at h
      exact h b l

theorem sim_ignore {s : Server} {p : Prog RefServer Bool} {q : Prog Server Bool} (h : Twin p q)
    (hq : AgreeMarked d r s) :
    SimAt False (AgreeMarked d) r s (RefServer.ignore p) (Server.ignore q) :=
  .twin (.bind h fun _ => .pure _) hq

theorem sim_fail (hr : Memory r) (e : Error) :
    SimAt False (AgreeMarked d) r (contents d r) (RefServer.fail e) (Server.fail e) :=
  .twin (.fail e) (Agree.marked hr rfl)

theorem sim_issue_bind (hr : Memory r) (issue : Bool) (scope : Scope)
    (clientID username code : Str) {f : TokenResponse → Prog RefServer Unit}
    {g : TokenResponse → Prog Server Unit}
    (h : ∀ t r', Memory r' → Steps r r' → r'.authorizationCodes = r.authorizationCodes →
      SimAt False (AgreeMarked d) r' (contents d r') (f t) (g t)) :
    SimAt False (AgreeMarked d) r (contents d r)
      (RefServer.issueTokens issue scope clientID username code >>= f)
      (Server.issueTokens issue scope clientID username code >>= g) := by
  refine .bind (sim_issueTokens hr issue scope clientID username code) ?_ ?_
  · rintro t r' _ ⟨rfl, hc⟩ hs
    exact h t r' (hs.memory hr) hs hc
  · rintro r' _ ⟨rfl, -⟩ hs
    exact Agree.marked (hs.memory hr) rfl

theorem sim_implicit (hr : Memory r) (username password : Str) (rq : AuthorizationRequest) :
    SimAt False (AgreeMarked d) r (contents d r)
      (RefServer.handleImplicitGrant username password rq)
      (Server.handleImplicitGrant username password rq) := by
  unfold RefServer.handleImplicitGrant Server.handleImplicitGrant
  refine .getS ?_
  show SimAt _ _ _ _ (if (!r.config.allowedScope.includes rq.scope) = true then _ else _)
    (if (!r.config.allowedScope.includes rq.scope) = true then _ else _)
  split
  · exact sim_fail hr _
  · refine sim_checkUser (d := d) username password (.getR ?_)
    show SimAt _ _ _ _ (if (!knows (contents d r) username password) = true then _ else _)
      (if (!knows (contents d r) username password) = true then _ else _)
    split
    · exact sim_fail hr _
    · refine sim_issue_bind hr _ _ _ _ _ fun t r' hr' _ _ => ?_
      exact sim_ignore (.writeTokenResponse _) (Agree.marked hr' rfl)

theorem sim_code (hr : Memory r) (username password : Str) (rq : AuthorizationRequest) :
    SimAt False (AgreeMarked d) r (contents d r)
      (RefServer.handleAuthorizationCodeGrantAuthorization username password rq)
      (Server.handleAuthorizationCodeGrantAuthorization username password rq) := by
  unfold RefServer.handleAuthorizationCodeGrantAuthorization
    Server.handleAuthorizationCodeGrantAuthorization
  refine .getS ?_
  show SimAt _ _ _ _ (if (!r.config.allowedScope.includes rq.scope) = true then _ else _)
    (if (!r.config.allowedScope.includes rq.scope) = true then _ else _)
  split
  · exact sim_fail hr _
  · refine sim_checkUser (d := d) username password (.getR ?_)
    show SimAt _ _ _ _ (if (!knows (contents d r) username password) = true then _ else _)
      (if (!knows (contents d r) username password) = true then _ else _)
    split
    · exact sim_fail hr _
    · refine .getS (.bind (Q' := fun r' s' => r = r' ∧ contents d r = s')
        (.mustGenerate _ ⟨rfl, rfl⟩) ?_ ?_)
      · rintro token _ _ ⟨rfl, rfl⟩ -
        refine .getL (.timeNow fun now => ?_)
        refine .bind (Q' := Agree d) (sim_putAuthorizationCode hr _ _) ?_ ?_
        · rintro _ r' _ h hs
          exact sim_ignore (.writeCodeResponse _) (Agree.marked (hs.memory hr) h)
        · intro r' _ h hs
          exact Agree.marked (hs.memory hr) h
      · rintro _ _ ⟨rfl, rfl⟩ -
        exact Agree.marked hr rfl

theorem sim_authorization (hr : Memory r) (rq : Request) :
    SimAt False (AgreeMarked d) r (contents d r) (RefServer.authorizationEndpoint rq)
      (Server.authorizationEndpoint rq) := by
  unfold RefServer.authorizationEndpoint Server.authorizationEndpoint
  cases parseAuthorizationRequest rq with
  | error e => exact sim_fail hr _
  | ok req =>
    simp only
    split
    · exact sim_fail hr _
    · refine .getS ?_
      rw [contents_client]
      cases hl : r.clients.lookup req.clientID with
      | none => exact sim_fail hr _
      | some p =>
        refine .loadEntity (not_whole_client hl) fun client hc => ?_
        simp only [Option.map_some, hc, Option.getD_some]
        split
        · exact sim_fail hr _
        · split
          · exact .twin (.respond _) (Agree.marked hr rfl)
          · split
            · exact sim_implicit hr _ _ _
            · split
              · exact sim_code hr _ _ _
              · exact .pure _ (Agree.marked hr rfl)

theorem sim_password (hr : Memory r) (rq : TokenRequest) :
    SimAt False (AgreeMarked d) r (contents d r)
      (RefServer.handleResourceOwnerPasswordCredentialsGrant rq)
      (Server.handleResourceOwnerPasswordCredentialsGrant rq) := by
  unfold RefServer.handleResourceOwnerPasswordCredentialsGrant
    Server.handleResourceOwnerPasswordCredentialsGrant
  refine sim_checkUser (d := d) rq.username rq.password (.getR ?_)
  show SimAt _ _ _ _ (if (!knows (contents d r) rq.username rq.password) = true then _ else _)
    (if (!knows (contents d r) rq.username rq.password) = true then _ else _)
  split
  · exact sim_fail hr _
  · refine .getS ?_
    show SimAt _ _ _ _ (if (!r.config.allowedScope.includes rq.scope) = true then _ else _)
      (if (!r.config.allowedScope.includes rq.scope) = true then _ else _)
    split
    · exact sim_fail hr _
    · refine sim_issue_bind hr _ _ _ _ _ fun t r' hr' _ _ => ?_
      exact sim_ignore (.writeTokenResponse _) (Agree.marked hr' rfl)

theorem sim_clientCredentials (hr : Memory r) (rq : TokenRequest) {p : Ptr}
    (hl : r.clients.lookup rq.clientID = some p) :
    SimAt False (AgreeMarked d) r (contents d r) (RefServer.handleClientCredentialsGrant rq)
      (Server.handleClientCredentialsGrant rq) := by
  unfold RefServer.handleClientCredentialsGrant Server.handleClientCredentialsGrant
  refine .getS ?_
  rw [contents_client, hl]
  refine .loadEntity (not_whole_client hl) fun client hc => ?_
  rw [Option.getD_some] at hc
  simp only [Option.map_some, hc, Option.getD_some]
  split
  · exact sim_fail hr _
  · refine .getS ?_
    show SimAt _ _ _ _ (if (!r.config.allowedScope.includes rq.scope) = true then _ else _)
      (if (!r.config.allowedScope.includes rq.scope) = true then _ else _)
    split
    · exact sim_fail hr _
    · refine sim_issue_bind hr _ _ _ _ _ fun t r' hr' _ _ => ?_
      exact sim_ignore (.writeTokenResponse _) (Agree.marked hr' rfl)

theorem sim_refresh (hr : Memory r) (rq : TokenRequest) :
    SimAt False (AgreeMarked d) r (contents d r) (RefServer.handleRefreshTokenGrant rq)
      (Server.handleRefreshTokenGrant rq) := by
  unfold RefServer.handleRefreshTokenGrant Server.handleRefreshTokenGrant
  refine .getS ?_
  rw [show (contents d r).config = r.config from rfl]
  cases HS256Token.parse r.config.secret rq.refreshToken with
  | error e => exact sim_fail hr _
  | ok token =>
    refine .getS ?_
    rw [contents_refresh]
    cases hl : r.refreshTokens.lookup token.signatureString with
    | none => exact sim_fail hr _
    | some p =>
      refine .loadCredential (not_whole_credential (mem_stored_refresh (lookup_mem hl)))
        fun c hc => ?_
      simp only [Option.map_some, hc, Option.getD_some]
      refine .timeNow fun now => ?_
      split
      · exact sim_fail hr _
      · split
        · exact sim_fail hr _
        · generalize (if rq.scope.empty = true then c.scope else rq.scope) = scope
          split
          · exact sim_fail hr _
          · refine sim_issue_bind hr _ _ _ _ _ fun t r' hr' _ _ => ?_
            refine .bind (Q' := Agree d) (.modify (fewer_refresh r' _).steps
              (contents_delete_refresh _)) ?_ ?_
            · intro _ r'' _ h hs
              exact sim_ignore (.writeTokenResponse _) (Agree.marked (hs.memory hr') h)
            · intro r'' _ h hs
              exact Agree.marked (hs.memory hr') h

theorem sim_revokeRefresh (hr : Memory r) (clientID signature : Str) :
    SimAt False (AgreeMarked d) r (contents d r) (RefServer.revokeRefreshToken clientID signature)
      (do
        let s ← .getS
        match s.refreshTokens.get? signature with
        | some refreshToken =>
          if refreshToken.clientID ≠ clientID then Server.fail (invalidClient b!"wrong client")
          else do
            Server.revokeToken clientID false signature
            .writeHeader 200
        | none => .writeHeader 200) := by
  unfold RefServer.revokeRefreshToken
  refine .getS ?_
  rw [contents_refresh]
  cases hl : r.refreshTokens.lookup signature with
  | none => exact .twin (.writeHeader _) (Agree.marked hr rfl)
  | some p =>
    refine .loadCredential (not_whole_credential (mem_stored_refresh (lookup_mem hl)))
      fun c hc => ?_
    simp only [Option.map_some, hc, Option.getD_some]
    split
    · exact sim_fail hr _
    · refine .bind (sim_revokeToken _ _ _) ?_ ?_
      · intro _ r' _ h hs
        exact .twin (.writeHeader _) (Agree.marked (hs.memory hr) h)
      · intro r' _ h hs
        exact Agree.marked (hs.memory hr) h

theorem sim_revocation (hr : Memory r) (rq : Request) :
    SimAt False (AgreeMarked d) r (contents d r) (RefServer.revocationEndpoint rq)
      (Server.revocationEndpoint rq) := by
  unfold RefServer.revocationEndpoint Server.revocationEndpoint
  cases parseRevocationRequest rq with
  | error e => exact sim_fail hr _
  | ok req =>
    simp only
    split
    · exact sim_fail hr _
    · refine .getS ?_
      rw [contents_client]
      cases hl : r.clients.lookup req.clientID with
      | none => exact sim_fail hr _
      | some p =>
        refine .loadEntity (not_whole_client hl) fun client hc => ?_
        simp only [Option.map_some, hc, Option.getD_some]
        split
        · exact sim_fail hr _
        · refine .getS ?_
          rw [show (contents d r).config = r.config from rfl]
          cases HS256Token.parse r.config.secret req.token with
          | error e => exact sim_fail hr _
          | ok token =>
            refine .getS ?_
            rw [contents_access]
            cases hl : r.accessTokens.lookup token.signatureString with
            | none => exact sim_revokeRefresh hr _ _
            | some p =>
              refine .loadCredential (not_whole_credential (mem_stored_access (lookup_mem hl)))
                fun c hc => ?_
              simp only [Option.map_some, hc, Option.getD_some]
              split
              · exact sim_fail hr _
              · refine .bind (sim_revokeToken _ _ _) ?_ ?_
                · rintro _ r' _ rfl hs
                  exact sim_revokeRefresh (hs.memory hr) _ _
                · intro r' _ h hs
                  exact Agree.marked (hs.memory hr) h

theorem sim_introspectRefresh (hr : Memory r) (clientID signature : Str)
    (res : IntrospectionResponse) :
    SimAt False (AgreeMarked d) r (contents d r)
      (RefServer.introspectRefreshToken clientID signature res)
      (do
        let s ← .getS
        match s.refreshTokens.get? signature with
        | some refreshToken =>
          if refreshToken.clientID ≠ clientID then Server.fail (invalidClient b!"wrong client")
          else
            Server.ignore (writeIntrospectionResponse { res with
              active := true, scope := refreshToken.scope,
              clientID := refreshToken.clientID, username := refreshToken.username,
              tokenType := RefreshToken, expiresAt := refreshToken.expiresAt.unix })
        | none => Server.ignore (writeIntrospectionResponse res)) := by
  unfold RefServer.introspectRefreshToken
  refine .getS ?_
  rw [contents_refresh]
  cases hl : r.refreshTokens.lookup signature with
  | none => exact sim_ignore (.writeIntrospectionResponse _) (Agree.marked hr rfl)
  | some p =>
    refine .loadCredential (not_whole_credential (mem_stored_refresh (lookup_mem hl)))
      fun c hc => ?_
    simp only [Option.map_some, hc, Option.getD_some]
    split
    · exact sim_fail hr _
    · exact sim_ignore (.writeIntrospectionResponse _) (Agree.marked hr rfl)

theorem sim_introspection (hr : Memory r) (rq : Request) :
    SimAt False (AgreeMarked d) r (contents d r) (RefServer.introspectionEndpoint rq)
      (Server.introspectionEndpoint rq) := by
  unfold RefServer.introspectionEndpoint Server.introspectionEndpoint
  cases parseIntrospectionRequest rq with
  | error e => exact sim_fail hr _
  | ok req =>
    simp only
    split
    · exact sim_fail hr _
    · refine .getS ?_
      rw [contents_client]
      cases hl : r.clients.lookup req.clientID with
      | none => exact sim_fail hr _
      | some p =>
        refine .loadEntity (not_whole_client hl) fun client hc => ?_
        simp only [Option.map_some, hc, Option.getD_some]
        split
        · exact sim_fail hr _
        · refine .getS ?_
          rw [show (contents d r).config = r.config from rfl]
          cases HS256Token.parse r.config.secret req.token with
          | error e => exact sim_fail hr _
          | ok token =>
            refine .getS ?_
            rw [contents_access]
            cases hl : r.accessTokens.lookup token.signatureString with
            | none => exact sim_introspectRefresh hr _ _ _
            | some p =>
              refine .loadCredential (not_whole_credential (mem_stored_access (lookup_mem hl)))
                fun c hc => ?_
              simp only [Option.map_some, hc, Option.getD_some]
              split
              · exact sim_fail hr _
              · exact sim_introspectRefresh hr _ _ _

theorem sim_authorize (hr : Memory r) (rq : Request) (required : Scope) :
    SimAt False (AgreeMarked d) r (contents d r) (RefServer.authorizeLocked rq required)
      (Server.authorizeLocked rq required) := by
  have fl : ∀ e, SimAt False (AgreeMarked d) r (contents d r)
      (RefServer.failBearer e >>= fun _ => pure false)
      (Server.failBearer e >>= fun _ => pure false) := fun e =>
    .twin (.bind (.failBearer e) fun _ => .pure _) (Agree.marked hr rfl)
  unfold RefServer.authorizeLocked Server.authorizeLocked
  cases parseBearerToken rq with
  | error e => exact fl _
  | ok tk =>
    refine .getS ?_
    rw [show (contents d r).config = r.config from rfl]
    cases HS256Token.parse r.config.secret tk with
    | error e => exact fl _
    | ok token =>
      refine .getS ?_
      rw [contents_access]
      cases hl : r.accessTokens.lookup token.signatureString with
      | none => exact fl _
      | some p =>
        refine .loadCredential (not_whole_credential (mem_stored_access (lookup_mem hl)))
          fun c hc => ?_
        simp only [Option.map_some, hc, Option.getD_some]
        refine .timeNow fun now => ?_
        split
        · exact fl _
        · split
          · exact fl _
          · exact .pure _ (Agree.marked hr rfl)

/-- The deletion loop of the other model, by keys and pointers. -/
def remaining (r : RefServer) (d : Fill) (code : Str) (es m : GoMap Ptr) : GoMap Ptr :=
  es.foldl (fun acc e =>
    if ((r.credential e.2).getD d.credential).code = code then acc.del e.1 else acc) m

theorem remaining_mapped (code : Str) (es m : GoMap Ptr) :
    (es.map fun e => (e.1, (r.credential e.2).getD d.credential)).foldl
        (fun acc e => if e.2.code = code then GoMap.del acc e.1 else acc)
        (m.map fun e => (e.1, (r.credential e.2).getD d.credential)) =
      (remaining r d code es m).map fun e => (e.1, (r.credential e.2).getD d.credential) := by
  induction es generalizing m with
  | nil => rfl
  | cons e es ih =>
    unfold remaining at ih ⊢
    simp only [List.map_cons, List.foldl_cons]
    split
    · rw [del_mapped (fun p => (r.credential p).getD d.credential), ih]
    · rw [ih]

theorem contents_remaining_access (code : Str) :
    contents d { r with accessTokens :=
      r.accessTokens.map (remaining r d code (r.accessTokens.getD [])) } =
    { contents d r with
      accessTokens := Server.deleteByCode (contents d r).accessTokens code } := by
  unfold contents
  simp only [Server.mk.injEq, true_and]
  refine ⟨rfl, rfl, ?_, rfl, rfl⟩
  have := remaining_mapped (d := d) (r := r) code (r.accessTokens.getD []) (r.accessTokens.getD [])
  unfold Server.deleteByCode credentialsOf
  rw [this]
  cases r.accessTokens with
  | none => rfl
  | some m => rfl

theorem contents_remaining_refresh (code : Str) :
    contents d { r with refreshTokens :=
      r.refreshTokens.map (remaining r d code (r.refreshTokens.getD [])) } =
    { contents d r with
      refreshTokens := Server.deleteByCode (contents d r).refreshTokens code } := by
  unfold contents
  simp only [Server.mk.injEq, true_and]
  refine ⟨rfl, rfl, rfl, ?_, rfl⟩
  have := remaining_mapped (d := d) (r := r) code (r.refreshTokens.getD [])
    (r.refreshTokens.getD [])
  unfold Server.deleteByCode credentialsOf
  rw [this]
  cases r.refreshTokens with
  | none => rfl
  | some m => rfl

theorem exec_deleteAccessTokens (d : Fill) (code : Str) (es : GoMap Ptr) (r : RefServer) (b : Bool)
    (l : Local) :
    (∃ r', exec (RefServer.deleteAccessTokens code es) ⟨b, r⟩ l = (.panic, ⟨b, r'⟩, l) ∧
      Steps r r' ∧ ∃ e ∈ es, r.credential e.2 = none) ∨
    (exec (RefServer.deleteAccessTokens code es) ⟨b, r⟩ l =
      (.ret (), ⟨b, { r with accessTokens := r.accessTokens.map (remaining r d code es) }⟩, l) ∧
      Steps r { r with accessTokens := r.accessTokens.map (remaining r d code es) }) := by
  induction es generalizing r with
  | nil =>
    have : ({ r with accessTokens := r.accessTokens.map (remaining r d code []) } : RefServer) = r := by
      have : r.accessTokens.map (remaining r d code []) = r.accessTokens := by
        cases r.accessTokens <;> rfl
      rw [this]
    rw [this]
    exact .inr ⟨rfl, .refl r⟩
  | cons e es ih =>
    obtain ⟨k, p⟩ := e
    cases hc : r.credential p with
    | none =>
      refine .inl ⟨r, ?_, .refl r, (k, p), List.mem_cons_self, hc⟩
      unfold RefServer.deleteAccessTokens RefServer.loadCredential
      refine exec_bind_panic ?_
      rw [exec_getS_bind, hc]
      rfl
    | some c =>
      have hload : exec (RefServer.deleteAccessTokens code ((k, p) :: es)) ⟨b, r⟩ l =
          exec (RefServer.deleteAccessTokens code es) ⟨b, if c.code = code then
            { r with accessTokens := r.accessTokens.delete k } else r⟩ l := by
        rw [RefServer.deleteAccessTokens]
        have h1 : exec (RefServer.loadCredential p) ⟨b, r⟩ l = (.ret c, ⟨b, r⟩, l) := by
          unfold RefServer.loadCredential
          rw [exec_getS_bind, hc]
          rfl
        rw [exec_bind_ret h1]
        split <;> rfl
      by_cases hcode : c.code = code
      · rw [if_pos hcode] at hload
        have hst := (fewer_access r k).steps
        have heq : r.accessTokens.map (remaining r d code ((k, p) :: es)) =
            (r.accessTokens.delete k).map (remaining r d code es) := by
          unfold remaining RefMap.delete
          simp only [List.foldl_cons, hc, Option.getD_some, if_pos hcode]
          cases r.accessTokens <;> rfl
        rw [hload, heq]
        rcases ih { r with accessTokens := r.accessTokens.delete k } with
          ⟨r', h1, h2, e, he, h3⟩ | ⟨h1, h2⟩
        · exact .inl ⟨r', h1, hst.trans h2, e, List.mem_cons_of_mem _ he, h3⟩
        · exact .inr ⟨h1, hst.trans h2⟩
      · rw [if_neg hcode] at hload
        have heq : r.accessTokens.map (remaining r d code ((k, p) :: es)) =
            r.accessTokens.map (remaining r d code es) := by
          unfold remaining
          simp only [List.foldl_cons, hc, Option.getD_some, if_neg hcode]
        rw [hload, heq]
        rcases ih r with ⟨r', h1, h2, e, he, h3⟩ | ⟨h1, h2⟩
        · exact .inl ⟨r', h1, h2, e, List.mem_cons_of_mem _ he, h3⟩
        · exact .inr ⟨h1, h2⟩

theorem exec_deleteRefreshTokens (d : Fill) (code : Str) (es : GoMap Ptr) (r : RefServer) (b : Bool)
    (l : Local) :
    (∃ r', exec (RefServer.deleteRefreshTokens code es) ⟨b, r⟩ l = (.panic, ⟨b, r'⟩, l) ∧
      Steps r r' ∧ ∃ e ∈ es, r.credential e.2 = none) ∨
    (exec (RefServer.deleteRefreshTokens code es) ⟨b, r⟩ l =
      (.ret (), ⟨b, { r with refreshTokens := r.refreshTokens.map (remaining r d code es) }⟩, l) ∧
      Steps r { r with refreshTokens := r.refreshTokens.map (remaining r d code es) }) := by
  induction es generalizing r with
  | nil =>
    have : ({ r with refreshTokens := r.refreshTokens.map (remaining r d code []) } : RefServer) = r := by
      have : r.refreshTokens.map (remaining r d code []) = r.refreshTokens := by
        cases r.refreshTokens <;> rfl
      rw [this]
    rw [this]
    exact .inr ⟨rfl, .refl r⟩
  | cons e es ih =>
    obtain ⟨k, p⟩ := e
    cases hc : r.credential p with
    | none =>
      refine .inl ⟨r, ?_, .refl r, (k, p), List.mem_cons_self, hc⟩
      unfold RefServer.deleteRefreshTokens RefServer.loadCredential
      refine exec_bind_panic ?_
      rw [exec_getS_bind, hc]
      rfl
    | some c =>
      have hload : exec (RefServer.deleteRefreshTokens code ((k, p) :: es)) ⟨b, r⟩ l =
          exec (RefServer.deleteRefreshTokens code es) ⟨b, if c.code = code then
            { r with refreshTokens := r.refreshTokens.delete k } else r⟩ l := by
        rw [RefServer.deleteRefreshTokens]
        have h1 : exec (RefServer.loadCredential p) ⟨b, r⟩ l = (.ret c, ⟨b, r⟩, l) := by
          unfold RefServer.loadCredential
          rw [exec_getS_bind, hc]
          rfl
        rw [exec_bind_ret h1]
        split <;> rfl
      by_cases hcode : c.code = code
      · rw [if_pos hcode] at hload
        have hst := (fewer_refresh r k).steps
        have heq : r.refreshTokens.map (remaining r d code ((k, p) :: es)) =
            (r.refreshTokens.delete k).map (remaining r d code es) := by
          unfold remaining RefMap.delete
          simp only [List.foldl_cons, hc, Option.getD_some, if_pos hcode]
          cases r.refreshTokens <;> rfl
        rw [hload, heq]
        rcases ih { r with refreshTokens := r.refreshTokens.delete k } with
          ⟨r', h1, h2, e, he, h3⟩ | ⟨h1, h2⟩
        · exact .inl ⟨r', h1, hst.trans h2, e, List.mem_cons_of_mem _ he, h3⟩
        · exact .inr ⟨h1, hst.trans h2⟩
      · rw [if_neg hcode] at hload
        have heq : r.refreshTokens.map (remaining r d code ((k, p) :: es)) =
            r.refreshTokens.map (remaining r d code es) := by
          unfold remaining
          simp only [List.foldl_cons, hc, Option.getD_some, if_neg hcode]
        rw [hload, heq]
        rcases ih r with ⟨r', h1, h2, e, he, h3⟩ | ⟨h1, h2⟩
        · exact .inl ⟨r', h1, h2, e, List.mem_cons_of_mem _ he, h3⟩
        · exact .inr ⟨h1, h2⟩

theorem sim_deleteAccess (code : Str) :
    SimAt True (Agree d) r (contents d r)
      (RefServer.deleteAccessTokens code (r.accessTokens.getD []))
      (.modifyS fun s => { s with accessTokens := Server.deleteByCode s.accessTokens code }) := by
  intro b l
  rcases exec_deleteAccessTokens d code (r.accessTokens.getD []) r b l with
    ⟨r', h1, h2, e, he, h3⟩ | ⟨h1, h2⟩
  · exact .inl ⟨r', l, h1, rfl, h2, not_whole_credential (k := e.1) (mem_stored_access he) h3⟩
  · exact .inr ⟨_, _, _, l, h1, rfl, contents_remaining_access code, h2, fun _ => rfl⟩

theorem sim_deleteRefresh (code : Str) :
    SimAt True (Agree d) r (contents d r)
      (RefServer.deleteRefreshTokens code (r.refreshTokens.getD []))
      (.modifyS fun s => { s with refreshTokens := Server.deleteByCode s.refreshTokens code }) := by
  intro b l
  rcases exec_deleteRefreshTokens d code (r.refreshTokens.getD []) r b l with
    ⟨r', h1, h2, e, he, h3⟩ | ⟨h1, h2⟩
  · exact .inl ⟨r', l, h1, rfl, h2, not_whole_credential (k := e.1) (mem_stored_refresh he) h3⟩
  · exact .inr ⟨_, _, _, l, h1, rfl, contents_remaining_refresh code, h2, fun _ => rfl⟩

theorem Steps.credential {r r' : RefServer} (h : Steps r r') {p : Ptr} {c : ServerCredential}
    (hc : r.credential p = some c) : ∃ c', r'.credential p = some c' := by
  cases p with
  | none => cases hc
  | some a =>
    rcases h.kept.credentials a c hc with h1 | h1
    · exact ⟨_, h1⟩
    · exact ⟨_, h1⟩

theorem sim_mark (hr : Memory r) {k : Str} {p : Ptr} {c : ServerCredential}
    (hk : r.authorizationCodes.lookup k = some p) (hc : r.credential p = some c) :
    SimAt True (AgreeMarked d) r (contents d r) (RefServer.markUsed p)
      (.modifyS fun s => { s with
        authorizationCodes := s.authorizationCodes.update k fun c => { c with used := true } }) := by
  unfold RefServer.markUsed
  refine .getL ?_
  cases p with
  | none => cases hc
  | some a =>
    rw [hc]
    refine .modify (marked_steps r a) ?_
    exact contents_marked hr hk hc

theorem sim_codeGrant (hr : Memory r) (rq : TokenRequest) :
    SimAt False (AgreeMarked d) r (contents d r) (RefServer.handleAuthorizationCodeGrant rq)
      (Server.handleAuthorizationCodeGrant rq) := by
  unfold RefServer.handleAuthorizationCodeGrant Server.handleAuthorizationCodeGrant
  refine .getS ?_
  rw [show (contents d r).config = r.config from rfl]
  cases HS256Token.parse r.config.secret rq.code with
  | error e => exact sim_fail hr _
  | ok token =>
    refine .getS ?_
    rw [contents_code]
    cases hl : r.authorizationCodes.lookup token.signatureString with
    | none => exact sim_fail hr _
    | some p =>
      refine .loadCredential (not_whole_credential (mem_stored_code (lookup_mem hl)))
        fun c hc => ?_
      simp only [Option.map_some, hc, Option.getD_some]
      split
      · refine .getL (.bind (sim_deleteAccess _) ?_ fun r' _ h hs => Agree.marked (hs.memory hr) h)
        rintro _ r' _ rfl hs
        refine .getL (.bind (sim_deleteRefresh _) ?_
          fun r'' _ h hs' => Agree.marked (hs'.memory (hs.memory hr)) h)
        rintro _ r'' _ rfl hs'
        exact sim_fail (hs'.memory (hs.memory hr)) _
      · refine .timeNow fun now => ?_
        split
        · exact sim_fail hr _
        · split
          · exact sim_fail hr _
          · split
            · exact sim_fail hr _
            · refine sim_issue_bind hr _ _ _ _ _ fun t r' hr' hs hcodes => ?_
              obtain ⟨c', hc'⟩ := hs.credential hc
              refine .bind (sim_mark hr' (by rw [hcodes]; exact hl) hc') ?_ fun _ _ h _ => h
              intro _ r'' _ h _
              exact sim_ignore (.writeTokenResponse _) h

theorem sim_token (hr : Memory r) (rq : Request) :
    SimAt False (AgreeMarked d) r (contents d r) (RefServer.tokenEndpoint rq)
      (Server.tokenEndpoint rq) := by
  unfold RefServer.tokenEndpoint Server.tokenEndpoint
  cases parseTokenRequest rq with
  | error e => exact sim_fail hr _
  | ok req =>
    simp only
    split
    · exact sim_fail hr _
    · refine .getS ?_
      rw [contents_client]
      cases hl : r.clients.lookup req.clientID with
      | none => exact sim_fail hr _
      | some p =>
        refine .loadEntity (not_whole_client hl) fun client hc => ?_
        simp only [Option.map_some, hc, Option.getD_some]
        split
        · exact sim_fail hr _
        · split
          · exact sim_password hr _
          · split
            · exact sim_clientCredentials hr _ hl
            · split
              · exact sim_codeGrant hr _
              · split
                · exact sim_refresh hr _
                · exact .pure _ (Agree.marked hr rfl)

theorem sim_serve (hr : Memory r) (rq : Request) :
    SimAt False (AgreeMarked d) r (contents d r) (RefServer.serveLocked rq)
      (Server.serveLocked rq) := by
  unfold RefServer.serveLocked Server.serveLocked
  simp only
  split
  · exact sim_authorization hr rq
  · split
    · exact sim_token hr rq
    · split
      · exact sim_introspection hr rq
      · split
        · exact sim_revocation hr rq
        · exact .twin .notFound (Agree.marked hr rfl)

end

end OAuth2

namespace OAuth2

/-! ### The token endpoint leaves the map of codes alone -/

/-- The program does not assign to the map of authorization codes. -/
def KeepsCodes {α : Type} (p : Prog RefServer α) : Prop :=
  ∀ s l, (exec p s l).2.1.st.authorizationCodes = s.st.authorizationCodes

namespace KeepsCodes

variable {α β : Type}

theorem bind {p : Prog RefServer α} {f : α → Prog RefServer β} (h : KeepsCodes p)
    (hf : ∀ a, KeepsCodes (f a)) : KeepsCodes (p >>= f) := by
  intro s l
  rw [exec_bind]
  have h1 := h s l
  generalize exec p s l = x at h1
  obtain ⟨o, s', l'⟩ := x
  cases o with
  | ret a => exact (hf a s' l').trans h1
  | panic => exact h1
  | deadlock => exact h1

theorem twin {p : Prog RefServer α} (h : Twin p p) : KeepsCodes p := by
  intro s l
  obtain ⟨o, l', h1, -⟩ := h.exec s.locked s.st s.st l
  rw [show s = ⟨s.locked, s.st⟩ from rfl, h1]

theorem getS : KeepsCodes (Prog.getS : Prog RefServer RefServer) := fun _ _ => rfl

theorem pure (a : α) : KeepsCodes (Pure.pure a : Prog RefServer α) := fun _ _ => rfl

theorem panic : KeepsCodes (.panic : Prog RefServer α) := fun _ _ => rfl

theorem modify {f : RefServer → RefServer}
    (h : ∀ r, (f r).authorizationCodes = r.authorizationCodes) : KeepsCodes (Prog.modifyS f) :=
  fun s _ => h s.st

theorem loadEntity (p : Ptr) : KeepsCodes (RefServer.loadEntity p) :=
  bind getS fun s => by split <;> first | exact panic | exact pure _

theorem loadCredential (p : Ptr) : KeepsCodes (RefServer.loadCredential p) :=
  bind getS fun s => by split <;> first | exact panic | exact pure _

theorem markUsed (p : Ptr) : KeepsCodes (RefServer.markUsed p) :=
  bind getS fun s => by split <;> first | exact panic | exact modify fun _ => rfl

theorem fail (e : Error) : KeepsCodes (RefServer.fail e) :=
  twin (.bind (.writeError _) fun _ => .pure _)

theorem write (r : TokenResponse) : KeepsCodes (RefServer.ignore (writeTokenResponse r)) :=
  twin (.bind (.writeTokenResponse _) fun _ => .pure _)

theorem checkUser (u p : Str) : KeepsCodes (RefServer.checkUser u p) :=
  bind getS fun s => by
    split
    · exact pure _
    · exact bind (loadEntity _) fun _ => pure _

theorem issueTokens (issue : Bool) (scope : Scope) (clientID username code : Str) :
    KeepsCodes (RefServer.issueTokens issue scope clientID username code) := by
  refine bind getS fun s => bind (twin (.mustGenerate _)) fun t => bind ?_ fun o => bind getS fun s =>
    bind (twin (.now fun _ => .ret _)) fun now => bind ?_ fun _ => ?_
  · split
    · exact bind getS fun s => bind (twin (.mustGenerate _)) fun _ => pure _
    · exact pure _
  · exact bind getS fun s => by split <;> first | exact panic | exact modify fun _ => rfl
  · split
    · exact pure _
    · refine bind getS fun s => bind (twin (.now fun _ => .ret _)) fun now => bind ?_ fun _ => pure _
      exact bind getS fun s => by split <;> first | exact panic | exact modify fun _ => rfl

theorem deleteAccess (code : Str) (es : GoMap Ptr) :
    KeepsCodes (RefServer.deleteAccessTokens code es) := by
  induction es with
  | nil => exact pure _
  | cons e es ih =>
    obtain ⟨k, p⟩ := e
    rw [RefServer.deleteAccessTokens]
    refine bind (loadCredential _) fun c => ?_
    split
    · exact bind (modify fun _ => rfl) fun _ => ih
    · exact ih

theorem deleteRefresh (code : Str) (es : GoMap Ptr) :
    KeepsCodes (RefServer.deleteRefreshTokens code es) := by
  induction es with
  | nil => exact pure _
  | cons e es ih =>
    obtain ⟨k, p⟩ := e
    rw [RefServer.deleteRefreshTokens]
    refine bind (loadCredential _) fun c => ?_
    split
    · exact bind (modify fun _ => rfl) fun _ => ih
    · exact ih

theorem codeGrant (rq : TokenRequest) : KeepsCodes (RefServer.handleAuthorizationCodeGrant rq) := by
  refine bind getS fun s => ?_
  split
  · exact fail _
  · refine bind getS fun s => ?_
    split
    · exact fail _
    · refine bind (loadCredential _) fun c => ?_
      split
      · exact bind getS fun s => bind (deleteAccess _ _) fun _ => bind getS fun s =>
          bind (deleteRefresh _ _) fun _ => fail _
      · refine bind (twin (.now fun _ => .ret _)) fun now => ?_
        repeat' split
        all_goals first
          | exact fail _
          | exact bind (issueTokens _ _ _ _ _) fun _ => bind (markUsed _) fun _ => write _

theorem refreshGrant (rq : TokenRequest) : KeepsCodes (RefServer.handleRefreshTokenGrant rq) := by
  refine bind getS fun s => ?_
  split
  · exact fail _
  · refine bind getS fun s => ?_
    split
    · exact fail _
    · refine bind (loadCredential _) fun c => bind (twin (.now fun _ => .ret _)) fun now => ?_
      simp only
      generalize (if rq.scope.empty = true then c.scope else rq.scope) = scope
      repeat' split
      all_goals first
        | exact fail _
        | exact bind (issueTokens _ _ _ _ _) fun _ => bind (modify fun _ => rfl) fun _ => write _

theorem tokenEndpoint (r : Request) : KeepsCodes (RefServer.tokenEndpoint r) := by
  unfold RefServer.tokenEndpoint
  split
  · exact fail _
  · split
    · exact fail _
    · refine bind getS fun s => ?_
      split
      · exact fail _
      · refine bind (loadEntity _) fun c => ?_
        split
        · exact fail _
        · split
          · refine bind (checkUser _ _) fun ok => ?_
            split
            · exact fail _
            · refine bind getS fun s => ?_
              split
              · exact fail _
              · exact bind (issueTokens _ _ _ _ _) fun _ => write _
          · split
            · refine bind getS fun s => bind (loadEntity _) fun c => ?_
              split
              · exact fail _
              · refine bind getS fun s => ?_
                split
                · exact fail _
                · exact bind (issueTokens _ _ _ _ _) fun _ => write _
            · split
              · exact codeGrant _
              · split
                · exact refreshGrant _
                · exact pure _

end KeepsCodes

/-! ### A server without clients -/

/-- Without clients the endpoints have nothing to look up. -/
theorem no_clients {r : RefServer} {s : Server} (hr : ∀ k, r.clients.lookup k = none)
    (hs : s.clients = []) (rq : Request) (b : Bool) (l : Local) :
    ∃ o l', exec (RefServer.serveLocked rq) ⟨b, r⟩ l = (o, ⟨b, r⟩, l') ∧
      exec (Server.serveLocked rq) ⟨b, s⟩ l = (o, ⟨b, s⟩, l') := by
  have fl := fun e => (Twin.fail e).exec b r s l
  unfold RefServer.serveLocked Server.serveLocked
  simp only
  split
  · unfold RefServer.authorizationEndpoint Server.authorizationEndpoint
    cases parseAuthorizationRequest rq with
    | error e => exact fl _
    | ok req =>
      simp only
      split
      · exact fl _
      · simp only [exec_getS_bind, hr, hs, GoMap.get?_nil]
        exact fl _
  · split
    · unfold RefServer.tokenEndpoint Server.tokenEndpoint
      cases parseTokenRequest rq with
      | error e => exact fl _
      | ok req =>
        simp only
        split
        · exact fl _
        · simp only [exec_getS_bind, hr, hs, GoMap.get?_nil]
          exact fl _
    · split
      · unfold RefServer.introspectionEndpoint Server.introspectionEndpoint
        cases parseIntrospectionRequest rq with
        | error e => exact fl _
        | ok req =>
          simp only
          split
          · exact fl _
          · simp only [exec_getS_bind, hr, hs, GoMap.get?_nil]
            exact fl _
      · split
        · unfold RefServer.revocationEndpoint Server.revocationEndpoint
          cases parseRevocationRequest rq with
          | error e => exact fl _
          | ok req =>
            simp only
            split
            · exact fl _
            · simp only [exec_getS_bind, hr, hs, GoMap.get?_nil]
              exact fl _
        · exact Twin.notFound.exec b r s l

end OAuth2

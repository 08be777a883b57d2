import Verif.Lemmas.GoTime
import Verif.Lemmas.Exec
import Verif.Lemmas.Map

namespace OAuth2

/-! ### Programs that touch neither state nor clock -/

/-- The same program over two kinds of state, neither of which it touches; nor does it read the
clock. -/
inductive Plain {ρ σ α : Type} : Prog ρ α → Prog σ α → Prop where
  | ret (a : α) : Plain (.ret a) (.ret a)
  | panic : Plain .panic .panic
  | rand (n : Nat) {k : Option Str → Prog ρ α} {k' : Option Str → Prog σ α}
      (h : ∀ t, Plain (k t) (k' t)) : Plain (.rand n k) (.rand n k')
  | resp (f : Recorder → Recorder) {k : Prog ρ α} {k' : Prog σ α} (h : Plain k k') :
      Plain (.resp f k) (.resp f k')

namespace Plain

variable {ρ σ α β : Type}

theorem bind {p : Prog ρ α} {q : Prog σ α} {f : α → Prog ρ β} {g : α → Prog σ β} (h : Plain p q)
    (hf : ∀ a, Plain (f a) (g a)) : Plain (p >>= f) (q >>= g) := by
  show Plain (Prog.bind p f) (Prog.bind q g)
  induction h with
  | ret a => exact hf a
  | panic => exact .panic
  | rand n _ ih => exact .rand n ih
  | resp f _ ih => exact .resp f ih

theorem exec {p : Prog ρ α} {q : Prog σ α} (h : Plain p q) (φ : Time → Time) (b : Bool) (r : ρ)
    (s : σ) (l : Local) :
    ∃ o l', OAuth2.exec p ⟨b, r⟩ l = (o, ⟨b, r⟩, l') ∧
      OAuth2.exec q ⟨b, s⟩ (l.seen φ) = (o, ⟨b, s⟩, l'.seen φ) ∧ l'.clock = l.clock := by
  induction h generalizing l with
  | ret a => exact ⟨_, _, rfl, rfl, rfl⟩
  | panic => exact ⟨_, _, rfl, rfl, rfl⟩
  | rand n _ ih =>
    simp only [OAuth2.exec]
    by_cases hn : n ≤ l.coins.length
    · rw [if_pos hn, if_pos (show n ≤ (l.seen φ).coins.length from hn)]
      exact ih _ { l with coins := l.coins.drop n }
    · rw [if_neg hn, if_neg (show ¬ n ≤ (l.seen φ).coins.length from hn)]
      exact ih _ { l with coins := [] }
  | resp f _ ih => exact ih { l with w := f l.w }

theorem pure (a : α) : Plain (Pure.pure a : Prog ρ α) (Pure.pure a : Prog σ α) := .ret a

theorem respond (f : Recorder → Recorder) :
    Plain (Prog.respond f : Prog ρ Unit) (Prog.respond f : Prog σ Unit) := .resp f (.ret ())

theorem writeHeader (c : Int) :
    Plain (Prog.writeHeader c : Prog ρ Unit) (Prog.writeHeader c : Prog σ Unit) := by
  unfold Prog.writeHeader
  split
  · exact .panic
  · exact .respond _

theorem write (j : Str) (c : Int) : Plain (write j c : Prog ρ Bool) (OAuth2.write j c : Prog σ Bool) :=
  bind (respond _) fun _ => bind (respond _) fun _ => bind (respond _) fun _ =>
    bind (writeHeader _) fun _ => bind (respond _) fun _ => pure _

theorem writeUnencodable (c : Int) :
    Plain (writeUnencodable c : Prog ρ Bool) (OAuth2.writeUnencodable c : Prog σ Bool) :=
  bind (respond _) fun _ => bind (respond _) fun _ => bind (respond _) fun _ =>
    bind (writeHeader _) fun _ => pure _

theorem writeRedirect (u : Str) (m : GoMap Str) (f : Bool) :
    Plain (writeRedirect u m f : Prog ρ Bool) (OAuth2.writeRedirect u m f : Prog σ Bool) := by
  unfold OAuth2.writeRedirect
  split
  · exact pure _
  · exact bind (respond _) fun _ => bind (respond _) fun _ => bind (respond _) fun _ =>
      bind (respond _) fun _ => bind (writeHeader _) fun _ => bind (respond _) fun _ => pure _

theorem writeError (e : GoErr) :
    Plain (writeError e : Prog ρ Bool) (OAuth2.writeError e : Prog σ Bool) := by
  refine bind (respond _) fun _ => ?_
  split
  · exact writeRedirect _ _ _
  · exact write _ _

theorem writeBearerError (e : GoErr) :
    Plain (writeBearerError e : Prog ρ Bool) (OAuth2.writeBearerError e : Prog σ Bool) := by
  unfold OAuth2.writeBearerError
  split
  · exact bind (writeHeader _) fun _ => bind (respond _) fun _ => pure _
  · split
    · exact bind (writeHeader _) fun _ => bind (respond _) fun _ => pure _
    · exact bind (respond _) fun _ => bind (writeHeader _) fun _ => bind (respond _) fun _ => pure _

theorem writeTokenResponse (r : TokenResponse) :
    Plain (writeTokenResponse r : Prog ρ Bool) (OAuth2.writeTokenResponse r : Prog σ Bool) := by
  unfold OAuth2.writeTokenResponse
  split
  · exact writeRedirect _ _ _
  · exact write _ _

theorem writeCodeResponse (r : CodeResponse) :
    Plain (writeCodeResponse r : Prog ρ Bool) (OAuth2.writeCodeResponse r : Prog σ Bool) :=
  writeRedirect _ _ _

theorem writeIntrospectionResponse (r : IntrospectionResponse) :
    Plain (writeIntrospectionResponse r : Prog ρ Bool)
      (OAuth2.writeIntrospectionResponse r : Prog σ Bool) := by
  unfold OAuth2.writeIntrospectionResponse
  split
  · exact pure _
  · split
    · exact write _ _
    · exact writeUnencodable _

theorem mustGenerate (secret : Str) (n : Int) :
    Plain (HS256Token.mustGenerate secret n : Prog ρ HS256Token)
      (HS256Token.mustGenerate secret n : Prog σ HS256Token) := by
  unfold HS256Token.mustGenerate
  refine bind ?_ fun a => ?_
  · unfold HS256Token.generate
    split
    · exact .panic
    · refine bind (.rand _ fun _ => .ret _) fun a => ?_
      split
      · exact pure _
      · exact pure _
  · split
    · exact .panic
    · exact pure _

theorem fail (e : Error) : Plain (GoServer.fail e) (Server.fail e) :=
  bind (writeError _) fun _ => pure _

theorem failBearer (e : Error) : Plain (GoServer.failBearer e) (Server.failBearer e) :=
  bind (writeBearerError _) fun _ => pure _

theorem notFound : Plain GoServer.notFound Server.notFound :=
  bind (respond _) fun _ => bind (respond _) fun _ => bind (writeHeader _) fun _ => respond _

theorem ignore {p : Prog GoServer Bool} {q : Prog Server Bool} (h : Plain p q) :
    Plain (GoServer.ignore p) (Server.ignore q) := bind h fun _ => pure _

end Plain

/-! ### Seeing the times of Go as numbers -/

/-- A way to see times as numbers: what a time and an instant look like, which times may be stored, and
at which instants the clocks may be read. -/
structure TimeView where
  see : GoTime → Time
  now : Time → Time
  ok : GoTime → Prop
  reads : Time → Prop

/-- The view fits the clocks and the configuration. -/
structure TimeView.Fits (V : TimeView) (c : Clocks) (cfg : GoConfig) : Prop where
  add : ∀ t d, V.reads t → d ∈ [cfg.accessTokenLifespan, cfg.refreshTokenLifespan,
    cfg.authorizationCodeLifespan] → V.ok ((c.now t).add d) ∧
      V.see ((c.now t).add d) = V.now t + d.toInt
  before : ∀ g t, V.ok g → V.reads t → g.before (c.now t) = Time.before (V.see g) (V.now t)

variable {c : Clocks} (cfg : GoConfig) (V : TimeView)

/-- The server fits the view. -/
structure TimeView.Good (g : GoServer) : Prop where
  config : g.config = cfg
  times : g.Times V.ok

variable {α β : Type}

/-- The second program does what the first does, seen through the view. -/
def Lift (p : Prog GoServer α) (q : Prog Server α) : Prop :=
  ∀ b g l, V.Good cfg g → (∀ n, V.reads (l.clock n)) →
    ∃ o b' g' l', exec p ⟨b, g⟩ l = (o, ⟨b', g'⟩, l') ∧ V.Good cfg g' ∧ l'.clock = l.clock ∧
      exec q ⟨b, g.seen V.see⟩ (l.seen V.now) = (o, ⟨b', g'.seen V.see⟩, l'.seen V.now)

variable {cfg : GoConfig} {V : TimeView}

namespace Lift

theorem plain {p : Prog GoServer α} {q : Prog Server α} (h : Plain p q) : Lift cfg V p q := by
  intro b g l hg hl
  obtain ⟨o, l', h1, h2, h3⟩ := h.exec V.now b g (g.seen V.see) l
  exact ⟨o, b, g, l', h1, hg, h3, h2⟩

theorem pure (a : α) : Lift cfg V (Pure.pure a) (Pure.pure a) := plain (.pure a)

theorem bind {p : Prog GoServer α} {q : Prog Server α} {f : α → Prog GoServer β}
    {h : α → Prog Server β} (hp : Lift cfg V p q) (hf : ∀ a, Lift cfg V (f a) (h a)) :
    Lift cfg V (p >>= f) (q >>= h) := by
  intro b g l hg hl
  obtain ⟨o, b', g', l', h1, h2, h3, h4⟩ := hp b g l hg hl
  cases o with
  | ret a =>
    rw [exec_bind_ret h1, exec_bind_ret h4]
    obtain ⟨o, b'', g'', l'', k1, k2, k3, k4⟩ := hf a b' g' l' h2 (by rw [h3]; exact hl)
    exact ⟨o, b'', g'', l'', k1, k2, k3.trans h3, k4⟩
  | panic =>
    rw [exec_bind_panic h1, exec_bind_panic h4]
    exact ⟨_, b', g', l', rfl, h2, h3, rfl⟩
  | deadlock =>
    rw [exec_bind, h1, exec_bind, h4]
    exact ⟨_, b', g', l', rfl, h2, h3, rfl⟩

theorem get {f : GoServer → Prog GoServer α} {h : Server → Prog Server α}
    (hf : ∀ g, V.Good cfg g → Lift cfg V (f g) (h (g.seen V.see))) :
    Lift cfg V (Prog.getS >>= f) (Prog.getS >>= h) := fun b g l hg hl => hf g hg b g l hg hl

theorem now {f : GoTime → Prog GoServer α} {h : Time → Prog Server α}
    (hf : ∀ t, V.reads t → Lift cfg V (f (c.now t)) (h (V.now t))) :
    Lift cfg V (GoServer.now c >>= f) (Prog.timeNow >>= h) := fun b g l hg hl =>
  hf _ (hl l.tick) b g { l with tick := l.tick + 1 } hg hl

theorem modify {f : GoServer → GoServer} {h : Server → Server}
    (hf : ∀ g, V.Good cfg g → V.Good cfg (f g) ∧ h (g.seen V.see) = (f g).seen V.see) :
    Lift cfg V (Prog.modifyS f) (Prog.modifyS h) := by
  intro b g l hg hl
  refine ⟨_, _, _, _, rfl, (hf g hg).1, rfl, ?_⟩
  show (_, Shared.mk b (h (g.seen V.see)), _) = _
  rw [(hf g hg).2]

theorem mustGenerate (g : GoServer) :
    Lift cfg V (g.config.mustGenerate) ((g.seen V.see).config.mustGenerate) :=
  plain (.mustGenerate _ _)

theorem fail (e : Error) : Lift cfg V (GoServer.fail e) (Server.fail e) := plain (.fail e)

end Lift

/-! ### Maps -/

theorem get?_seen (f : GoTime → Time) (m : GoMap GoCredential) (k : Str) :
    (seenMap f m).get? k = (m.get? k).map (GoCredential.seen f) := by
  induction m with
  | nil => rfl
  | cons e m ih =>
    obtain ⟨k', v⟩ := e
    show GoMap.get? ((k', v.seen f) :: seenMap f m) k = _
    rw [GoMap.get?_cons, GoMap.get?_cons, ih]
    split <;> rfl

theorem del_seen (f : GoTime → Time) (m : GoMap GoCredential) (k : Str) :
    (seenMap f m).del k = seenMap f (m.del k) := by
  unfold GoMap.del seenMap
  rw [List.filter_map]
  rfl

theorem set_seen (f : GoTime → Time) (m : GoMap GoCredential) (k : Str) (v : GoCredential) :
    (seenMap f m).set k (v.seen f) = seenMap f (m.set k v) := by
  unfold GoMap.set
  rw [del_seen]
  rfl

theorem update_seen (f : GoTime → Time) (m : GoMap GoCredential) (k : Str) :
    (seenMap f m).update k (fun c => { c with used := true }) =
      seenMap f (m.update k fun c => { c with used := true }) := by
  unfold GoMap.update seenMap
  rw [List.map_map, List.map_map]
  refine List.map_congr_left fun e _ => ?_
  simp only [Function.comp]
  split <;> rfl

theorem deleteByCode_seen (f : GoTime → Time) (m : GoMap GoCredential) (code : Str) :
    Server.deleteByCode (seenMap f m) code = seenMap f (GoServer.deleteByCode m code) := by
  have key : ∀ (es acc : GoMap GoCredential),
      List.foldl (fun acc e => if e.2.code = code then GoMap.del acc e.1 else acc) (seenMap f acc)
        (seenMap f es) =
      seenMap f (List.foldl (fun acc e => if e.2.code = code then GoMap.del acc e.1 else acc) acc es) := by
    intro es
    induction es with
    | nil => exact fun _ => rfl
    | cons e es ih =>
      intro acc
      show List.foldl _ (if e.2.code = code then (seenMap f acc).del e.1 else seenMap f acc) (seenMap f es) = seenMap f (List.foldl _ (if e.2.code = code then acc.del e.1 else acc) es)
      split
      · rw [del_seen]; exact ih _
      · exact ih _
  exact key m m

section
variable {ok : GoTime → Prop} {m : GoMap GoCredential}

theorem times_del (h : ∀ e ∈ m, ok e.2.expiresAt) (k : Str) : ∀ e ∈ m.del k, ok e.2.expiresAt :=
  fun e he => h e (List.mem_filter.1 he).1

theorem times_set (h : ∀ e ∈ m, ok e.2.expiresAt) (k : Str) {v : GoCredential}
    (hv : ok v.expiresAt) : ∀ e ∈ m.set k v, ok e.2.expiresAt := by
  intro e he
  rcases List.mem_cons.1 he with rfl | he
  · exact hv
  · exact times_del h k e he

theorem times_update (h : ∀ e ∈ m, ok e.2.expiresAt) (k : Str) :
    ∀ e ∈ m.update k (fun c => { c with used := true }), ok e.2.expiresAt := by
  intro e he
  obtain ⟨e', he', rfl⟩ := List.mem_map.1 he
  split
  · exact h e' he'
  · exact h e' he'

theorem times_deleteByCode (h : ∀ e ∈ m, ok e.2.expiresAt) (code : Str) :
    ∀ e ∈ GoServer.deleteByCode m code, ok e.2.expiresAt := by
  have key : ∀ (es acc : GoMap GoCredential), (∀ e ∈ acc, ok e.2.expiresAt) →
      ∀ e ∈ List.foldl (fun acc e => if e.2.code = code then GoMap.del acc e.1 else acc) acc es,
        ok e.2.expiresAt := by
    intro es
    induction es with
    | nil => exact fun _ h => h
    | cons e es ih =>
      intro acc hacc
      refine ih _ ?_
      simp only
      split
      · exact times_del hacc _
      · exact hacc
  exact key m m h

theorem times_get? (h : ∀ e ∈ m, ok e.2.expiresAt) {k : Str} {v : GoCredential}
    (hv : m.get? k = some v) : ok v.expiresAt := h _ (GoMap.get?_some_mem hv)

end

/-! ### The handlers -/

theorem lift_issueTokens (hV : V.Fits c cfg) (issue : Bool) (scope : Scope) (clientID username code : Str) :
    Lift cfg V (GoServer.issueTokens c issue scope clientID username code)
      (Server.issueTokens issue scope clientID username code) := by
  unfold GoServer.issueTokens Server.issueTokens
  refine .get fun g hg => .bind (.mustGenerate g) fun accessToken => ?_
  refine .bind (α := Option HS256Token) ?_ fun refreshToken => ?_
  · cases issue with
    | false => exact .pure _
    | true => exact .get fun g hg => .bind (.mustGenerate g) fun t => .pure _
  refine .get fun g hg => .now fun t ht => ?_
  have hq : (g.config.accessTokenLifespan / 1000000000).toInt =
      (g.seen V.see).config.accessTokenLifespan.tdiv second := by
    show _ = g.config.accessTokenLifespan.toInt.tdiv 1000000000
    have h1 := i64_range g.config.accessTokenLifespan
    obtain ⟨q, r, hq, hr, hd, hp, hn⟩ := tdivmod g.config.accessTokenLifespan.toInt
    rw [Int64.toInt_div, show (1000000000 : Int64).toInt = 1000000000 from rfl, hq,
      bmod64 (by omega) (by omega)]
  rw [hq]
  refine .bind (.modify fun g hg => ?_) fun _ => ?_
  · have hd := hV.add t g.config.accessTokenLifespan ht (by rw [hg.config]; simp)
    refine ⟨⟨hg.config, times_set hg.times.access _ hd.1, hg.times.refresh, hg.times.codes⟩, ?_⟩
    show Server.mk _ _ _ (GoMap.set (seenMap _ _) _ _) _ _ = Server.mk _ _ _ (seenMap _ _) _ _
    rw [← set_seen]
    unfold GoCredential.seen
    simp only
    rw [hd.2]
    rfl
  · cases refreshToken with
    | none => exact .pure _
    | some tok =>
      refine .now fun t ht => .bind (.modify fun g hg => ?_) fun _ => .pure _
      have hd := hV.add t g.config.refreshTokenLifespan ht (by rw [hg.config]; simp)
      refine ⟨⟨hg.config, hg.times.access, times_set hg.times.refresh _ hd.1, hg.times.codes⟩, ?_⟩
      show Server.mk _ _ _ _ (GoMap.set (seenMap _ _) _ _) _ = Server.mk _ _ _ _ (seenMap _ _) _
      rw [← set_seen]
      unfold GoCredential.seen
      simp only
      rw [hd.2]
      rfl

theorem lift_revokeToken (clientID : Str) (access : Bool) (signature : Str) :
    Lift cfg V (GoServer.revokeToken clientID access signature)
      (Server.revokeToken clientID access signature) := by
  unfold GoServer.revokeToken Server.revokeToken
  refine .get fun g hg => ?_
  have hm : GoMap.get? (if access then (g.seen V.see).accessTokens else (g.seen V.see).refreshTokens)
      signature = (GoMap.get? (if access then g.accessTokens else g.refreshTokens) signature).map
        (GoCredential.seen V.see) := by
    cases access with
    | true => exact get?_seen _ _ _
    | false => exact get?_seen _ _ _
  rw [hm]
  cases GoMap.get? (if access then g.accessTokens else g.refreshTokens) signature with
  | none => exact .pure _
  | some token =>
    simp only [Option.map_some]
    show Lift cfg V (if token.clientID ≠ clientID then _ else _) (if token.clientID ≠ clientID then _ else _)
    split
    · exact .pure _
    · cases access with
      | true =>
        refine .modify fun g hg =>
          ⟨⟨hg.config, times_del hg.times.access _, hg.times.refresh, hg.times.codes⟩, ?_⟩
        show Server.mk _ _ _ (GoMap.del (seenMap _ _) _) _ _ = Server.mk _ _ _ (seenMap _ _) _ _
        rw [del_seen]
        rfl
      | false =>
        refine .modify fun g hg =>
          ⟨⟨hg.config, hg.times.access, times_del hg.times.refresh _, hg.times.codes⟩, ?_⟩
        show Server.mk _ _ _ _ (GoMap.del (seenMap _ _) _) _ = Server.mk _ _ _ _ (seenMap _ _) _
        rw [del_seen]
        rfl

/-- `found && owner.Secret == password`. -/
def knownUser (users : GoMap ServerEntity) (username password : Str) : Bool :=
  match users.get? username with
  | none => false
  | some owner => owner.secret = password

theorem lift_implicit (hV : V.Fits c cfg) (username password : Str) (rq : AuthorizationRequest) :
    Lift cfg V (GoServer.handleImplicitGrant c username password rq)
      (Server.handleImplicitGrant username password rq) := by
  unfold GoServer.handleImplicitGrant Server.handleImplicitGrant
  refine .get fun g hg => ?_
  show Lift cfg V (if (!g.config.allowedScope.includes rq.scope) = true then _ else _)
    (if (!g.config.allowedScope.includes rq.scope) = true then _ else _)
  split
  · exact .fail _
  · refine .get fun g hg => ?_
    show Lift cfg V (if (!knownUser g.users username password) = true then _ else _)
      (if (!knownUser g.users username password) = true then _ else _)
    split
    · exact .fail _
    · exact .bind (lift_issueTokens hV _ _ _ _ _) fun t =>
        .plain (.ignore (.writeTokenResponse _))

theorem lift_code (hV : V.Fits c cfg) (username password : Str) (rq : AuthorizationRequest) :
    Lift cfg V (GoServer.handleAuthorizationCodeGrantAuthorization c username password rq)
      (Server.handleAuthorizationCodeGrantAuthorization username password rq) := by
  unfold GoServer.handleAuthorizationCodeGrantAuthorization
    Server.handleAuthorizationCodeGrantAuthorization
  refine .get fun g hg => ?_
  show Lift cfg V (if (!g.config.allowedScope.includes rq.scope) = true then _ else _)
    (if (!g.config.allowedScope.includes rq.scope) = true then _ else _)
  split
  · exact .fail _
  · refine .get fun g hg => ?_
    show Lift cfg V (if (!knownUser g.users username password) = true then _ else _)
      (if (!knownUser g.users username password) = true then _ else _)
    split
    · exact .fail _
    · refine .get fun g hg => ?_
      refine .bind (.mustGenerate g) fun code => ?_
      refine .now fun t ht => ?_
      refine .bind (.modify fun g hg => ?_) fun _ => .plain (.ignore (.writeCodeResponse _))
      have hd := hV.add t g.config.authorizationCodeLifespan ht (by rw [hg.config]; simp)
      refine ⟨⟨hg.config, hg.times.access, hg.times.refresh, times_set hg.times.codes _ hd.1⟩, ?_⟩
      show Server.mk _ _ _ _ _ (GoMap.set (seenMap _ _) _ _) = Server.mk _ _ _ _ _ (seenMap _ _)
      rw [← set_seen]
      unfold GoCredential.seen
      simp only
      rw [hd.2]
      rfl

theorem lift_authorization (hV : V.Fits c cfg) (rq : Request) :
    Lift cfg V (GoServer.authorizationEndpoint c rq) (Server.authorizationEndpoint rq) := by
  unfold GoServer.authorizationEndpoint Server.authorizationEndpoint
  cases parseAuthorizationRequest rq with
  | error e => exact .fail _
  | ok req =>
    simp only
    split
    · exact .fail _
    · refine .get fun g hg => ?_
      show Lift cfg V (match g.clients.get? req.clientID with | none => _ | some client => _)
        (match g.clients.get? req.clientID with | none => _ | some client => _)
      cases g.clients.get? req.clientID with
      | none => exact .fail _
      | some client =>
        simp only
        split
        · exact .fail _
        · split
          · exact .plain (.respond _)
          · split
            · exact lift_implicit hV _ _ _
            · split
              · exact lift_code hV _ _ _
              · exact .pure _

theorem lift_password (hV : V.Fits c cfg) (rq : TokenRequest) :
    Lift cfg V (GoServer.handleResourceOwnerPasswordCredentialsGrant c rq)
      (Server.handleResourceOwnerPasswordCredentialsGrant rq) := by
  unfold GoServer.handleResourceOwnerPasswordCredentialsGrant
    Server.handleResourceOwnerPasswordCredentialsGrant
  refine .get fun g hg => ?_
  show Lift cfg V (if (!knownUser g.users rq.username rq.password) = true then _ else _)
    (if (!knownUser g.users rq.username rq.password) = true then _ else _)
  split
  · exact .fail _
  · refine .get fun g hg => ?_
    show Lift cfg V (if (!g.config.allowedScope.includes rq.scope) = true then _ else _)
      (if (!g.config.allowedScope.includes rq.scope) = true then _ else _)
    split
    · exact .fail _
    · exact .bind (lift_issueTokens hV _ _ _ _ _) fun t => .plain (.ignore (.writeTokenResponse _))

theorem lift_clientCredentials (hV : V.Fits c cfg) (rq : TokenRequest) :
    Lift cfg V (GoServer.handleClientCredentialsGrant c rq)
      (Server.handleClientCredentialsGrant rq) := by
  unfold GoServer.handleClientCredentialsGrant Server.handleClientCredentialsGrant
  refine .get fun g hg => ?_
  show Lift cfg V (match g.clients.get? rq.clientID with | none => _ | some client => _)
    (match g.clients.get? rq.clientID with | none => _ | some client => _)
  cases g.clients.get? rq.clientID with
  | none => exact .plain .panic
  | some client =>
    simp only
    split
    · exact .fail _
    · refine .get fun g hg => ?_
      show Lift cfg V (if (!g.config.allowedScope.includes rq.scope) = true then _ else _)
        (if (!g.config.allowedScope.includes rq.scope) = true then _ else _)
      split
      · exact .fail _
      · exact .bind (lift_issueTokens hV _ _ _ _ _) fun t => .plain (.ignore (.writeTokenResponse _))

theorem lift_codeGrant (hV : V.Fits c cfg) (rq : TokenRequest) :
    Lift cfg V (GoServer.handleAuthorizationCodeGrant c rq)
      (Server.handleAuthorizationCodeGrant rq) := by
  unfold GoServer.handleAuthorizationCodeGrant Server.handleAuthorizationCodeGrant
  refine .get fun g hg => ?_
  show Lift cfg V (match HS256Token.parse g.config.secret rq.code with | .error err => _ | .ok code => _)
    (match HS256Token.parse g.config.secret rq.code with | .error err => _ | .ok code => _)
  cases HS256Token.parse g.config.secret rq.code with
  | error e => exact .fail _
  | ok code =>
    simp only
    refine .get fun g hg => ?_
    rw [show (g.seen V.see).authorizationCodes.get? code.signatureString = _ from get?_seen _ _ _]
    cases hk : g.authorizationCodes.get? code.signatureString with
    | none => exact .fail _
    | some stored =>
      simp only [Option.map_some]
      have hok := times_get? hg.times.codes hk
      show Lift cfg V (if stored.used = true then _ else _) (if stored.used = true then _ else _)
      split
      · refine .bind (.modify fun g hg => ?_) fun _ => .bind (.modify fun g hg => ?_) fun _ => .fail _
        · refine ⟨⟨hg.config, times_deleteByCode hg.times.access _, hg.times.refresh, hg.times.codes⟩, ?_⟩
          show Server.mk _ _ _ (Server.deleteByCode (seenMap _ _) _) _ _ = Server.mk _ _ _ (seenMap _ _) _ _
          rw [deleteByCode_seen]
          rfl
        · refine ⟨⟨hg.config, hg.times.access, times_deleteByCode hg.times.refresh _, hg.times.codes⟩, ?_⟩
          show Server.mk _ _ _ _ (Server.deleteByCode (seenMap _ _) _) _ = Server.mk _ _ _ _ (seenMap _ _) _
          rw [deleteByCode_seen]
          rfl
      · refine .now fun t ht => ?_
        rw [hV.before _ t hok ht]
        show Lift cfg V (if Time.before (V.see stored.expiresAt) (V.now t) = true then _
            else if stored.clientID ≠ rq.clientID then _ else if stored.redirectURI ≠ rq.redirectURI then _ else _)
          (if Time.before (V.see stored.expiresAt) (V.now t) = true then _
            else if stored.clientID ≠ rq.clientID then _ else if stored.redirectURI ≠ rq.redirectURI then _ else _)
        split
        · exact .fail _
        · split
          · exact .fail _
          · split
            · exact .fail _
            · refine .bind (lift_issueTokens hV _ _ _ _ _) fun t => .bind (.modify fun g hg => ?_) fun _ =>
                .plain (.ignore (.writeTokenResponse _))
              refine ⟨⟨hg.config, hg.times.access, hg.times.refresh, times_update hg.times.codes _⟩, ?_⟩
              show Server.mk _ _ _ _ _ (GoMap.update (seenMap _ _) _ _) = Server.mk _ _ _ _ _ (seenMap _ _)
              rw [update_seen]
              rfl

theorem lift_refresh (hV : V.Fits c cfg) (rq : TokenRequest) :
    Lift cfg V (GoServer.handleRefreshTokenGrant c rq) (Server.handleRefreshTokenGrant rq) := by
  unfold GoServer.handleRefreshTokenGrant Server.handleRefreshTokenGrant
  refine .get fun g hg => ?_
  show Lift cfg V (match HS256Token.parse g.config.secret rq.refreshToken with | .error err => _ | .ok code => _)
    (match HS256Token.parse g.config.secret rq.refreshToken with | .error err => _ | .ok code => _)
  cases HS256Token.parse g.config.secret rq.refreshToken with
  | error e => exact .fail _
  | ok tok =>
    simp only
    refine .get fun g hg => ?_
    rw [show (g.seen V.see).refreshTokens.get? tok.signatureString = _ from get?_seen _ _ _]
    cases hk : g.refreshTokens.get? tok.signatureString with
    | none => exact .fail _
    | some stored =>
      simp only [Option.map_some]
      have hok := times_get? hg.times.refresh hk
      refine .now fun t ht => ?_
      rw [hV.before _ t hok ht]
      show Lift cfg V (if Time.before (V.see stored.expiresAt) (V.now t) = true then _
          else if stored.clientID ≠ rq.clientID then _ else _)
        (if Time.before (V.see stored.expiresAt) (V.now t) = true then _
          else if stored.clientID ≠ rq.clientID then _ else _)
      split
      · exact .fail _
      · split
        · exact .fail _
        · rw [show (stored.seen V.see).scope = stored.scope from rfl]
          generalize (if rq.scope.empty = true then stored.scope else rq.scope) = scope
          split
          · exact .fail _
          · refine .bind (lift_issueTokens hV _ _ _ _ _) fun t => .bind (.modify fun g hg => ?_) fun _ =>
              .plain (.ignore (.writeTokenResponse _))
            refine ⟨⟨hg.config, hg.times.access, times_del hg.times.refresh _, hg.times.codes⟩, ?_⟩
            show Server.mk _ _ _ _ (GoMap.del (seenMap _ _) _) _ = Server.mk _ _ _ _ (seenMap _ _) _
            rw [del_seen]
            rfl

theorem lift_token (hV : V.Fits c cfg) (rq : Request) :
    Lift cfg V (GoServer.tokenEndpoint c rq) (Server.tokenEndpoint rq) := by
  unfold GoServer.tokenEndpoint Server.tokenEndpoint
  cases parseTokenRequest rq with
  | error e => exact .fail _
  | ok req =>
    simp only
    split
    · exact .fail _
    · refine .get fun g hg => ?_
      show Lift cfg V (match g.clients.get? req.clientID with | none => _ | some client => _)
        (match g.clients.get? req.clientID with | none => _ | some client => _)
      cases g.clients.get? req.clientID with
      | none => exact .fail _
      | some client =>
        simp only
        split
        · exact .fail _
        · split
          · exact lift_password hV _
          · split
            · exact lift_clientCredentials hV _
            · split
              · exact lift_codeGrant hV _
              · split
                · exact lift_refresh hV _
                · exact .pure _

theorem lift_revocation (rq : Request) :
    Lift cfg V (GoServer.revocationEndpoint rq) (Server.revocationEndpoint rq) := by
  unfold GoServer.revocationEndpoint Server.revocationEndpoint
  cases parseRevocationRequest rq with
  | error e => exact .fail _
  | ok req =>
    simp only
    split
    · exact .fail _
    · refine .get fun g hg => ?_
      show Lift cfg V (match g.clients.get? req.clientID with | none => _ | some client => _)
        (match g.clients.get? req.clientID with | none => _ | some client => _)
      cases g.clients.get? req.clientID with
      | none => exact .fail _
      | some client =>
        simp only
        split
        · exact .fail _
        · refine .get fun g hg => ?_
          show Lift cfg V (match HS256Token.parse g.config.secret req.token with | .error err => _ | .ok token => _)
            (match HS256Token.parse g.config.secret req.token with | .error err => _ | .ok token => _)
          cases HS256Token.parse g.config.secret req.token with
          | error e => exact .fail _
          | ok token =>
            simp only
            have hr : Lift cfg V (do
                let s ← Prog.getS
                match s.refreshTokens.get? token.signatureString with
                | some refreshToken =>
                  if refreshToken.clientID ≠ req.clientID then GoServer.fail (invalidClient b!"wrong client")
                  else do
                    GoServer.revokeToken req.clientID false token.signatureString
                    Prog.writeHeader 200
                | none => Prog.writeHeader 200) (do
                let s ← Prog.getS
                match s.refreshTokens.get? token.signatureString with
                | some refreshToken =>
                  if refreshToken.clientID ≠ req.clientID then Server.fail (invalidClient b!"wrong client")
                  else do
                    Server.revokeToken req.clientID false token.signatureString
                    Prog.writeHeader 200
                | none => Prog.writeHeader 200) := by
              refine .get fun g hg => ?_
              rw [show (g.seen V.see).refreshTokens.get? token.signatureString = _ from get?_seen _ _ _]
              cases g.refreshTokens.get? token.signatureString with
              | none => exact .plain (.writeHeader _)
              | some stored =>
                simp only [Option.map_some]
                show Lift cfg V (if stored.clientID ≠ req.clientID then _ else _) (if stored.clientID ≠ req.clientID then _ else _)
                split
                · exact .fail _
                · exact .bind (lift_revokeToken _ _ _) fun _ => .plain (.writeHeader _)
            refine .get fun g hg => ?_
            rw [show (g.seen V.see).accessTokens.get? token.signatureString = _ from get?_seen _ _ _]
            cases g.accessTokens.get? token.signatureString with
            | none => exact hr
            | some stored =>
              simp only [Option.map_some]
              show Lift cfg V (if stored.clientID ≠ req.clientID then _ else _) (if stored.clientID ≠ req.clientID then _ else _)
              split
              · exact .fail _
              · exact .bind (lift_revokeToken _ _ _) fun _ => hr

theorem lift_introspection (hu : ∀ g, V.ok g → g.unix.toInt = Time.unix (V.see g)) (rq : Request) :
    Lift cfg V (GoServer.introspectionEndpoint rq) (Server.introspectionEndpoint rq) := by
  unfold GoServer.introspectionEndpoint Server.introspectionEndpoint
  cases parseIntrospectionRequest rq with
  | error e => exact .fail _
  | ok req =>
    simp only
    split
    · exact .fail _
    · refine .get fun g hg => ?_
      show Lift cfg V (match g.clients.get? req.clientID with | none => _ | some client => _)
        (match g.clients.get? req.clientID with | none => _ | some client => _)
      cases g.clients.get? req.clientID with
      | none => exact .fail _
      | some client =>
        simp only
        split
        · exact .fail _
        · refine .get fun g hg => ?_
          show Lift cfg V (match HS256Token.parse g.config.secret req.token with | .error err => _ | .ok token => _)
            (match HS256Token.parse g.config.secret req.token with | .error err => _ | .ok token => _)
          cases HS256Token.parse g.config.secret req.token with
          | error e => exact .fail _
          | ok token =>
            simp only
            have hr : ∀ res : IntrospectionResponse, Lift cfg V (do
                let s ← Prog.getS
                match s.refreshTokens.get? token.signatureString with
                | some refreshToken =>
                  if refreshToken.clientID ≠ req.clientID then GoServer.fail (invalidClient b!"wrong client")
                  else
                    GoServer.ignore (writeIntrospectionResponse { res with
                      active := true, scope := refreshToken.scope,
                      clientID := refreshToken.clientID, username := refreshToken.username,
                      tokenType := RefreshToken, expiresAt := refreshToken.expiresAt.unix.toInt })
                | none => GoServer.ignore (writeIntrospectionResponse res)) (do
                let s ← Prog.getS
                match s.refreshTokens.get? token.signatureString with
                | some refreshToken =>
                  if refreshToken.clientID ≠ req.clientID then Server.fail (invalidClient b!"wrong client")
                  else
                    Server.ignore (writeIntrospectionResponse { res with
                      active := true, scope := refreshToken.scope,
                      clientID := refreshToken.clientID, username := refreshToken.username,
                      tokenType := RefreshToken, expiresAt := refreshToken.expiresAt.unix })
                | none => Server.ignore (writeIntrospectionResponse res)) := by
              intro res
              refine .get fun g hg => ?_
              rw [show (g.seen V.see).refreshTokens.get? token.signatureString = _ from get?_seen _ _ _]
              cases hk : g.refreshTokens.get? token.signatureString with
              | none => exact .plain (.ignore (.writeIntrospectionResponse _))
              | some stored =>
                simp only [Option.map_some]
                rw [hu _ (times_get? hg.times.refresh hk)]
                show Lift cfg V (if stored.clientID ≠ req.clientID then _ else _) (if stored.clientID ≠ req.clientID then _ else _)
                split
                · exact .fail _
                · exact .plain (.ignore (.writeIntrospectionResponse _))
            refine .get fun g hg => ?_
            rw [show (g.seen V.see).accessTokens.get? token.signatureString = _ from get?_seen _ _ _]
            cases hk : g.accessTokens.get? token.signatureString with
            | none => exact hr {}
            | some stored =>
              simp only [Option.map_some]
              rw [hu _ (times_get? hg.times.access hk)]
              show Lift cfg V (if stored.clientID ≠ req.clientID then _ else _) (if stored.clientID ≠ req.clientID then _ else _)
              split
              · exact .fail _
              · exact hr ⟨true, stored.scope, stored.clientID, stored.username, AccessToken,
                  Time.unix (V.see stored.expiresAt), 0, 0, [], [], [], [], none⟩

theorem lift_serveLocked (hV : V.Fits c cfg) (rq : Request)
    (hu : Server.lastSegment rq.path = b!"introspect" →
      ∀ g, V.ok g → g.unix.toInt = Time.unix (V.see g)) :
    Lift cfg V (GoServer.serveLocked c rq) (Server.serveLocked rq) := by
  unfold GoServer.serveLocked Server.serveLocked
  simp only
  split
  · exact lift_authorization hV rq
  · split
    · exact lift_token hV rq
    · split
      · rename_i h
        exact lift_introspection (hu h) rq
      · split
        · exact lift_revocation rq
        · exact .plain .notFound

theorem lift_authorizeLocked (hV : V.Fits c cfg) (rq : Request) (required : Scope) :
    Lift cfg V (GoServer.authorizeLocked c rq required) (Server.authorizeLocked rq required) := by
  unfold GoServer.authorizeLocked Server.authorizeLocked
  cases parseBearerToken rq with
  | error e => exact .bind (.plain (.failBearer _)) fun _ => .pure _
  | ok tk =>
    simp only
    refine .get fun g hg => ?_
    show Lift cfg V (match HS256Token.parse g.config.secret tk with | .error err => _ | .ok token => _)
      (match HS256Token.parse g.config.secret tk with | .error err => _ | .ok token => _)
    cases HS256Token.parse g.config.secret tk with
    | error e => exact .bind (.plain (.failBearer _)) fun _ => .pure _
    | ok token =>
      simp only
      refine .get fun g hg => ?_
      rw [show (g.seen V.see).accessTokens.get? token.signatureString = _ from get?_seen _ _ _]
      cases hk : g.accessTokens.get? token.signatureString with
      | none => exact .bind (.plain (.failBearer _)) fun _ => .pure _
      | some stored =>
        simp only [Option.map_some]
        have hok := times_get? hg.times.access hk
        refine .now fun t ht => ?_
        rw [hV.before _ t hok ht]
        show Lift cfg V (if Time.before (V.see stored.expiresAt) (V.now t) = true then _
            else if (!stored.scope.includes required) = true then _ else _)
          (if Time.before (V.see stored.expiresAt) (V.now t) = true then _
            else if (!stored.scope.includes required) = true then _ else _)
        split
        · exact .bind (.plain (.failBearer _)) fun _ => .pure _
        · split
          · exact .bind (.plain (.failBearer _)) fun _ => .pure _
          · exact .pure _

end OAuth2

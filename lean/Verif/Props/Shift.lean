import Verif.Spec.Shift
import Verif.Props.Store
import Verif.Props.Secrets

/-!
C92: time counts only by its differences, and only for what expires.
-/

namespace OAuth2

open Spec

/-! ### Maps -/

section
variable {m : GoMap ServerCredential} {d : Int}

/-- The entry, expiring later. -/
def laterCred (d : Int) (c : ServerCredential) : ServerCredential :=
  { c with expiresAt := c.expiresAt + d }

theorem expiringLater_get (k : Str) : GoMap.get? (expiringLater m d) k = (GoMap.get? m k).map (laterCred d) := by
  induction m with
  | nil => rfl
  | cons e m ih =>
    show (if e.1 = k then some (laterCred d e.2) else GoMap.get? (expiringLater m d) k) =
      (if e.1 = k then some e.2 else GoMap.get? m k).map (laterCred d)
    split
    · rfl
    · exact ih

theorem expiringLater_del (k : Str) : (expiringLater m d).del k = expiringLater (m.del k) d := by
  unfold expiringLater GoMap.del
  rw [List.filter_map]
  rfl

theorem expiringLater_set (k : Str) (v : ServerCredential) :
    (expiringLater m d).set k (laterCred d v) = expiringLater (m.set k v) d := by
  unfold GoMap.set
  rw [expiringLater_del]
  rfl

theorem expiringLater_used (k : Str) :
    (expiringLater m d).update k (fun c => { c with used := true }) =
      expiringLater (m.update k fun c => { c with used := true }) d := by
  unfold expiringLater GoMap.update
  rw [List.map_map, List.map_map]
  apply List.map_congr_left
  intro e _
  simp only [Function.comp]
  split <;> rfl

theorem expiringLater_deleteByCode (k : Str) :
    Server.deleteByCode (expiringLater m d) k = expiringLater (Server.deleteByCode m k) d := by
  unfold Server.deleteByCode
  suffices h : ∀ (l acc : GoMap ServerCredential),
      (expiringLater l d).foldl (fun acc e => if e.2.code = k then acc.del e.1 else acc)
        (expiringLater acc d) =
      expiringLater (l.foldl (fun acc e => if e.2.code = k then acc.del e.1 else acc) acc) d from h m m
  intro l
  induction l with
  | nil => exact fun acc => rfl
  | cons e l ih =>
    intro acc
    rw [List.foldl_cons, ← ih]
    show List.foldl _ (if e.2.code = k then (expiringLater acc d).del e.1 else expiringLater acc d)
      (expiringLater l d) = _
    congr 1
    split
    · exact expiringLater_del _
    · rfl

theorem expiringLater_foreign (sig id : Str) :
    Server.foreign (expiringLater m d) sig id = Server.foreign m sig id := by
  unfold Server.foreign
  rw [expiringLater_get]
  cases m.get? sig <;> rfl

end

/-! ### Requests -/

/-- The same circumstances, later. -/
def Local.later (l : Local) (d : Int) : Local := { l with clock := fun n => l.clock n + d }

theorem before_later (a b : Time) (d : Int) : Time.before (a + d) (b + d) = Time.before a b := by
  unfold Time.before
  exact decide_eq_decide.mpr ⟨Int.lt_of_add_lt_add_right, fun h => Int.add_lt_add_right h d⟩

section
variable (s : Server) (d : Int) (l : Local)

theorem shift_grant (a : HS256Token) (b : Option HS256Token) (t₁ t₂ : Time) (cred : ServerCredential) :
    (laterServer s d).grant a b (t₁ + d) (t₂ + d) cred = laterServer (s.grant a b t₁ t₂ cred) d := by
  have h : ∀ (t life : Int), { cred with expiresAt := t + d + life } =
      laterCred d { cred with expiresAt := t + life } := by
    intro t life
    unfold laterCred
    simp only [ServerCredential.mk.injEq, true_and, and_true]
    exact Int.add_right_comm ..
  unfold Server.grant laterServer
  simp only [h, expiringLater_set]
  cases b with
  | none => rfl
  | some b => rfl

theorem shift_issue (tick : Nat) (w : Bool) (cred : ServerCredential) (fin : TokenResponse → TokenResponse) :
    (laterServer s d).issue (l.later d) tick w cred fin =
      ((s.issue l tick w cred fin).1, laterServer (s.issue l tick w cred fin).2 d) := by
  unfold Server.issue
  show (match Server.mint s.config w l.coins with
    | none => (Reply.crash, laterServer s d)
    | some (a, b) => (.token (fin (Server.grantResponse s.config a b cred.scope)),
      (laterServer s d).grant a b (l.clock tick + d) (l.clock (tick + 1) + d) cred)) = _
  cases Server.mint s.config w l.coins with
  | none => rfl
  | some ab => simp only [shift_grant]

/-- A reply and a state, later. -/
def laterReply (x : Reply × Server) : Reply × Server := (x.1, laterServer x.2 d)

theorem shift_authorize (r : Request) :
    (laterServer s d).authorizeReply r (l.later d) = laterReply d (s.authorizeReply r l) := by
  unfold Server.authorizeReply
  cases parseAuthorizationRequest r with
  | error e => rfl
  | ok rq =>
    simp only
    split
    · rfl
    have hc : (laterServer s d).clients = s.clients := rfl
    rw [hc]
    cases s.clients.get? rq.clientID with
    | none => rfl
    | some client =>
      simp only
      have hcfg : (laterServer s d).config = s.config := rfl
      have huser : ∀ u p, (laterServer s d).userOK u p = s.userOK u p := fun _ _ => rfl
      have hcoins : (l.later d).coins = l.coins := rfl
      have htick : (l.later d).tick = l.tick := rfl
      simp only [hcfg, huser, hcoins, htick]
      split
      · rfl
      split
      · rfl
      split
      · rfl
      split
      · rfl
      split
      · exact shift_issue s d l _ _ _ _
      cases Server.gen s.config l.coins with
      | none => rfl
      | some x =>
        simp only
        unfold laterReply
        refine Prod.ext rfl ?_
        simp only
        have h : l.clock l.tick + d + s.config.authorizationCodeLifespan =
            l.clock l.tick + s.config.authorizationCodeLifespan + d := Int.add_right_comm ..
        unfold laterServer
        simp only [← expiringLater_set]
        unfold laterCred Local.later
        simp only [h]

theorem shift_code (rq : TokenRequest) :
    (laterServer s d).codeReply rq (l.later d) = laterReply d (s.codeReply rq l) := by
  unfold Server.codeReply
  show (match HS256Token.parse s.config.secret rq.code with
    | .error _ => _
    | .ok _ => _) = _
  cases HS256Token.parse s.config.secret rq.code with
  | error e => rfl
  | ok x =>
    simp only
    show (match (expiringLater s.authorizationCodes d).get? x.signatureString with
      | none => _
      | some _ => _) = _
    rw [expiringLater_get]
    cases s.authorizationCodes.get? x.signatureString with
    | none => rfl
    | some stored =>
      simp only [Option.map_some]
      have h1 : (laterCred d stored).used = stored.used := rfl
      have h2 : (laterCred d stored).expiresAt.before ((l.later d).clock l.tick) =
          stored.expiresAt.before (l.clock l.tick) := before_later ..
      have h3 : (laterCred d stored).clientID = stored.clientID := rfl
      have h4 : (laterCred d stored).redirectURI = stored.redirectURI := rfl
      have h5 : (l.later d).tick = l.tick := rfl
      have h6 : (laterCred d stored).username = stored.username := rfl
      have h7 : (laterCred d stored).scope = stored.scope := rfl
      simp only [h1, h2, h3, h4, h5, h6, h7, shift_issue]
      by_cases k1 : stored.used = true
      · simp only [if_pos k1]
        unfold laterReply laterServer
        simp only [expiringLater_deleteByCode]
      by_cases k2 : stored.expiresAt.before (l.clock l.tick) = true
      · simp only [if_neg k1, if_pos k2]; rfl
      by_cases k3 : stored.clientID ≠ rq.clientID
      · simp only [if_neg k1, if_neg k2, if_pos k3]; rfl
      by_cases k4 : stored.redirectURI ≠ rq.redirectURI
      · simp only [if_neg k1, if_neg k2, if_neg k3, if_pos k4]; rfl
      simp only [if_neg k1, if_neg k2, if_neg k3, if_neg k4]
      generalize s.issue l _ _ _ _ = y
      obtain ⟨reply, s'⟩ := y
      cases reply <;> first | rfl | skip
      unfold laterReply laterServer
      simp only [expiringLater_used]

theorem shift_refresh (rq : TokenRequest) :
    (laterServer s d).refreshReply rq (l.later d) = laterReply d (s.refreshReply rq l) := by
  unfold Server.refreshReply
  show (match HS256Token.parse s.config.secret rq.refreshToken with
    | .error _ => _
    | .ok _ => _) = _
  cases HS256Token.parse s.config.secret rq.refreshToken with
  | error e => rfl
  | ok x =>
    simp only
    show (match (expiringLater s.refreshTokens d).get? x.signatureString with
      | none => _
      | some _ => _) = _
    rw [expiringLater_get]
    cases s.refreshTokens.get? x.signatureString with
    | none => rfl
    | some stored =>
      simp only [Option.map_some]
      have h2 : (laterCred d stored).expiresAt.before ((l.later d).clock l.tick) =
          stored.expiresAt.before (l.clock l.tick) := before_later ..
      have h3 : (laterCred d stored).clientID = stored.clientID := rfl
      have h5 : (l.later d).tick = l.tick := rfl
      have h6 : (laterCred d stored).username = stored.username := rfl
      have h7 : (laterCred d stored).scope = stored.scope := rfl
      simp only [h2, h3, h5, h6, h7, shift_issue]
      by_cases k2 : stored.expiresAt.before (l.clock l.tick) = true
      · simp only [if_pos k2]; rfl
      by_cases k3 : stored.clientID ≠ rq.clientID
      · simp only [if_neg k2, if_pos k3]; rfl
      by_cases k4 : (!stored.scope.includes (if rq.scope.empty = true then stored.scope else rq.scope)) = true
      · simp only [if_neg k2, if_neg k3, if_pos k4]; rfl
      simp only [if_neg k2, if_neg k3, if_neg k4]
      generalize s.issue l _ _ _ _ = y
      obtain ⟨reply, s'⟩ := y
      cases reply <;> first | rfl | skip
      unfold laterReply laterServer
      simp only [expiringLater_del]

theorem shift_token (r : Request) :
    (laterServer s d).tokenReply r (l.later d) = laterReply d (s.tokenReply r l) := by
  unfold Server.tokenReply
  cases parseTokenRequest r with
  | error e => rfl
  | ok rq =>
    simp only
    split
    · rfl
    have hc : (laterServer s d).clients = s.clients := rfl
    rw [hc]
    cases s.clients.get? rq.clientID with
    | none => rfl
    | some client =>
      simp only
      split
      · rfl
      unfold Server.grantReply
      have hcfg : (laterServer s d).config = s.config := rfl
      have huser : ∀ u p, (laterServer s d).userOK u p = s.userOK u p := fun _ _ => rfl
      have htick : (l.later d).tick = l.tick := rfl
      simp only [hcfg, huser, htick]
      split
      · split
        · rfl
        split
        · rfl
        exact shift_issue s d l _ _ _ _
      split
      · split
        · rfl
        split
        · rfl
        exact shift_issue s d l _ _ _ _
      split
      · exact shift_code s d l rq
      · exact shift_refresh s d l rq

theorem shift_revoke (r : Request) : (laterServer s d).revokeReply r = laterReply d (s.revokeReply r) := by
  unfold Server.revokeReply
  cases parseRevocationRequest r with
  | error e => rfl
  | ok rq =>
    simp only
    split
    · rfl
    have hc : (laterServer s d).clients = s.clients := rfl
    rw [hc]
    cases s.clients.get? rq.clientID with
    | none => rfl
    | some client =>
      simp only
      split
      · rfl
      have hcfg : (laterServer s d).config = s.config := rfl
      rw [hcfg]
      cases HS256Token.parse s.config.secret rq.token with
      | error e => rfl
      | ok t =>
        simp only
        have ha : (laterServer s d).accessTokens = expiringLater s.accessTokens d := rfl
        rw [ha, expiringLater_foreign]
        split
        · rfl
        rw [expiringLater_get]
        cases h1 : s.accessTokens.get? t.signatureString with
        | none =>
          simp only [Option.map_none]
          have hb : (laterServer s d).refreshTokens = expiringLater s.refreshTokens d := rfl
          rw [hb, expiringLater_foreign]
          split
          · rfl
          rw [expiringLater_get]
          cases h2 : s.refreshTokens.get? t.signatureString with
          | none => rfl
          | some y =>
            simp only [Option.map_some, expiringLater_del]
            rfl
        | some x =>
          simp only [Option.map_some, expiringLater_del]
          have hb : (laterServer s d).refreshTokens = expiringLater s.refreshTokens d := rfl
          rw [hb, expiringLater_foreign]
          split
          · rfl
          rw [expiringLater_get]
          cases h2 : s.refreshTokens.get? t.signatureString with
          | none => rfl
          | some y =>
            simp only [Option.map_some, expiringLater_del]
            rfl

theorem shift_handle {r : Request} (hr : Server.lastSegment r.path ≠ b!"introspect") :
    (laterServer s d).handle r (l.later d) = laterReply d (s.handle r l) := by
  unfold Server.handle
  simp only
  split
  · exact shift_authorize s d l r
  split
  · exact shift_token s d l r
  split
  · exact shift_revoke s d r
  · rfl

theorem shift_authorizes (r : Request) (required : Scope) (now : Time) :
    (laterServer s d).authorizes r required (now + d) = s.authorizes r required now := by
  unfold Server.authorizes
  have hcfg : (laterServer s d).config = s.config := rfl
  have ha : (laterServer s d).accessTokens = expiringLater s.accessTokens d := rfl
  rw [hcfg, ha]
  cases parseBearerToken r with
  | error e => rfl
  | ok text =>
    simp only
    cases HS256Token.parse s.config.secret text with
    | error e => rfl
    | ok t =>
      simp only
      rw [expiringLater_get]
      cases s.accessTokens.get? t.signatureString with
      | none => rfl
      | some cred =>
        simp only [Option.map_some]
        have h2 : (laterCred d cred).expiresAt.before (now + d) = cred.expiresAt.before now := before_later ..
        have h7 : (laterCred d cred).scope = cred.scope := rfl
        rw [h2, h7]

end

/-- **C92.** When everything that was done to a server, and the call, are moved by the same span of time,
the answer is the same, and so is what is left, moved by that span: except for introspection, whose answers
tell the time of expiry. -/
theorem C92_later (s : Server) (d : Int) {c : Call} (hc : ¬ ToIntrospection c) :
    step ⟨false, laterServer s d⟩ (c.later d) =
      ((step ⟨false, s⟩ c).1, ⟨false, laterServer (step ⟨false, s⟩ c).2.st d⟩) := by
  cases hop : c.op with
  | authorize r required =>
    rw [step_authorize hop, step_authorize (c := c.later d) hop]
    show (match (laterServer s d).authorizes r required (c.clock 0 + d) with
      | none => _
      | some _ => _, _) = _
    rw [shift_authorizes]
    rfl
  | configure cl us =>
    rw [step_configure hop, step_configure (c := c.later d) hop]
    rfl
  | serve r =>
    rw [step_serve hop, step_serve (c := c.later d) hop]
    have hr : Server.lastSegment r.path ≠ b!"introspect" := fun h =>
      hc ⟨r, hop, (lastSegment_iff ..).mpr h⟩
    have := shift_handle s d c.local hr
    have hl : (c.later d).local = c.local.later d := rfl
    rw [hl, this]
    rfl

theorem not_introspection {c : Call} {r : Request} (hop : c.op = .serve r)
    (hr : Server.lastSegment r.path ≠ b!"introspect") : ¬ ToIntrospection c := by
  rintro ⟨r', h1, h2⟩
  rw [hop] at h1
  cases h1
  exact hr ((lastSegment_iff ..).mp h2)

theorem not_introspection_present (token : Str) (required : Scope) (time : Int) :
    ¬ ToIntrospection (Demo.present token required time) := by
  rintro ⟨r, h, _⟩
  cases h

/-- Non-vacuity: the first token of the session, presented a day later at a server on which everything was
done a day later. -/
example : ¬ ToIntrospection (Demo.present Demo.a1.string (some [b!"foo"]) 1100) ∧
    (step ⟨false, Demo.s1⟩ (Demo.present Demo.a1.string (some [b!"foo"]) 1100)).1 = .admitted ∧
    (step ⟨false, Demo.s1⟩ ((Demo.present Demo.a1.string (some [b!"foo"]) 1100).later (86400 * second))).1 ≠
      .admitted ∧
    (step ⟨false, laterServer Demo.s1 (86400 * second)⟩
      ((Demo.present Demo.a1.string (some [b!"foo"]) 1100).later (86400 * second))).1 = .admitted :=
  ⟨not_introspection_present _ _ _, by decide +kernel, by decide +kernel, by decide +kernel⟩

/-- **C92.** Hence all answers are the same when a whole history is moved, from the start of a server. -/
theorem C92_history {s₀ : Server} (h0 : Started s₀) (d : Int) {cs : List Call}
    (hc : ∀ c ∈ cs, ¬ ToIntrospection c) :
    (runAll ⟨false, s₀⟩ (cs.map (·.later d))).1 = (runAll ⟨false, s₀⟩ cs).1 := by
  have key : ∀ (cs : List Call) (s : Server), (∀ c ∈ cs, ¬ ToIntrospection c) →
      (runAll ⟨false, laterServer s d⟩ (cs.map (·.later d))).1 = (runAll ⟨false, s⟩ cs).1 := by
    intro cs
    induction cs with
    | nil => exact fun s _ => rfl
    | cons c cs ih =>
      intro s h
      simp only [List.map_cons, runAll]
      rw [C92_later s d (h c (List.mem_cons_self ..))]
      have hs : step ⟨false, s⟩ c = ((step ⟨false, s⟩ c).1, ⟨false, (step ⟨false, s⟩ c).2.st⟩) := by
        have := step_unlocked s c
        generalize step ⟨false, s⟩ c = x at this
        obtain ⟨a, l, st⟩ := x
        cases this
        rfl
      rw [hs]
      simp only
      rw [ih _ fun c' hc' => h c' (List.mem_cons_of_mem _ hc')]
  have : laterServer s₀ d = s₀ := by
    unfold laterServer
    rw [h0.access, h0.refresh, h0.codes]
    obtain ⟨_, _, _, _, _, _⟩ := s₀
    obtain ⟨h1, h2, h3⟩ := h0
    cases h1
    cases h2
    cases h3
    rfl
  have h := key cs s₀ hc
  rw [this] at h
  exact h

/-- Non-vacuity: a token is issued and presented. -/
example : Started Demo.server ∧
    (∀ c ∈ [Demo.c1, Demo.present Demo.a1.string none 1100], ¬ ToIntrospection c) ∧
    (runAll ⟨false, Demo.server⟩ [Demo.c1, Demo.present Demo.a1.string none 1100]).1.getLast? =
      some .admitted := by
  refine ⟨Demo.started, ?_, by decide +kernel⟩
  intro c hc
  rcases List.mem_cons.mp hc with rfl | hc
  · exact not_introspection rfl (by decide +kernel)
  · rw [List.mem_singleton.mp hc]
    exact not_introspection_present _ _ _

theorem writtenAs_describe (kind : Str) (hk : knownTokenType kind = true) (cred : ServerCredential) :
    WrittenAs (Server.describe kind cred) ((Reply.introspection (Server.describe kind cred)).render {}).result := by
  intro σ s l hl
  unfold writeIntrospectionResponse
  have h1 : (Server.describe kind cred).tokenType = kind := rfl
  rw [h1, hk, if_neg (by simp), if_pos (by rfl : (Server.describe kind cred).encodable = true), exec_write _ (by decide) (by decide), hl]
  exact ⟨_, rfl, rfl⟩

theorem describe_later (kind : Str) (cred : ServerCredential) (d : Int) :
    ∃ n, d - second < n * second ∧ n * second < d + second ∧
      Server.describe kind (laterCred d cred) =
        { Server.describe kind cred with expiresAt := (Server.describe kind cred).expiresAt + n } := by
  refine ⟨(laterCred d cred).expiresAt.unix - cred.expiresAt.unix, ?_, ?_, ?_⟩
  · unfold laterCred Time.unix second
    dsimp only
    omega
  · unfold laterCred Time.unix second
    dsimp only
    omega
  · unfold Server.describe
    simp only [IntrospectionResponse.mk.injEq, true_and, and_true]
    refine ⟨rfl, rfl, rfl, ?_⟩
    show (laterCred d cred).expiresAt.unix =
      cred.expiresAt.unix + ((laterCred d cred).expiresAt.unix - cred.expiresAt.unix)
    omega

/-- **C92.** Introspection answers the same, too, except that an active token is described with a time of
expiry that is moved by the span: as times of expiry are told in whole seconds, by a number of seconds that
is less than a second away from it. -/
theorem C92_introspection (s : Server) (d : Int) {c : Call} (hc : ToIntrospection c) :
    (step ⟨false, laterServer s d⟩ (c.later d)).2 = ⟨false, laterServer s d⟩ ∧
    ((step ⟨false, laterServer s d⟩ (c.later d)).1 = (step ⟨false, s⟩ c).1 ∨
      ∃ i res res' n, i.active = true ∧ (step ⟨false, s⟩ c).1 = .answered res ∧ WrittenAs i res ∧
        (step ⟨false, laterServer s d⟩ (c.later d)).1 = .answered res' ∧
        d - second < n * second ∧ n * second < d + second ∧
        WrittenAs { i with expiresAt := i.expiresAt + n } res') := by
  obtain ⟨r, hop, hr⟩ := hc
  rw [lastSegment_iff] at hr
  have hh : ∀ (s : Server) (l : Local), s.handle r l = s.introspectReply r := by
    intro s l
    unfold Server.handle
    simp only [hr]
    rfl
  rw [step_serve hop, step_serve (c := c.later d) hop, hh, hh]
  have key : (laterServer s d).introspectReply r = laterReply d (s.introspectReply r) ∨
      ∃ kind cred, knownTokenType kind = true ∧
        s.introspectReply r = (.introspection (Server.describe kind cred), s) ∧
        (laterServer s d).introspectReply r =
          (.introspection (Server.describe kind (laterCred d cred)), laterServer s d) := by
    unfold Server.introspectReply
    cases parseIntrospectionRequest r with
    | error e => exact .inl rfl
    | ok rq =>
      simp only
      split
      · exact .inl rfl
      have hc : (laterServer s d).clients = s.clients := rfl
      rw [hc]
      cases s.clients.get? rq.clientID with
      | none => exact .inl rfl
      | some client =>
        simp only
        split
        · exact .inl rfl
        have hcfg : (laterServer s d).config = s.config := rfl
        rw [hcfg]
        cases HS256Token.parse s.config.secret rq.token with
        | error e => exact .inl rfl
        | ok t =>
          simp only
          have ha : (laterServer s d).accessTokens = expiringLater s.accessTokens d := rfl
          have hb : (laterServer s d).refreshTokens = expiringLater s.refreshTokens d := rfl
          rw [ha, hb, expiringLater_foreign, expiringLater_foreign]
          split
          · exact .inl rfl
          split
          · exact .inl rfl
          rw [expiringLater_get, expiringLater_get]
          cases s.refreshTokens.get? t.signatureString with
          | some cred => exact .inr ⟨RefreshToken, cred, rfl, rfl, rfl⟩
          | none =>
            cases s.accessTokens.get? t.signatureString with
            | some cred => exact .inr ⟨AccessToken, cred, rfl, rfl, rfl⟩
            | none => exact .inl rfl
  have hs : (s.introspectReply r).2 = s := by
    unfold Server.introspectReply
    split
    · rfl
    split
    · rfl
    split
    · rfl
    split
    · rfl
    split
    · rfl
    split
    · rfl
    split
    · rfl
    split
    · rfl
    split <;> rfl
  rcases key with h | ⟨kind, cred, h1, h2, h3⟩
  · rw [h]
    unfold laterReply
    rw [hs]
    exact ⟨rfl, .inl rfl⟩
  · rw [h2, h3]
    obtain ⟨n, hn1, hn2, hn3⟩ := describe_later kind cred d
    refine ⟨rfl, .inr ⟨Server.describe kind cred, _, _, n, rfl, rfl, writtenAs_describe _ h1 _, rfl, hn1, hn2,
      ?_⟩⟩
    rw [← hn3]
    exact writtenAs_describe _ h1 _

/-- The first token of the session is asked about. -/
def Demo.ask : Call := Demo.post b!"/introspect" b!"c1:s1" (b!"token=" ++ Demo.a1.string) [] 1100

/-- Non-vacuity: the session asks about a token, and is told that it is active and when it expires; a day
later, the answer is another one. -/
example : ToIntrospection Demo.ask ∧
    (step ⟨false, Demo.s1⟩ Demo.ask).1 ≠
      (step ⟨false, laterServer Demo.s1 (86400 * second)⟩ (Demo.ask.later (86400 * second))).1 :=
  ⟨⟨_, rfl, (lastSegment_iff ..).mpr (by decide +kernel)⟩, by decide +kernel⟩

/-! ### What expires -/

/-- **C92.** Of the time of a call, it counts only what has expired by then: two calls that differ in their
clock readings get the same answer when at both times the same tokens and codes have expired. (The clock is
read once for that; how the time goes on during the call does not matter.) -/
theorem C92_expired {s : Server} {c c' : Call} (hop : c'.op = c.op) (hcoins : c'.coins = c.coins)
    (he : SameExpired s (c.clock 0) (c'.clock 0)) :
    (step ⟨false, s⟩ c').1 = (step ⟨false, s⟩ c).1 := by
  have hb : ∀ m ∈ [s.accessTokens, s.refreshTokens, s.authorizationCodes], ∀ sig cred,
      GoMap.get? m sig = some cred →
      cred.expiresAt.before (c'.clock 0) = cred.expiresAt.before (c.clock 0) := by
    intro m hm sig cred hg
    unfold Time.before
    exact decide_eq_decide.mpr (he m hm _ (GoMap.get?_some_mem hg)).symm
  have hm1 : s.accessTokens ∈ [s.accessTokens, s.refreshTokens, s.authorizationCodes] := by simp
  have hm2 : s.refreshTokens ∈ [s.accessTokens, s.refreshTokens, s.authorizationCodes] := by simp
  have hm3 : s.authorizationCodes ∈ [s.accessTokens, s.refreshTokens, s.authorizationCodes] := by simp
  cases hc : c.op with
  | authorize r required =>
    rw [step_authorize hc, step_authorize (hop.trans hc)]
    have : s.authorizes r required (c'.clock 0) = s.authorizes r required (c.clock 0) := by
      unfold Server.authorizes
      cases parseBearerToken r with
      | error e => rfl
      | ok text =>
        simp only
        cases HS256Token.parse s.config.secret text with
        | error e => rfl
        | ok t =>
          simp only
          cases hg : s.accessTokens.get? t.signatureString with
          | none => rfl
          | some cred => simp only [hb _ hm1 _ _ hg]
    rw [this]
  | configure cl us => rw [step_configure hc, step_configure (hop.trans hc)]
  | serve r =>
    rw [step_serve hc, step_serve (hop.trans hc)]
    have : (s.handle r c'.local).1 = (s.handle r c.local).1 := by
      have hco : c'.local.coins = c.local.coins := hcoins
      have hissue : ∀ tick w cred fin, (s.issue c'.local tick w cred fin).1 =
          (s.issue c.local tick w cred fin).1 := by
        intro tick w cred fin
        unfold Server.issue
        rw [hco]
        cases Server.mint s.config w c.local.coins <;> rfl
      have ht : c'.local.tick = c.local.tick := rfl
      have hn : c'.local.clock c.local.tick = c'.clock 0 := rfl
      have hn' : c.local.clock c.local.tick = c.clock 0 := rfl
      unfold Server.handle
      simp only
      split
      · unfold Server.authorizeReply
        cases parseAuthorizationRequest r with
        | error e => rfl
        | ok rq =>
          simp only
          split
          · rfl
          cases s.clients.get? rq.clientID with
          | none => rfl
          | some client =>
            simp only
            split
            · rfl
            split
            · rfl
            split
            · rfl
            split
            · rfl
            split
            · exact hissue ..
            rw [hco]
            cases Server.gen s.config c.local.coins <;> rfl
      split
      · unfold Server.tokenReply
        cases parseTokenRequest r with
        | error e => rfl
        | ok rq =>
          simp only
          split
          · rfl
          cases s.clients.get? rq.clientID with
          | none => rfl
          | some client =>
            simp only
            split
            · rfl
            unfold Server.grantReply
            split
            · split
              · rfl
              split
              · rfl
              exact hissue ..
            split
            · split
              · rfl
              split
              · rfl
              exact hissue ..
            split
            · unfold Server.codeReply
              cases HS256Token.parse s.config.secret rq.code with
              | error e => rfl
              | ok t =>
                simp only
                cases hg : s.authorizationCodes.get? t.signatureString with
                | none => rfl
                | some cred =>
                  simp only [ht, hn, hn', hb _ hm3 _ _ hg]
                  split
                  · rfl
                  split
                  · rfl
                  split
                  · rfl
                  split
                  · rfl
                  have := hissue (c.local.tick + 1) true {
                    clientID := rq.clientID, username := cred.username, scope := cred.scope, code := t.signatureString } id
                  generalize s.issue c'.local _ _ _ _ = x at this
                  generalize s.issue c.local _ _ _ _ = y at this
                  obtain ⟨a, sa⟩ := x
                  obtain ⟨b, sb⟩ := y
                  cases this
                  cases a <;> rfl
            · unfold Server.refreshReply
              cases HS256Token.parse s.config.secret rq.refreshToken with
              | error e => rfl
              | ok t =>
                simp only
                cases hg : s.refreshTokens.get? t.signatureString with
                | none => rfl
                | some cred =>
                  obtain ⟨sc, hsc⟩ : ∃ sc, sc = if rq.scope.empty then cred.scope else rq.scope := ⟨_, rfl⟩
                  simp only [ht, hn, hn', hb _ hm2 _ _ hg, ← hsc]
                  split
                  · rfl
                  split
                  · rfl
                  split
                  · rfl
                  have := hissue (c.local.tick + 1) true {
                    clientID := rq.clientID, username := cred.username, scope := sc } id
                  generalize s.issue c'.local _ _ _ _ = x at this
                  generalize s.issue c.local _ _ _ _ = y at this
                  obtain ⟨a, sa⟩ := x
                  obtain ⟨b, sb⟩ := y
                  cases this
                  cases a <;> rfl
      split
      · rfl
      split <;> rfl
    rw [this]

/-- **C92.** The earlier, the better: whoever is admitted, or given tokens by the token endpoint, is so at any
earlier time, too, as long as the server has the same state. -/
theorem C92_earlier {s : Server} {c c' : Call} (hop : c'.op = c.op) (hcoins : c'.coins = c.coins)
    (ht : c'.clock 0 ≤ c.clock 0) :
    ((step ⟨false, s⟩ c).1 = .admitted → (step ⟨false, s⟩ c').1 = .admitted) ∧
    ∀ rq, AsksToken c rq → (∃ a, Hands ⟨c, (step ⟨false, s⟩ c).1⟩ .access a) →
      ∃ a, Hands ⟨c', (step ⟨false, s⟩ c').1⟩ .access a := by
  constructor
  · rw [C73_admits_iff, C73_admits_iff]
    rintro ⟨required, text, t, cred, ⟨r, h1, h2⟩, h3, h4, h5, h6⟩
    exact ⟨required, text, t, cred, ⟨r, hop.trans h1, h2⟩, h3, h4, Int.le_trans ht h5, h6⟩
  · rintro rq ⟨r, h1, h2, h3⟩
    rw [C73_granted_iff s (c := c) ⟨r, h1, h2, h3⟩, C73_granted_iff s (c := c') ⟨r, hop.trans h1, h2, h3⟩]
    rintro ⟨h4, h5, h6⟩
    refine ⟨h4, ?_, by unfold Enough; rw [hcoins]; exact h6⟩
    cases h5 with
    | password a b c => exact .password a b c
    | client a b c d => exact .client a b c d
    | exchange a b c d e f g => exact .exchange a b c d (Int.le_trans ht e) f g
    | refresh a b c d e f => exact .refresh a b c (Int.le_trans ht d) e f

/-- Non-vacuity of both: at 1100 and 1200 seconds the same has expired, and the token is admitted. -/
example : SameExpired Demo.s1 (1100 * second) (1200 * second) ∧
    (step ⟨false, Demo.s1⟩ (Demo.present Demo.a1.string none 1200)).1 = .admitted ∧
    (Demo.present Demo.a1.string none 1100).clock 0 ≤ (Demo.present Demo.a1.string none 1200).clock 0 ∧
    ¬ SameExpired Demo.s1 (1100 * second) (9999 * second) := by
  unfold SameExpired
  decide +kernel

end OAuth2

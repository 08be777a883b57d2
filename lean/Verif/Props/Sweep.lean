import Verif.Spec.Sweep
import Verif.Props.Order

/-!
C102: what has expired may be taken out of the public maps.
-/

namespace OAuth2

open Spec

variable {s s' : Server} {c : Call} {time : Time} {gone : Str → Prop}

/-! ### Calls that hand out nothing -/

theorem handsNone_of {a : Answer} (h1 : ∀ rq, ¬ AsksToken c rq) (h2 : ∀ rq u p, ¬ AsksAuthorization c rq u p) :
    (∀ k t, ¬ Hands ⟨c, a⟩ k t) ∧ ∀ x, ¬ HandsCode ⟨c, a⟩ x := by
  have h3 : ∀ rq u res, ¬ AuthorizationCall ⟨c, a⟩ rq u res := by
    rintro rq u res ⟨r, g1, g2, g3, g4, g5, _⟩
    exact h2 rq u _ ⟨r, g1, g2, g3, g4, g5, rfl⟩
  refine ⟨?_, ?_⟩
  · rintro k t (⟨rq, res, ⟨r, g1, g2, g3, _⟩, _⟩ | ⟨_, rq, u, res, h, _⟩)
    · exact h1 rq ⟨r, g1, g2, g3⟩
    · exact h3 _ _ _ h
  · rintro x ⟨rq, u, res, h, _⟩
    exact h3 _ _ _ h

theorem handsNone_token {rq : TokenRequest} (h : AsksToken c rq) {e : Error} (hr : e.redirectURI = []) :
    (∀ k t, ¬ Hands ⟨c, (Reply.error e).answer⟩ k t) ∧ ∀ x, ¬ HandsCode ⟨c, (Reply.error e).answer⟩ x := by
  obtain ⟨r, g1, g2, g3⟩ := h
  have hn : ∀ a rq u res, ¬ AuthorizationCall ⟨c, a⟩ rq u res := by
    rintro a rq u res ⟨r', h1, h2, _⟩
    change c.op = _ at h1
    rw [g1] at h1
    cases h1
    rw [lastSegment_iff] at h2 g2
    rw [g2] at h2
    exact absurd h2 (by decide)
  refine ⟨?_, ?_⟩
  · rintro k t (⟨rq, res, ⟨r', _, _, _, h4⟩, h5⟩ | ⟨_, rq, u, res, h, _⟩)
    · cases h4
      have := error_jsonMember (res := ((Reply.error e).render {}).result) (e := e) (by rw [error_result hr])
        t.string
      cases k with
      | access => exact this.2.2.1 h5
      | refresh => exact this.2.2.2 h5
    · exact hn _ _ _ _ h
  · rintro x ⟨rq, u, res, h, _⟩
    exact hn _ _ _ _ h

theorem asks_unique {r : Request} {seg : Str} (hop : c.op = .serve r) (hs : LastSegment r.path seg)
    (h1 : seg ≠ b!"token") (h2 : seg ≠ b!"authorize") :
    (∀ rq, ¬ AsksToken c rq) ∧ ∀ rq u p, ¬ AsksAuthorization c rq u p := by
  rw [lastSegment_iff] at hs
  refine ⟨?_, ?_⟩
  · rintro rq ⟨r', g1, g2, _⟩
    rw [hop] at g1
    cases g1
    rw [lastSegment_iff, hs] at g2
    exact h1 g2
  · rintro rq u p ⟨r', g1, g2, _⟩
    rw [hop] at g1
    cases g1
    rw [lastSegment_iff, hs] at g2
    exact h2 g2

/-! ### One call -/

theorem swept_like (h : Swept time gone s s') (hp : Proper s) (hp' : Proper s') :
    Like s.config (fun _ => True) (fun _ => True) (fun sig => ¬ gone sig) s s' :=
  ⟨h.config, hp, hp', fun i _ => h.clients i, fun i _ => h.users i, h.kept, rfl⟩

/-- Deleting what is gone. -/
theorem swept_shrink (h : Swept time gone s s') {s₁ : Server} (hc : s₁.config = s.config)
    (hcl : s₁.clients = s.clients) (hus : s₁.users = s.users)
    (hco : s₁.authorizationCodes = s.authorizationCodes) {sig : Str} (hg : gone sig)
    (ha : s₁.accessTokens = s.accessTokens ∨ s₁.accessTokens = s.accessTokens.del sig)
    (hr : s₁.refreshTokens = s.refreshTokens ∨ s₁.refreshTokens = s.refreshTokens.del sig) :
    Swept time gone s₁ s' := by
  have key : ∀ {m m₁ : GoMap ServerCredential}, m₁ = m ∨ m₁ = m.del sig → ∀ x,
      (¬ gone x → m₁.get? x = m.get? x) ∧ ∀ cred, m₁.get? x = some cred → m.get? x = some cred := by
    rintro m m₁ (rfl | rfl) x
    · exact ⟨fun _ => rfl, fun _ h => h⟩
    · rw [GoMap.get?_del]
      split
      · rename_i hx
        exact ⟨fun h => absurd (hx ▸ hg) h, fun _ h => by cases h⟩
      · exact ⟨fun _ => rfl, fun _ h => h⟩
  refine ⟨hc.trans h.config, ?_, ?_, ?_, h.absent, ?_, ?_⟩
  · rw [hcl]; exact h.clients
  · rw [hus]; exact h.users
  · intro x hx
    obtain ⟨g1, g2, g3⟩ := h.kept x hx
    exact ⟨((key ha x).1 hx).trans g1, ((key hr x).1 hx).trans g2, by rw [hco]; exact g3⟩
  · intro k x cred hx hk
    cases k with
    | access => exact h.expired .access x cred hx ((key ha x).2 cred hk)
    | refresh => exact h.expired .refresh x cred hx ((key hr x).2 cred hk)
  · rw [hco]; exact h.unused

/-- A call that carries nothing that is gone. -/
theorem swept_other (h : Swept time gone s s') (hp : Proper s) (hp' : Proper s')
    (hn : HandsNone ⟨c, (step ⟨false, s⟩ c).1⟩ gone)
    (hx : ∀ text t, Carries c text → HS256Token.parse s.config.secret text = .ok t → ¬ gone t.signatureString) :
    (step ⟨false, s⟩ c).1 = (step ⟨false, s'⟩ c).1 ∧
      Swept time gone (step ⟨false, s⟩ c).2.st (step ⟨false, s'⟩ c).2.st := by
  obtain ⟨h1, s₁, s₁', h2, h2', h3⟩ := step_like (swept_like h hp hp') c (fun _ _ => trivial) (fun _ _ => trivial) hx
  have ht : ∀ {s : Server}, Proper s → HandsNone ⟨c, (step ⟨false, s⟩ c).1⟩ gone → ∀ k sig cred, gone sig →
      (tokens (step ⟨false, s⟩ c).2.st k).get? sig = some cred → (tokens s k).get? sig = some cred := by
    intro s hp hn k sig cred hg hk
    rcases (C73_tokens s (proper_once hp) c k sig cred).mp hk with ⟨t, g1, rfl, _⟩ | ⟨_, g, _⟩
    · exact absurd hg (hn.1 k t g1)
    · exact g
  have hc : ∀ {s : Server}, HandsNone ⟨c, (step ⟨false, s⟩ c).1⟩ gone →
      (∀ text t, Carries c text → HS256Token.parse s.config.secret text = .ok t → ¬ gone t.signatureString) →
      ∀ sig cred, gone sig → (step ⟨false, s⟩ c).2.st.authorizationCodes.get? sig = some cred →
        s.authorizationCodes.get? sig = some cred := by
    intro s hn hx sig cred hg hk
    rcases (C73_codes s c sig cred).mp hk with ⟨x, _, _, _, g1, rfl, _⟩ | ⟨_, old, g1, ⟨⟨x, rfl, g2⟩, _⟩ | ⟨_, rfl⟩⟩
    · exact absurd hg (hn.2 x g1)
    · obtain ⟨rq, res, a, ⟨r, k1, k2, k3, _⟩, k4, ⟨t, k5, k6⟩, _⟩ := g2
      rw [← k6] at hg
      exact absurd hg (hx _ _ (.code ⟨r, k1, k2, k3⟩ k4) k5)
    · exact g1
  have hn' : HandsNone ⟨c, (step ⟨false, s'⟩ c).1⟩ gone := by rw [← h1]; exact hn
  have hx' : ∀ text t, Carries c text → HS256Token.parse s'.config.secret text = .ok t →
      ¬ gone t.signatureString := by rw [← h.config]; exact hx
  have e1 := ht hp hn
  have e2 := ht hp' hn'
  have e3 := hc hn hx
  have e4 := hc hn' hx'
  rw [h2] at e1 e3 ⊢
  rw [h2'] at e2 e4 ⊢
  refine ⟨h1, h3.config, fun i => h3.clients i trivial, fun i => h3.users i trivial, h3.at_, ?_, ?_, ?_⟩
  · intro sig hg
    obtain ⟨g1, g2, g3⟩ := h.absent sig hg
    refine ⟨?_, ?_, ?_⟩
    · cases hk : s₁'.accessTokens.get? sig with
      | none => rfl
      | some cred =>
        have := e2 .access sig cred hg hk
        change s'.accessTokens.get? sig = _ at this
        rw [g1] at this
        cases this
    · cases hk : s₁'.refreshTokens.get? sig with
      | none => rfl
      | some cred =>
        have := e2 .refresh sig cred hg hk
        change s'.refreshTokens.get? sig = _ at this
        rw [g2] at this
        cases this
    · cases hk : s₁'.authorizationCodes.get? sig with
      | none => rfl
      | some cred =>
        have := e4 sig cred hg hk
        rw [g3] at this
        cases this
  · exact fun k sig cred hg hk => h.expired k sig cred hg (e1 k sig cred hg hk)
  · exact fun sig cred hg hk => h.unused sig cred hg (e3 sig cred hg hk)

theorem grant_member (d : Str) (hd : d ≠ []) (hs : sanitize d = d) :
    ∃ res, (Reply.error (invalidGrant d)).answer = .answered res ∧ res.statusCode = 400 ∧
      JsonMember res b!"error" b!"invalid_grant" ∧ JsonMember res b!"error_description" d := by
  obtain ⟨res, h1, h2, h3⟩ := refused_grant d
  refine ⟨res, h1, h2, h3, ?_⟩
  cases h1
  exact (error_jsonMember (e := invalidGrant d) (by rw [error_result rfl]) d).2.1.mpr ⟨hd, hs.symm⟩

theorem client_member :
    ∃ res, (Reply.error (invalidClient b!"wrong client")).answer = .answered res ∧ res.statusCode = 401 ∧
      JsonMember res b!"error_description" b!"wrong client" := by
  obtain ⟨res, h1, h2, h3⟩ := refused_client b!"wrong client"
  refine ⟨res, h1, h2, ?_⟩
  cases h1
  exact (error_jsonMember (e := invalidClient b!"wrong client") (by rw [error_result rfl]) _).2.1.mpr
    ⟨by decide, by decide +kernel⟩

/-- What a call comes to: the answers are alike, only equal answers hand out anything, and the servers are still
the same except for what is gone. -/
def Fares (time : Time) (gone : Str → Prop) (c : Call) (x x' : Answer × Shared Server) : Prop :=
  Alike c x.1 x'.1 ∧
  (x.1 = x'.1 ∨ ((∀ k t, ¬ Hands ⟨c, x.1⟩ k t) ∧ ∀ y, ¬ HandsCode ⟨c, x.1⟩ y) ∧
    (∀ k t, ¬ Hands ⟨c, x'.1⟩ k t) ∧ ∀ y, ¬ HandsCode ⟨c, x'.1⟩ y) ∧
  Swept time gone x.2.st x'.2.st

theorem fares_same {a : Answer} {x x' : Shared Server} (h : Swept time gone x.st x'.st) :
    Fares time gone c (a, x) (a, x') := ⟨.same, .inl rfl, h⟩

/-- Presenting an access token that is gone. -/
theorem swept_bearer (h : Swept time gone s s') (hclock : ∀ n, time ≤ c.clock n) {r : Request} {required : Scope}
    (hop : c.op = .authorize r required) {text : Str} (hb : parseBearerToken r = .ok text) {t : HS256Token}
    (ht : HS256Token.parse s.config.secret text = .ok t) (hg : gone t.signatureString) :
    Fares time gone c (step ⟨false, s⟩ c) (step ⟨false, s'⟩ c) := by
  rw [step_authorize hop, step_authorize hop]
  have ht' := ht
  rw [h.config] at ht'
  have h1 : s'.authorizes r required (c.clock 0) = some (invalidToken b!"unknown token") := by
    unfold Server.authorizes
    simp only [hb, ht', (h.absent _ hg).1]
  have h2 : s.authorizes r required (c.clock 0) = some (invalidToken b!"unknown token") ∨
      s.authorizes r required (c.clock 0) = some (invalidToken b!"expired token") := by
    unfold Server.authorizes
    simp only [hb, ht]
    cases hk : s.accessTokens.get? t.signatureString with
    | none => exact .inl rfl
    | some cred =>
      have := h.expired .access _ cred hg hk
      have : cred.expiresAt.before (c.clock 0) = true := decide_eq_true (Int.lt_of_lt_of_le this (hclock 0))
      simp only [this, if_true]
      exact .inr trivial
  have hno : ∀ a : Answer, (∀ k t, ¬ Hands ⟨c, a⟩ k t) ∧ ∀ x, ¬ HandsCode ⟨c, a⟩ x := fun a =>
    handsNone_of (fun rq h => by obtain ⟨_, h, _⟩ := h; rw [hop] at h; cases h)
      (fun rq u p h => by obtain ⟨_, h, _⟩ := h; rw [hop] at h; cases h)
  rw [h1]
  rcases h2 with h2 | h2
  · rw [h2]
    exact fares_same h
  · rw [h2]
    exact ⟨.barred hop (by decide +kernel) (by decide +kernel) (by decide +kernel) (by decide +kernel),
      .inr ⟨hno _, hno _⟩, h⟩

/-- A token request with a code or refresh token that is gone. -/
theorem swept_token (h : Swept time gone s s') (hclock : ∀ n, time ≤ c.clock n) {rq : TokenRequest}
    (hq : AsksToken c rq) {text : Str} {t : HS256Token}
    (hcar : rq.grantType = b!"authorization_code" ∧ text = rq.code ∨
      rq.grantType = b!"refresh_token" ∧ text = rq.refreshToken)
    (ht : HS256Token.parse s.config.secret text = .ok t) (hg : gone t.signatureString) :
    Fares time gone c (step ⟨false, s⟩ c) (step ⟨false, s'⟩ c) := by
  obtain ⟨r, hop, hseg, hpr⟩ := hq
  have hseg' := (lastSegment_iff _ _).mp hseg
  have ht' := ht
  rw [h.config] at ht'
  rw [step_serve hop, step_serve hop]
  have e1 : ∀ s : Server, s.handle r c.local = s.tokenReply r c.local := fun s => by
    unfold Server.handle
    simp only [hseg']
    rfl
  rw [e1, e1]
  have hlt : ∀ x : Time, x < time → x.before (c.local.clock c.local.tick) = true := fun x hx =>
    decide_eq_true (Int.lt_of_lt_of_le hx (hclock 0))
  unfold Server.tokenReply
  simp only [hpr]
  split
  · exact fares_same h
  rw [← h.clients]
  split
  · exact fares_same h
  split
  · exact fares_same h
  obtain ⟨a0, a1, a2⟩ := h.absent _ hg
  have fin : ∀ {e u : Str}, ExpiredUnknown e u → sanitize e = e → sanitize u = u → e ≠ [] → u ≠ [] →
      Fares time gone c ((Reply.error (invalidGrant e)).answer, ⟨false, s⟩)
        ((Reply.error (invalidGrant u)).answer, ⟨false, s'⟩) := by
    intro e u hu g1 g2 g3 g4
    obtain ⟨res, k1, k2, k3, k4⟩ := grant_member e g3 g1
    obtain ⟨res', l1, l2, l3, l4⟩ := grant_member u g4 g2
    have hq : AsksToken c rq := ⟨r, hop, hseg, hpr⟩
    refine ⟨?_, .inr ⟨handsNone_token hq rfl, handsNone_token hq rfl⟩, h⟩
    simp only [k1, l1]
    exact .refused hq hu k2 k3 k4 l2 l3 l4
  rcases hcar with ⟨hgt, rfl⟩ | ⟨hgt, rfl⟩
  · have e2 : ∀ (s : Server) client, s.grantReply rq client c.local = s.codeReply rq c.local := fun s client => by
      unfold Server.grantReply
      simp only [hgt]
      rfl
    rw [e2, e2]
    unfold Server.codeReply
    simp only [ht, ht', a2]
    cases hk : s.authorizationCodes.get? t.signatureString with
    | none => exact fares_same h
    | some cred =>
      obtain ⟨b1, b2⟩ := h.unused _ cred hg hk
      simp only [b2, hlt _ b1, if_true, Bool.false_eq_true, if_false]
      exact fin .code (by decide +kernel) (by decide +kernel) (by decide) (by decide)
  · have e2 : ∀ (s : Server) client, s.grantReply rq client c.local = s.refreshReply rq c.local := fun s client => by
      unfold Server.grantReply
      simp only [hgt]
      rfl
    rw [e2, e2]
    unfold Server.refreshReply
    simp only [ht, ht', a1]
    cases hk : s.refreshTokens.get? t.signatureString with
    | none => exact fares_same h
    | some cred =>
      have b1 := h.expired .refresh _ cred hg hk
      simp only [hlt _ b1, if_true]
      exact fin .refreshToken (by decide +kernel) (by decide +kernel) (by decide) (by decide)

/-- Asking about a token that is gone. -/
theorem swept_introspection (h : Swept time gone s s') {rq : IntrospectionRequest} (hq : AsksIntrospection c rq)
    {t : HS256Token} (ht : HS256Token.parse s.config.secret rq.token = .ok t) (hg : gone t.signatureString) :
    Fares time gone c (step ⟨false, s⟩ c) (step ⟨false, s'⟩ c) := by
  obtain ⟨r, hop, hseg, hpr⟩ := hq
  have hseg' := (lastSegment_iff _ _).mp hseg
  have ht' := ht
  rw [h.config] at ht'
  rw [step_serve hop, step_serve hop]
  have e1 : ∀ s : Server, s.handle r c.local = s.introspectReply r := fun s => by
    unfold Server.handle
    simp only [hseg']
    rfl
  rw [e1, e1]
  obtain ⟨n1, n2⟩ := asks_unique hop hseg (by decide) (by decide)
  obtain ⟨a0, a1, a2⟩ := h.absent _ hg
  unfold Server.introspectReply
  simp only [hpr]
  split
  · exact fares_same h
  rw [← h.clients]
  split
  · exact fares_same h
  split
  · exact fares_same h
  have fa : Server.foreign s'.accessTokens t.signatureString rq.clientID = false := by
    unfold Server.foreign; rw [a0]
  have fr : Server.foreign s'.refreshTokens t.signatureString rq.clientID = false := by
    unfold Server.foreign; rw [a1]
  simp only [ht, ht', fa, fr, a0, a1, Bool.false_eq_true, if_false]
  have hq : AsksIntrospection c rq := ⟨r, hop, hseg, hpr⟩
  have fin : ∀ res : Response, res.statusCode = 200 ∨
        res.statusCode = 401 ∧ JsonMember res b!"error_description" b!"wrong client" →
      Fares time gone c (.answered res, ⟨false, s⟩) ((Reply.introspection {}).answer, ⟨false, s'⟩) := by
    intro res hres
    refine ⟨?_, .inr ⟨handsNone_of n1 n2, handsNone_of n1 n2⟩, h⟩
    exact .inactive hq hres (by decide +kernel) (by decide +kernel)
  obtain ⟨res, w1, w2, w3⟩ := client_member
  split
  · rw [w1]
    exact fin res (.inr ⟨w2, w3⟩)
  split
  · rw [w1]
    exact fin res (.inr ⟨w2, w3⟩)
  have hd : ∀ i : IntrospectionResponse, Fares time gone c ((Reply.introspection i).answer, ⟨false, s⟩)
      ((Reply.introspection {}).answer, ⟨false, s'⟩) := fun i => by
    refine fin _ (.inl ?_)
    show ((Reply.introspection i).render {}).result.statusCode = 200
    unfold Reply.render
    rw [jsonRecorder_result]
  split
  · exact hd _
  split
  · exact hd _
  · exact fares_same h

/-- Revoking a token that is gone. -/
theorem swept_revocation (h : Swept time gone s s') {rq : RevocationRequest} (hq : AsksRevocation c rq)
    {t : HS256Token} (ht : HS256Token.parse s.config.secret rq.token = .ok t) (hg : gone t.signatureString) :
    Fares time gone c (step ⟨false, s⟩ c) (step ⟨false, s'⟩ c) := by
  obtain ⟨r, hop, hseg, hpr⟩ := hq
  have hseg' := (lastSegment_iff _ _).mp hseg
  have ht' := ht
  rw [h.config] at ht'
  rw [step_serve hop, step_serve hop]
  have e1 : ∀ s : Server, s.handle r c.local = s.revokeReply r := fun s => by
    unfold Server.handle
    simp only [hseg']
    rfl
  rw [e1, e1]
  obtain ⟨n1, n2⟩ := asks_unique hop hseg (by decide) (by decide)
  obtain ⟨a0, a1, a2⟩ := h.absent _ hg
  unfold Server.revokeReply
  simp only [hpr]
  split
  · exact fares_same h
  rw [← h.clients]
  split
  · exact fares_same h
  split
  · exact fares_same h
  have fa : Server.foreign s'.accessTokens t.signatureString rq.clientID = false := by
    unfold Server.foreign; rw [a0]
  have fr : Server.foreign s'.refreshTokens t.signatureString rq.clientID = false := by
    unfold Server.foreign; rw [a1]
  simp only [ht, ht', fa, fr, a0, a1, Bool.false_eq_true, if_false]
  have hq : AsksRevocation c rq := ⟨r, hop, hseg, hpr⟩
  obtain ⟨res, w1, w2, w3⟩ := client_member
  have fin : ∀ s₁ : Server, Swept time gone s₁ s' →
      Fares time gone c ((Reply.error (invalidClient b!"wrong client")).answer, ⟨false, s₁⟩)
        (Reply.revoked.answer, ⟨false, s'⟩) := by
    intro s₁ h
    rw [w1]
    refine ⟨?_, .inr ⟨handsNone_of n1 n2, handsNone_of n1 n2⟩, h⟩
    exact .revoked hq w2 w3 (by decide +kernel) (by decide +kernel)
  split
  · exact fin _ h
  cases ha : s.accessTokens.get? t.signatureString with
  | none =>
    simp only
    split
    · exact fin _ h
    split
    · exact fares_same (swept_shrink h rfl rfl rfl rfl hg (.inl rfl) (.inr rfl))
    · exact fares_same h
  | some ca =>
    simp only
    have h' : Swept time gone { s with accessTokens := s.accessTokens.del t.signatureString } s' :=
      swept_shrink h rfl rfl rfl rfl hg (.inr rfl) (.inl rfl)
    split
    · exact fin _ h'
    split
    · exact fares_same (swept_shrink h rfl rfl rfl rfl hg (.inr rfl) (.inr rfl))
    · exact fares_same h'

theorem swept_step (h : Swept time gone s s') (hp : Proper s) (hp' : Proper s') (hclock : ∀ n, time ≤ c.clock n)
    (hn : HandsNone ⟨c, (step ⟨false, s⟩ c).1⟩ gone) :
    Fares time gone c (step ⟨false, s⟩ c) (step ⟨false, s'⟩ c) := by
  by_cases hx : ∃ text t, Carries c text ∧ HS256Token.parse s.config.secret text = .ok t ∧ gone t.signatureString
  · obtain ⟨text, t, h1, h2, h3⟩ := hx
    cases h1 with
    | code g1 g2 => exact swept_token h hclock g1 (.inl ⟨g2, rfl⟩) h2 h3
    | refreshToken g1 g2 => exact swept_token h hclock g1 (.inr ⟨g2, rfl⟩) h2 h3
    | introspection g1 => exact swept_introspection h g1 h2 h3
    | revocation g1 => exact swept_revocation h g1 h2 h3
    | bearer g1 =>
      obtain ⟨r, hop, hb⟩ := g1
      exact swept_bearer h hclock hop ((C09_bearer_accept_iff _ _).mpr hb) h2 h3
  · obtain ⟨h1, h2⟩ := swept_other h hp hp' hn fun text t g1 g2 g3 => hx ⟨text, t, g1, g2, g3⟩
    refine ⟨?_, .inl h1, h2⟩
    rw [h1]
    exact .same

/-- **C102.** When what has expired is taken out of the maps, a later call is answered alike, and nothing else
is different afterwards. -/
theorem C102_call (h : Swept time gone s s') (hp : Proper s) (hp' : Proper s') (hclock : ∀ n, time ≤ c.clock n)
    (hn : HandsNone ⟨c, (step ⟨false, s⟩ c).1⟩ gone) :
    Alike c (step ⟨false, s⟩ c).1 (step ⟨false, s'⟩ c).1 ∧
      Swept time gone (step ⟨false, s⟩ c).2.st (step ⟨false, s'⟩ c).2.st :=
  ⟨(swept_step h hp hp' hclock hn).1, (swept_step h hp hp' hclock hn).2.2⟩

/-- **C102.** The same tokens and codes are handed out. -/
theorem C102_hands (h : Swept time gone s s') (hp : Proper s) (hp' : Proper s') (hclock : ∀ n, time ≤ c.clock n)
    (hn : HandsNone ⟨c, (step ⟨false, s⟩ c).1⟩ gone) :
    (∀ k t, Hands ⟨c, (step ⟨false, s⟩ c).1⟩ k t ↔ Hands ⟨c, (step ⟨false, s'⟩ c).1⟩ k t) ∧
    ∀ x, HandsCode ⟨c, (step ⟨false, s⟩ c).1⟩ x ↔ HandsCode ⟨c, (step ⟨false, s'⟩ c).1⟩ x := by
  rcases (swept_step h hp hp' hclock hn).2.1 with h1 | ⟨⟨h1, h2⟩, h3, h4⟩
  · rw [h1]
    exact ⟨fun _ _ => Iff.rfl, fun _ => Iff.rfl⟩
  · exact ⟨fun k t => ⟨fun h => absurd h (h1 k t), fun h => absurd h (h3 k t)⟩,
      fun x => ⟨fun h => absurd h (h2 x), fun h => absurd h (h4 x)⟩⟩

/-- **C102.** The same requests are admitted to what the server protects. -/
theorem C102_admits (h : Swept time gone s s') (hp : Proper s) (hp' : Proper s') (hclock : ∀ n, time ≤ c.clock n)
    (hn : HandsNone ⟨c, (step ⟨false, s⟩ c).1⟩ gone) :
    (step ⟨false, s⟩ c).1 = .admitted ↔ (step ⟨false, s'⟩ c).1 = .admitted := by
  have := (swept_step h hp hp' hclock hn).1
  generalize (step ⟨false, s⟩ c).1 = a at this
  generalize (step ⟨false, s'⟩ c).1 = a' at this
  cases this with
  | same => exact Iff.rfl
  | barred => exact ⟨nofun, nofun⟩
  | refused => exact ⟨nofun, nofun⟩
  | inactive => exact ⟨nofun, nofun⟩
  | revoked => exact ⟨nofun, nofun⟩

/-! ### All calls that come later -/

/-- **C102.** So it is for all calls that come later, however many: each is answered alike, and the servers are
the same except for what is gone. -/
theorem C102_history {h : List Event} {x : Shared Server} (hh : History s h x) (hsw : Swept time gone s s')
    (hp : Proper s) (hp' : Proper s') (hclock : ∀ e ∈ h, ∀ n, time ≤ e.call.clock n)
    (hn : ∀ e ∈ h, HandsNone e gone) :
    ∃ h' x', History s' h' x' ∧ AllAlike h h' ∧ Swept time gone x.st x'.st := by
  have key : x = ⟨false, x.st⟩ ∧ Proper x.st ∧ ∃ h' st', History s' h' ⟨false, st'⟩ ∧ AllAlike h h' ∧
      Swept time gone x.st st' ∧ Proper st' := by
    induction hh with
    | start => exact ⟨rfl, hp, [], s', .start, .nil, hsw, hp'⟩
    | @next h y c hh ih =>
      obtain ⟨h1, h2, h', st', h3, h4, h5, h6⟩ := ih (fun e he => hclock e (.tail _ he)) fun e he => hn e (.tail _ he)
      have hn1 := hn _ (.head _)
      have hc1 := hclock _ (.head _)
      generalize y.st = st at h1 h2 h5
      subst h1
      have f := swept_step h5 h2 h6 hc1 hn1
      have u : ∀ z, (step ⟨false, z⟩ c).2 = ⟨false, (step ⟨false, z⟩ c).2.st⟩ := fun z => runAll_unlocked z [c]
      refine ⟨u st, proper_step h2 c, ⟨c, (step ⟨false, st'⟩ c).1⟩ :: h', (step ⟨false, st'⟩ c).2.st, ?_, .cons f.1 h4,
        f.2.2, proper_step h6 c⟩
      rw [← u st']
      exact .next c h3
  obtain ⟨_, _, h', st', h1, h2, h3, _⟩ := key
  exact ⟨h', _, h1, h2, h3⟩

/-! ### Sweeping -/

theorem get?_none_keys {m : GoMap ServerCredential} {k : Str} : m.get? k = none ↔ k ∉ m.keys := by
  constructor
  · intro h hk
    induction m with
    | nil => cases hk
    | cons e m ih =>
      obtain ⟨j, v⟩ := e
      simp only [GoMap.get?] at h
      split at h
      · cases h
      · rename_i hj
        rcases List.mem_cons.mp hk with rfl | hk
        · exact hj rfl
        · exact ih h hk
  · intro h
    cases hg : m.get? k with
    | none => rfl
    | some v => exact absurd (GoMap.mem_keys_of_get? hg) h

theorem get?_swept {m : GoMap ServerCredential} (hm : m.keys.Nodup) (p : Str × ServerCredential → Bool) (k : Str)
    (cred : ServerCredential) :
    GoMap.get? (m.filter p) k = some cred ↔ m.get? k = some cred ∧ p (k, cred) = true := by
  induction m with
  | nil => simp [GoMap.get?]
  | cons e m ih =>
    obtain ⟨j, v⟩ := e
    change (j :: GoMap.keys m).Nodup at hm
    rw [List.nodup_cons] at hm
    have ih := ih hm.2
    by_cases hj : j = k
    · subst hj
      have hn : GoMap.get? m j = none := get?_none_keys.mpr hm.1
      rw [hn] at ih
      cases hp : p (j, v) with
      | true =>
        rw [List.filter_cons_of_pos hp]
        simp only [GoMap.get?, if_true, Option.some.injEq]
        exact ⟨fun h => ⟨h, h ▸ hp⟩, fun h => h.1⟩
      | false =>
        rw [List.filter_cons_of_neg (by simp [hp]), ih]
        simp only [GoMap.get?, if_true, Option.some.injEq]
        refine ⟨fun h => (nomatch h.1), fun h => ?_⟩
        have h2 := h.2
        rw [← h.1, hp] at h2
        cases h2
    · have e1 : GoMap.get? ((j, v) :: m) k = GoMap.get? m k := by simp only [GoMap.get?, hj, if_false]
      rw [e1, ← ih]
      cases hp : p (j, v) with
      | true =>
        rw [List.filter_cons_of_pos hp]
        simp only [GoMap.get?, hj, if_false]
      | false => rw [List.filter_cons_of_neg (by simp [hp])]

/-- **C102.** Taking everything that has expired out of the maps is such a change, except for codes that were
redeemed, if no signature is in two of the maps. -/
theorem C102_sweep (hp : Proper s) (h1 : OnlyOnce s) :
    Swept time (fun sig => Stored s sig ∧ ¬ Stored (sweep time s) sig) s (sweep time s) := by
  have fa := fun sig cred => get?_swept hp.1 (fun e => decide (time ≤ e.2.expiresAt)) sig cred
  have fr := fun sig cred => get?_swept hp.2.1 (fun e => decide (time ≤ e.2.expiresAt)) sig cred
  have fc := fun sig cred => get?_swept hp.2.2 (fun e => decide (time ≤ e.2.expiresAt) || e.2.used) sig cred
  change ∀ sig cred, (sweep time s).accessTokens.get? sig = some cred ↔ _ at fa
  change ∀ sig cred, (sweep time s).refreshTokens.get? sig = some cred ↔ _ at fr
  change ∀ sig cred, (sweep time s).authorizationCodes.get? sig = some cred ↔ _ at fc
  have fa' := fun sig cred h => ((fa sig cred).mp h).1
  have fr' := fun sig cred h => ((fr sig cred).mp h).1
  have fc' := fun sig cred h => ((fc sig cred).mp h).1
  have none_of : ∀ {m m' : GoMap ServerCredential} {sig : Str},
      (∀ cred, m'.get? sig = some cred → m.get? sig = some cred) → m.get? sig = none →
      m.get? sig = m'.get? sig := by
    intro m m' sig h hn
    rw [hn]
    cases hg : m'.get? sig with
    | none => rfl
    | some cred =>
      rw [hn] at h
      cases h cred hg
  have some_of : ∀ {m m' : GoMap ServerCredential} {sig : Str},
      (∀ cred, m'.get? sig = some cred → m.get? sig = some cred) → m'.get? sig ≠ none →
      m.get? sig = m'.get? sig := by
    intro m m' sig h hn
    cases hg : m'.get? sig with
    | none => exact absurd hg hn
    | some cred => exact h cred hg
  have in_keys : ∀ {m : GoMap ServerCredential} {sig : Str}, m.get? sig ≠ none → sig ∈ m.keys := by
    intro m sig h
    by_cases hk : sig ∈ m.keys
    · exact hk
    · exact absurd (get?_none_keys.mpr hk) h
  have absent : ∀ sig, ¬ Stored (sweep time s) sig → (sweep time s).accessTokens.get? sig = none ∧
      (sweep time s).refreshTokens.get? sig = none ∧ (sweep time s).authorizationCodes.get? sig = none := by
    intro sig h
    refine ⟨?_, ?_, ?_⟩
    · exact Classical.byContradiction fun hn => h (.inl hn)
    · exact Classical.byContradiction fun hn => h (.inr (.inl hn))
    · exact Classical.byContradiction fun hn => h (.inr (.inr hn))
  refine ⟨rfl, fun _ => rfl, fun _ => rfl, ?_, fun sig h => absent sig h.2, ?_, ?_⟩
  · intro sig hg
    by_cases hs : Stored s sig
    · have hs' : Stored (sweep time s) sig := Classical.byContradiction fun h => hg ⟨hs, h⟩
      rcases hs' with h | h | h
      · have e := some_of (fa' sig) h
        have := h1.1 sig (in_keys (e ▸ h))
        exact ⟨e, none_of (fr' sig) (get?_none_keys.mpr this.1), none_of (fc' sig) (get?_none_keys.mpr this.2)⟩
      · have e := some_of (fr' sig) h
        have hk := in_keys (e ▸ h : s.refreshTokens.get? sig ≠ none)
        exact ⟨none_of (fa' sig) (get?_none_keys.mpr fun hm => (h1.1 sig hm).1 hk), e,
          none_of (fc' sig) (get?_none_keys.mpr (h1.2 sig hk))⟩
      · have e := some_of (fc' sig) h
        have hk := in_keys (e ▸ h : s.authorizationCodes.get? sig ≠ none)
        exact ⟨none_of (fa' sig) (get?_none_keys.mpr fun hm => (h1.1 sig hm).2 hk),
          none_of (fr' sig) (get?_none_keys.mpr fun hm => h1.2 sig hm hk), e⟩
    · refine ⟨none_of (fa' sig) ?_, none_of (fr' sig) ?_, none_of (fc' sig) ?_⟩
      · exact Classical.byContradiction fun hn => hs (.inl hn)
      · exact Classical.byContradiction fun hn => hs (.inr (.inl hn))
      · exact Classical.byContradiction fun hn => hs (.inr (.inr hn))
  · intro k sig cred hg hk
    obtain ⟨a1, a2, _⟩ := absent sig hg.2
    refine Int.not_le.mp fun hle => ?_
    cases k with
    | access =>
      have := (fa sig cred).mpr ⟨hk, decide_eq_true hle⟩
      rw [a1] at this
      cases this
    | refresh =>
      have := (fr sig cred).mpr ⟨hk, decide_eq_true hle⟩
      rw [a2] at this
      cases this
  · intro sig cred hg hk
    obtain ⟨_, _, a3⟩ := absent sig hg.2
    have hf : ¬ ((decide (time ≤ cred.expiresAt) || cred.used) = true) := fun h => by
      have := (fc sig cred).mpr ⟨hk, h⟩
      rw [a3] at this
      cases this
    simp only [Bool.or_eq_true, decide_eq_true_eq, not_or, Bool.not_eq_true] at hf
    exact ⟨Int.not_le.mp hf.1, hf.2⟩

theorem proper_sweep (hp : Proper s) : Proper (sweep time s) := by
  have key : ∀ {m : GoMap ServerCredential} (p : Str × ServerCredential → Bool), m.keys.Nodup →
      (GoMap.keys (m.filter p)).Nodup := fun p h => h.sublist (List.filter_sublist.map _)
  exact ⟨key _ hp.1, key _ hp.2.1, key _ hp.2.2⟩

/-- **C102.** So a program may sweep the maps of its server at any time: whoever calls later gets the same tokens
and codes, and access to the same, as if it had not. -/
theorem C102_swept {h : List Event} {x : Shared Server} (hh : History s h x) (hp : Proper s) (h1 : OnlyOnce s)
    (hclock : ∀ e ∈ h, ∀ n, time ≤ e.call.clock n)
    (hn : ∀ e ∈ h, HandsNone e fun sig => Stored s sig ∧ ¬ Stored (sweep time s) sig) :
    ∃ h' x', History (sweep time s) h' x' ∧ AllAlike h h' :=
  have ⟨h', x', g1, g2, _⟩ := C102_history hh (C102_sweep hp h1) hp (proper_sweep hp) hclock hn
  ⟨h', x', g1, g2⟩

/-- No event hands out both a code and a token. -/
theorem code_or_token {e : Event} {k : Kind} {t x : HS256Token} (h : Hands e k t) (h' : HandsCode e x) : False := by
  obtain ⟨rq, u, res, ⟨r, g1, g2, _, g4, _⟩, g5, _⟩ := h'
  rcases h with ⟨rq', res', ⟨r', k1, k2, _⟩, _⟩ | ⟨_, rq', u', res', ⟨r', k1, k2, _, k4, _⟩, k5, _⟩
  · rw [g1] at k1
    cases k1
    rw [lastSegment_iff] at g2 k2
    rw [g2] at k2
    exact absurd k2 (by decide)
  · rw [g1] at k1
    cases k1
    rw [g4] at k4
    cases k4
    rw [g5] at k5
    exact absurd k5 (by decide)

/-- **C102.** No signature ever comes into two maps, as long as what is handed out is new: its signatures are not
those of what is stored, and the two tokens of an answer have different ones. -/
theorem C102_single (hp : Proper s) (h1 : OnlyOnce s)
    (hnew : HandsNone ⟨c, (step ⟨false, s⟩ c).1⟩ (Stored s))
    (hdiff : ∀ t t', Hands ⟨c, (step ⟨false, s⟩ c).1⟩ .access t → Hands ⟨c, (step ⟨false, s⟩ c).1⟩ .refresh t' →
      t.signatureString ≠ t'.signatureString) : OnlyOnce (step ⟨false, s⟩ c).2.st := by
  have of_keys : ∀ {m : GoMap ServerCredential} {sig : Str}, sig ∈ m.keys → ∃ cred, m.get? sig = some cred := by
    intro m sig h
    cases hg : m.get? sig with
    | none => exact absurd h (get?_none_keys.mp hg)
    | some cred => exact ⟨cred, rfl⟩
  have ht : ∀ k sig, sig ∈ (tokens (step ⟨false, s⟩ c).2.st k).keys →
      (∃ t, Hands ⟨c, (step ⟨false, s⟩ c).1⟩ k t ∧ t.signatureString = sig) ∨ sig ∈ (tokens s k).keys := by
    intro k sig h
    obtain ⟨cred, h⟩ := of_keys h
    rcases (C73_tokens s (proper_once hp) c k sig cred).mp h with ⟨t, g1, g2, _⟩ | ⟨_, g, _⟩
    · exact .inl ⟨t, g1, g2⟩
    · exact .inr (GoMap.mem_keys_of_get? g)
  have hc : ∀ sig, sig ∈ (step ⟨false, s⟩ c).2.st.authorizationCodes.keys →
      (∃ x, HandsCode ⟨c, (step ⟨false, s⟩ c).1⟩ x ∧ x.signatureString = sig) ∨ sig ∈ s.authorizationCodes.keys := by
    intro sig h
    obtain ⟨cred, h⟩ := of_keys h
    rcases (C73_codes s c sig cred).mp h with ⟨x, _, _, _, g1, g2, _⟩ | ⟨_, old, g, _⟩
    · exact .inl ⟨x, g1, g2⟩
    · exact .inr (GoMap.mem_keys_of_get? g)
  have stored : ∀ {sig}, sig ∈ s.accessTokens.keys ∨ sig ∈ s.refreshTokens.keys ∨ sig ∈ s.authorizationCodes.keys →
      Stored s sig := by
    rintro sig (h | h | h)
    · exact .inl fun hn => get?_none_keys.mp hn h
    · exact .inr (.inl fun hn => get?_none_keys.mp hn h)
    · exact .inr (.inr fun hn => get?_none_keys.mp hn h)
  refine ⟨fun sig ha => ⟨fun hr => ?_, fun hx => ?_⟩, fun sig hr hx => ?_⟩
  · rcases ht .access sig ha with ⟨t, g1, rfl⟩ | ha
    · rcases ht .refresh _ hr with ⟨t', g2, g3⟩ | hr
      · exact hdiff t t' g1 g2 g3.symm
      · exact hnew.1 _ t g1 (stored (.inr (.inl hr)))
    · rcases ht .refresh _ hr with ⟨t', g2, rfl⟩ | hr
      · exact hnew.1 _ t' g2 (stored (.inl ha))
      · exact (h1.1 sig ha).1 hr
  · rcases ht .access sig ha with ⟨t, g1, rfl⟩ | ha
    · rcases hc _ hx with ⟨x, g2, _⟩ | hx
      · exact code_or_token g1 g2
      · exact hnew.1 _ t g1 (stored (.inr (.inr hx)))
    · rcases hc _ hx with ⟨x, g2, rfl⟩ | hx
      · exact hnew.2 x g2 (stored (.inl ha))
      · exact (h1.1 sig ha).2 hx
  · rcases ht .refresh sig hr with ⟨t, g1, rfl⟩ | hr
    · rcases hc _ hx with ⟨x, g2, _⟩ | hx
      · exact code_or_token g1 g2
      · exact hnew.1 _ t g1 (stored (.inr (.inr hx)))
    · rcases hc _ hx with ⟨x, g2, rfl⟩ | hx
      · exact hnew.2 x g2 (stored (.inr (.inl hr)))
      · exact h1.2 sig hr hx

/-! ### Examples -/

/-- After a day nearly everything of the demonstration has expired; the redeemed code stays. -/
example : Proper Demo.s9 ∧ OnlyOnce Demo.s9 ∧ (sweep (90000 * second) Demo.s9).accessTokens = [] ∧
    Demo.s9.accessTokens ≠ [] ∧ (sweep (90000 * second) Demo.s9).refreshTokens ≠ [] ∧
    (sweep (90000 * second) Demo.s9).authorizationCodes.length = 1 ∧
    Demo.s9.authorizationCodes.length = 2 := by
  refine ⟨by decide +kernel, by decide +kernel, by decide +kernel, by decide +kernel, by decide +kernel,
    by decide +kernel, by decide +kernel⟩

/-- An expired token, presented before and after sweeping, and another one, introspected. -/
example : (step ⟨false, Demo.s2⟩ (Demo.present Demo.a1.string none 90000)).1 ≠
      (step ⟨false, sweep (90000 * second) Demo.s2⟩ (Demo.present Demo.a1.string none 90000)).1 ∧
    Alike (Demo.present Demo.a1.string none 90000)
      (step ⟨false, Demo.s2⟩ (Demo.present Demo.a1.string none 90000)).1
      (step ⟨false, sweep (90000 * second) Demo.s2⟩ (Demo.present Demo.a1.string none 90000)).1 := by
  refine ⟨by decide +kernel, (C102_call (C102_sweep (by decide +kernel) (by decide +kernel)) (by decide +kernel)
    (proper_sweep (by decide +kernel)) (fun n => ?_) ⟨?_, ?_⟩).1⟩
  · show 90000 * second ≤ (90000 + (n : Int)) * second
    exact Int.mul_le_mul_of_nonneg_right (by omega) (by decide)
  · intro k t h
    cases k with
    | access => exact absurd h (hands_none (by decide +kernel))
    | refresh => exact absurd h (hands_none (by decide +kernel))
  · exact fun x h => absurd h (handsCode_none (by decide +kernel))

/-- A code that was redeemed must stay, even if it has expired: without it nobody notices that it is replayed,
and the tokens that were issued for it stay in force. -/
example :
    let s' : Server := { Demo.s4 with authorizationCodes := [] }
    (step ⟨false, Demo.s4⟩ Demo.c5).2.st.accessTokens.length = 2 ∧
    (step ⟨false, s'⟩ Demo.c5).2.st.accessTokens.length = 3 ∧ Demo.s4.authorizationCodes.length = 1 := by
  decide +kernel

end OAuth2

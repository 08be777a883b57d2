import Verif.Lemmas.Replies
import Verif.Props.Access

/-!
C31–C36, C43, C48: what codes and refresh tokens are good for, for every history of calls.
-/

namespace OAuth2

open Spec

set_option linter.unusedSimpArgs false

variable {s₀ : Server} {s : Shared Server}

theorem tokenCall_of_asks {c : Call} {rq : TokenRequest} {x : Answer} (h : AsksToken c rq)
    {res : Response} (hx : x = .answered res) : TokenCall ⟨c, x⟩ rq res := by
  obtain ⟨r, h1, h2, h3⟩ := h
  exact ⟨r, h1, h2, h3, hx⟩

theorem tokenCall_asks {e : Event} {rq : TokenRequest} {res : Response} (h : TokenCall e rq res) :
    AsksToken e.call rq := by
  obtain ⟨r, h1, h2, h3, _⟩ := h
  exact ⟨r, h1, h2, h3⟩

/-! ### Refresh tokens -/

/-- A used up refresh token is not in force until it is handed out again. -/
theorem used_gone {cfg : ServerConfig} {new old : List Event} {e : Event} {t : HS256Token}
    (hu : UsesUp cfg e t)
    (hn : ∀ e' ∈ new, ∀ t', Hands e' .refresh t' → t'.signatureString ≠ t.signatureString) :
    ∀ t' g, t'.signatureString = t.signatureString →
      ¬ InForce cfg (new ++ e :: old) .refresh t' g := by
  obtain ⟨rq, res, a, h1, h2, ⟨x, h3, h4⟩, h5⟩ := hu
  refine gone ?_ hn
  intro t' g hs
  refine ⟨?_, fun _ => .inr (.inr (.inr (.inl ⟨rfl, rq, res, a, h1, h2, ⟨x, h3, by rw [h4, hs]⟩, h5⟩)))⟩
  rw [issued_token h1, h2]
  rintro ⟨_, ⟨hh, _⟩ | ⟨hh, _⟩ | ⟨hh, _⟩ | ⟨_, u, g', _, ⟨x', h6, h7⟩, h8, _⟩⟩
  · exact absurd hh (by decide)
  · exact absurd hh (by decide)
  · exact absurd hh (by decide)
  · rw [h3] at h6
    cases h6
    exact h8 rfl (by rw [hs, ← h4, h7])

/-- A refresh token that is not in force is refused. -/
theorem refresh_refused {h : List Event} (h0 : Started s₀) (hh : History s₀ h s) {t : HS256Token}
    (hg : ∀ t' g, t'.signatureString = t.signatureString → ¬ InForce s₀.config h .refresh t' g)
    {c : Call} {rq : TokenRequest} (hc : AsksToken c rq)
    (hi : Identified s.st rq.clientID rq.clientSecret) (hgt : rq.grantType = b!"refresh_token")
    (ht : SameToken s₀.config rq.refreshToken t) :
    RefusedWith (step s c).1 400 b!"invalid_grant" ∧ (step s c).2 = s := by
  obtain ⟨st, rfl, ex⟩ := history_state h0 hh
  rw [step_refresh hc hi hgt]
  obtain ⟨t', h1, h2⟩ := ht
  have : st.refreshReply rq c.local = (.error (invalidGrant b!"unknown refresh token"), st) := by
    unfold Server.refreshReply
    rw [ex.config, h1]
    simp only
    cases hst : st.refreshTokens.get? t'.signatureString with
    | none => rfl
    | some cred =>
      obtain ⟨y, g, h3, h4, _⟩ := (ex.refresh _ _).mp hst
      exact absurd h4 (hg y g (h3.trans h2))
  rw [this]
  exact ⟨refused_grant _, rfl⟩

/-- **C31.** Once a refresh request with a refresh token was answered with tokens, every later
refresh request with it, in any spelling, by any identified client, is refused with
`invalid_grant` and changes nothing, unless a refresh token with the same signature is handed out
in between. -/
theorem C31_used_once (h0 : Started s₀) {new old : List Event} {e : Event}
    (hh : History s₀ (new ++ e :: old) s) {t : HS256Token} (hu : UsesUp s₀.config e t)
    (hn : ∀ e' ∈ new, ∀ t', Hands e' .refresh t' → t'.signatureString ≠ t.signatureString)
    {c : Call} {rq : TokenRequest} (hc : AsksToken c rq) (hgt : rq.grantType = b!"refresh_token")
    (ht : SameToken s₀.config rq.refreshToken t)
    (hi : Identified s.st rq.clientID rq.clientSecret) :
    RefusedWith (step s c).1 400 b!"invalid_grant" ∧ (step s c).2 = s :=
  refresh_refused h0 hh (used_gone hu hn) hc hi hgt ht

/-- Non-vacuity: the fourth event of the session uses up the refresh token of the third, later
events hand out other refresh tokens, and `c2` presents the used one again. -/
example : UsesUp Demo.server.config Demo.e4 Demo.r3 ∧
    (∀ e' ∈ [Demo.e9, Demo.e8, Demo.e7, Demo.e6, Demo.e5], ∀ t', Hands e' .refresh t' →
      t'.signatureString ≠ Demo.r3.signatureString) ∧
    ∃ rq, AsksToken (Demo.post b!"/token" []
        (b!"grant_type=refresh_token&client_id=c2&refresh_token=" ++ Demo.r3.string) [] 1100) rq ∧
      rq.grantType = b!"refresh_token" ∧ SameToken Demo.server.config rq.refreshToken Demo.r3 ∧
      Identified Demo.s9 rq.clientID rq.clientSecret := by
  refine ⟨by decide +kernel, ?_, { grantType := b!"refresh_token", clientID := b!"c2", refreshToken := Demo.r3.string },
    by decide +kernel, rfl, by decide +kernel, by decide +kernel⟩
  intro e' he t' ht
  simp only [List.mem_cons, List.not_mem_nil, or_false] at he
  rcases he with rfl | rfl | rfl | rfl | rfl
  · exact (hands_none (by decide +kernel) ht).elim
  · rw [hands_only (a := Demo.r8) (by decide +kernel) ht]; decide +kernel
  · exact (hands_none (by decide +kernel) ht).elim
  · exact (hands_none (by decide +kernel) ht).elim
  · exact (hands_none (by decide +kernel) ht).elim

/-- **C31.** In every history, between two events that use up the same refresh token, a refresh
token with its signature is handed out. -/
theorem C31_between_uses (h0 : Started s₀) {later new old : List Event} {e e' : Event}
    (hh : History s₀ (later ++ e' :: (new ++ e :: old)) s) {t : HS256Token}
    (hu : UsesUp s₀.config e t) (hu' : UsesUp s₀.config e' t) :
    ∃ x ∈ new, ∃ t', Hands x .refresh t' ∧ t'.signatureString = t.signatureString := by
  apply Classical.byContradiction
  intro hn
  have hg := used_gone (old := old) (new := new) hu
    (fun x hx t' h1 h2 => hn ⟨x, hx, t', h1, h2⟩)
  obtain ⟨st, _, ex, _, hseen⟩ := history_seen h0 hh
  have hno : ∀ {a b c red rev}, Obs s₀.config e' a b c red none rev → False := by
    intro a b c red rev o
    rw [o.usesUp] at hu'
    cases hu'
  cases hseen with
  | quiet q => exact hno q
  | revoke sig o => exact hno o
  | implicit _ _ _ _ _ _ _ _ _ _ _ o => exact hno o
  | code _ _ _ _ _ _ _ _ _ _ _ o => exact hno o
  | password _ _ _ _ _ _ _ _ _ _ _ o _ => exact hno o
  | client _ _ _ _ _ _ _ _ _ _ _ o _ => exact hno o
  | exchange _ _ _ _ _ _ _ _ _ _ _ _ _ _ _ _ o _ => exact hno o
  | refresh _ _ _ _ _ y g _ _ _ hy _ _ _ _ _ o _ =>
    rw [o.usesUp] at hu'
    exact hg y g (Option.some.inj hu') hy

/-- Non-vacuity: with a random source that repeats itself a refresh token is handed out and used
twice. -/
example : let form : Str := b!"grant_type=password&client_id=c2&username=u1&password=p1"
    let again : Str := b!"grant_type=refresh_token&client_id=c2&refresh_token=" ++ Demo.r1.string
    let h := (Demo.run ⟨false, Demo.server⟩ [Demo.post b!"/token" [] form [1, 2, 3, 4] 0,
      Demo.post b!"/token" [] again [5, 6, 7, 8] 1, Demo.post b!"/token" [] form [1, 2, 3, 4] 2,
      Demo.post b!"/token" [] again [5, 6, 7, 8] 3] []).1
    h.map (fun e => decide (UsesUp Demo.server.config e Demo.r1)) = [true, false, true, false] := by
  decide +kernel

/-- **C29.** After a revocation of a token was answered with success, every refresh request with
it is refused with `invalid_grant`, unless a refresh token with the same signature is handed out
again. -/
theorem C29_not_refreshed (h0 : Started s₀) {new old : List Event} {e : Event}
    (hh : History s₀ (new ++ e :: old) s) {t : HS256Token} (hr : Revokes s₀.config e t)
    (hn : ∀ e' ∈ new, ∀ t', Hands e' .refresh t' → t'.signatureString ≠ t.signatureString)
    {c : Call} {rq : TokenRequest} (hc : AsksToken c rq) (hgt : rq.grantType = b!"refresh_token")
    (ht : SameToken s₀.config rq.refreshToken t)
    (hi : Identified s.st rq.clientID rq.clientSecret) :
    RefusedWith (step s c).1 400 b!"invalid_grant" ∧ (step s c).2 = s :=
  refresh_refused h0 hh (revoked_gone hr hn) hc hi hgt ht

/-- Non-vacuity: the last event of the session revokes the refresh token of the first, and `c1`
presents it. -/
example : Revokes Demo.server.config Demo.e10 Demo.r1 ∧
    ∃ rq, AsksToken (Demo.post b!"/token" b!"c1:s1"
        (b!"grant_type=refresh_token&refresh_token=" ++ Demo.r1.string) [] 1100) rq ∧
      rq.grantType = b!"refresh_token" ∧ SameToken Demo.server.config rq.refreshToken Demo.r1 ∧
      Identified Demo.s10 rq.clientID rq.clientSecret :=
  ⟨by decide +kernel, {
    grantType := b!"refresh_token", clientID := b!"c1", clientSecret := b!"s1",
    refreshToken := Demo.r1.string }, by decide +kernel, rfl, by decide +kernel, by decide +kernel⟩

/-! ### Codes -/

/-- A redeemed code stays redeemed until a code with its signature is handed out. -/
theorem redeemed_stays {cfg : ServerConfig} {new old : List Event} {e : Event} {x : HS256Token}
    (hr : Redeems cfg e x)
    (hn : ∀ e' ∈ new, ∀ c', HandsCode e' c' → c'.signatureString ≠ x.signatureString)
    {y : HS256Token} {g : CodeGrant} {b : Bool} (hs : y.signatureString = x.signatureString)
    (hc : Code cfg (new ++ e :: old) y g b) : b = true := by
  induction new with
  | nil =>
    obtain ⟨rq, res, a, h1, h2, ⟨x', h3, h4⟩, h5⟩ := hr
    rcases code_cons.mp hc with ⟨_, _, _, h6, _⟩ | ⟨h6, _⟩ | ⟨_, h6, _⟩
    · exact (not_both h1 h6).elim
    · exact h6
    · exact absurd ⟨rq, res, a, h1, h2, ⟨x', h3, by rw [h4, hs]⟩, h5⟩ h6
  | cons z new ih =>
    rcases code_cons.mp hc with ⟨_, _, _, _, _, h6, _⟩ | ⟨h6, _⟩ | ⟨h6, _⟩
    · exact absurd hs (hn z (by simp) y h6)
    · exact h6
    · exact ih (fun e' h' => hn e' (List.mem_cons_of_mem _ h')) h6

/-- **C33.** In every history, between two events that redeem the same code, a code with its
signature is handed out: every code is redeemed at most once. -/
theorem C33_redeemed_once (h0 : Started s₀) {later new old : List Event} {e e' : Event}
    (hh : History s₀ (later ++ e' :: (new ++ e :: old)) s) {x : HS256Token}
    (hr : Redeems s₀.config e x) (hr' : Redeems s₀.config e' x) :
    ∃ z ∈ new, ∃ c', HandsCode z c' ∧ c'.signatureString = x.signatureString := by
  apply Classical.byContradiction
  intro hn
  obtain ⟨st, _, ex, _, hseen⟩ := history_seen h0 hh
  have hno : ∀ {a b c use rev}, Obs s₀.config e' a b c none use rev → False := by
    intro a b c use rev o
    rw [o.redeems] at hr'
    cases hr'
  cases hseen with
  | quiet q => exact hno q
  | revoke sig o => exact hno o
  | implicit _ _ _ _ _ _ _ _ _ _ _ o => exact hno o
  | code _ _ _ _ _ _ _ _ _ _ _ o => exact hno o
  | password _ _ _ _ _ _ _ _ _ _ _ o _ => exact hno o
  | client _ _ _ _ _ _ _ _ _ _ _ o _ => exact hno o
  | refresh _ _ _ _ _ y g _ _ _ hy _ _ _ _ _ o _ => exact hno o
  | exchange _ _ _ _ _ y g _ _ _ hy _ _ _ _ _ o _ =>
    rw [o.redeems] at hr'
    have := redeemed_stays hr (fun z hz c' h1 h2 => hn ⟨z, hz, c', h1, h2⟩)
      (Option.some.inj hr') hy
    cases this

/-- Non-vacuity: with a random source that repeats itself a code is handed out and redeemed
twice. -/
example : let form : Str := b!"response_type=code&client_id=c1&username=u1&password=p1" ++
      b!"&redirect_uri=http%3A%2F%2Fexample.com%2Fcb"
    let redeem : Str := b!"grant_type=authorization_code&redirect_uri=http%3A%2F%2Fexample.com%2Fcb&code=" ++
      Demo.x2.string
    let h := (Demo.run ⟨false, Demo.server⟩ [Demo.post b!"/authorize" [] form [5, 6] 0,
      Demo.post b!"/token" b!"c1:s1" redeem [1, 2, 3, 4] 1, Demo.post b!"/authorize" [] form [5, 6] 2,
      Demo.post b!"/token" b!"c1:s1" redeem [5, 6, 7, 8] 3] []).1
    h.map (fun e => decide (Redeems Demo.server.config e Demo.x2)) = [true, false, true, false] := by
  decide +kernel

/-- Presenting a code that is not on record or redeemed. -/
theorem code_refused {h : List Event} (h0 : Started s₀) (hh : History s₀ h s) {x : HS256Token}
    (hg : ∀ y g b, y.signatureString = x.signatureString → Code s₀.config h y g b → b = true)
    {c : Call} {rq : TokenRequest} (hc : AsksToken c rq)
    (hi : Identified s.st rq.clientID rq.clientSecret)
    (hgt : rq.grantType = b!"authorization_code") (ht : SameToken s₀.config rq.code x) :
    RefusedWith (step s c).1 400 b!"invalid_grant" ∧
      Replays s₀.config ⟨c, (step s c).1⟩ x.signatureString := by
  obtain ⟨st, rfl, ex⟩ := history_state h0 hh
  rw [step_code hc hi hgt]
  obtain ⟨x', h1, h2⟩ := ht
  have : (st.codeReply rq c.local).1 = .error (invalidGrant b!"unknown authorization code") := by
    unfold Server.codeReply
    rw [ex.config, h1]
    simp only
    cases hst : st.authorizationCodes.get? x'.signatureString with
    | none => rfl
    | some cred =>
      obtain ⟨y, g, b, h3, h4, rfl⟩ := (ex.codes _ _).mp hst
      have hb := hg y g b (h3.trans h2) h4
      subst hb
      rfl
  simp only [this]
  refine ⟨refused_grant _, rq, _, x', tokenCall_of_asks hc rfl, hgt, h1, h2, ?_, ?_⟩
  · rw [(error_jsonMember (e := invalidGrant b!"unknown authorization code") rfl _).1]
    exact (sanitize_ascii (by decide) : sanitize b!"invalid_grant" = _).symm
  · rw [(error_jsonMember (e := invalidGrant b!"unknown authorization code") rfl _).2.1]
    exact ⟨by decide, (sanitize_ascii (by decide)).symm⟩

/-- **C34.** Presenting a code again after it was redeemed, by any identified client, is refused
with `invalid_grant`, and is a replay of the code. -/
theorem C34_replay_refused (h0 : Started s₀) {new old : List Event} {e : Event}
    (hh : History s₀ (new ++ e :: old) s) {x : HS256Token} (hr : Redeems s₀.config e x)
    (hn : ∀ e' ∈ new, ∀ c', HandsCode e' c' → c'.signatureString ≠ x.signatureString)
    {c : Call} {rq : TokenRequest} (hc : AsksToken c rq)
    (hgt : rq.grantType = b!"authorization_code") (ht : SameToken s₀.config rq.code x)
    (hi : Identified s.st rq.clientID rq.clientSecret) :
    RefusedWith (step s c).1 400 b!"invalid_grant" ∧
      Replays s₀.config ⟨c, (step s c).1⟩ x.signatureString :=
  code_refused h0 hh (fun _ _ _ h1 h2 => redeemed_stays hr hn h1 h2) hc hi hgt ht

/-- Non-vacuity: the third event of the session redeems the code of the second, the fourth hands
out no code, and `c2` presents the code again. -/
example : Redeems Demo.server.config Demo.e3 Demo.x2 ∧
    (∀ e' ∈ [Demo.e4], ∀ c', HandsCode e' c' → c'.signatureString ≠ Demo.x2.signatureString) ∧
    ∃ rq, AsksToken Demo.c5 rq ∧ rq.grantType = b!"authorization_code" ∧
      SameToken Demo.server.config rq.code Demo.x2 ∧
      Identified Demo.s4 rq.clientID rq.clientSecret := by
  refine ⟨by decide +kernel, ?_, {
    grantType := b!"authorization_code", clientID := b!"c2",
    redirectURI := b!"http://example.org/cb?x=1", code := Demo.x2.string }, by decide +kernel, rfl,
    by decide +kernel, by decide +kernel⟩
  intro e' he c' hc
  rw [List.mem_singleton.mp he] at hc
  exact (handsCode_none (by decide +kernel) hc).elim

/-- The tokens that redeeming a code hands out stand for grants that name the code. -/
theorem redeemed_origin {cfg : ServerConfig} {old : List Event} {e : Event} {x : HS256Token}
    (hr : Redeems cfg e x) {k : Kind} {t : HS256Token} {g : Grant} (hi : Issued cfg old e k t g) :
    g.origin = x.signatureString ∧ g.origin ≠ [] := by
  obtain ⟨rq, res, a, h1, h2, ⟨x', h3, h4⟩, h5⟩ := hr
  rw [issued_token h1, h2] at hi
  obtain ⟨_, ⟨hh, _⟩ | ⟨hh, _⟩ | ⟨_, z, g', _, ⟨x'', h6, h7⟩, rfl⟩ | ⟨hh, _⟩⟩ := hi
  · exact absurd hh (by decide)
  · exact absurd hh (by decide)
  · rw [h3] at h6
    cases h6
    refine ⟨by rw [← h4]; exact h7.symm, ?_⟩
    show z.signatureString ≠ []
    rw [← h7]
    exact parsed_signature_ne_nil h3
  · exact absurd hh (by decide)

/-- **C34** (part). After a replay of a redeemed code, the tokens that redeeming it handed out are
not in force, until tokens with their signatures are handed out again. What is missing: tokens
obtained by refreshing those tokens stay in force, see `C34_refuted`. -/
theorem C34_replay_revokes_partial (h0 : Started s₀) {later new old : List Event} {e e' : Event}
    (hh : History s₀ (later ++ e' :: (new ++ e :: old)) s) {x : HS256Token}
    (hr : Redeems s₀.config e x) (hr' : Replays s₀.config e' x.signatureString) {k : Kind}
    {t : HS256Token} (ht : Hands e k t)
    (hn : ∀ z ∈ later ++ new, ∀ t', Hands z k t' → t'.signatureString ≠ t.signatureString) :
    ∀ t' g, t'.signatureString = t.signatureString →
      ¬ InForce s₀.config (later ++ e' :: (new ++ e :: old)) k t' g := by
  obtain ⟨st, _, ex, _, hseen⟩ := history_seen h0 hh
  refine gone ?_ (fun z hz => hn z (List.mem_append_left _ hz))
  intro t' g hs
  refine ⟨fun hi => replay_hands_nothing hseen hr' k t' hi.hands, ?_⟩
  intro hi
  obtain ⟨h1, h2⟩ := redeemed_origin hr
    (inForce_since ht (fun z hz => hn z (List.mem_append_right _ hz)) hs hi)
  exact .inr (.inr (.inl ⟨h2, by rw [h1]; exact hr'⟩))

/-- **C34** (part). In particular `Authorize` does not admit the access token. -/
theorem C34_not_admitted_partial (h0 : Started s₀) {later new old : List Event} {e e' : Event}
    (hh : History s₀ (later ++ e' :: (new ++ e :: old)) s) {x : HS256Token}
    (hr : Redeems s₀.config e x) (hr' : Replays s₀.config e' x.signatureString)
    {t : HS256Token} (ht : Hands e .access t)
    (hn : ∀ z ∈ later ++ new, ∀ t', Hands z .access t' → t'.signatureString ≠ t.signatureString)
    (c : Call) {required : Scope} {text : Str} (hc : Presents c required text)
    (hs : SameToken s₀.config text t) : (step s c).1 ≠ .admitted :=
  not_admitted h0 hh (C34_replay_revokes_partial h0 hh hr hr' ht hn) c hc hs

/-- **C34** (part). And the refresh token is refused. -/
theorem C34_not_refreshed_partial (h0 : Started s₀) {later new old : List Event} {e e' : Event}
    (hh : History s₀ (later ++ e' :: (new ++ e :: old)) s) {x : HS256Token}
    (hr : Redeems s₀.config e x) (hr' : Replays s₀.config e' x.signatureString)
    {t : HS256Token} (ht : Hands e .refresh t)
    (hn : ∀ z ∈ later ++ new, ∀ t', Hands z .refresh t' → t'.signatureString ≠ t.signatureString)
    {c : Call} {rq : TokenRequest} (hc : AsksToken c rq) (hgt : rq.grantType = b!"refresh_token")
    (hs : SameToken s₀.config rq.refreshToken t)
    (hi : Identified s.st rq.clientID rq.clientSecret) :
    RefusedWith (step s c).1 400 b!"invalid_grant" ∧ (step s c).2 = s :=
  refresh_refused h0 hh (C34_replay_revokes_partial h0 hh hr hr' ht hn) hc hi hgt hs

/-- Non-vacuity: the fifth event of the session replays the code that the third redeemed; what the
third handed out is not handed out again. -/
example : Redeems Demo.server.config Demo.e3 Demo.x2 ∧
    Replays Demo.server.config Demo.e5 Demo.x2.signatureString ∧
    Hands Demo.e3 .access Demo.a3 ∧ Hands Demo.e3 .refresh Demo.r3 ∧
    (∀ z ∈ [Demo.e6] ++ [Demo.e4], ∀ t', Hands z .access t' →
      t'.signatureString ≠ Demo.a3.signatureString) ∧
    (∀ z ∈ [Demo.e6] ++ [Demo.e4], ∀ t', Hands z .refresh t' →
      t'.signatureString ≠ Demo.r3.signatureString) := by
  refine ⟨by decide +kernel, by decide +kernel, by decide +kernel, by decide +kernel, ?_, ?_⟩
  all_goals
    intro z hz t' ht
    simp only [List.mem_append, List.mem_cons, List.not_mem_nil, or_false] at hz
    rcases hz with rfl | rfl
    · exact (hands_none (by decide +kernel) ht).elim
    · first
      | (rw [hands_only (a := Demo.a4) (by decide +kernel) ht]; decide +kernel)
      | (rw [hands_only (a := Demo.r4) (by decide +kernel) ht]; decide +kernel)

/-- **C34** fails for tokens obtained by refreshing: there is a history in which a code is redeemed
for a refresh token, the refresh token is used for an access token, then the code is replayed, and
afterwards `Authorize` still admits this access token. -/
theorem C34_refuted : ∃ s₀ redeem use replay old s x r a c,
    Started s₀ ∧ History s₀ (replay :: use :: redeem :: old) s ∧
    Redeems s₀.config redeem x ∧ Hands redeem .refresh r ∧
    UsesUp s₀.config use r ∧ Hands use .access a ∧
    Replays s₀.config replay x.signatureString ∧
    Presents c (some [b!"foo"]) a.string ∧ (step s c).1 = .admitted := by
  refine ⟨Demo.server, Demo.e3, Demo.e4, Demo.e5, [Demo.e2, Demo.e1], ⟨false, Demo.s5⟩, Demo.x2,
    Demo.r3, Demo.a4, Demo.present Demo.a4.string (some [b!"foo"]) 1045, Demo.started, Demo.history5,
    by decide +kernel, by decide +kernel, by decide +kernel, by decide +kernel, by decide +kernel,
    ⟨_, rfl, b!"Bearer", by decide +kernel, ?_, by decide⟩, by decide +kernel⟩
  simp [AnyCase]

/-! ### What codes are bound to -/

/-- Where a code on record comes from: an authorization request that was answered with it, and
its grant is what this request asked for. -/
theorem C35_code_origin {cfg : ServerConfig} {h : List Event} {y : HS256Token} {g : CodeGrant}
    {b : Bool} (hc : Code cfg h y g b) :
    ∃ new e old rq u res, h = new ++ e :: old ∧ AuthorizationCall e rq u res ∧
      rq.responseType = b!"code" ∧ HandsCode e y ∧
      g = { client := rq.clientID, user := u, scope := rq.scope, redirectURI := rq.redirectURI,
            expires := e.call.clock 0 + cfg.authorizationCodeLifespan } := by
  induction hc with
  | issued h1 h2 h3 => exact ⟨[], _, _, _, _, _, rfl, h1, h2, h3, rfl⟩
  | @redeemed e h c g _ _ ih =>
    obtain ⟨new, e', old, rq, u, res, rfl, h1⟩ := ih
    exact ⟨e :: new, e', old, rq, u, res, rfl, h1⟩
  | @later e h c g b _ _ _ ih =>
    obtain ⟨new, e', old, rq, u, res, rfl, h1⟩ := ih
    exact ⟨e :: new, e', old, rq, u, res, rfl, h1⟩

/-- Non-vacuity: the code of the second event of the session is on record. -/
example : Code Demo.server.config [Demo.e2, Demo.e1] Demo.x2 {
    client := b!"c2", user := b!"u1", scope := some [b!"foo", b!"bar"],
    redirectURI := b!"http://example.org/cb?x=1", expires := 1610 * second } false :=
  Demo.code2

/-- Two codes on record with the same signature stand for the same grant. -/
theorem code_unique {cfg : ServerConfig} {h : List Event} {st : Server} (ex : Exact cfg h st)
    {y y' : HS256Token} {g g' : CodeGrant} {b b' : Bool} (hc : Code cfg h y g b)
    (hc' : Code cfg h y' g' b') (hs : y.signatureString = y'.signatureString) : g = g' ∧ b = b' := by
  have h1 := (ex.codes y.signatureString (g.cred b)).mpr ⟨y, g, b, rfl, hc, rfl⟩
  have h2 := (ex.codes y.signatureString (g'.cred b')).mpr ⟨y', g', b', hs.symm, hc', rfl⟩
  rw [h1] at h2
  exact codeGrant_cred_inj (Option.some.inj h2)

/-- Two tokens of one kind in force with the same signature stand for the same grant. -/
theorem token_unique {cfg : ServerConfig} {h : List Event} {st : Server} (ex : Exact cfg h st)
    {k : Kind} {y y' : HS256Token} {g g' : Grant} (hc : InForce cfg h k y g)
    (hc' : InForce cfg h k y' g') (hs : y.signatureString = y'.signatureString) : g = g' := by
  cases k
  · have h1 := (ex.access y.signatureString g.cred).mpr ⟨y, g, rfl, hc, rfl⟩
    have h2 := (ex.access y.signatureString g'.cred).mpr ⟨y', g', hs.symm, hc', rfl⟩
    rw [h1] at h2
    exact grant_cred_inj (Option.some.inj h2)
  · have h1 := (ex.refresh y.signatureString g.cred).mpr ⟨y, g, rfl, hc, rfl⟩
    have h2 := (ex.refresh y.signatureString g'.cred).mpr ⟨y', g', hs.symm, hc', rfl⟩
    rw [h1] at h2
    exact grant_cred_inj (Option.some.inj h2)

/-- **C35.** Whenever a code request is answered with a token, the code was on record and
not redeemed, the client identified itself and is the one the code was issued to, the redirect
URI is the one of the authorization request, the code had not expired, and the tokens carry
exactly the client, user and scope of the code. -/
theorem C35_code_bound (h0 : Started s₀) {new old : List Event} {e : Event}
    (hh : History s₀ (new ++ e :: old) s) {rq : TokenRequest} {res : Response} {k : Kind}
    {t : HS256Token} (hc : TokenCall e rq res) (hgt : rq.grantType = b!"authorization_code")
    (ht : Hands e k t) :
    ∃ s₁ y g, History s₀ old s₁ ∧ e.answer = (step s₁ e.call).1 ∧
      Code s₀.config old y g false ∧ SameToken s₀.config rq.code y ∧
      Identified s₁.st rq.clientID rq.clientSecret ∧ g.client = rq.clientID ∧
      g.redirectURI = rq.redirectURI ∧ e.call.clock 0 ≤ g.expires ∧
      InForce s₀.config (e :: old) k t {
        client := g.client, user := g.user, scope := g.scope, expires := expiry s₀.config e 1 k,
        origin := y.signatureString } := by
  obtain ⟨st, hold, ex, hans, hseen⟩ := history_seen h0 hh
  have hno : ∀ {rq'} {res'}, TokenCall e rq' res' → rq'.grantType ≠ b!"authorization_code" → False := by
    intro rq' res' hc' hne
    obtain ⟨rfl, rfl⟩ := tokenCall_unique hc hc'
    exact hne hgt
  cases hseen with
  | quiet q => exact (q.not_hands ht).elim
  | revoke sig o => exact (o.not_hands ht).elim
  | implicit _ _ _ _ _ _ _ _ _ _ hc' _ => exact (not_both hc hc').elim
  | code _ _ _ _ _ _ _ _ _ _ hc' _ => exact (not_both hc hc').elim
  | password _ _ _ _ _ _ _ ht _ _ hc' _ _ => exact (hno hc' (by rw [ht]; decide)).elim
  | client _ _ _ _ _ _ _ ht _ _ hc' _ _ => exact (hno hc' (by rw [ht]; decide)).elim
  | refresh _ _ _ _ _ _ _ _ _ ht _ _ _ _ _ hc' _ _ => exact (hno hc' (by rw [ht]; decide)).elim
  | exchange r rq' res' a b y g hop hf _ hy hsame hx ho hr hc' o hrep =>
    obtain ⟨rfl, rfl⟩ := tokenCall_unique hc hc'
    exact ⟨_, y, g, hold, hans, hy, hsame, hf.client, ho, hr, hx, .exchange hc hgt ht hy hsame⟩

/-- Non-vacuity: the third event of the session hands out tokens for a code. -/
example : (∃ rq res, TokenCall Demo.e3 rq res ∧ rq.grantType = b!"authorization_code") ∧
    Hands Demo.e3 .access Demo.a3 ∧ Hands Demo.e3 .refresh Demo.r3 := by
  refine ⟨by decide +kernel, by decide +kernel, by decide +kernel⟩

/-- **C35, C48.** A code on record that is presented after its expiry, by another client or with
another redirect URI is refused with `invalid_grant`, and if it was not redeemed nothing changes. -/
theorem C35_refused {h : List Event} (h0 : Started s₀) (hh : History s₀ h s) {y : HS256Token}
    {g : CodeGrant} {b : Bool} (hy : Code s₀.config h y g b) {c : Call} {rq : TokenRequest}
    (hc : AsksToken c rq) (hgt : rq.grantType = b!"authorization_code")
    (ht : SameToken s₀.config rq.code y) (hi : Identified s.st rq.clientID rq.clientSecret)
    (hbad : g.expires < c.clock 0 ∨ g.client ≠ rq.clientID ∨ g.redirectURI ≠ rq.redirectURI) :
    RefusedWith (step s c).1 400 b!"invalid_grant" ∧ (b = false → (step s c).2 = s) := by
  obtain ⟨st, rfl, ex⟩ := history_state h0 hh
  rw [step_code hc hi hgt]
  obtain ⟨x, h1, h2⟩ := ht
  have hst : st.authorizationCodes.get? x.signatureString = some (g.cred b) :=
    (ex.codes _ _).mpr ⟨y, g, b, h2.symm, hy, rfl⟩
  cases b with
  | true =>
    refine ⟨?_, by intro h; cases h⟩
    have : (st.codeReply rq c.local).1 = .error (invalidGrant b!"unknown authorization code") := by
      unfold Server.codeReply
      rw [ex.config, h1]
      simp only [hst]
      rfl
    rw [this]
    exact refused_grant _
  | false =>
    have : ∃ d, st.codeReply rq c.local = (.error (invalidGrant d), st) := by
      unfold Server.codeReply
      rw [ex.config, h1]
      simp only [hst, CodeGrant.cred, Bool.false_eq_true, if_false]
      by_cases hx : g.expires < c.clock 0
      · rw [if_pos (Server.before_of_lt (u := c.local.clock c.local.tick) hx)]
        exact ⟨_, rfl⟩
      rw [if_neg (Server.not_before (u := c.local.clock c.local.tick) hx)]
      by_cases ho : g.client = rq.clientID
      · rw [if_neg (by simpa using ho), if_pos (by
          rcases hbad with h | h | h
          · exact absurd h hx
          · exact absurd ho h
          · exact h)]
        exact ⟨_, rfl⟩
      · rw [if_pos ho]
        exact ⟨_, rfl⟩
    obtain ⟨d, hd⟩ := this
    rw [hd]
    exact ⟨refused_grant _, fun _ => rfl⟩

/-- Non-vacuity: `c1` presents the code of `c2`; `c2` presents it with another redirect URI; `c2`
presents it too late. -/
example :
    (∃ rq, AsksToken (Demo.post b!"/token" b!"c1:s1"
        (b!"grant_type=authorization_code&redirect_uri=http%3A%2F%2Fexample.org%2Fcb%3Fx%3D1&code=" ++
          Demo.x2.string) [] 1011) rq ∧ rq.grantType = b!"authorization_code" ∧
      SameToken Demo.server.config rq.code Demo.x2 ∧
      Identified Demo.s2 rq.clientID rq.clientSecret ∧ b!"c2" ≠ rq.clientID) ∧
    (∃ rq, AsksToken (Demo.post b!"/token" [] (b!"grant_type=authorization_code&client_id=c2&code=" ++
          Demo.x2.string) [] 1011) rq ∧ rq.grantType = b!"authorization_code" ∧
      SameToken Demo.server.config rq.code Demo.x2 ∧
      Identified Demo.s2 rq.clientID rq.clientSecret ∧
      b!"http://example.org/cb?x=1" ≠ rq.redirectURI) ∧
    1610 * second < (Demo.post b!"/token" [] [] [] 1611).clock 0 :=
  ⟨⟨{ grantType := b!"authorization_code", clientID := b!"c1", clientSecret := b!"s1",
      redirectURI := b!"http://example.org/cb?x=1", code := Demo.x2.string },
    by decide +kernel, rfl, by decide +kernel, by decide +kernel, by decide⟩,
   ⟨{ grantType := b!"authorization_code", clientID := b!"c2", code := Demo.x2.string },
    by decide +kernel, rfl, by decide +kernel, by decide +kernel, by decide⟩,
   by decide +kernel⟩

end OAuth2

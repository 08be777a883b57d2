import Verif.Spec.Less
import Verif.Props.Rights
import Verif.Props.Random
/-
C104: asking for less is never refused.
-/

namespace OAuth2

open Spec

variable {s s' : Server} {c c' : Call} {k : Kind} {t : HS256Token}

theorem within_trans {a b x : Scope} (h : Within a b) (h' : Within b x) : Within a x := fun i hi => h' i (h i hi)

/-- **C104.** A request that is admitted is also admitted when less is required of it. -/
theorem C104_admitted (h : AsksLess c c') (hl : NotLater c c') (hs : AllowsMore s s')
    (ha : (step ⟨false, s⟩ c).1 = .admitted) : (step ⟨false, s'⟩ c').1 = .admitted := by
  obtain ⟨more, _, rfl⟩ := hs
  cases h with
  | @authorize r required less h1 h2 h3 =>
    rw [step_authorize h1] at ha
    rw [step_authorize h2]
    simp only at ha ⊢
    have : s.authorizes r required (c.clock 0) = none := by
      cases hx : s.authorizes r required (c.clock 0) with
      | none => rfl
      | some e => rw [hx] at ha; cases ha
    have : Server.authorizes { s with config := { s.config with allowedScope := more } } r less (c'.clock 0) = none := by
      unfold Server.authorizes at this ⊢
      simp only at this ⊢
      split at this
      · cases this
      split at this
      · cases this
      split at this
      · cases this
      split at this
      · cases this
      split at this
      · cases this
      · next g1 g2 =>
        have e1 : ¬ (Time.before _ _ = true) := g1
        rw [if_neg, if_neg]
        · rw [Bool.not_eq_true', Bool.not_eq_false] at g2 ⊢
          exact (C07_includes _ _).mpr (within_trans h3 ((C07_includes _ _).mp g2))
        · intro hb
          apply e1
          unfold Time.before at hb ⊢
          have := hl.clock 0
          simp only [decide_eq_true_eq] at hb ⊢
          exact Int.lt_of_lt_of_le hb this
    rw [this]
  | token h1 =>
    obtain ⟨r, hop, _⟩ := h1
    rw [step_serve hop] at ha
    cases hx : (s.handle r c.local).1 <;> rw [hx] at ha <;> cases ha
  | authorization h1 =>
    obtain ⟨r, hop, _⟩ := h1
    rw [step_serve hop] at ha
    cases hx : (s.handle r c.local).1 <;> rw [hx] at ha <;> cases ha

theorem less_token {rq : TokenRequest} {less : Scope} (hc : AsksToken c rq)
    (hc' : AsksToken c' { rq with scope := less }) (hw : Within less rq.scope) (hl : NotLater c c')
    (hs : AllowsMore s s') (h : Hands ⟨c, (step ⟨false, s⟩ c).1⟩ k t) : Hands ⟨c', (step ⟨false, s'⟩ c').1⟩ k t := by
  obtain ⟨more, hmore, rfl⟩ := hs
  have hcoins : c'.local.coins = c.local.coins := hl.coins
  have hclock : c'.local.clock c'.local.tick ≤ c.local.clock c.local.tick := hl.clock 0
  have fin : ∀ {a b scope scope'},
      (step ⟨false, s⟩ c).1 = (Reply.token (Server.grantResponse s.config a (some b) scope)).answer →
      (step ⟨false, { s with config := { s.config with allowedScope := more } }⟩ c').1 =
        (Reply.token (Server.grantResponse s.config a (some b) scope')).answer →
      Hands ⟨c', (step ⟨false, { s with config := { s.config with allowedScope := more } }⟩ c').1⟩ k t := by
    intro a b scope scope' h1 h2
    have g := hands_response hc h1 rfl
    have g' := hands_response hc' h2 rfl
    cases k with
    | access => rw [(C71_access s g.1).2 t h]; exact g'.1
    | refresh => rw [(C71_refresh s g.2).2 t h]; exact g'.2
  obtain ⟨r, hop, hp, hq⟩ := hc
  rw [lastSegment_iff] at hp
  obtain ⟨reply, st, h1, h2, _⟩ := step_served hop s
  rw [h1] at h fin
  have grant : Identified s rq.clientID rq.clientSecret → knownGrantType rq.grantType = true →
      ∃ client, s.clients.get? rq.clientID = some client ∧
        (step ⟨false, { s with config := { s.config with allowedScope := more } }⟩ c').1 =
        (Server.grantReply { s with config := { s.config with allowedScope := more } } { rq with scope := less } client
          c'.local).1.answer := by
    intro hi hk
    obtain ⟨client, g1, g2⟩ := step_grant (s := { s with config := { s.config with allowedScope := more } }) hc' hi hk
    exact ⟨client, g1, by rw [g2]⟩
  have allowed : s.config.allowedScope.includes rq.scope = true → more.includes less = true := fun hx =>
    (C07_includes _ _).mpr (within_trans hw (within_trans ((C07_includes _ _).mp hx) hmore))
  cases h2 with
  | notFound _ h2 => exact absurd hp h2
  | refused e hs hr hp hh hcode hrev => exact absurd h (quiet_refused (cfg := s.config) hop hs hr hh).not_hands
  | crash hs hp => exact absurd h ((silent_of_answer (by intro res hh; cases hh)).quiet (cfg := s.config)).not_hands
  | notice rq hf hm => exact absurd (hp.symm.trans hf.path) (by decide)
  | introspect rq hp' => exact absurd (hp.symm.trans hp') (by decide)
  | refusedRedirect rq hf hm err herr => exact absurd (hp.symm.trans hf.path) (by decide)
  | replay rq hf ht x hc stored hst hu =>
    exact absurd h (quiet_token_error (cfg := s.config) hop hf.path rfl).not_hands
  | revokeHalf rq hp' => exact absurd (hp.symm.trans hp') (by decide)
  | revoke rq hp' => exact absurd (hp.symm.trans hp') (by decide)
  | implicit rq hf hm ht hs hu a hg => exact absurd (hp.symm.trans hf.path) (by decide)
  | code rq hf hm ht hs hu x rest hg => exact absurd (hp.symm.trans hf.path) (by decide)
  | password rq' hf ht hs hu a b hg =>
    obtain rfl : rq' = rq := by have := hf.parsed; rw [hq] at this; cases this; rfl
    obtain ⟨client, _, g⟩ := grant hf.client (by rw [ht]; decide)
    refine fin rfl (g.trans (congrArg Reply.answer ?_)) (scope' := less)
    unfold Server.grantReply
    rw [if_pos ht]
    have hu' : Server.userOK { s with config := { s.config with allowedScope := more } } rq'.username rq'.password
        = true := (Server.userOK_iff _ _ _).mpr hu
    simp only [hu', allowed hs, Bool.not_true, Bool.false_eq_true, if_false]
    unfold Server.issue
    rw [hcoins]
    have hg' : Server.mint { s.config with allowedScope := more } true c.local.coins = some (a, some b) := hg
    simp only [hg']
    rfl
  | client rq' hf ht hcl hs a b hg =>
    obtain rfl : rq' = rq := by have := hf.parsed; rw [hq] at this; cases this; rfl
    obtain ⟨client, g0, g⟩ := grant hf.client (by rw [ht]; decide)
    obtain ⟨_, g1, g2⟩ := hcl
    rw [g0] at g1
    cases g1
    refine fin rfl (g.trans (congrArg Reply.answer ?_)) (scope' := less)
    unfold Server.grantReply
    rw [if_neg (by rw [ht]; decide), if_pos ht]
    simp only [g2, allowed hs, Bool.not_true, Bool.false_eq_true, if_false]
    unfold Server.issue
    rw [hcoins]
    have hg' : Server.mint { s.config with allowedScope := more } true c.local.coins = some (a, some b) := hg
    simp only [hg']
    rfl
  | exchange rq' hf ht x hx stored hst hu hexp ho hr a b hg =>
    obtain rfl : rq' = rq := by have := hf.parsed; rw [hq] at this; cases this; rfl
    obtain ⟨client, g0, g⟩ := grant hf.client (by rw [ht]; decide)
    refine fin rfl (g.trans (congrArg Reply.answer ?_)) (scope' := stored.scope)
    unfold Server.grantReply
    rw [if_neg (by rw [ht]; decide), if_neg (by rw [ht]; decide), if_pos ht]
    unfold Server.codeReply
    have hb : stored.expiresAt.before (c'.local.clock c'.local.tick) = false := by
      unfold Time.before
      exact decide_eq_false (Int.not_lt.mpr (Int.le_trans hclock hexp))
    simp only [hx, hst, hu, hb, ho, hr, ne_eq, not_true_eq_false, Bool.false_eq_true, if_false]
    unfold Server.issue
    rw [hcoins]
    have hg' : Server.mint { s.config with allowedScope := more } true c.local.coins = some (a, some b) := hg
    simp only [hg']
    rfl
  | refresh rq' hf ht x hx stored hst hexp ho scope hsc hss a b hg =>
    obtain rfl : rq' = rq := by have := hf.parsed; rw [hq] at this; cases this; rfl
    obtain ⟨client, g0, g⟩ := grant hf.client (by rw [ht]; decide)
    refine fin rfl (g.trans (congrArg Reply.answer ?_)) (scope' := if less.empty then stored.scope else less)
    unfold Server.grantReply
    rw [if_neg (by rw [ht]; decide), if_neg (by rw [ht]; decide), if_neg (by rw [ht]; decide)]
    unfold Server.refreshReply
    have hb : stored.expiresAt.before (c'.local.clock c'.local.tick) = false := by
      unfold Time.before
      exact decide_eq_false (Int.not_lt.mpr (Int.le_trans hclock hexp))
    have hi : stored.scope.includes (if less.empty then stored.scope else less) = true := by
      split
      · exact C07_refl _
      · next hne =>
        have : rq'.scope.empty = false := by
          cases he : rq'.scope.empty with
          | false => rfl
          | true =>
            refine absurd ((C07_empty _).mpr fun i hi => ?_) hne
            exact (C07_empty _).mp he i (hw i hi)
        rw [this, if_neg (by decide)] at hsc
        subst hsc
        exact (C07_includes _ _).mpr (within_trans hw ((C07_includes _ _).mp hss))
    simp only [hx, hst, hb, ho, hi, ne_eq, not_true_eq_false, Bool.not_true, Bool.false_eq_true, if_false]
    unfold Server.issue
    rw [hcoins]
    have hg' : Server.mint { s.config with allowedScope := more } true c.local.coins = some (a, some b) := hg
    simp only [hg']
    rfl

theorem less_authorization {rq : AuthorizationRequest} {less : Scope} {u p : Str} (hc : AsksAuthorization c rq u p)
    (hc' : AsksAuthorization c' { rq with scope := less } u p) (hw : Within less rq.scope) (hl : NotLater c c')
    (hs : AllowsMore s s') :
    (∀ k t, Hands ⟨c, (step ⟨false, s⟩ c).1⟩ k t → Hands ⟨c', (step ⟨false, s'⟩ c').1⟩ k t) ∧
      ∀ x, HandsCode ⟨c, (step ⟨false, s⟩ c).1⟩ x → HandsCode ⟨c', (step ⟨false, s'⟩ c').1⟩ x := by
  obtain ⟨more, hmore, rfl⟩ := hs
  have hcoins : c'.local.coins = c.local.coins := hl.coins
  obtain ⟨r', hop', hq', hm', hfu', hfp', h1'⟩ :=
    step_submit (s := { s with config := { s.config with allowedScope := more } }) hc'
  have hp' : Server.lastSegment r'.path = b!"authorize" := by
    obtain ⟨r'', h2, h3, _⟩ := hc'
    rw [hop'] at h2
    cases h2
    exact (lastSegment_iff _ _).mp h3
  obtain ⟨r, hop, hp, hm, hq, hfu, hfp⟩ := hc
  rw [lastSegment_iff] at hp
  obtain ⟨reply, st, h1, h2, _⟩ := step_served hop s
  rw [h1]
  have quiet : Quiet s.config ⟨c, reply.answer⟩ →
      (∀ k t, Hands ⟨c, reply.answer⟩ k t → Hands ⟨c', (step ⟨false,
        { s with config := { s.config with allowedScope := more } }⟩ c').1⟩ k t) ∧
      ∀ x, HandsCode ⟨c, reply.answer⟩ x → HandsCode ⟨c', (step ⟨false,
        { s with config := { s.config with allowedScope := more } }⟩ c').1⟩ x :=
    fun o => ⟨fun k t ht => absurd ht o.not_hands, fun x hx => nomatch (o.code x).mp hx⟩
  have allowed : s.config.allowedScope.includes rq.scope = true → more.includes less = true := fun hx =>
    (C07_includes _ _).mpr (within_trans hw (within_trans ((C07_includes _ _).mp hx) hmore))
  cases h2 with
  | notFound h2 => exact absurd hp h2
  | refused e hs hr hp hh hcode hrev => exact quiet (quiet_refused hop hs hr hh)
  | crash hs hp => exact quiet (silent_of_answer (by intro res hh; cases hh)).quiet
  | notice rq' hf hm => exact absurd hm ‹_›
  | introspect rq hp' => exact absurd (hp.symm.trans hp') (by decide)
  | refusedRedirect rq' hf hm e he =>
    refine quiet (quiet_redirect_error hop hf.path hm hf.parsed ?_ ?_)
    · rcases he with rfl | rfl <;> rfl
    · rcases he with rfl | rfl <;> decide
  | replay rq hf => exact absurd (hp.symm.trans hf.path) (by decide)
  | revokeHalf rq hp' => exact absurd (hp.symm.trans hp') (by decide)
  | revoke rq hp' => exact absurd (hp.symm.trans hp') (by decide)
  | password rq hf => exact absurd (hp.symm.trans hf.path) (by decide)
  | client rq hf => exact absurd (hp.symm.trans hf.path) (by decide)
  | exchange rq hf => exact absurd (hp.symm.trans hf.path) (by decide)
  | refresh rq hf => exact absurd (hp.symm.trans hf.path) (by decide)
  | implicit rq' hf hm2 ht hs hu a hg =>
    obtain rfl : rq' = rq := by have := hf.parsed; rw [hq] at this; cases this; rfl
    have o := (implicit_obs (cfg := s.config) (a := a) s.config hop hf hm ht).1
    obtain ⟨client, hcl, hr⟩ := hf.client
    have hf' : Server.AuthorizationFor { s with config := { s.config with allowedScope := more } } r'
        { rq' with scope := less } := ⟨hp', hq', hf.known, client, hcl, hr⟩
    have o' := (implicit_obs (cfg := s.config) (a := a) s.config hop' hf' hm' ht).1
    have hu' : Server.userOK { s with config := { s.config with allowedScope := more } }
        ((r'.parseForm.1.postForm.getD []).get b!"username") ((r'.parseForm.1.postForm.getD []).get b!"password")
        = true := by
      rw [← hfu', ← hfp', hfu, hfp]
      exact (Server.userOK_iff _ _ _).mpr hu
    have hg' : Server.mint { s.config with allowedScope := more } false c.local.coins = some (a, none) := hg
    have e : (Server.authorizeReply { s with config := { s.config with allowedScope := more } } r' c'.local).1 =
        .token ((Server.grantResponse s.config a none less).setRedirect rq'.redirectURI rq'.state) := by
      unfold Server.authorizeReply
      rw [hq']
      have hk : knownResponseType TokenResponseType = true ∧ knownResponseType CodeResponseType = true := by decide
      simp only [hk.1, hcl, hr, Bool.not_true, Bool.false_eq_true, if_false, ne_eq, not_true_eq_false, if_neg hm',
        allowed hs, hu', ht, decide_true, if_true]
      unfold Server.issue
      rw [hcoins]
      simp only [hg']
      rfl
    rw [h1', e]
    constructor
    · intro k t h
      cases k with
      | access => exact (o'.access t).mpr ((o.access t).mp h)
      | refresh => exact nomatch (o.refresh t).mp h
    · intro x hx
      exact nomatch (o.code x).mp hx
  | code rq' hf hm2 ht hs hu x rest hg =>
    obtain rfl : rq' = rq := by have := hf.parsed; rw [hq] at this; cases this; rfl
    have o := (code_obs (cfg := s.config) (x := x) hop hf hm ht).1
    obtain ⟨client, hcl, hr⟩ := hf.client
    have hf' : Server.AuthorizationFor { s with config := { s.config with allowedScope := more } } r'
        { rq' with scope := less } := ⟨hp', hq', hf.known, client, hcl, hr⟩
    have o' := (code_obs (cfg := s.config) (x := x) hop' hf' hm' ht).1
    have hu' : Server.userOK { s with config := { s.config with allowedScope := more } }
        ((r'.parseForm.1.postForm.getD []).get b!"username") ((r'.parseForm.1.postForm.getD []).get b!"password")
        = true := by
      rw [← hfu', ← hfp', hfu, hfp]
      exact (Server.userOK_iff _ _ _).mpr hu
    have hg' : Server.gen { s.config with allowedScope := more } c.local.coins = some (x, rest) := hg
    have e : (Server.authorizeReply { s with config := { s.config with allowedScope := more } } r' c'.local).1 =
        .code ⟨x.string, rq'.state, rq'.redirectURI⟩ := by
      unfold Server.authorizeReply
      rw [hq']
      have hk : knownResponseType TokenResponseType = true ∧ knownResponseType CodeResponseType = true := by decide
      have ht' : ¬ CodeResponseType = TokenResponseType := by decide
      simp only [hk.2, hcl, hr, Bool.not_true, Bool.false_eq_true, if_false, ne_eq, not_true_eq_false, if_neg hm',
        allowed hs, hu', ht, ht', decide_false, hcoins, hg']
    rw [h1', e]
    constructor
    · intro k t h
      exact absurd h o.not_hands
    · intro y hy
      exact (o'.code y).mpr ((o.code y).mp hy)

/-- **C104.** What a request is given, the same request for less is given too: the same access token and the same
refresh token. -/
theorem C104_tokens (h : AsksLess c c') (hl : NotLater c c') (hs : AllowsMore s s')
    (ht : Hands ⟨c, (step ⟨false, s⟩ c).1⟩ k t) : Hands ⟨c', (step ⟨false, s'⟩ c').1⟩ k t := by
  cases h with
  | authorize h1 h2 =>
    refine absurd ht ((silent_of_answer ?_).quiet (cfg := s.config)).not_hands
    rw [step_authorize h1]
    simp only
    split <;> exact fun res hh => nomatch hh
  | token h1 h2 h3 => exact less_token h1 h2 h3 hl hs ht
  | authorization h1 h2 h3 => exact (less_authorization h1 h2 h3 hl hs).1 k t ht

/-- **C104.** And the same authorization code. -/
theorem C104_codes (h : AsksLess c c') (hl : NotLater c c') (hs : AllowsMore s s')
    (ht : HandsCode ⟨c, (step ⟨false, s⟩ c).1⟩ t) : HandsCode ⟨c', (step ⟨false, s'⟩ c').1⟩ t := by
  cases h with
  | authorize h1 h2 =>
    obtain ⟨_, _, _, ⟨r, h3, _⟩, _⟩ := ht
    rw [h1] at h3
    cases h3
  | token h1 h2 h3 =>
    obtain ⟨r, h4, h5, _⟩ := h1
    obtain ⟨_, _, _, ⟨r', h6, h7, _⟩, _⟩ := ht
    rw [h4] at h6
    cases h6
    rw [lastSegment_iff] at h5 h7
    exact absurd (h5.symm.trans h7) (by decide)
  | authorization h1 h2 h3 => exact (less_authorization h1 h2 h3 hl hs).2 t ht

/-- **C104.** In particular the order of the scopes and their repetition make no difference. -/
theorem C104_same {r : Request} {a b : Scope} (h : Within a b) (h' : Within b a) (hop : c.op = .authorize r a)
    (hop' : c'.op = .authorize r b) (hcoins : c'.coins = c.coins) (hclock : c'.clock = c.clock) :
    (step ⟨false, s⟩ c).1 = .admitted ↔ (step ⟨false, s⟩ c').1 = .admitted :=
  ⟨C104_admitted (.authorize hop hop' h') ⟨hcoins, fun _ => hclock ▸ Int.le_refl _⟩ ⟨_, fun _ hi => hi, rfl⟩,
    C104_admitted (.authorize hop' hop h) ⟨hcoins.symm, fun _ => hclock ▸ Int.le_refl _⟩ ⟨_, fun _ hi => hi, rfl⟩⟩

/-- **C104.** The same for token requests. -/
theorem C104_same_tokens {rq : TokenRequest} {x : Scope} (h : Within rq.scope x) (h' : Within x rq.scope)
    (hc : AsksToken c rq) (hc' : AsksToken c' { rq with scope := x }) (hcoins : c'.coins = c.coins)
    (hclock : c'.clock = c.clock) :
    Hands ⟨c, (step ⟨false, s⟩ c).1⟩ k t ↔ Hands ⟨c', (step ⟨false, s⟩ c').1⟩ k t :=
  ⟨C104_tokens (.token hc hc' h') ⟨hcoins, fun _ => hclock ▸ Int.le_refl _⟩ ⟨_, fun _ hi => hi, rfl⟩,
    C104_tokens (.token hc' hc h) ⟨hcoins.symm, fun _ => hclock ▸ Int.le_refl _⟩ ⟨_, fun _ hi => hi, rfl⟩⟩

/-- **C104.** And for authorization requests. -/
theorem C104_same_authorization {rq : AuthorizationRequest} {x : Scope} {u p : Str} (h : Within rq.scope x)
    (h' : Within x rq.scope) (hc : AsksAuthorization c rq u p)
    (hc' : AsksAuthorization c' { rq with scope := x } u p) (hcoins : c'.coins = c.coins)
    (hclock : c'.clock = c.clock) :
    (Hands ⟨c, (step ⟨false, s⟩ c).1⟩ k t ↔ Hands ⟨c', (step ⟨false, s⟩ c').1⟩ k t) ∧
      (HandsCode ⟨c, (step ⟨false, s⟩ c).1⟩ t ↔ HandsCode ⟨c', (step ⟨false, s⟩ c').1⟩ t) :=
  have a : NotLater c c' := ⟨hcoins, fun _ => hclock ▸ Int.le_refl _⟩
  have b : NotLater c' c := ⟨hcoins.symm, fun _ => hclock ▸ Int.le_refl _⟩
  have e : AllowsMore s s := ⟨_, fun _ hi => hi, rfl⟩
  ⟨⟨C104_tokens (.authorization hc hc' h') a e, C104_tokens (.authorization hc' hc h) b e⟩,
    C104_codes (.authorization hc hc' h') a e, C104_codes (.authorization hc' hc h) b e⟩

/-- Non-vacuity: the access token of the session admits to both scopes, so it admits to one of them, at a server that
allows a third. -/
example : (step ⟨false, Demo.s3⟩ (Demo.present Demo.a3.string (some [b!"foo", b!"bar"]) 1035)).1 = .admitted ∧
    AsksLess (Demo.present Demo.a3.string (some [b!"foo", b!"bar"]) 1035)
      (Demo.present Demo.a3.string (some [b!"bar"]) 1034) ∧
    NotLater (Demo.present Demo.a3.string (some [b!"foo", b!"bar"]) 1035)
      (Demo.present Demo.a3.string (some [b!"bar"]) 1034) ∧
    AllowsMore Demo.s3 { Demo.s3 with
      config := { Demo.s3.config with allowedScope := some [b!"foo", b!"bar", b!"baz"] } } :=
  ⟨by decide +kernel, .authorize rfl rfl (by decide),
    ⟨rfl, fun n => Int.mul_le_mul_of_nonneg_right (Int.add_le_add_right (by decide) _) (by decide)⟩,
    _, by decide, rfl⟩

/-- Non-vacuity: a password grant for both scopes, and for one. -/
example : AsksLess
      (Demo.post b!"/token" [] b!"grant_type=password&client_id=c2&username=u1&password=p1&scope=foo+bar" [1, 2, 3, 4]
        1100)
      (Demo.post b!"/token" [] b!"grant_type=password&client_id=c2&username=u1&password=p1&scope=bar" [1, 2, 3, 4]
        1100) ∧
    (step ⟨false, Demo.server⟩ (Demo.post b!"/token" []
      b!"grant_type=password&client_id=c2&username=u1&password=p1&scope=foo+bar" [1, 2, 3, 4] 1100)).1 ≠
    (step ⟨false, Demo.server⟩ (Demo.post b!"/token" []
      b!"grant_type=password&client_id=c2&username=u1&password=p2&scope=foo+bar" [1, 2, 3, 4] 1100)).1 :=
  ⟨.token (rq := {
        grantType := b!"password", clientID := b!"c2", scope := some [b!"foo", b!"bar"],
        username := b!"u1", password := b!"p1" }) (less := some [b!"bar"])
    ⟨_, rfl, by decide +kernel, by decide +kernel⟩ ⟨_, rfl, by decide +kernel, by decide +kernel⟩ (by decide),
    by decide +kernel⟩

/-- Non-vacuity: the second call of the session, which is given a code, and the same call for less. -/
example : AsksLess Demo.c2 (Demo.post b!"/oauth2/authorize" []
      (b!"response_type=code&client_id=c2&redirect_uri=http%3A%2F%2Fexample.org%" ++
        b!"2Fcb%3Fx%3D1&scope=bar&state=xyz&username=u1&password=p1") [5, 6] 1010) ∧
    HandsCode Demo.e2 Demo.x2 ∧ Demo.e2 = ⟨Demo.c2, (step ⟨false, Demo.s1⟩ Demo.c2).1⟩ := by
  refine ⟨.authorization (rq := Demo.rq2) (less := some [b!"bar"]) (u := b!"u1") (p := b!"p1")
    ⟨_, rfl, by decide +kernel, by decide, by decide +kernel, by decide +kernel, by decide +kernel⟩
    ⟨_, rfl, by decide +kernel, by decide, by decide +kernel, by decide +kernel, by decide +kernel⟩ (by decide),
    by decide +kernel, by rw [Demo.step2]; rfl⟩

end OAuth2

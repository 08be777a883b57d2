import Verif.Props.Changes
import Verif.Props.Answers
import Verif.Spec.Random

/-! C71: what the random bytes that a call obtains are used for. -/

namespace OAuth2

open Spec

set_option linter.unusedSimpArgs false

variable {s : Server} {c : Call}

/-! ### Keys -/

theorem mint_draws {cfg : ServerConfig} {w : Bool} {a : HS256Token} {b : Option HS256Token}
    (h : Server.mint cfg w c.coins = some (a, b)) :
    MadeOf cfg a (draw cfg c 0) ∧ ∀ t, b = some t → MadeOf cfg t (draw cfg c 1) := by
  unfold Server.mint at h
  cases hg : Server.gen cfg c.coins with
  | none => rw [hg] at h; cases h
  | some x =>
    obtain ⟨a', rest⟩ := x
    rw [hg] at h
    obtain ⟨h1, h2, rfl, rfl⟩ := Server.gen_some hg
    have ha : MadeOf cfg (HS256Token.fromKey cfg.secret (c.coins.take cfg.keyLength.toNat))
        (draw cfg c 0) := by
      unfold draw
      rw [Nat.zero_mul, List.drop_zero]
      exact ⟨rfl, rfl, by rw [List.length_take]; omega⟩
    cases w with
    | false =>
      simp only [Bool.false_eq_true, if_false, Option.some.injEq, Prod.mk.injEq] at h
      rw [← h.1, ← h.2]
      exact ⟨ha, by intro t ht; cases ht⟩
    | true =>
      simp only [if_true] at h
      cases hg2 : Server.gen cfg (c.coins.drop cfg.keyLength.toNat) with
      | none => rw [hg2] at h; cases h
      | some y =>
        obtain ⟨b', r⟩ := y
        rw [hg2] at h
        obtain ⟨_, h3, rfl, rfl⟩ := Server.gen_some hg2
        simp only [Option.some.injEq, Prod.mk.injEq] at h
        rw [← h.1, ← h.2]
        refine ⟨ha, ?_⟩
        intro t ht
        cases ht
        unfold draw
        rw [Nat.one_mul]
        exact ⟨rfl, rfl, by rw [List.length_take]; omega⟩

theorem gen_draws {cfg : ServerConfig} {x : HS256Token} {rest : Str}
    (h : Server.gen cfg c.coins = some (x, rest)) : MadeOf cfg x (draw cfg c 0) := by
  obtain ⟨h1, h2, rfl, rfl⟩ := Server.gen_some h
  unfold draw
  rw [Nat.zero_mul, List.drop_zero]
  exact ⟨rfl, rfl, by rw [List.length_take]; omega⟩

/-- What a call hands out, and of which random bytes it is made. -/
def Drawn (cfg : ServerConfig) (e : Event) : Prop :=
  ∃ a b x red use rev, Obs cfg e a b x red use rev ∧ (a = none ∨ x = none) ∧
    (b = none ∨ x = none) ∧ (∀ t, a = some t → MadeOf cfg t (draw cfg e.call 0)) ∧
    (∀ t, b = some t → MadeOf cfg t (draw cfg e.call 1)) ∧
    (∀ t, x = some t → MadeOf cfg t (draw cfg e.call 0))

theorem Drawn.quiet {cfg : ServerConfig} {e : Event} {rev : Option Str}
    (q : Obs cfg e none none none none none rev) : Drawn cfg e :=
  ⟨none, none, none, none, none, rev, q, .inl rfl, .inl rfl, fun _ h => (nomatch h),
    fun _ h => (nomatch h), fun _ h => (nomatch h)⟩

theorem drawn_token {r : Request} {rq : TokenRequest} {a b : HS256Token} {scope : Scope}
    (hop : c.op = .serve r) (hf : Server.TokenRequestFor s r rq)
    (hg : Server.mint s.config true c.coins = some (a, some b)) :
    Drawn s.config ⟨c, (Reply.token (Server.grantResponse s.config a (some b) scope)).answer⟩ := by
  have single : ∀ (text : Str) (p : Prop), ∃ o : Option Str, ∀ sig,
      (∃ t, p ∧ HS256Token.parse s.config.secret text = .ok t ∧ t.signatureString = sig) ↔
        o = some sig := by
    intro text p
    by_cases hp : p
    · cases ht : HS256Token.parse s.config.secret text with
      | error e => exact ⟨none, fun sig => ⟨fun ⟨_, _, h, _⟩ => (nomatch h), fun h => (nomatch h)⟩⟩
      | ok t =>
        refine ⟨some t.signatureString, fun sig => ⟨?_, ?_⟩⟩
        · rintro ⟨t', _, h, rfl⟩
          cases h
          rfl
        · intro h
          cases h
          exact ⟨t, hp, rfl, rfl⟩
    · exact ⟨none, fun sig => ⟨fun ⟨_, h, _⟩ => (hp h).elim, fun h => (nomatch h)⟩⟩
  obtain ⟨red, hred⟩ := single rq.code (rq.grantType = b!"authorization_code")
  obtain ⟨use, huse⟩ := single rq.refreshToken (rq.grantType = b!"refresh_token")
  obtain ⟨h1, h2⟩ := mint_draws hg
  refine ⟨some a, some b, none, red, use, none, (exact_token hop hf hred huse).1, .inr rfl, .inr rfl,
    ?_, h2, fun _ h => (nomatch h)⟩
  intro t ht
  cases ht
  exact h1

theorem drawn (s : Server) (c : Call) : Drawn s.config ⟨c, (step ⟨false, s⟩ c).1⟩ := by
  cases hop : c.op with
  | configure cl us =>
    rw [step_configure hop]
    exact .quiet (silent_of_answer (by intro res hh; cases hh)).quiet
  | authorize r required =>
    rw [step_authorize hop]
    exact .quiet (silent_of_answer (by intro res hh; simp only at hh; split at hh <;> cases hh)).quiet
  | serve r =>
    obtain ⟨reply, s', h1, h2, _⟩ := step_served hop s
    rw [h1]
    have hcoins : c.local.coins = c.coins := rfl
    cases h2 with
    | notFound k1 k2 k3 k4 => exact .quiet (silent_of_path hop k1 k2 k4).quiet
    | refused e hs hr hp hh hcode hrev => exact .quiet (quiet_refused hop hs hr hh)
    | crash hs hp => exact .quiet (silent_of_answer (by intro res hh; cases hh)).quiet
    | notice rq hf hm =>
      refine .quiet (quiet_authorize hop hf.path ?_)
      rw [notice_result]
      rfl
    | introspect rq hp hq hc t ht ha hr i hi =>
      exact .quiet (silent_of_path hop (by rw [hp]; decide) (by rw [hp]; decide)
        (by rw [hp]; decide)).quiet
    | refusedRedirect rq hf hm err herr =>
      refine .quiet (quiet_redirect_error hop hf.path hm hf.parsed ?_ ?_)
      · rcases herr with rfl | rfl <;> rfl
      · rcases herr with rfl | rfl <;> decide
    | replay rq hf ht x hc stored hst hu => exact .quiet (quiet_token_error hop hf.path rfl)
    | revokeHalf rq hp hq hc t ht ca ha hao cr hr hro =>
      exact .quiet (quiet_revoke hop hp (by decide +kernel))
    | revoke rq hp hq hc t ht ha hr =>
      refine .quiet (rev := some t.signatureString) ?_
      show Obs s.config ⟨c, .answered (Reply.revoked.render {}).result⟩ none none none none none _
      apply obs_revoke hop hp
      intro sig
      rw [revoked_result, hq]
      constructor
      · rintro ⟨rq', t', h1, h2, rfl, _⟩
        cases h1
        rw [ht] at h2
        cases h2
        rfl
      · intro hs
        cases hs
        exact ⟨rq, t, rfl, ht, rfl, rfl⟩
    | implicit rq hf hm ht hs hu a hg =>
      obtain ⟨o, _⟩ := implicit_obs (cfg := s.config) (a := a) s.config hop hf hm ht
      refine ⟨some a, none, none, none, none, none, o, .inr rfl, .inr rfl, ?_, by simp, by simp⟩
      intro t ht
      cases ht
      exact (mint_draws hg).1
    | code rq hf hm ht hs hu x rest hg =>
      obtain ⟨o, _⟩ := code_obs (cfg := s.config) (x := x) hop hf hm ht
      refine ⟨none, none, some x, none, none, none, o, .inl rfl, .inl rfl, by simp, by simp, ?_⟩
      intro t ht
      cases ht
      exact gen_draws hg
    | password rq hf ht hs hu a b hg => exact drawn_token hop hf hg
    | client rq hf ht hc hs a b hg => exact drawn_token hop hf hg
    | exchange rq hf ht x hc stored hst hu hx ho hr a b hg => exact drawn_token hop hf hg
    | refresh rq hf ht x hc stored hst hx ho scope hsc hs a b hg => exact drawn_token hop hf hg

/-- **C71.** The key of an access token is the first of the random bytes that the call obtains, as
many as configured, and its signature is the HMAC of the key; no call hands out two different
access tokens. -/
theorem C71_access (s : Server) {t : HS256Token} (ht : Hands ⟨c, (step ⟨false, s⟩ c).1⟩ .access t) :
    MadeOf s.config t (draw s.config c 0) ∧
      ∀ t', Hands ⟨c, (step ⟨false, s⟩ c).1⟩ .access t' → t' = t := by
  obtain ⟨a, b, x, _, _, _, o, _, _, h1, _⟩ := drawn s c
  have ha := (o.access t).mp ht
  refine ⟨h1 t ha, fun t' ht' => ?_⟩
  rw [(o.access t').mp ht'] at ha
  exact Option.some.inj ha

/-- **C71.** The key of a refresh token is made of the random bytes after those of the access token
that is handed out with it. -/
theorem C71_refresh (s : Server) {t : HS256Token}
    (ht : Hands ⟨c, (step ⟨false, s⟩ c).1⟩ .refresh t) :
    MadeOf s.config t (draw s.config c 1) ∧
      ∀ t', Hands ⟨c, (step ⟨false, s⟩ c).1⟩ .refresh t' → t' = t := by
  obtain ⟨a, b, x, _, _, _, o, _, _, _, h1, _⟩ := drawn s c
  have ha := (o.refresh t).mp ht
  refine ⟨h1 t ha, fun t' ht' => ?_⟩
  rw [(o.refresh t').mp ht'] at ha
  exact Option.some.inj ha

/-- **C71.** The key of a code is made of the first random bytes of a call that hands out nothing
else. -/
theorem C71_code (s : Server) {t : HS256Token} (ht : HandsCode ⟨c, (step ⟨false, s⟩ c).1⟩ t) :
    MadeOf s.config t (draw s.config c 0) ∧
      (∀ t', HandsCode ⟨c, (step ⟨false, s⟩ c).1⟩ t' → t' = t) ∧
      ∀ k t', ¬ Hands ⟨c, (step ⟨false, s⟩ c).1⟩ k t' := by
  obtain ⟨a, b, x, _, _, _, o, h1, h2, _, _, h3⟩ := drawn s c
  have ha := (o.code t).mp ht
  subst ha
  refine ⟨h3 t rfl, fun t' ht' => ?_, fun k t' hk => ?_⟩
  · exact (Option.some.inj ((o.code t').mp ht')).symm
  · rcases h1 with rfl | h1 <;> rcases h2 with rfl | h2 <;> first | exact o.not_hands hk | skip
    all_goals first | cases h1 | cases h2

/-! ### Shapes -/

/-- The token with the `i`-th key. -/
def tok (cfg : ServerConfig) (c : Call) (i : Nat) : HS256Token :=
  HS256Token.fromKey cfg.secret (draw cfg c i)

theorem gen_enough {cfg : ServerConfig} (h : Enough cfg c 2) :
    ∃ rest, Server.gen cfg c.coins = some (tok cfg c 0, rest) := by
  obtain ⟨h1, h2⟩ := h
  unfold Server.gen
  rw [if_neg (by omega)]
  refine ⟨c.coins.drop cfg.keyLength.toNat, ?_⟩
  unfold tok draw
  rw [Nat.zero_mul, List.drop_zero]

theorem mint_both {cfg : ServerConfig} (h : Enough cfg c 2) (w : Bool) :
    Server.mint cfg w c.coins = some (tok cfg c 0, if w then some (tok cfg c 1) else none) := by
  obtain ⟨h1, h2⟩ := h
  unfold Server.mint Server.gen
  rw [if_neg (by omega)]
  simp only
  cases w
  · simp only [Bool.false_eq_true, if_false]
    unfold tok draw
    rw [Nat.zero_mul, List.drop_zero]
  · simp only [if_true]
    rw [if_neg (by rw [List.length_drop]; omega)]
    unfold tok draw
    rw [Nat.zero_mul, List.drop_zero, Nat.one_mul]

/-- The reply as a function of the random bytes. -/
inductive Depends (s : Server) (r : Request) (P : Call → Prop) (f : Call → Reply) : Prop
  | const (x : Reply) (hx : x ≠ .crash) (h : ∀ c, P c → f c = x)
  | token (scope : Scope) (h : ∀ c, P c → f c = .token (Server.grantResponse s.config
      (tok s.config c 0) (some (tok s.config c 1)) scope))
  | implicit (rq : AuthorizationRequest) (hf : Server.AuthorizationFor s r rq)
      (h : ∀ c, P c → f c = .token ((Server.grantResponse s.config (tok s.config c 0) none
        rq.scope).setRedirect rq.redirectURI rq.state))
  | code (rq : AuthorizationRequest) (hf : Server.AuthorizationFor s r rq)
      (h : ∀ c, P c → f c = .code ⟨(tok s.config c 0).string, rq.state, rq.redirectURI⟩)

variable {r : Request} {P : Call → Prop}

theorem Depends.congr {f g : Call → Reply} (d : Depends s r P f) (h : ∀ c, P c → g c = f c) :
    Depends s r P g := by
  cases d with
  | const x hx h' => exact .const x hx fun c hc => (h c hc).trans (h' c hc)
  | token scope h' => exact .token scope fun c hc => (h c hc).trans (h' c hc)
  | implicit rq hf h' => exact .implicit rq hf fun c hc => (h c hc).trans (h' c hc)
  | code rq hf h' => exact .code rq hf fun c hc => (h c hc).trans (h' c hc)

theorem Depends.of_eq {f : Call → Reply} {x : Reply} (h : ∀ c, P c → f c = x) (hx : x ≠ .crash) :
    Depends s r P f := .const x hx h

theorem issue_enough (hP : ∀ c, P c → Enough s.config c 2) (cred : ServerCredential)
    (tick : Nat) (fin : TokenResponse → TokenResponse) (w : Bool) (hc : P c) :
    (s.issue c.local tick w cred fin).1 = .token (fin (Server.grantResponse s.config
      (tok s.config c 0) (if w then some (tok s.config c 1) else none) cred.scope)) := by
  unfold Server.issue
  have : c.local.coins = c.coins := rfl
  rw [this, mint_both (hP c hc) w]

theorem depends_authorize (hP : ∀ c, P c → Enough s.config c 2)
    (hp : Server.lastSegment r.path = b!"authorize") :
    Depends s r P fun c => (s.authorizeReply r c.local).1 := by
  have hs := Server.served_authorize s r
  unfold Server.authorizeReply at hs ⊢
  cases hq : parseAuthorizationRequest r with
  | error e => exact .of_eq (fun c _ => rfl) (by simp)
  | ok rq =>
    simp only
    split
    · exact .of_eq (fun c _ => rfl) (by simp)
    rename_i hk
    cases hc : s.clients.get? rq.clientID with
    | none => exact .of_eq (fun c _ => rfl) (by simp)
    | some client =>
      simp only
      split
      · exact .of_eq (fun c _ => rfl) (by simp)
      rename_i hu
      split
      · exact .of_eq (fun c _ => rfl) (by simp)
      split
      · exact .of_eq (fun c _ => rfl) (by simp)
      split
      · exact .of_eq (fun c _ => rfl) (by simp)
      have hf : Server.AuthorizationFor s r rq := by
        refine ⟨hp, hq, ?_, client, hc, Decidable.byContradiction hu⟩
        unfold knownResponseType at hk
        simp only [Bool.not_eq_true', Bool.not_eq_false, Bool.or_eq_true, decide_eq_true_eq] at hk
        exact hk
      split
      · exact .implicit rq hf fun c h => issue_enough hP _ _ _ _ h
      · refine .code rq hf fun c h => ?_
        obtain ⟨rest, hg⟩ := gen_enough (hP c h)
        have : c.local.coins = c.coins := rfl
        rw [this, hg]

theorem depends_issue {f : Call → Reply} (hP : ∀ c, P c → Enough s.config c 2) (tick : Nat)
    (cred : ServerCredential) (h : ∀ c, P c → f c = (s.issue c.local tick true cred id).1) :
    Depends s r P f :=
  .token cred.scope fun c hc => (h c hc).trans (issue_enough hP cred tick id true hc)

theorem depends_code (hP : ∀ c, P c → Enough s.config c 2) {now : Time}
    (hT : ∀ c, P c → c.clock 0 = now) (rq : TokenRequest) :
    Depends s r P fun c => (s.codeReply rq c.local).1 := by
  have hnow : ∀ c, P c → c.local.clock c.local.tick = now := hT
  unfold Server.codeReply
  cases HS256Token.parse s.config.secret rq.code with
  | error e => exact .of_eq (fun c _ => rfl) (by simp)
  | ok x =>
    simp only
    cases s.authorizationCodes.get? x.signatureString with
    | none => exact .of_eq (fun c _ => rfl) (by simp)
    | some stored =>
      simp only
      split
      · exact .of_eq (fun c _ => rfl) (by simp)
      by_cases h1 : stored.expiresAt.before now = true
      · exact .of_eq (fun c hc => by rw [hnow c hc, if_pos h1]) (by simp)
      by_cases h2 : stored.clientID ≠ rq.clientID
      · exact .of_eq (fun c hc => by rw [hnow c hc, if_neg h1, if_pos h2]) (by simp)
      by_cases h3 : stored.redirectURI ≠ rq.redirectURI
      · exact .of_eq (fun c hc => by rw [hnow c hc, if_neg h1, if_neg h2, if_pos h3]) (by simp)
      refine depends_issue hP (0 + 1)
        { clientID := rq.clientID, username := stored.username,
          scope := stored.scope, code := x.signatureString } fun c hc => ?_
      rw [hnow c hc, if_neg h1, if_neg h2, if_neg h3]
      show (match s.issue c.local (0 + 1) true _ id with
        | (.token t, s) => _
        | x => x : Reply × Server).1 = _
      generalize s.issue c.local (0 + 1) true _ id = y
      obtain ⟨y1, y2⟩ := y
      cases y1 <;> rfl

theorem depends_refresh (hP : ∀ c, P c → Enough s.config c 2) {now : Time}
    (hT : ∀ c, P c → c.clock 0 = now) (rq : TokenRequest) :
    Depends s r P fun c => (s.refreshReply rq c.local).1 := by
  have hnow : ∀ c, P c → c.local.clock c.local.tick = now := hT
  unfold Server.refreshReply
  cases HS256Token.parse s.config.secret rq.refreshToken with
  | error e => exact .of_eq (fun c _ => rfl) (by simp)
  | ok x =>
    simp only
    cases s.refreshTokens.get? x.signatureString with
    | none => exact .of_eq (fun c _ => rfl) (by simp)
    | some stored =>
      simp only
      by_cases h1 : stored.expiresAt.before now = true
      · exact .of_eq (fun c hc => by rw [hnow c hc, if_pos h1]) (by simp)
      by_cases h2 : stored.clientID ≠ rq.clientID
      · exact .of_eq (fun c hc => by rw [hnow c hc, if_neg h1, if_pos h2]) (by simp)
      obtain ⟨scope, hscope⟩ : ∃ scope, scope = if rq.scope.empty then stored.scope else rq.scope :=
        ⟨_, rfl⟩
      rw [← hscope]
      by_cases h3 : (!stored.scope.includes scope) = true
      · exact .of_eq (fun c hc => by rw [hnow c hc, if_neg h1, if_neg h2, if_pos h3]) (by simp)
      refine depends_issue hP (0 + 1)
        { clientID := rq.clientID, username := stored.username, scope := scope } fun c hc => ?_
      rw [hnow c hc, if_neg h1, if_neg h2, if_neg h3]
      show (match s.issue c.local (0 + 1) true _ id with
        | (.token t, s) => _
        | x => x : Reply × Server).1 = _
      generalize s.issue c.local (0 + 1) true _ id = y
      obtain ⟨y1, y2⟩ := y
      cases y1 <;> rfl

theorem depends_token (hP : ∀ c, P c → Enough s.config c 2) {now : Time}
    (hT : ∀ c, P c → c.clock 0 = now) :
    Depends s r P fun c => (s.tokenReply r c.local).1 := by
  unfold Server.tokenReply
  cases parseTokenRequest r with
  | error e => exact .of_eq (fun c _ => rfl) (by simp)
  | ok rq =>
    simp only
    split
    · exact .of_eq (fun c _ => rfl) (by simp)
    cases s.clients.get? rq.clientID with
    | none => exact .of_eq (fun c _ => rfl) (by simp)
    | some client =>
      simp only
      split
      · exact .of_eq (fun c _ => rfl) (by simp)
      unfold Server.grantReply
      split
      · split
        · exact .of_eq (fun c _ => rfl) (by simp)
        split
        · exact .of_eq (fun c _ => rfl) (by simp)
        exact depends_issue hP _ _ fun c _ => rfl
      split
      · split
        · exact .of_eq (fun c _ => rfl) (by simp)
        split
        · exact .of_eq (fun c _ => rfl) (by simp)
        exact depends_issue hP _ _ fun c _ => rfl
      split
      · exact depends_code hP hT rq
      · exact depends_refresh hP hT rq

theorem depends (hP : ∀ c, P c → Enough s.config c 2) {now : Time}
    (hT : ∀ c, P c → c.clock 0 = now) :
    Depends s r P fun c => (s.handle r c.local).1 := by
  unfold Server.handle
  simp only
  split
  · next hp => exact depends_authorize hP hp
  split
  · exact depends_token hP hT
  split
  · next hp =>
    refine .of_eq (fun c _ => rfl) fun h => ?_
    have h' := Server.served_introspect s r { clock := fun _ => 0 } hp
    rw [h] at h'
    generalize (Server.introspectReply s r).2 = s' at h'
    cases h' with
    | crash _ h2 => rw [hp] at h2; exact absurd h2 (by decide)
  split
  · next hp =>
    refine .of_eq (fun c _ => rfl) fun h => ?_
    have h' := Server.served_revoke s r { clock := fun _ => 0 } hp
    rw [h] at h'
    generalize (Server.revokeReply s r).2 = s' at h'
    cases h' with
    | crash _ h2 => rw [hp] at h2; exact absurd h2 (by decide)
  · exact .of_eq (fun c _ => rfl) (by simp)

/-! ### Texts with places for tokens -/

/-- The text depends on the call only by the tokens at some places. -/
def Uniform (cfg : ServerConfig) (f : Call → Str) : Prop := ∃ ps, ∀ c, f c = fill cfg c ps

variable {cfg : ServerConfig}

theorem fill_append (c : Call) (ps qs : List Piece) :
    fill cfg c (ps ++ qs) = fill cfg c ps ++ fill cfg c qs := by
  unfold fill
  rw [List.flatMap_append]

theorem fill_text (c : Call) (x : Str) : fill cfg c [.text x] = x := by
  unfold fill
  simp

theorem fill_token (c : Call) (i : Nat) : fill cfg c [.token i] = (tok cfg c i).string := by
  unfold fill
  simp [tok, HS256Token.string, HS256Token.keyString, HS256Token.signatureString,
    HS256Token.fromKey]

theorem Uniform.const (x : Str) : Uniform cfg fun _ => x := ⟨[.text x], fun c => (fill_text c x).symm⟩

theorem Uniform.token (i : Nat) : Uniform cfg fun c => (tok cfg c i).string :=
  ⟨[.token i], fun c => (fill_token c i).symm⟩

theorem Uniform.append {f g : Call → Str} (hf : Uniform cfg f) (hg : Uniform cfg g) :
    Uniform cfg fun c => f c ++ g c := by
  obtain ⟨ps, hp⟩ := hf
  obtain ⟨qs, hq⟩ := hg
  exact ⟨ps ++ qs, fun c => by simp only [fill_append, hp, hq]⟩

theorem Uniform.congr {f g : Call → Str} (hf : Uniform cfg f) (h : ∀ c, g c = f c) :
    Uniform cfg g := by
  obtain ⟨ps, hp⟩ := hf
  exact ⟨ps, fun c => (h c).trans (hp c)⟩

theorem Uniform.escape {f : Call → Str} (hf : Uniform cfg f) {mode : EncMode}
    (hm : ∀ t : HS256Token, escape mode t.string = t.string) :
    Uniform cfg fun c => escape mode (f c) := by
  obtain ⟨ps, hp⟩ := hf
  refine ⟨ps.map fun | .text x => .text (OAuth2.escape mode x) | .token i => .token i, fun c => ?_⟩
  simp only [hp]
  induction ps generalizing f with
  | nil => rfl
  | cons p ps ih =>
    have ih := ih (f := fun c => fill cfg c ps) fun c => rfl
    have h1 : fill cfg c (p :: ps) = fill cfg c [p] ++ fill cfg c ps := fill_append c [p] ps
    rw [h1, escape_append, ih, List.map_cons]
    refine Eq.trans ?_ (fill_append c [_] _).symm
    congr 1
    cases p with
    | text x => simp only [fill_text]
    | token i => simp only [fill_token, hm]

theorem escape_token {mode : EncMode} (hm : mode = .queryComponent ∨ mode = .fragment)
    (t : HS256Token) : escape mode t.string = t.string := by
  have hch := token_chars t
  rcases hm with rfl | rfl
  · exact escape_eq_self fun c hc =>
      ⟨(isTokChar_facts c (hch c hc)).1, (isTokChar_facts c (hch c hc)).2.2.1⟩
  · exact escape_eq_self fun c hc =>
      ⟨(isTokChar_facts c (hch c hc)).2.1, (isTokChar_facts c (hch c hc)).2.2.1⟩

theorem jsonString_token (t : HS256Token) : jsonString t.string = [0x22] ++ t.string ++ [0x22] := by
  have hch := token_chars t
  rw [jsonString, jsonEsc_eq_self fun c hc =>
    ⟨(isTokChar_facts c (hch c hc)).2.2.2.1, (isTokChar_facts c (hch c hc)).2.2.2.2.1⟩]
  rfl

/-- A list of such texts, of fixed length. -/
def Uniforms (cfg : ServerConfig) (f : Call → List Str) : Prop :=
  ∃ fs : List (Call → Str), (∀ g ∈ fs, Uniform cfg g) ∧ ∀ c, f c = fs.map (· c)

theorem Uniforms.nil : Uniforms cfg fun _ => [] := ⟨[], by simp, fun c => rfl⟩

theorem Uniforms.const (l : List Str) : Uniforms cfg fun _ => l := by
  refine ⟨l.map fun x _ => x, ?_, fun c => by simp [Function.comp_def]⟩
  intro g hg
  obtain ⟨x, _, rfl⟩ := List.mem_map.mp hg
  exact .const x

theorem Uniforms.singleton {f : Call → Str} (hf : Uniform cfg f) : Uniforms cfg fun c => [f c] :=
  ⟨[f], by simpa using hf, fun c => rfl⟩

theorem Uniforms.append {f g : Call → List Str} (hf : Uniforms cfg f) (hg : Uniforms cfg g) :
    Uniforms cfg fun c => f c ++ g c := by
  obtain ⟨ps, hp, hp'⟩ := hf
  obtain ⟨qs, hq, hq'⟩ := hg
  refine ⟨ps ++ qs, ?_, fun c => by simp only [List.map_append, hp', hq']⟩
  intro g hg
  rcases List.mem_append.mp hg with h | h
  · exact hp g h
  · exact hq g h

theorem Uniforms.map {f : Call → List Str} (hf : Uniforms cfg f) {k : Str → Str}
    (hk : ∀ g, Uniform cfg g → Uniform cfg fun c => k (g c)) :
    Uniforms cfg fun c => (f c).map k := by
  obtain ⟨ps, hp, hp'⟩ := hf
  refine ⟨ps.map fun g c => k (g c), ?_, fun c => by simp [hp', Function.comp_def]⟩
  intro g hg
  obtain ⟨x, hx, rfl⟩ := List.mem_map.mp hg
  exact hk x (hp x hx)

theorem Uniforms.flatMap {α : Type} (l : List α) {f : α → Call → List Str}
    (hf : ∀ a ∈ l, Uniforms cfg (f a)) : Uniforms cfg fun c => l.flatMap fun a => f a c := by
  induction l with
  | nil => exact .nil
  | cons a l ih =>
    simp only [List.flatMap_cons]
    exact (hf a (by simp)).append (ih fun b hb => hf b (by simp [hb]))

theorem Uniforms.join {f : Call → List Str} (hf : Uniforms cfg f) (sep : Str) :
    Uniform cfg fun c => joinStr sep (f c) := by
  obtain ⟨fs, h1, h2⟩ := hf
  simp only [h2]
  clear h2
  induction fs with
  | nil => exact .const []
  | cons g fs ih =>
    cases fs with
    | nil => exact h1 g (by simp)
    | cons g' fs =>
      exact ((h1 g (by simp)).append (.const sep)).append (ih fun x hx => h1 x (by simp [hx]))

theorem Uniforms.congr {f g : Call → List Str} (hf : Uniforms cfg f) (h : ∀ c, g c = f c) :
    Uniforms cfg g := by
  obtain ⟨ps, hp, hp'⟩ := hf
  exact ⟨ps, hp, fun c => (h c).trans (hp' c)⟩

/-! ### Redirects -/

theorem keys_add (v : Values) (k x : Str) : (v.add k x).keys = k :: v.keys.filter fun j => !(j = k) := by
  unfold Values.add GoMap.set GoMap.del GoMap.keys
  rw [List.map_cons, List.filter_map]
  rfl

/-- The values for every key, if parameters with such texts are added. -/
theorem values_uniform (ps : List (Str × (Call → Str))) (hps : ∀ p ∈ ps, Uniform cfg p.2)
    (v : Call → Values) (hk : ∃ ks, ∀ c, (v c).keys = ks)
    (hv : ∀ k, Uniforms cfg fun c => (v c).all k) :
    (∃ ks, ∀ c, ((ps.map fun p => (p.1, p.2 c)).foldl (fun q p => Values.add q p.1 p.2) (v c)).keys = ks) ∧
    ∀ k, Uniforms cfg fun c =>
      ((ps.map fun p => (p.1, p.2 c)).foldl (fun q p => Values.add q p.1 p.2) (v c)).all k := by
  induction ps generalizing v with
  | nil => exact ⟨hk, hv⟩
  | cons p ps ih =>
    simp only [List.map_cons, List.foldl_cons]
    refine ih (fun q hq => hps q (by simp [hq])) (fun c => (v c).add p.1 (p.2 c)) ?_ ?_
    · obtain ⟨ks, hks⟩ := hk
      exact ⟨_, fun c => by rw [keys_add, hks]⟩
    · intro k
      by_cases h : p.1 = k
      · refine ((hv k).append (.singleton (hps p (by simp)))).congr fun c => ?_
        rw [Values.all_add, if_pos h.symm, h]
      · refine (hv k).congr fun c => ?_
        rw [Values.all_add, if_neg (Ne.symm h)]

theorem encode_uniform {v : Call → Values} (hk : ∃ ks, ∀ c, (v c).keys = ks)
    (hv : ∀ k, Uniforms cfg fun c => (v c).all k) : Uniform cfg fun c => (v c).encode := by
  obtain ⟨ks, hks⟩ := hk
  unfold Values.encode
  refine Uniforms.join ?_ _
  simp only [hks]
  refine .flatMap _ fun k _ => (hv k).map fun g hg => ?_
  exact (Uniform.const _).append (hg.escape (escape_token (.inl rfl)))

theorem redirect_uniform {uri : Str} {u : URL} (hu : parseRequestURI uri = some u)
    {ps : List (Str × (Call → Str))} (hps : ∀ p ∈ ps, Uniform cfg p.2) (hne : ps ≠ [])
    (hn : (ps.map (·.1)).Nodup) (b : Bool) :
    ∃ L : Call → Str, Uniform cfg L ∧
      ∀ c, redirectLocation uri (ps.map fun p => (p.1, p.2 c)) b = some (L c) := by
  have hne' : ∀ (c : Call) (v : Values), v.keys.Nodup →
      ((ps.map fun p => (p.1, p.2 c)).foldl (fun q p => Values.add q p.1 p.2) v).encode ≠ [] := by
    intro c v hv
    have hpn : (GoMap.keys (ps.map fun p => (p.1, p.2 c))).Nodup := by
      unfold GoMap.keys
      rw [List.map_map]
      exact hn
    obtain ⟨⟨k, x⟩, ps', rfl⟩ := List.exists_cons_of_ne_nil hne
    apply encode_ne_nil (Values.nodup_foldl_add _ hv) (k := k)
    rw [params_all hpn, List.map_cons, GoMap.get?_cons, if_pos rfl]
    simp
  cases b with
  | true =>
    obtain ⟨h1, h2⟩ := values_uniform ps hps (fun _ => []) ⟨[], fun _ => rfl⟩ fun k => .const _
    have henc := (encode_uniform h1 h2).escape (mode := .fragment) (escape_token (.inr rfl))
    refine ⟨_, ((Uniform.const (u.base ++ (if u.forceQuery ∨ u.rawQuery ≠ [] then
      0x3F :: u.rawQuery else []))).append (.append (.const [0x23]) henc)), fun c => ?_⟩
    unfold redirectLocation
    rw [hu]
    simp only [if_true, URL.string, hne' c [] List.nodup_nil, ne_eq, not_false_eq_true]
    rfl
  | false =>
    obtain ⟨h1, h2⟩ := values_uniform ps hps (fun _ => u.query) ⟨_, fun _ => rfl⟩ fun k => .const _
    have henc := encode_uniform h1 h2
    refine ⟨_, ((Uniform.const u.base).append (.append (.const [0x3F]) henc)), fun c => ?_⟩
    unfold redirectLocation
    rw [hu]
    simp only [Bool.false_eq_true, if_false, URL.string, hne' c u.query (parseQuery_nodup _), ne_eq,
      not_false_eq_true, or_true, if_true, C17_fragment_never_seen hu, not_true, List.append_nil]
    rfl

/-! ### Pages -/

theorem page_const (x : Response) (h : x = { x with status := statusLine x.statusCode, bodyErr := false }) :
    ∃ page : Page, ∀ c, x = page.fill cfg c := by
  refine ⟨{
    statusCode := x.statusCode
    header := x.header.map fun p => (p.1, p.2.map fun y => [.text y])
    body := [.text x.body] }, fun c => ?_⟩
  rw [h]
  unfold Page.fill
  simp only [fill_text, List.map_map, Function.comp_def, List.map_id']

theorem page_json {f : Call → Str} (hf : Uniform cfg f) :
    ∃ page : Page, ∀ c, ({ statusCode := 200, header := jsonHeader [], body := f c } : Response) =
      page.fill cfg c := by
  obtain ⟨ps, hp⟩ := hf
  refine ⟨{
    statusCode := 200
    header := (jsonHeader []).map fun p => (p.1, p.2.map fun y => [.text y])
    body := ps }, fun c => ?_⟩
  unfold Page.fill
  simp only [fill_text, List.map_map, Function.comp_def, List.map_id', hp]

theorem page_redirect {f : Call → Str} (hf : Uniform cfg f) :
    ∃ page : Page, ∀ c, ({ statusCode := 303, header := redirectHeader [] (f c) } : Response) =
      page.fill cfg c := by
  obtain ⟨ps, hp⟩ := hf
  refine ⟨{
    statusCode := 303
    header := [(b!"Referrer-Policy", [[.text b!"origin"]]), (b!"Pragma", [[.text b!"no-cache"]]),
      (b!"Cache-Control", [[.text b!"no-store"]]), (b!"Location", [ps])] }, fun c => ?_⟩
  unfold Page.fill
  rw [redirectHeader_nil, hp]
  simp only [List.map_cons, List.map_nil, fill_text]
  rfl

theorem result_plain (w : Recorder) :
    w.result = { w.result with status := statusLine w.result.statusCode, bodyErr := false } := by
  unfold Recorder.result
  split <;> rfl

theorem redirectTo_eq {uri : Str} {params : GoMap Str} {f : Bool} {L : Str}
    (hL : redirectLocation uri params f = some L) :
    (redirectTo {} uri params f).result = { statusCode := 303, header := redirectHeader [] L } := by
  unfold redirectTo
  rw [hL]
  simp only
  rw [redirectRecorder_fresh ⟨rfl, rfl, rfl⟩]
  rfl

theorem grantResponse_json (cfg : ServerConfig) (scope : Scope) : Uniform cfg fun c =>
    (Server.grantResponse cfg (tok cfg c 0) (some (tok cfg c 1)) scope).json ++ [0x0A] := by
  have hj : ∀ i, Uniform cfg fun c => jsonString (tok cfg c i).string := fun i => by
    simp only [jsonString_token]
    exact ((Uniform.const _).append (.token i)).append (.const _)
  refine .append ?_ (.const _)
  unfold TokenResponse.json jsonObject Server.grantResponse omitEmpty
  simp only [token_ne_nil, if_false, List.map_append, List.map_cons, List.map_nil]
  refine .append (.append (.const _) (Uniforms.join ?_ _)) (.const _)
  refine .append (.append (.append ?_ ?_) (.const _)) (.const _)
  · exact .append (.const [_]) (.append (.singleton (.append (.const _) (hj 0))) (.const [_]))
  · exact .singleton (.append (.const _) (hj 1))

/-- **C71.** For every server, request and clock there is a page, a response with places for
tokens, such that whatever random bytes the call obtains, it is answered with this page, with the
token of the first key and that of the second key in their places. So the answer depends on the
random bytes only by the tokens that it shows. -/
theorem C71_nothing_else (s : Server) (r : Request) (clock : Nat → Time) :
    ∃ page : Page, ∀ c : Call, c.op = .serve r → c.clock = clock → Enough s.config c 2 →
      (step ⟨false, s⟩ c).1 = .answered (page.fill s.config c) := by
  have key : ∃ page : Page, ∀ c : Call, (c.clock = clock ∧ Enough s.config c 2) →
      (s.handle r c.local).1.answer = .answered (page.fill s.config c) := by
    have d : Depends s r (fun c => c.clock = clock ∧ Enough s.config c 2) _ :=
      depends (fun c h => h.2) (now := clock 0) fun c h => by rw [h.1]
    cases d with
    | const x hx h =>
      obtain ⟨page, hpage⟩ := page_const (cfg := s.config) (x.render {}).result (result_plain _)
      refine ⟨page, fun c hc => ?_⟩
      rw [h c hc, ← hpage]
      cases x <;> first | rfl | exact (hx rfl).elim
    | token scope h =>
      obtain ⟨page, hpage⟩ := page_json (grantResponse_json s.config scope)
      refine ⟨page, fun c hc => ?_⟩
      rw [h c hc, ← hpage]
      show Answer.answered (Reply.render {} _).result = _
      rw [token_result rfl]
    | implicit rq hf h =>
      obtain ⟨hne, u, huri⟩ := authorizationRequest_uri hf.parsed
      obtain ⟨ps, hps⟩ : ∃ ps : List (Str × (Call → Str)), ps =
          [(b!"token_type", fun _ => BearerAccessTokenType),
           (b!"access_token", fun c => (tok s.config c 0).string),
           (b!"expires_in", fun _ => itoa (s.config.accessTokenLifespan.tdiv second))] ++
          (if rq.scope ≠ none then [(b!"scope", fun _ => rq.scope.string)] else []) ++
          (if rq.state ≠ [] then [(b!"state", fun _ => rq.state)] else []) := ⟨_, rfl⟩
      have h1 : ∀ p ∈ ps, Uniform s.config p.2 := by
        intro p hp
        rw [hps] at hp
        simp only [List.mem_append, List.mem_cons, List.not_mem_nil, or_false] at hp
        rcases hp with ((rfl | rfl | rfl) | hp) | hp
        · exact .const _
        · exact .token 0
        · exact .const _
        · split at hp
          · rw [List.mem_singleton.mp hp]; exact .const _
          · cases hp
        · split at hp
          · rw [List.mem_singleton.mp hp]; exact .const _
          · cases hp
      have h2 : (ps.map (·.1)).Nodup := by
        rw [hps]
        by_cases h3 : rq.scope = none <;> by_cases h4 : rq.state = [] <;> simp [h3, h4]
      obtain ⟨L, hL, hL'⟩ := redirect_uniform huri h1 (by rw [hps]; simp) h2 true
      obtain ⟨page, hpage⟩ := page_redirect hL
      refine ⟨page, fun c hc => ?_⟩
      rw [h c hc, ← hpage, ← redirectTo_eq (hL' c)]
      have hmap : (ps.map fun p => (p.1, p.2 c)) = ((Server.grantResponse s.config (tok s.config c 0)
          none rq.scope).setRedirect rq.redirectURI rq.state).map := by
        rw [hps]
        unfold TokenResponse.map TokenResponse.setRedirect Server.grantResponse
        by_cases h3 : rq.scope = none <;> by_cases h4 : rq.state = [] <;> simp [h3, h4]
      rw [hmap]
      show Answer.answered (if rq.redirectURI ≠ [] then _ else _ : Recorder).result = _
      rw [if_pos hne]
      rfl
    | code rq hf h =>
      obtain ⟨hne, u, huri⟩ := authorizationRequest_uri hf.parsed
      obtain ⟨ps, hps⟩ : ∃ ps : List (Str × (Call → Str)), ps =
          [(b!"code", fun c => (tok s.config c 0).string)] ++
          (if rq.state ≠ [] then [(b!"state", fun _ => rq.state)] else []) := ⟨_, rfl⟩
      have h1 : ∀ p ∈ ps, Uniform s.config p.2 := by
        intro p hp
        rw [hps] at hp
        simp only [List.mem_append, List.mem_cons, List.not_mem_nil, or_false] at hp
        rcases hp with rfl | hp
        · exact .token 0
        · split at hp
          · rw [List.mem_singleton.mp hp]; exact .const _
          · cases hp
      have h2 : (ps.map (·.1)).Nodup := by
        rw [hps]
        by_cases h4 : rq.state = [] <;> simp [h4]
      obtain ⟨L, hL, hL'⟩ := redirect_uniform huri h1 (by rw [hps]; simp) h2 false
      obtain ⟨page, hpage⟩ := page_redirect hL
      refine ⟨page, fun c hc => ?_⟩
      rw [h c hc, ← hpage, ← redirectTo_eq (hL' c)]
      have hmap : (ps.map fun p => (p.1, p.2 c)) =
          (⟨(tok s.config c 0).string, rq.state, rq.redirectURI⟩ : CodeResponse).map := by
        rw [hps]
        unfold CodeResponse.map
        by_cases h4 : rq.state = [] <;> simp [h4]
      rw [hmap]
      rfl
  obtain ⟨page, hpage⟩ := key
  refine ⟨page, fun c hop hclock hen => ?_⟩
  rw [step_serve hop]
  exact hpage c ⟨hclock, hen⟩

/-- **C71.** `Authorize` uses no random bytes. -/
theorem C71_authorize (s : Server) {c c' : Call} {r : Request} {required : Scope}
    (h : c.op = .authorize r required) (h' : c'.op = .authorize r required)
    (ht : c.clock = c'.clock) : step ⟨false, s⟩ c = step ⟨false, s⟩ c' := by
  rw [step_authorize h, step_authorize h', ht]

/-- Non-vacuity: the first event of the session hands out two tokens, the second a code, and the
random bytes sufficed. -/
example : Enough Demo.server.config Demo.c1 2 ∧
    Hands ⟨Demo.c1, (step ⟨false, Demo.server⟩ Demo.c1).1⟩ .access Demo.a1 ∧
    Hands ⟨Demo.c1, (step ⟨false, Demo.server⟩ Demo.c1).1⟩ .refresh Demo.r1 ∧
    draw Demo.server.config Demo.c1 0 = [1, 2] ∧ draw Demo.server.config Demo.c1 1 = [3, 4] ∧
    HandsCode ⟨Demo.c2, (step ⟨false, Demo.s1⟩ Demo.c2).1⟩ Demo.x2 ∧
    draw Demo.server.config Demo.c2 0 = [5, 6] := by
  rw [Demo.step1, Demo.step2]
  have h1 : (⟨Demo.c1, Demo.e1.answer⟩ : Event) = Demo.e1 := rfl
  have h2 : (⟨Demo.c2, Demo.e2.answer⟩ : Event) = Demo.e2 := rfl
  simp only [h1, h2]
  exact ⟨by decide +kernel, by decide +kernel, by decide +kernel, rfl, rfl, by decide +kernel, rfl⟩

/-- Non-vacuity: a page with a token in it is filled in differently by different random bytes. -/
example : fill Demo.server.config Demo.c1 [.text b!"x=", .token 0, .text b!"."] =
      b!"x=" ++ Demo.a1.string ++ b!"." ∧
    fill Demo.server.config Demo.c2 [.text b!"x=", .token 0, .text b!"."] =
      b!"x=" ++ Demo.x2.string ++ b!"." := by
  decide +kernel

end OAuth2

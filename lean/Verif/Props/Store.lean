import Verif.Props.Memory
import Verif.Props.Rights
import Verif.Props.Changes
import Verif.Lemmas.Concurrent
import Verif.Lemmas.Evolve

/-!
C73: what the calls make of the public maps, whatever the embedding program has put in them. Unlike
elsewhere, the server need not have started without tokens and codes.
-/

namespace OAuth2

open Spec

instance (s : Server) : Decidable (KeysOnce s) := by unfold KeysOnce; infer_instance

/-- **C73.** After any call on any server, an entry is in the map of access tokens (or of refresh
tokens) exactly if the call hands out a token with its signature and it records what the request and
the stored code or refresh token say; or if it was there, no such token is handed out and the call
does not withdraw it. -/
theorem C73_tokens (s : Server) (hp : KeysOnce s) (c : Call) (k : Kind) (sig : Str)
    (cred : ServerCredential) :
    (tokens (step ⟨false, s⟩ c).2.st k).get? sig = some cred ↔
      (∃ t, Hands ⟨c, (step ⟨false, s⟩ c).1⟩ k t ∧ t.signatureString = sig ∧
        Records s ⟨c, (step ⟨false, s⟩ c).1⟩ k cred ∧
        (k = .refresh → ¬ UsesUp s.config ⟨c, (step ⟨false, s⟩ c).1⟩ t)) ∨
      ((∀ t, Hands ⟨c, (step ⟨false, s⟩ c).1⟩ k t → t.signatureString ≠ sig) ∧
        (tokens s k).get? sig = some cred ∧
        ¬ Withdraws s ⟨c, (step ⟨false, s⟩ c).1⟩ k sig cred) := by
  have hev := evolves s c
  generalize (⟨c, (step ⟨false, s⟩ c).1⟩ : Event) = e at hev ⊢
  generalize (step ⟨false, s⟩ c).2.st = s' at hev ⊢
  cases hev with
  | same q hrep hhalf ha hr hc =>
    have hw : (tokens s k).get? sig = some cred → ¬ Withdraws s e k sig cred := by
      rintro hg (⟨t, _, h⟩ | ⟨x, hx, h⟩ | ⟨_, t, _, h⟩ | ⟨hk, t, rfl, h⟩)
      · cases (q.revokes _).mp h
      · exact hrep _ _ h hx
      · cases (q.usesUp _).mp h
      · subst hk
        exact hhalf _ _ _ h hg rfl
    have : tokens s' k = tokens s k := by cases k <;> assumption
    rw [this]
    constructor
    · exact fun h => .inr ⟨fun t ht => (q.not_hands ht).elim, h, hw h⟩
    · rintro (⟨t, ht, _⟩ | ⟨_, h, _⟩)
      · exact (q.not_hands ht).elim
      · exact h
  | code hcall o hrep hhalf ha hr hc =>
    have hw : ¬ Withdraws s e k sig cred := by
      rintro (⟨t, _, h⟩ | ⟨x, hx, h⟩ | ⟨_, t, _, h⟩ | ⟨hk, t, rfl, h⟩)
      · cases (o.revokes _).mp h
      · exact hrep _ h
      · cases (o.usesUp _).mp h
      · exact hhalf _ _ h
    have : tokens s' k = tokens s k := by cases k <;> assumption
    rw [this]
    constructor
    · exact fun h => .inr ⟨fun t ht => (o.not_hands ht).elim, h, hw⟩
    · rintro (⟨t, ht, _⟩ | ⟨_, h, _⟩)
      · exact (o.not_hands ht).elim
      · exact h
  | @grant a b red use rec o hred huse hrec hrep hhalf ha hr hc =>
    cases k with
    | access =>
      have hw : ¬ Withdraws s e .access sig cred := by
        rintro (⟨t, _, h⟩ | ⟨x, hx, h⟩ | ⟨hk, _⟩ | ⟨hk, t, rfl, h⟩)
        · cases (o.revokes _).mp h
        · exact hrep _ h
        · cases hk
        · exact hhalf _ _ h
      show s'.accessTokens.get? sig = _ ↔ _
      rw [ha, GoMap.get?_set]
      simp only [o.access, Option.some.injEq, hrec, hw, not_false_eq_true, and_true, tokens,
        reduceCtorEq, false_imp_iff]
      by_cases hs : sig = a.signatureString
      · subst hs
        simp [eq_comm]
      · rw [if_neg hs]
        constructor
        · exact fun h => .inr ⟨fun t ht => by subst ht; exact fun h => hs h.symm, h⟩
        · rintro (⟨t, rfl, rfl, _⟩ | ⟨_, h⟩)
          · exact (hs rfl).elim
          · exact h
    | refresh =>
      have hw : Withdraws s e .refresh sig cred ↔ use = some sig ∧ ∃ t : HS256Token, t.signatureString = sig := by
        constructor
        · rintro (⟨t, _, h⟩ | ⟨x, hx, h⟩ | ⟨_, t, ht, h⟩ | ⟨hk, _⟩)
          · cases (o.revokes _).mp h
          · exact (hrep _ h).elim
          · rw [o.usesUp, ht] at h
            exact ⟨h, t, ht⟩
          · cases hk
        · rintro ⟨h, t, ht⟩
          exact .inr (.inr (.inl ⟨rfl, t, ht, (o.usesUp t).mpr (by rw [h, ht])⟩))
      show s'.refreshTokens.get? sig = _ ↔ _
      rw [hr, hw]
      simp only [o.refresh, hrec, tokens, o.usesUp]
      by_cases hu : use = some sig
      · rw [if_pos hu]
        constructor
        · intro h; cases h
        · rintro (⟨t, _, rfl, _, h⟩ | ⟨_, _, h⟩)
          · exact (h trivial hu).elim
          · exact (h ⟨hu, huse _ hu⟩).elim
      · rw [if_neg hu]
        cases b with
        | none =>
          simp [hu]
        | some b =>
          by_cases hs : b.signatureString = sig
          · subst hs
            simp [hu, eq_comm]
          · simp [hu, hs]
  | @replay x stored q hrep hx hhalf ha hr hc =>
    have hw : Withdraws s e k sig cred ↔ cred.code = x := by
      constructor
      · rintro (⟨t, _, h⟩ | ⟨y, hy, h⟩ | ⟨_, t, _, h⟩ | ⟨hk, t, rfl, h⟩)
        · cases (q.revokes _).mp h
        · exact (hrep _).mp h
        · cases (q.usesUp _).mp h
        · exact (hhalf _ _ h).elim
      · rintro rfl
        exact .inr (.inl ⟨_, hx, (hrep _).mpr rfl⟩)
    have : (tokens s' k).get? sig = some cred ↔ (tokens s k).get? sig = some cred ∧ cred.code ≠ x := by
      cases k
      · show s'.accessTokens.get? sig = _ ↔ _
        rw [ha]
        exact get?_deleteByCode hp.1 _ _ _
      · show s'.refreshTokens.get? sig = _ ↔ _
        rw [hr]
        exact get?_deleteByCode hp.2 _ _ _
    rw [this, hw]
    constructor
    · exact fun h => .inr ⟨fun t ht => (q.not_hands ht).elim, h⟩
    · rintro (⟨t, ht, _⟩ | ⟨_, h⟩)
      · exact (q.not_hands ht).elim
      · exact h
  | @revoke x o hsig hrep hhalf ha hr hc =>
    obtain ⟨u, rfl⟩ := hsig
    have hw : Withdraws s e k sig cred ↔ sig = u.signatureString := by
      constructor
      · rintro (⟨t, rfl, h⟩ | ⟨y, hy, h⟩ | ⟨_, t, _, h⟩ | ⟨hk, t, rfl, h⟩)
        · exact (Option.some.inj ((o.revokes _).mp h)).symm
        · exact (hrep _ h).elim
        · cases (o.usesUp _).mp h
        · exact (hhalf _ _ h).elim
      · rintro rfl
        exact .inl ⟨u, rfl, (o.revokes _).mpr rfl⟩
    have : (tokens s' k).get? sig =
        if sig = u.signatureString then none else (tokens s k).get? sig := by
      cases k
      · show s'.accessTokens.get? sig = _
        rw [ha]
        exact GoMap.get?_del _ _ _
      · show s'.refreshTokens.get? sig = _
        rw [hr]
        exact GoMap.get?_del _ _ _
    rw [this, hw]
    by_cases hs : sig = u.signatureString
    · rw [if_pos hs]
      constructor
      · intro h; cases h
      · rintro (⟨t, ht, _⟩ | ⟨_, _, h⟩)
        · exact (o.not_hands ht).elim
        · exact (h hs).elim
    · rw [if_neg hs]
      constructor
      · exact fun h => .inr ⟨fun t ht => (o.not_hands ht).elim, h, hs⟩
      · rintro (⟨t, ht, _⟩ | ⟨_, h, _⟩)
        · exact (o.not_hands ht).elim
        · exact h
  | @half x client stored q hrep hhalf hsig hx ho ha hr hc =>
    obtain ⟨u, rfl⟩ := hsig
    have hw : (tokens s k).get? sig = some cred →
        (Withdraws s e k sig cred ↔ k = .access ∧ sig = u.signatureString) := by
      intro hg
      constructor
      · rintro (⟨t, rfl, h⟩ | ⟨y, hy, h⟩ | ⟨_, t, _, h⟩ | ⟨hk, t, rfl, h⟩)
        · cases (q.revokes _).mp h
        · exact (hrep _ h).elim
        · cases (q.usesUp _).mp h
        · exact ⟨hk, ((hhalf _ _).mp h).1⟩
      · rintro ⟨rfl, rfl⟩
        have hg : s.accessTokens.get? u.signatureString = some cred := hg
        rw [hx] at hg
        cases hg
        exact .inr (.inr (.inr ⟨rfl, u, rfl, (hhalf _ _).mpr ⟨rfl, ho⟩⟩))
    have : (tokens s' k).get? sig =
        if k = .access ∧ sig = u.signatureString then none else (tokens s k).get? sig := by
      cases k
      · show s'.accessTokens.get? sig = _
        rw [ha, GoMap.get?_del]
        simp [tokens]
      · show s'.refreshTokens.get? sig = _
        rw [hr]
        simp [tokens]
    rw [this]
    by_cases hs : k = .access ∧ sig = u.signatureString
    · rw [if_pos hs]
      constructor
      · intro h; cases h
      · rintro (⟨t, ht, _⟩ | ⟨_, hg, h⟩)
        · exact (q.not_hands ht).elim
        · exact (h ((hw hg).mpr hs)).elim
    · rw [if_neg hs]
      constructor
      · exact fun h => .inr ⟨fun t ht => (q.not_hands ht).elim, h, fun h' => hs ((hw h).mp h')⟩
      · rintro (⟨t, ht, _⟩ | ⟨_, h, _⟩)
        · exact (q.not_hands ht).elim
        · exact h

/-- Non-vacuity: a server that no history from an empty one has led to. Its maps have been filled by
the program with a used code and with tokens of two clients. The code is replayed: the token obtained
with it goes, the other one stays. -/
def Demo.filled : Server := { Demo.server with
  accessTokens := [(Demo.a1.signatureString, {
      clientID := b!"c1", scope := some [b!"foo"], expiresAt := 9000 * second }),
    (Demo.a3.signatureString, {
      clientID := b!"c2", username := b!"u9", expiresAt := 9000 * second,
      code := Demo.x2.signatureString })]
  authorizationCodes := [(Demo.x2.signatureString, {
      clientID := b!"c2", username := b!"u9", used := true })] }

example : KeysOnce Demo.filled ∧
    (tokens Demo.filled .access).keys.length = 2 ∧
    (tokens (step ⟨false, Demo.filled⟩ Demo.c3).2.st .access).keys = [Demo.a1.signatureString] := by
  decide +kernel

/-- **C73.** The same for codes: an entry is in the map exactly if the call hands out a code with its
signature and it records what the request says; or if it was there, no such code is handed out, and
the call only marks it as used when it redeems it. -/
theorem C73_codes (s : Server) (c : Call) (sig : Str) (cred : ServerCredential) :
    (step ⟨false, s⟩ c).2.st.authorizationCodes.get? sig = some cred ↔
      (∃ x rq u res, HandsCode ⟨c, (step ⟨false, s⟩ c).1⟩ x ∧ x.signatureString = sig ∧
        AuthorizationCall ⟨c, (step ⟨false, s⟩ c).1⟩ rq u res ∧ cred = {
          clientID := rq.clientID, username := u, scope := rq.scope,
          expiresAt := c.clock 0 + s.config.authorizationCodeLifespan,
          redirectURI := rq.redirectURI }) ∨
      ((∀ x, HandsCode ⟨c, (step ⟨false, s⟩ c).1⟩ x → x.signatureString ≠ sig) ∧
        ∃ old, s.authorizationCodes.get? sig = some old ∧
          (((∃ x, x.signatureString = sig ∧ Redeems s.config ⟨c, (step ⟨false, s⟩ c).1⟩ x) ∧
              cred = { old with used := true }) ∨
            ((∀ x, x.signatureString = sig → ¬ Redeems s.config ⟨c, (step ⟨false, s⟩ c).1⟩ x) ∧
              cred = old))) := by
  have hev := evolves s c
  rw [show c.clock = (⟨c, (step ⟨false, s⟩ c).1⟩ : Event).call.clock from rfl]
  generalize (⟨c, (step ⟨false, s⟩ c).1⟩ : Event) = e at hev ⊢
  generalize (step ⟨false, s⟩ c).2.st = s' at hev ⊢
  have hsame : ∀ {a b use rev}, Obs s.config e a b none none use rev →
      s'.authorizationCodes = s.authorizationCodes →
      (s'.authorizationCodes.get? sig = some cred ↔
      (∃ x rq u res, HandsCode e x ∧ x.signatureString = sig ∧
        AuthorizationCall e rq u res ∧ cred = {
          clientID := rq.clientID, username := u, scope := rq.scope,
          expiresAt := e.call.clock 0 + s.config.authorizationCodeLifespan,
          redirectURI := rq.redirectURI }) ∨
      ((∀ x, HandsCode e x → x.signatureString ≠ sig) ∧
        ∃ old, s.authorizationCodes.get? sig = some old ∧
          (((∃ x, x.signatureString = sig ∧ Redeems s.config e x) ∧
              cred = { old with used := true }) ∨
            ((∀ x, x.signatureString = sig → ¬ Redeems s.config e x) ∧ cred = old)))) := by
    intro a b use rev o hc
    rw [hc]
    simp [o.code, o.redeems]
  cases hev with
  | same q hrep hhalf ha hr hc => exact hsame q hc
  | replay q hrep hx hhalf ha hr hc => exact hsame q hc
  | revoke o hsig hrep hhalf ha hr hc => exact hsame o hc
  | half q hrep hhalf hsig hx ho ha hr hc => exact hsame q hc
  | @code rq u res x hcall o hrep hhalf ha hr hc =>
    rw [hc, GoMap.get?_set]
    simp only [o.code, o.redeems, Option.some.injEq, reduceCtorEq, and_false, exists_false,
      false_and, false_or, not_false_eq_true, implies_true, true_and]
    by_cases hs : sig = x.signatureString
    · subst hs
      rw [if_pos rfl]
      constructor
      · intro h
        exact .inl ⟨x, rq, u, res, rfl, rfl, hcall, (Option.some.inj h).symm⟩
      · rintro (⟨_, rq', u', res', rfl, _, hcall', rfl⟩ | ⟨h, _⟩)
        · obtain ⟨rfl, rfl, _⟩ := authorizationCall_unique hcall hcall'
          rfl
        · exact (h x rfl rfl).elim
    · rw [if_neg hs]
      constructor
      · intro h
        exact .inr ⟨fun y hy => by subst hy; exact fun h => hs h.symm, cred, h, rfl⟩
      · rintro (⟨_, _, _, _, rfl, rfl, _⟩ | ⟨_, _, h, rfl⟩)
        · exact (hs rfl).elim
        · exact h
  | @grant a b red use rec o hred huse hrec hrep hhalf ha hr hc =>
    rw [hc]
    simp only [o.code, o.redeems, reduceCtorEq, exists_false, false_and, false_or,
      false_imp_iff, implies_true, true_and]
    by_cases hs : red = some sig
    · rw [if_pos hs]
      obtain ⟨y, hy⟩ := hred _ hs
      have h1 : ∃ x : HS256Token, x.signatureString = sig ∧ red = some x.signatureString :=
        ⟨y, hy, by rw [hs, hy]⟩
      have h2 : ¬ ∀ x : HS256Token, x.signatureString = sig → ¬ red = some x.signatureString :=
        fun h => h y hy (by rw [hs, hy])
      constructor
      · intro h
        obtain ⟨old, h3, h4⟩ := Option.map_eq_some_iff.mp h
        exact ⟨old, h3, .inl ⟨h1, h4.symm⟩⟩
      · rintro ⟨old, h3, ⟨_, rfl⟩ | ⟨h, _⟩⟩
        · rw [h3]; rfl
        · exact (h2 h).elim
    · rw [if_neg hs]
      have h1 : ¬ ∃ x : HS256Token, x.signatureString = sig ∧ red = some x.signatureString := by
        rintro ⟨x, rfl, h⟩
        exact hs h
      have h2 : ∀ x : HS256Token, x.signatureString = sig → ¬ red = some x.signatureString := by
        rintro x rfl
        exact hs
      simp only [h1, false_and, false_or]
      constructor
      · exact fun h => ⟨cred, h, h2, rfl⟩
      · rintro ⟨_, h, _, rfl⟩
        exact h

/-- Non-vacuity: the code of the second event of the session is handed out, and marked by the third. -/
example : Demo.s2.authorizationCodes.get? Demo.x2.signatureString ≠ none ∧
    Demo.s3.authorizationCodes.get? Demo.x2.signatureString =
      (Demo.s2.authorizationCodes.get? Demo.x2.signatureString).map
        fun x => { x with used := true } := by
  decide +kernel

/-- **C73.** On any server, `Authorize` returns true exactly if the header carries a bearer token whose
entry is in the map of access tokens, has not expired and has every required item of scope. -/
theorem C73_admits_iff (s : Server) (c : Call) :
    (step ⟨false, s⟩ c).1 = .admitted ↔ ∃ required text t cred, Presents c required text ∧
      HS256Token.parse s.config.secret text = .ok t ∧
      s.accessTokens.get? t.signatureString = some cred ∧ c.clock 0 ≤ cred.expiresAt ∧
      Within required cred.scope := by
  constructor
  · intro ha
    cases hop : c.op with
    | serve r =>
      rw [step_serve hop] at ha
      cases hr : (s.handle r c.local).1 <;> rw [hr] at ha <;> cases ha
    | configure cl us =>
      rw [step_configure hop] at ha
      cases ha
    | authorize r required =>
      rw [step_authorize hop] at ha
      cases hn : s.authorizes r required (c.clock 0) with
      | some e => rw [hn] at ha; cases ha
      | none =>
        unfold Server.authorizes at hn
        cases hb : parseBearerToken r with
        | error e => rw [hb] at hn; cases hn
        | ok text =>
          rw [hb] at hn
          simp only at hn
          cases hp : HS256Token.parse s.config.secret text with
          | error e => rw [hp] at hn; cases hn
          | ok t =>
            rw [hp] at hn
            simp only at hn
            cases hg : s.accessTokens.get? t.signatureString with
            | none => rw [hg] at hn; cases hn
            | some cred =>
              rw [hg] at hn
              simp only at hn
              by_cases hx : cred.expiresAt.before (c.clock 0) = true
              · rw [if_pos hx] at hn; cases hn
              rw [if_neg hx] at hn
              by_cases hsc : cred.scope.includes required = true
              · exact ⟨required, text, t, cred, ⟨r, hop, (C09_bearer_accept_iff _ _).mp hb⟩,
                  hp, hg, Server.before_false hx, (C07_includes _ _).mp hsc⟩
              · simp only [hsc, Bool.not_false, if_true] at hn; cases hn
  · rintro ⟨required, text, t, cred, ⟨r, hop, hb⟩, hp, hg, hx, hsc⟩
    rw [step_authorize hop]
    have : s.authorizes r required (c.clock 0) = none := by
      unfold Server.authorizes
      rw [(C09_bearer_accept_iff _ _).mpr hb]
      simp only
      rw [hp]
      simp only
      rw [hg]
      simp only
      rw [if_neg (Server.not_before (Int.not_lt.mpr hx)), (C07_includes _ _).mpr hsc]
      rfl
    rw [this]

/-- Non-vacuity: the token that the program has stored is admitted. -/
example : (step ⟨false, Demo.filled⟩ (Demo.present Demo.a1.string (some [b!"foo"]) 8000)).1 =
    .admitted := by
  decide +kernel

theorem enough_of_mint {cfg : ServerConfig} {c : Call} {a b : HS256Token}
    (h : Server.mint cfg true c.local.coins = some (a, some b)) : Enough cfg c 2 := by
  unfold Server.mint at h
  cases hg : Server.gen cfg c.local.coins with
  | none => rw [hg] at h; cases h
  | some x =>
    obtain ⟨a', rest⟩ := x
    rw [hg] at h
    simp only [if_true] at h
    obtain ⟨h1, h2, _, rfl⟩ := Server.gen_some hg
    cases hg' : Server.gen cfg (c.local.coins.drop cfg.keyLength.toNat) with
    | none => rw [hg'] at h; cases h
    | some y =>
      obtain ⟨b', rest⟩ := y
      obtain ⟨_, h3, _⟩ := Server.gen_some hg'
      rw [List.length_drop] at h3
      have : c.local.coins = c.coins := rfl
      rw [this] at h2 h3
      exact ⟨h1, by omega⟩

/-- **C73.** On any server, a token request is answered with an access token exactly if its client
identifies itself, what it presents is worth tokens by the maps, and the random source has bytes for
the tokens. -/
theorem C73_granted_iff (s : Server) {c : Call} {rq : TokenRequest} (hc : AsksToken c rq) :
    (∃ a, Hands ⟨c, (step ⟨false, s⟩ c).1⟩ .access a) ↔
      Identified s rq.clientID rq.clientSecret ∧ Merits s c rq ∧ Enough s.config c 2 := by
  constructor
  · rintro ⟨a, hh⟩
    obtain ⟨r, hop, hpath, hq⟩ := hc
    rw [lastSegment_iff] at hpath
    rw [step_serve hop] at hh
    have hserved := Server.served s r c.local
    generalize (s.handle r c.local).1 = reply at hserved hh
    generalize (s.handle r c.local).2 = s' at hserved
    cases hserved with
    | notFound h1 h2 h3 h4 => exact (h2 hpath).elim
    | refused e hs hr hp hh' hcode hrev =>
      exact ((quiet_refused (cfg := s.config) hop hs hr hh').not_hands hh).elim
    | crash hs hp =>
      exact ((silent_of_answer (by intro res hh; cases hh)).quiet (cfg := s.config)).not_hands hh |>.elim
    | notice rq hf hm => have := hf.path; rw [hpath] at this; cases this
    | introspect rq hp => rw [hpath] at hp; cases hp
    | revoke rq hp => rw [hpath] at hp; cases hp
    | revokeHalf rq hp => rw [hpath] at hp; cases hp
    | refusedRedirect rq hf hm e he => have := hf.path; rw [hpath] at this; cases this
    | implicit rq hf => have := hf.path; rw [hpath] at this; cases this
    | code rq hf => have := hf.path; rw [hpath] at this; cases this
    | replay rq hf ht x hc stored hst hu =>
      have hbody : ((Reply.error (invalidGrant b!"unknown authorization code")).render {}).result.body =
          (invalidGrant b!"unknown authorization code").json ++ [0x0A] := rfl
      exact ((quiet_token_error (cfg := s.config) hop hf.path hbody).not_hands hh).elim
    | password rq hf ht hs hu a b hg =>
      have := hf.parsed
      rw [hq] at this
      cases this
      exact ⟨hf.client, .password ht hu ((C07_includes _ _).mp hs), enough_of_mint hg⟩
    | client rq hf ht hc hs a b hg =>
      have := hf.parsed
      rw [hq] at this
      cases this
      obtain ⟨cl, h1, h2⟩ := hc
      exact ⟨hf.client, .client ht h1 h2 ((C07_includes _ _).mp hs), enough_of_mint hg⟩
    | exchange rq hf ht x hc stored hst hu hx ho hr a b hg =>
      have := hf.parsed
      rw [hq] at this
      cases this
      exact ⟨hf.client, .exchange ht hc hst hu hx ho hr, enough_of_mint hg⟩
    | refresh rq hf ht x hc stored hst hx ho scope hsc hs a b hg =>
      have := hf.parsed
      rw [hq] at this
      cases this
      refine ⟨hf.client, .refresh ht hc hst hx ho ?_, enough_of_mint hg⟩
      have hs := (C07_includes _ _).mp hs
      rw [hsc] at hs
      split at hs
      · rename_i he
        intro i hi
        exact ((C07_empty _).mp he i hi).elim
      · exact hs
  · rintro ⟨hi, hm, hn⟩
    obtain ⟨a, b, hmint⟩ := mint_enough hn
    refine ⟨a, ?_⟩
    cases hm with
    | password ht hu hs =>
      obtain ⟨client, _, h2⟩ := step_grant hc hi (by rw [ht]; decide)
      rw [h2]
      refine (hands_response hc (cfg := s.config) (b := b) (scope := rq.scope) rfl ?_).1
      unfold Server.grantReply
      rw [if_pos (by rw [ht]; decide), (Server.userOK_iff _ _ _).mpr hu,
        (C07_includes _ _).mpr hs]
      unfold Server.issue
      rw [hmint]
      rfl
    | client ht hcl hcf hs =>
      obtain ⟨client', h1, h2⟩ := step_grant (s := s) hc hi (by rw [ht]; decide)
      rw [hcl] at h1
      cases h1
      rw [h2]
      refine (hands_response hc (cfg := s.config) (b := b) (scope := rq.scope) rfl ?_).1
      unfold Server.grantReply
      rw [if_neg (by rw [ht]; decide), if_pos (by rw [ht]; decide), hcf,
        (C07_includes _ _).mpr hs]
      unfold Server.issue
      rw [hmint]
      rfl
    | @exchange x code ht hx hst hu he ho hr =>
      rw [step_code hc hi ht]
      refine (hands_response hc (cfg := s.config) (b := b) (scope := code.scope) rfl ?_).1
      unfold Server.codeReply
      rw [hx]
      simp only [hst, hu, Bool.false_eq_true, if_false]
      rw [if_neg (Server.not_before (u := c.local.clock c.local.tick) (Int.not_lt.mpr he)),
        if_neg (by simpa using ho), if_neg (by simpa using hr)]
      unfold Server.issue
      rw [hmint]
      rfl
    | @refresh x old ht hx hst he ho hs =>
      rw [step_refresh hc hi ht]
      have hsc : old.scope.includes (if rq.scope.empty then old.scope else rq.scope) = true := by
        rw [C07_includes]
        split
        · exact fun _ h => h
        · exact hs
      refine (hands_response hc (cfg := s.config) (b := b)
        (scope := if rq.scope.empty then old.scope else rq.scope) rfl ?_).1
      unfold Server.refreshReply
      rw [hx]
      simp only [hst]
      rw [if_neg (Server.not_before (u := c.local.clock c.local.tick) (Int.not_lt.mpr he)),
        if_neg (by simpa using ho), hsc]
      unfold Server.issue
      rw [hmint]
      rfl

/-- Non-vacuity: the fourth call of the session asks for tokens for a refresh token that is worth
them. -/
example : ∃ rq, AsksToken Demo.c4 rq ∧ Identified Demo.s3 rq.clientID rq.clientSecret ∧
    Merits Demo.s3 Demo.c4 rq ∧ Enough Demo.s3.config Demo.c4 2 := by
  refine ⟨{
      grantType := b!"refresh_token", clientID := b!"c2", scope := some [b!"foo"],
      refreshToken := Demo.r3.string },
    by decide +kernel, by decide +kernel,
    .refresh (x := Demo.r3) (old := {
        clientID := b!"c2", username := b!"u1", scope := some [b!"foo", b!"bar"],
        expiresAt := 605822 * second, code := Demo.x2.signatureString })
      rfl (by decide +kernel) (by decide +kernel) (by decide +kernel) rfl (by decide +kernel),
    by decide +kernel⟩

theorem keysOnce_grant {s : Server} (hp : KeysOnce s) (a : HS256Token) (b : Option HS256Token)
    (t₁ t₂ : Time) (cred : ServerCredential) : KeysOnce (s.grant a b t₁ t₂ cred) := by
  unfold Server.grant
  refine ⟨GoMap.nodup_set hp.1 _ _, ?_⟩
  cases b with
  | none => exact hp.2
  | some b => exact GoMap.nodup_set hp.2 _ _

/-- Calls keep the maps proper and the configuration as it is. -/
theorem step_keysOnce {s : Server} (hp : KeysOnce s) (c : Call) :
    KeysOnce (step ⟨false, s⟩ c).2.st ∧ (step ⟨false, s⟩ c).2.st.config = s.config := by
  cases hop : c.op with
  | authorize r required => rw [step_authorize hop]; exact ⟨hp, rfl⟩
  | configure cl us => rw [step_configure hop]; exact ⟨hp, rfl⟩
  | serve r =>
    rw [step_serve hop]
    have hserved := Server.served s r c.local
    show KeysOnce (s.handle r c.local).2 ∧ (s.handle r c.local).2.config = _
    generalize (s.handle r c.local).1 = reply at hserved
    generalize (s.handle r c.local).2 = s' at hserved ⊢
    cases hserved with
    | notFound | refused | refusedRedirect | notice | crash | introspect => exact ⟨hp, rfl⟩
    | implicit | password | client => exact ⟨keysOnce_grant hp _ _ _ _ _, rfl⟩
    | code => exact ⟨hp, rfl⟩
    | replay => exact ⟨⟨nodup_deleteByCode hp.1 _, nodup_deleteByCode hp.2 _⟩, rfl⟩
    | exchange => exact ⟨keysOnce_grant hp _ (some _) _ _ _, rfl⟩
    | refresh =>
      exact ⟨⟨GoMap.nodup_set hp.1 _ _, GoMap.nodup_del (GoMap.nodup_set hp.2 _ _) _⟩, rfl⟩
    | revoke => exact ⟨⟨GoMap.nodup_del hp.1 _, GoMap.nodup_del hp.2 _⟩, rfl⟩
    | revokeHalf => exact ⟨⟨GoMap.nodup_del hp.1 _, hp.2⟩, rfl⟩

variable {s₀ : Server} {s : Shared Server} {h : List Event}

theorem history_keysOnce (hp : KeysOnce s₀) (hh : History s₀ h s) :
    ∃ st, s = ⟨false, st⟩ ∧ KeysOnce st ∧ st.config = s₀.config := by
  induction hh with
  | start => exact ⟨s₀, rfl, hp, rfl⟩
  | next c _ ih =>
    obtain ⟨st, rfl, h1, h2⟩ := ih
    obtain ⟨h3, h4⟩ := step_keysOnce h1 c
    have := step_unlocked st c
    refine ⟨(step ⟨false, st⟩ c).2.st, ?_, h3, h4.trans h2⟩
    generalize (step ⟨false, st⟩ c).2 = x at this ⊢
    obtain ⟨l, y⟩ := x
    cases this
    rfl

/-- **C73.** An entry that the embedding program has put in the map of access tokens (or of refresh
tokens) under the signature of a token stays as it is through every history without an event that takes
the token away. -/
theorem C73_kept (hp : KeysOnce s₀) (hh : History s₀ h s) {k : Kind} {t : HS256Token}
    {cred : ServerCredential} (hg : (tokens s₀ k).get? t.signatureString = some cred)
    (hk : ∀ e ∈ h, ¬ Ends s₀.config e k t {
      client := cred.clientID, user := cred.username, scope := cred.scope,
      expires := cred.expiresAt, origin := cred.code }) :
    (tokens s.st k).get? t.signatureString = some cred := by
  induction hh with
  | start => exact hg
  | next c hh ih =>
    obtain ⟨st, rfl, h1, h2⟩ := history_keysOnce hp hh
    have hn := hk _ (List.mem_cons_self ..)
    rw [C73_tokens st h1]
    refine .inr ⟨fun t' h3 h4 => hn (.inl ⟨t', h3, h4⟩),
      ih (fun e he => hk e (List.mem_cons_of_mem _ he)), ?_⟩
    rintro (⟨u, h3, rq, res, h4, ⟨x, h5, h6⟩, h7⟩ | ⟨_, _, h3⟩ |
      ⟨hk', u, h3, rq, res, a, h4, h8, ⟨x, h5, h6⟩, h7⟩ |
      ⟨hk', u, h3, rq, res, h4, ⟨x, h5, h6⟩, h7⟩)
    · exact hn (.inr (.inl ⟨rq, res, h4, ⟨x, by rw [← h2]; exact h5, h6.trans h3⟩, h7⟩))
    · rw [h2] at h3
      refine hn (.inr (.inr (.inl ⟨?_, h3⟩)))
      obtain ⟨rq, res, x, _, _, h6, h7, _⟩ := h3
      show cred.code ≠ []
      rw [← h7]
      exact parsed_signature_ne_nil h6
    · exact hn (.inr (.inr (.inr (.inl ⟨hk', rq, res, a, h4, h8,
        ⟨x, by rw [← h2]; exact h5, h6.trans h3⟩, h7⟩))))
    · exact hn (.inr (.inr (.inr (.inr ⟨hk', rq, res, h4,
        ⟨x, by rw [← h2]; exact h5, h6.trans h3⟩, h7⟩))))

/-- **C73.** A token whose signature is not in the map does not get there unless it is handed out. -/
theorem C73_gone (hp : KeysOnce s₀) (hh : History s₀ h s) {k : Kind} {sig : Str}
    (hg : (tokens s₀ k).get? sig = none)
    (hk : ∀ e ∈ h, ∀ t, Hands e k t → t.signatureString ≠ sig) :
    (tokens s.st k).get? sig = none := by
  induction hh with
  | start => exact hg
  | next c hh ih =>
    obtain ⟨st, rfl, h1, h2⟩ := history_keysOnce hp hh
    have ih := ih (fun e he => hk e (List.mem_cons_of_mem _ he))
    cases hx : (tokens (step ⟨false, st⟩ c).2.st k).get? sig with
    | none => rfl
    | some cred =>
      rcases (C73_tokens st h1 c k sig cred).mp hx with ⟨t, h3, h4, _⟩ | ⟨_, h3, _⟩
      · exact (hk _ (List.mem_cons_self ..) t h3 h4).elim
      · have ih : (tokens st k).get? sig = none := ih
        rw [ih] at h3
        cases h3

/-- **C73.** Such an access token is admitted by `Authorize` for every required scope within its own,
as long as it has not expired and nothing takes it away. -/
theorem C73_seeded_admitted (hp : KeysOnce s₀) (hh : History s₀ h s) {t : HS256Token}
    (hv : t = HS256Token.fromKey s₀.config.secret t.key) {cred : ServerCredential}
    (hg : s₀.accessTokens.get? t.signatureString = some cred)
    (hk : ∀ e ∈ h, ¬ Ends s₀.config e .access t {
      client := cred.clientID, user := cred.username, scope := cred.scope,
      expires := cred.expiresAt, origin := cred.code })
    {c : Call} {required : Scope} (hc : Presents c required t.string) :
    (step s c).1 = .admitted ↔ c.clock 0 ≤ cred.expiresAt ∧ Within required cred.scope := by
  have hkept := C73_kept (k := .access) hp hh hg hk
  obtain ⟨st, rfl, h1, h2⟩ := history_keysOnce hp hh
  have hkept : st.accessTokens.get? t.signatureString = some cred := hkept
  have hparse : HS256Token.parse st.config.secret t.string = .ok t := by
    rw [h2, hv]
    exact C01_token_roundtrip _ _
  rw [C73_admits_iff]
  constructor
  · rintro ⟨required', text, t', cred', h3, h4, h5, h6, h7⟩
    obtain rfl := presents_unique hc h3
    obtain rfl : required = required' := by
      obtain ⟨r, h8, _⟩ := hc
      obtain ⟨r', h9, _⟩ := h3
      rw [h8] at h9
      cases h9
      rfl
    rw [hparse] at h4
    cases h4
    rw [hkept] at h5
    cases h5
    exact ⟨h6, h7⟩
  · rintro ⟨h6, h7⟩
    exact ⟨required, t.string, t, cred, hc, hparse, hkept, h6, h7⟩

/-- Non-vacuity: the maps of the session after its eighth event, taken over by a new server. The next
call is the ninth one, the access token `a8` is kept, and it can be presented. -/
example : KeysOnce Demo.s8 ∧ History Demo.s8 [Demo.e9] ⟨false, Demo.s9⟩ ∧
    Demo.a8 = HS256Token.fromKey Demo.s8.config.secret Demo.a8.key ∧
    ∃ cred, Demo.s8.accessTokens.get? Demo.a8.signatureString = some cred ∧
      (∀ e' ∈ [Demo.e9], ¬ Ends Demo.s8.config e' .access Demo.a8 {
        client := cred.clientID, user := cred.username, scope := cred.scope,
        expires := cred.expiresAt, origin := cred.code }) ∧
      Presents (Demo.present Demo.a8.string (some [b!"bar"]) 1100) (some [b!"bar"])
        Demo.a8.string := by
  refine ⟨by decide +kernel, ?_, by decide +kernel, {
      clientID := b!"c1", scope := some [b!"bar"], expiresAt := 4670 * second }, by decide +kernel,
    ?_, _, rfl, b!"Bearer", by decide +kernel, ?_, by decide⟩
  · have h := History.next Demo.c9 (History.start (s₀ := Demo.s8))
    rw [Demo.step9] at h
    exact h
  · intro e' he
    rw [List.mem_singleton.mp he]
    rintro (⟨t', h, _⟩ | h | ⟨h, _⟩ | ⟨h, _⟩ | ⟨_, rq, res, h, _⟩)
    · exact hands_none (by decide +kernel) h
    · exact absurd h (by decide +kernel)
    · exact h rfl
    · cases h
    · rw [revocationCall_asked] at h
      exact absurd h.1 (by rw [(by decide +kernel : asksRevocation Demo.e9.call = none)]; simp)
  · unfold AnyCase
    simp [AnyCase]

end OAuth2

import Verif.Lemmas.Events

/-!
What the server remembers is exactly what an observer of its answers concludes.
-/

namespace OAuth2

open Spec

set_option linter.unusedSimpArgs false

/-! ### Maps -/

theorem GoMap.get?_update {α : Type} (m : GoMap α) (k : Str) (f : α → α) (j : Str) :
    (m.update k f).get? j = if j = k then (m.get? j).map f else m.get? j := by
  unfold GoMap.update
  induction m with
  | nil => simp [GoMap.get?_nil]
  | cons e m ih =>
    obtain ⟨i, v⟩ := e
    rw [List.map_cons, GoMap.get?_cons]
    by_cases hik : i = k
    · subst hik
      simp only [if_true, GoMap.get?_cons, ih]
      by_cases hij : i = j
      · subst hij; simp
      · simp [hij, Ne.symm hij]
    · simp only [if_neg hik, GoMap.get?_cons, ih]
      by_cases hij : i = j
      · subst hij; simp [hik]
      · simp [hij]

theorem deleteByCode_aux (code : Str) (l acc : GoMap ServerCredential) (k : Str) :
    (l.foldl (fun acc e => if e.2.code = code then GoMap.del acc e.1 else acc) acc).get? k =
      if ∃ e ∈ l, e.2.code = code ∧ e.1 = k then none else acc.get? k := by
  induction l generalizing acc with
  | nil => simp
  | cons e l ih =>
    rw [List.foldl_cons, ih]
    by_cases h1 : ∃ x ∈ l, x.2.code = code ∧ x.1 = k
    · have h2 : ∃ x ∈ e :: l, x.2.code = code ∧ x.1 = k := by
        obtain ⟨x, hx, h⟩ := h1; exact ⟨x, List.mem_cons_of_mem _ hx, h⟩
      rw [if_pos h1, if_pos h2]
    · rw [if_neg h1]
      by_cases hc : e.2.code = code
      · rw [if_pos hc, GoMap.get?_del]
        by_cases hk : k = e.1
        · rw [if_pos hk, if_pos ⟨e, by simp, hc, hk.symm⟩]
        · rw [if_neg hk, if_neg]
          rintro ⟨x, hx, h2, h3⟩
          rcases List.mem_cons.mp hx with rfl | hx
          · exact hk h3.symm
          · exact h1 ⟨x, hx, h2, h3⟩
      · rw [if_neg hc, if_neg]
        rintro ⟨x, hx, h2, h3⟩
        rcases List.mem_cons.mp hx with rfl | hx
        · exact hc h2
        · exact h1 ⟨x, hx, h2, h3⟩

theorem get?_deleteByCode {m : GoMap ServerCredential} (hn : m.keys.Nodup) (code k : Str)
    (cred : ServerCredential) :
    (Server.deleteByCode m code).get? k = some cred ↔ m.get? k = some cred ∧ cred.code ≠ code := by
  unfold Server.deleteByCode
  rw [deleteByCode_aux]
  constructor
  · intro h
    split at h
    · cases h
    · rename_i hx
      exact ⟨h, fun hc => hx ⟨_, GoMap.get?_some_mem h, hc, rfl⟩⟩
  · rintro ⟨h1, h2⟩
    rw [if_neg, h1]
    rintro ⟨⟨i, v⟩, hm, h3, rfl⟩
    rw [GoMap.get?_of_mem hn hm] at h1
    cases h1
    exact h2 h3

theorem nodup_deleteByCode {m : GoMap ServerCredential} (hn : m.keys.Nodup) (code : Str) :
    (Server.deleteByCode m code).keys.Nodup := by
  unfold Server.deleteByCode
  suffices h : ∀ (l acc : GoMap ServerCredential), acc.keys.Nodup →
      (GoMap.keys (l.foldl (fun acc e => if e.2.code = code then GoMap.del acc e.1 else acc) acc)).Nodup
    from h m m hn
  intro l
  induction l with
  | nil => exact fun acc h => h
  | cons e l ih =>
    intro acc h
    rw [List.foldl_cons]
    apply ih
    split
    · exact GoMap.nodup_del h _
    · exact h

/-! ### Inversion -/

/-- What an event puts in force. -/
inductive Issued (cfg : ServerConfig) (h : List Event) (e : Event) : Kind → HS256Token → Grant → Prop
  | implicit {t rq u res} : AuthorizationCall e rq u res → Hands e .access t →
      Issued cfg h e .access t {
        client := rq.clientID, user := u, scope := rq.scope, expires := expiry cfg e 0 .access }
  | password {k t rq res} : TokenCall e rq res → rq.grantType = b!"password" → Hands e k t →
      Issued cfg h e k t {
        client := rq.clientID, user := rq.username, scope := rq.scope, expires := expiry cfg e 0 k }
  | client {k t rq res} : TokenCall e rq res → rq.grantType = b!"client_credentials" →
      Hands e k t →
      Issued cfg h e k t {
        client := rq.clientID, user := [], scope := rq.scope, expires := expiry cfg e 0 k }
  | exchange {k t rq res c g} : TokenCall e rq res → rq.grantType = b!"authorization_code" →
      Hands e k t → Code cfg h c g false → SameToken cfg rq.code c →
      Issued cfg h e k t {
        client := g.client, user := g.user, scope := g.scope, expires := expiry cfg e 1 k,
        origin := c.signatureString }
  | refresh {k t rq res u g} : TokenCall e rq res → rq.grantType = b!"refresh_token" →
      Hands e k t → InForce cfg h .refresh u g → SameToken cfg rq.refreshToken u →
      (k = .refresh → t.signatureString ≠ u.signatureString) →
      Issued cfg h e k t {
        client := g.client, user := g.user,
        scope := if rq.scope.empty then g.scope else rq.scope, expires := expiry cfg e 1 k }

theorem inForce_nil {cfg : ServerConfig} {k : Kind} {t : HS256Token} {g : Grant} :
    ¬ InForce cfg [] k t g := by
  intro h; cases h

theorem inForce_cons {cfg : ServerConfig} {h : List Event} {e : Event} {k : Kind} {t : HS256Token}
    {g : Grant} : InForce cfg (e :: h) k t g ↔
      Issued cfg h e k t g ∨ (InForce cfg h k t g ∧ ¬ Ends cfg e k t g) := by
  constructor
  · intro hh
    cases hh with
    | implicit h1 h2 => exact .inl (.implicit h1 h2)
    | password h1 h2 h3 => exact .inl (.password h1 h2 h3)
    | client h1 h2 h3 => exact .inl (.client h1 h2 h3)
    | exchange h1 h2 h3 h4 h5 => exact .inl (.exchange h1 h2 h3 h4 h5)
    | refresh h1 h2 h3 h4 h5 h6 => exact .inl (.refresh h1 h2 h3 h4 h5 h6)
    | later h1 h2 => exact .inr ⟨h1, h2⟩
  · rintro (hh | ⟨h1, h2⟩)
    · cases hh with
      | implicit h1 h2 => exact .implicit h1 h2
      | password h1 h2 h3 => exact .password h1 h2 h3
      | client h1 h2 h3 => exact .client h1 h2 h3
      | exchange h1 h2 h3 h4 h5 => exact .exchange h1 h2 h3 h4 h5
      | refresh h1 h2 h3 h4 h5 h6 => exact .refresh h1 h2 h3 h4 h5 h6
    · exact .later h1 h2

theorem Issued.hands {cfg : ServerConfig} {h : List Event} {e : Event} {k : Kind} {t : HS256Token}
    {g : Grant} (hi : Issued cfg h e k t g) : Hands e k t := by
  cases hi <;> assumption

/-! ### Calls are functional -/

theorem tokenCall_unique {e : Event} {rq rq' : TokenRequest} {res res' : Response}
    (h : TokenCall e rq res) (h' : TokenCall e rq' res') : rq = rq' ∧ res = res' := by
  obtain ⟨r, h1, -, h2, h3⟩ := h
  obtain ⟨r', h1', -, h2', h3'⟩ := h'
  rw [h1] at h1'; cases h1'
  rw [h2] at h2'; cases h2'
  rw [h3] at h3'; cases h3'
  exact ⟨rfl, rfl⟩

theorem authorizationCall_unique {e : Event} {rq rq' : AuthorizationRequest} {u u' : Str}
    {res res' : Response} (h : AuthorizationCall e rq u res) (h' : AuthorizationCall e rq' u' res') :
    rq = rq' ∧ u = u' ∧ res = res' := by
  obtain ⟨r, h1, -, -, h2, hu, h3⟩ := h
  obtain ⟨r', h1', -, -, h2', hu', h3'⟩ := h'
  rw [h1] at h1'; cases h1'
  rw [h2] at h2'; cases h2'
  rw [h3] at h3'; cases h3'
  exact ⟨rfl, hu.trans hu'.symm, rfl⟩

theorem not_both {e : Event} {rq : TokenRequest} {rq' : AuthorizationRequest} {u : Str}
    {res res' : Response} (h : TokenCall e rq res) (h' : AuthorizationCall e rq' u res') : False := by
  obtain ⟨r, h1, h2, -⟩ := h
  obtain ⟨r', h1', h2', -⟩ := h'
  rw [h1] at h1'; cases h1'
  rw [lastSegment_iff] at h2 h2'
  rw [h2] at h2'
  revert h2'
  decide

/-! ### The invariant -/

def Spec.Grant.cred (g : Grant) : ServerCredential :=
  { clientID := g.client, username := g.user, expiresAt := g.expires, scope := g.scope,
    code := g.origin }

def Spec.CodeGrant.cred (g : CodeGrant) (redeemed : Bool) : ServerCredential :=
  { clientID := g.client, username := g.user, expiresAt := g.expires, scope := g.scope,
    redirectURI := g.redirectURI, used := redeemed }

theorem grant_cred_inj {g g' : Grant} (h : g.cred = g'.cred) : g = g' := by
  cases g; cases g'
  unfold Spec.Grant.cred at h
  simp only [ServerCredential.mk.injEq] at h
  simp [h]

theorem codeGrant_cred_inj {g g' : CodeGrant} {b b' : Bool} (h : g.cred b = g'.cred b') :
    g = g' ∧ b = b' := by
  cases g; cases g'
  unfold Spec.CodeGrant.cred at h
  simp only [ServerCredential.mk.injEq] at h
  simp [h]

/-- The map holds exactly the tokens in force. -/
def Holds (cfg : ServerConfig) (h : List Event) (k : Kind) (m : GoMap ServerCredential) : Prop :=
  ∀ sig cred, m.get? sig = some cred ↔
    ∃ t g, t.signatureString = sig ∧ InForce cfg h k t g ∧ cred = g.cred

/-- The map holds exactly the codes on record. -/
def HoldsCodes (cfg : ServerConfig) (h : List Event) (m : GoMap ServerCredential) : Prop :=
  ∀ sig cred, m.get? sig = some cred ↔
    ∃ c g b, c.signatureString = sig ∧ Code cfg h c g b ∧ cred = g.cred b

structure Exact (cfg : ServerConfig) (h : List Event) (s : Server) : Prop where
  config : s.config = cfg
  nodupA : s.accessTokens.keys.Nodup
  nodupR : s.refreshTokens.keys.Nodup
  access : Holds cfg h .access s.accessTokens
  refresh : Holds cfg h .refresh s.refreshTokens
  codes : HoldsCodes cfg h s.authorizationCodes
  origin : ∀ k t g, InForce cfg h k t g → g.origin ≠ [] →
    ∃ x, s.authorizationCodes.get? g.origin = some x
  valid : ∀ k t g, InForce cfg h k t g → t = HS256Token.fromKey cfg.secret t.key
  validCode : ∀ c g b, Code cfg h c g b → c = HS256Token.fromKey cfg.secret c.key

theorem holds_step {cfg : ServerConfig} {h : List Event} {e : Event} {k : Kind}
    {m m' : GoMap ServerCredential} (hm : Holds cfg h k m) (ended : Str → ServerCredential → Prop)
    (hend : ∀ t g, InForce cfg h k t g →
      (Ends cfg e k t g ↔ ended t.signatureString g.cred))
    (hm' : ∀ sig cred, m'.get? sig = some cred ↔
      (∃ t g, t.signatureString = sig ∧ Issued cfg h e k t g ∧ cred = g.cred) ∨
      (m.get? sig = some cred ∧ ¬ ended sig cred)) : Holds cfg (e :: h) k m' := by
  intro sig cred
  rw [hm']
  simp only [inForce_cons]
  constructor
  · rintro (⟨t, g, h1, h2, h3⟩ | ⟨h1, h2⟩)
    · exact ⟨t, g, h1, .inl h2, h3⟩
    · obtain ⟨t, g, rfl, h4, rfl⟩ := (hm _ _).mp h1
      exact ⟨t, g, rfl, .inr ⟨h4, fun h => h2 ((hend t g h4).mp h)⟩, rfl⟩
  · rintro ⟨t, g, h1, h2 | ⟨h2, h2'⟩, h3⟩
    · exact .inl ⟨t, g, h1, h2, h3⟩
    · refine .inr ⟨(hm _ _).mpr ⟨t, g, h1, h2, h3⟩, fun h => h2' ((hend t g h2).mpr ?_)⟩
      rw [h1, ← h3]; exact h

section
variable {cfg : ServerConfig} {h : List Event} {e : Event} {a b c : Option HS256Token}
  {red use rev : Option Str}

theorem ends_access (o : Obs cfg e a b c red use rev) (t : HS256Token) (g : Grant) :
    Ends cfg e .access t g ↔ (∃ t', a = some t' ∧ t'.signatureString = t.signatureString) ∨
      rev = some t.signatureString ∨ (g.origin ≠ [] ∧ Replays cfg e g.origin) ∨
      HalfRevokes cfg e t g.client := by
  unfold Ends
  simp only [o.access, o.revokes, reduceCtorEq, false_and, false_or, true_and]

theorem ends_refresh (o : Obs cfg e a b c red use rev) (t : HS256Token) (g : Grant) :
    Ends cfg e .refresh t g ↔ (∃ t', b = some t' ∧ t'.signatureString = t.signatureString) ∨
      rev = some t.signatureString ∨ (g.origin ≠ [] ∧ Replays cfg e g.origin) ∨
      use = some t.signatureString := by
  unfold Ends
  simp only [o.refresh, o.revokes, o.usesUp, reduceCtorEq, false_and, or_false, true_and]

theorem code_cons {x : HS256Token} {g : CodeGrant} {r : Bool} :
    Code cfg (e :: h) x g r ↔
      (∃ rq u res, AuthorizationCall e rq u res ∧ rq.responseType = b!"code" ∧ HandsCode e x ∧
        r = false ∧ g = {
          client := rq.clientID, user := u, scope := rq.scope, redirectURI := rq.redirectURI,
          expires := e.call.clock 0 + cfg.authorizationCodeLifespan }) ∨
      (r = true ∧ Code cfg h x g false ∧ Redeems cfg e x) ∨
      (Code cfg h x g r ∧ ¬ Redeems cfg e x ∧
        ∀ c', HandsCode e c' → c'.signatureString ≠ x.signatureString) := by
  constructor
  · intro hh
    cases hh with
    | issued h1 h2 h3 => exact .inl ⟨_, _, _, h1, h2, h3, rfl, rfl⟩
    | redeemed h1 h2 => exact .inr (.inl ⟨rfl, h1, h2⟩)
    | later h1 h2 h3 => exact .inr (.inr ⟨h1, h2, h3⟩)
  · rintro (⟨rq, u, res, h1, h2, h3, rfl, rfl⟩ | ⟨rfl, h1, h2⟩ | ⟨h1, h2, h3⟩)
    · exact .issued h1 h2 h3
    · exact .redeemed h1 h2
    · exact .later h1 h2 h3

/-- Events that hand out and redeem no code leave the codes alone. -/
theorem holdsCodes_same {m : GoMap ServerCredential} (hm : HoldsCodes cfg h m)
    (o : Obs cfg e a b none none use rev) : HoldsCodes cfg (e :: h) m := by
  intro sig cred
  rw [hm]
  simp only [code_cons, o.code, o.redeems]
  simp

/-- What the events of the two endpoints put in force. -/
theorem issued_token {rq : TokenRequest} {res : Response} (hc : TokenCall e rq res) {k : Kind}
    {t : HS256Token} {g : Grant} : Issued cfg h e k t g ↔ Hands e k t ∧
      ((rq.grantType = b!"password" ∧ g = {
          client := rq.clientID, user := rq.username, scope := rq.scope, expires := expiry cfg e 0 k }) ∨
       (rq.grantType = b!"client_credentials" ∧ g = {
          client := rq.clientID, user := [], scope := rq.scope, expires := expiry cfg e 0 k }) ∨
       (rq.grantType = b!"authorization_code" ∧ ∃ c g', Code cfg h c g' false ∧
          SameToken cfg rq.code c ∧ g = {
          client := g'.client, user := g'.user, scope := g'.scope, expires := expiry cfg e 1 k,
          origin := c.signatureString }) ∨
       (rq.grantType = b!"refresh_token" ∧ ∃ u g', InForce cfg h .refresh u g' ∧
          SameToken cfg rq.refreshToken u ∧
          (k = .refresh → t.signatureString ≠ u.signatureString) ∧ g = {
            client := g'.client, user := g'.user,
            scope := if rq.scope.empty then g'.scope else rq.scope, expires := expiry cfg e 1 k })) := by
  constructor
  · intro hi
    refine ⟨hi.hands, ?_⟩
    cases hi with
    | implicit h1 h2 => exact (not_both hc h1).elim
    | password h1 h2 h3 =>
      obtain ⟨rfl, rfl⟩ := tokenCall_unique hc h1
      exact .inl ⟨h2, rfl⟩
    | client h1 h2 h3 =>
      obtain ⟨rfl, rfl⟩ := tokenCall_unique hc h1
      exact .inr (.inl ⟨h2, rfl⟩)
    | exchange h1 h2 h3 h4 h5 =>
      obtain ⟨rfl, rfl⟩ := tokenCall_unique hc h1
      exact .inr (.inr (.inl ⟨h2, _, _, h4, h5, rfl⟩))
    | refresh h1 h2 h3 h4 h5 h6 =>
      obtain ⟨rfl, rfl⟩ := tokenCall_unique hc h1
      exact .inr (.inr (.inr ⟨h2, _, _, h4, h5, h6, rfl⟩))
  · rintro ⟨h0, ⟨h1, rfl⟩ | ⟨h1, rfl⟩ | ⟨h1, c, g', h2, h3, rfl⟩ | ⟨h1, u, g', h2, h3, h4, rfl⟩⟩
    · exact .password hc h1 h0
    · exact .client hc h1 h0
    · exact .exchange hc h1 h0 h2 h3
    · exact .refresh hc h1 h0 h2 h3 h4

theorem issued_authorization {rq : AuthorizationRequest} {u : Str} {res : Response}
    (hc : AuthorizationCall e rq u res) {k : Kind}
    {t : HS256Token} {g : Grant} : Issued cfg h e k t g ↔ Hands e k t ∧ k = .access ∧ g = {
        client := rq.clientID, user := u, scope := rq.scope, expires := expiry cfg e 0 .access } := by
  constructor
  · intro hi
    refine ⟨hi.hands, ?_⟩
    cases hi with
    | implicit h1 h2 =>
      obtain ⟨rfl, rfl, rfl⟩ := authorizationCall_unique hc h1
      exact ⟨rfl, rfl⟩
    | password h1 h2 h3 => exact (not_both h1 hc).elim
    | client h1 h2 h3 => exact (not_both h1 hc).elim
    | exchange h1 h2 h3 h4 h5 => exact (not_both h1 hc).elim
    | refresh h1 h2 h3 h4 h5 h6 => exact (not_both h1 hc).elim
  · rintro ⟨h0, rfl, rfl⟩
    exact .implicit hc h0

theorem not_issued (h1 : a = none) (h2 : b = none) (o : Obs cfg e a b c red use rev) (k : Kind)
    (t : HS256Token) (g : Grant) : ¬ Issued cfg h e k t g := by
  subst h1; subst h2
  intro hi
  have := hi.hands
  cases k
  · rw [o.access] at this; cases this
  · rw [o.refresh] at this; cases this

theorem valid_same (hv : ∀ k t g, InForce cfg h k t g → t = HS256Token.fromKey cfg.secret t.key)
    (hi : ∀ k t g, ¬ Issued cfg h e k t g) :
    ∀ k t g, InForce cfg (e :: h) k t g → t = HS256Token.fromKey cfg.secret t.key := by
  intro k t g hf
  rcases inForce_cons.mp hf with hf | ⟨hf, _⟩
  · exact (hi _ _ _ hf).elim
  · exact hv k t g hf

theorem validCode_same (hv : ∀ c g b, Code cfg h c g b → c = HS256Token.fromKey cfg.secret c.key)
    (o : Obs cfg e a b none red use rev) :
    ∀ c g b, Code cfg (e :: h) c g b → c = HS256Token.fromKey cfg.secret c.key := by
  intro c g b hc
  rcases code_cons.mp hc with ⟨_, _, _, _, _, h1, _⟩ | ⟨_, h1, _⟩ | ⟨h1, _⟩
  · rw [o.code] at h1; cases h1
  · exact hv _ _ _ h1
  · exact hv _ _ _ h1

/-- Events that change nothing. -/
theorem Exact.same {s s' : Server} (ex : Exact cfg h s) (q : Quiet cfg e)
    (hrep : ∀ sig x, Replays cfg e sig → s.authorizationCodes.get? sig ≠ some x)
    (hhalf : ∀ t client cred, HalfRevokes cfg e t client →
      s.accessTokens.get? t.signatureString = some cred → cred.clientID ≠ client)
    (h1 : s'.config = s.config) (h2 : s'.accessTokens = s.accessTokens)
    (h3 : s'.refreshTokens = s.refreshTokens)
    (h4 : s'.authorizationCodes = s.authorizationCodes) : Exact cfg (e :: h) s' := by
  have hno : ∀ k t g, InForce cfg h k t g → ¬ (g.origin ≠ [] ∧ Replays cfg e g.origin) := by
    rintro k t g hi ⟨ho, hr⟩
    obtain ⟨x, hx⟩ := ex.origin k t g hi ho
    exact hrep _ x hr hx
  constructor
  · rw [h1]; exact ex.config
  · rw [h2]; exact ex.nodupA
  · rw [h3]; exact ex.nodupR
  · rw [h2]
    refine holds_step ex.access (fun _ _ => False) ?_ ?_
    · intro t g hi
      rw [ends_access q]
      simp only [reduceCtorEq, false_and, exists_false, false_or, hno _ _ _ hi, iff_false]
      intro hh
      exact hhalf t _ _ hh ((ex.access _ _).mpr ⟨t, g, rfl, hi, rfl⟩) rfl
    · intro sig cred
      simp only [not_issued rfl rfl q, false_and, and_false, exists_false, false_or, not_false_eq_true,
        and_true]
  · rw [h3]
    refine holds_step ex.refresh (fun _ _ => False) ?_ ?_
    · intro t g hi
      rw [ends_refresh q]
      simp only [reduceCtorEq, false_and, exists_false, false_or, hno _ _ _ hi, or_false]
    · intro sig cred
      simp only [not_issued rfl rfl q, false_and, and_false, exists_false, false_or, not_false_eq_true,
        and_true]
  · rw [h4]
    exact holdsCodes_same ex.codes q
  · intro k t g hi
    rw [h4]
    rcases inForce_cons.mp hi with hi | ⟨hi, _⟩
    · exact (not_issued rfl rfl q k t g hi).elim
    · exact ex.origin k t g hi
  · exact valid_same ex.valid (not_issued rfl rfl q)
  · exact validCode_same ex.validCode q

/-- Issuing both kinds of tokens. -/
theorem Exact.grant {s s' : Server} (ex : Exact cfg h s) {a : HS256Token} {b : Option HS256Token}
    (o : Obs cfg e (some a) b none red none none)
    (hrep : ∀ sig, ¬ Replays cfg e sig) (hhalf : ∀ t client, ¬ HalfRevokes cfg e t client)
    {g : Kind → Grant}
    (hiss : ∀ k t g', Issued cfg h e k t g' ↔ Hands e k t ∧ g' = g k)
    (h1 : s'.config = s.config)
    (h2 : s'.accessTokens = s.accessTokens.set a.signatureString (g .access).cred)
    (h3 : s'.refreshTokens = match b with
      | some t => s.refreshTokens.set t.signatureString (g .refresh).cred
      | none => s.refreshTokens)
    (h4 : HoldsCodes cfg (e :: h) s'.authorizationCodes)
    (h5 : ∀ sig x, s.authorizationCodes.get? sig = some x →
      ∃ x, s'.authorizationCodes.get? sig = some x)
    (ha : a = HS256Token.fromKey cfg.secret a.key)
    (hb : ∀ t, b = some t → t = HS256Token.fromKey cfg.secret t.key)
    (h6 : ∀ k, (g k).origin ≠ [] → ∃ x, s'.authorizationCodes.get? (g k).origin = some x) :
    Exact cfg (e :: h) s' := by
  constructor
  · rw [h1]; exact ex.config
  · rw [h2]; exact GoMap.nodup_set ex.nodupA _ _
  · rw [h3]
    cases b with
    | none => exact ex.nodupR
    | some b => exact GoMap.nodup_set ex.nodupR _ _
  · rw [h2]
    refine holds_step ex.access (fun sig _ => sig = a.signatureString) ?_ ?_
    · intro t g' hi
      rw [ends_access o]
      simp only [Option.some.injEq, exists_eq_left', reduceCtorEq, hrep, hhalf, and_false, or_false]
      exact eq_comm
    · intro sig cred
      rw [GoMap.get?_set]
      simp only [hiss, o.access, Option.some.injEq]
      by_cases hs : sig = a.signatureString
      · subst hs
        simp only [if_true, Option.some.injEq, not_true, and_false, or_false]
        constructor
        · rintro rfl; exact ⟨a, _, rfl, ⟨rfl, rfl⟩, rfl⟩
        · rintro ⟨t, g', _, ⟨rfl, rfl⟩, rfl⟩; rfl
      · simp only [if_neg hs, hs, not_false_eq_true, and_true]
        constructor
        · exact .inr
        · rintro (⟨t, g', rfl, ⟨rfl, _⟩, _⟩ | h)
          · exact absurd rfl hs
          · exact h
  · rw [h3]
    cases b with
    | none =>
      refine holds_step ex.refresh (fun _ _ => False) ?_ ?_
      · intro t g' hi
        rw [ends_refresh o]
        simp only [reduceCtorEq, hrep, hhalf, and_false, or_false, false_and, exists_false]
      · intro sig cred
        simp only [hiss, o.refresh, reduceCtorEq, false_and, and_false, exists_false, false_or,
          not_false_eq_true, and_true]
    | some b =>
      refine holds_step ex.refresh (fun sig _ => sig = b.signatureString) ?_ ?_
      · intro t g' hi
        rw [ends_refresh o]
        simp only [Option.some.injEq, exists_eq_left', reduceCtorEq, hrep, hhalf, and_false, or_false]
        exact eq_comm
      · intro sig cred
        simp only
        rw [GoMap.get?_set]
        simp only [hiss, o.refresh, Option.some.injEq]
        by_cases hs : sig = b.signatureString
        · subst hs
          simp only [if_true, Option.some.injEq, not_true, and_false, or_false]
          constructor
          · rintro rfl; exact ⟨b, _, rfl, ⟨rfl, rfl⟩, rfl⟩
          · rintro ⟨t, g', _, ⟨rfl, rfl⟩, rfl⟩; rfl
        · simp only [if_neg hs, hs, not_false_eq_true, and_true]
          constructor
          · exact .inr
          · rintro (⟨t, g', rfl, ⟨rfl, _⟩, _⟩ | h)
            · exact absurd rfl hs
            · exact h
  · exact h4
  · intro k t g' hi ho
    rcases inForce_cons.mp hi with hi | ⟨hi, _⟩
    · obtain ⟨_, rfl⟩ := (hiss k t g').mp hi
      exact h6 k ho
    · obtain ⟨x, hx⟩ := ex.origin k t g' hi ho
      exact h5 _ x hx
  · intro k t g' hi
    rcases inForce_cons.mp hi with hi | ⟨hi, _⟩
    · have := hi.hands
      cases k
      · rw [o.access] at this; cases this; exact ha
      · rw [o.refresh] at this; exact hb t this
    · exact ex.valid k t g' hi
  · exact validCode_same ex.validCode o

end

end OAuth2

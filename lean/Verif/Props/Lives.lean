import Verif.Spec.Lives
import Verif.Props.Store
import Verif.Props.Concurrent
import Verif.Lemmas.SuiteState
import Verif.Lemmas.RfcDemo

/-!
C91: restarts, several servers, and changes of the configuration.
-/

namespace OAuth2

open Spec

variable {s₀ s : Server} {h : List (ServerConfig × Event)}

/-! ### The maps over a life -/

theorem started_keysOnce (h0 : Started s₀) : KeysOnce s₀ := by
  unfold KeysOnce
  rw [h0.access, h0.refresh]
  exact ⟨List.nodup_nil, List.nodup_nil⟩

theorem life_keysOnce (hp : KeysOnce s₀) (hl : Life s₀ h s) : KeysOnce s := by
  induction hl with
  | start => exact hp
  | call c _ ih => exact (step_keysOnce ih c).1
  | reconfigure _ _ ih => exact ih

/-- Where an entry comes from. -/
theorem life_origin (hp : KeysOnce s₀) (hl : Life s₀ h s) {k : Kind} {sig : Str} {cred : ServerCredential}
    (hg : (tokens s k).get? sig = some cred) :
    (tokens s₀ k).get? sig = some cred ∨
      ∃ x ∈ h, ∃ t, Hands x.2 k t ∧ t.signatureString = sig ∧
        ∃ n, n ≤ 1 ∧ cred.expiresAt = expiry x.1 x.2 n k := by
  induction hl with
  | start => exact .inl hg
  | call c hl ih =>
    rcases (C73_tokens _ (life_keysOnce hp hl) c k sig cred).mp hg with ⟨t, h1, h2, h3, _⟩ | ⟨_, h1, _⟩
    · refine .inr ⟨_, List.mem_cons_self .., t, h1, h2, ?_⟩
      cases h3 with
      | implicit => exact ⟨0, by omega, rfl⟩
      | password => exact ⟨0, by omega, rfl⟩
      | client => exact ⟨0, by omega, rfl⟩
      | exchange => exact ⟨1, by omega, rfl⟩
      | refresh => exact ⟨1, by omega, rfl⟩
    · rcases ih h1 with h | ⟨x, h2, h3⟩
      · exact .inl h
      · exact .inr ⟨x, List.mem_cons_of_mem _ h2, h3⟩
  | reconfigure cfg _ ih => cases k <;> exact ih hg

/-- **C91.** Whoever is admitted, whatever was done to the configuration, presents a token that this
server has handed out, not longer ago than the lifespan that was configured then. -/
theorem C91_admitted (h0 : Started s₀) (hl : Life s₀ h s) {c : Call}
    (ha : (step ⟨false, s⟩ c).1 = .admitted) :
    ∃ required text t, Presents c required text ∧ SameToken s.config text t ∧
      ∃ x ∈ h, Hands x.2 .access t ∧
        ∃ n, n ≤ 1 ∧ c.clock 0 ≤ x.2.call.clock n + x.1.accessTokenLifespan := by
  obtain ⟨required, text, t, cred, h1, h2, h3, h4, _⟩ := (C73_admits_iff s c).mp ha
  rcases life_origin (k := .access) (started_keysOnce h0) hl h3 with h5 | ⟨x, h5, u, h6, h7, n, h8, h9⟩
  · have h5 : s₀.accessTokens.get? _ = _ := h5
    rw [h0.access] at h5
    cases h5
  · exact ⟨required, text, u, h1, ⟨t, h2, h7.symm⟩, x, h5, h6, n, h8, by rw [h9] at h4; exact h4⟩

/-- **C91.** A token stays as it is through all calls and changes of the configuration, until an event takes
it away that would do so with the configuration of its time. -/
theorem C91_kept (hp : KeysOnce s₀) (hl : Life s₀ h s) {k : Kind} {t : HS256Token}
    {cred : ServerCredential} (hg : (tokens s₀ k).get? t.signatureString = some cred)
    (hk : ∀ x ∈ h, ¬ Ends x.1 x.2 k t {
      client := cred.clientID, user := cred.username, scope := cred.scope,
      expires := cred.expiresAt, origin := cred.code }) :
    (tokens s k).get? t.signatureString = some cred := by
  induction hl with
  | start => exact hg
  | call c hl ih =>
    rename_i s'
    have hn := hk _ (List.mem_cons_self ..)
    have hi := ih (fun x hx => hk x (List.mem_cons_of_mem _ hx))
    have := C73_kept (life_keysOnce hp hl) (.next c (.start (s₀ := s'))) (k := k) (t := t) hi (by
      intro e he
      rw [List.mem_singleton.mp he]
      exact hn)
    exact this
  | reconfigure cfg _ ih => cases k <;> exact ih hk

/-! ### The secret -/

theorem parse_two {secret secret' text : Str} {t t' : HS256Token}
    (h : HS256Token.parse secret text = .ok t) (h' : HS256Token.parse secret' text = .ok t') :
    t' = t ∧ hmacSHA256 secret' t.key = hmacSHA256 secret t.key := by
  obtain ⟨a, b, h1, h2, h3, h4⟩ := (parse_ok_iff ..).mp h
  obtain ⟨a', b', h5, h6, h7, h8⟩ := (parse_ok_iff ..).mp h'
  rw [h1] at h5
  cases h5
  rw [h2] at h6
  rw [h3] at h7
  obtain ⟨k, x⟩ := t
  obtain ⟨k', x'⟩ := t'
  cases h6
  cases h7
  exact ⟨rfl, h8.symm.trans h4⟩

/-- **C91.** With another secret, access tokens made with the old one are not admitted: unless the two
secrets make the same HMAC of the key. -/
theorem C91_secret {c : Call} {required : Scope} {text : Str} {t : HS256Token} (cfg : ServerConfig)
    (hc : Presents c required text) (ht : HS256Token.parse s.config.secret text = .ok t)
    (ha : (step ⟨false, { s with config := cfg }⟩ c).1 = .admitted) :
    hmacSHA256 cfg.secret t.key = hmacSHA256 s.config.secret t.key := by
  obtain ⟨required', text', t', cred, h1, h2, _⟩ := (C73_admits_iff _ c).mp ha
  obtain rfl := presents_unique hc h1
  exact (parse_two ht h2).2

/-- **C91.** The same of refresh tokens and codes: they are worth nothing any more. -/
theorem C91_secret_grant {c : Call} {rq : TokenRequest} {t a : HS256Token} (cfg : ServerConfig)
    (hc : AsksToken c rq)
    (hg : rq.grantType = b!"refresh_token" ∧ HS256Token.parse s.config.secret rq.refreshToken = .ok t ∨
      rq.grantType = b!"authorization_code" ∧ HS256Token.parse s.config.secret rq.code = .ok t)
    (ha : Hands ⟨c, (step ⟨false, { s with config := cfg }⟩ c).1⟩ .access a) :
    hmacSHA256 cfg.secret t.key = hmacSHA256 s.config.secret t.key := by
  obtain ⟨_, hm, _⟩ := (C73_granted_iff _ hc).mp ⟨a, ha⟩
  rcases hg with ⟨h1, h2⟩ | ⟨h1, h2⟩
  · cases hm with
    | password h => rw [h1] at h; cases h
    | client h => rw [h1] at h; cases h
    | exchange h => rw [h1] at h; cases h
    | refresh _ h3 => exact (parse_two h2 h3).2
  · cases hm with
    | password h => rw [h1] at h; cases h
    | client h => rw [h1] at h; cases h
    | exchange _ h3 => exact (parse_two h2 h3).2
    | refresh h => rw [h1] at h; cases h

/-- **C91.** But they are not forgotten: when the old secret is put back, an access token that nothing has
taken away meanwhile is admitted again. -/
theorem C91_secret_back (hp : KeysOnce s₀) {cfg : ServerConfig} (hl : Life { s₀ with config := cfg } h s)
    {t : HS256Token} (hv : t = HS256Token.fromKey s₀.config.secret t.key) {cred : ServerCredential}
    (hg : s₀.accessTokens.get? t.signatureString = some cred)
    (hk : ∀ x ∈ h, ¬ Ends x.1 x.2 .access t {
      client := cred.clientID, user := cred.username, scope := cred.scope,
      expires := cred.expiresAt, origin := cred.code })
    {c : Call} {required : Scope} (hc : Presents c required t.string) :
    (step ⟨false, { s with config := s₀.config }⟩ c).1 = .admitted ↔
      c.clock 0 ≤ cred.expiresAt ∧ Within required cred.scope := by
  have hkept := C91_kept (k := .access) (s₀ := { s₀ with config := cfg }) hp hl hg hk
  have hp' : KeysOnce s := life_keysOnce (s₀ := { s₀ with config := cfg }) hp hl
  exact C73_seeded_admitted (s₀ := { s with config := s₀.config }) hp' .start hv hkept (by simp) hc

/-! ### The allowed scope -/

section
variable {P : Scope → Prop} {m : GoMap ServerCredential}

theorem scoped_set (hm : ∀ e ∈ m, P e.2.scope) (k : Str) {v : ServerCredential} (hv : P v.scope) :
    ∀ e ∈ m.set k v, P e.2.scope := by
  intro e he
  rcases List.mem_cons.1 he with rfl | he
  · exact hv
  · exact hm e (List.mem_filter.1 he).1

theorem scoped_del (hm : ∀ e ∈ m, P e.2.scope) (k : Str) : ∀ e ∈ m.del k, P e.2.scope :=
  fun e he => hm e (List.mem_filter.1 he).1

theorem scoped_used (hm : ∀ e ∈ m, P e.2.scope) (k : Str) :
    ∀ e ∈ m.update k (fun c => { c with used := true }), P e.2.scope := by
  intro e he
  obtain ⟨e', he', rfl⟩ := List.mem_map.1 he
  split <;> exact hm e' he'

end

/-- All entries have scopes like this. -/
structure Scoped (P : Scope → Prop) (s : Server) : Prop where
  access : ∀ e ∈ s.accessTokens, P e.2.scope
  refresh : ∀ e ∈ s.refreshTokens, P e.2.scope
  codes : ∀ e ∈ s.authorizationCodes, P e.2.scope

theorem Scoped.grant {P : Scope → Prop} (hs : Scoped P s) (a : HS256Token) (b : Option HS256Token) (t₁ t₂ : Time)
    {cred : ServerCredential} (hc : P cred.scope) : Scoped P (s.grant a b t₁ t₂ cred) := by
  refine ⟨scoped_set hs.access _ hc, ?_, hs.codes⟩
  cases b with
  | none => exact hs.refresh
  | some b => exact scoped_set hs.refresh _ hc

theorem step_scoped {P : Scope → Prop} (hP : ∀ a b, Within a b → P b → P a) (hs : Scoped P s)
    (hcfg : P s.config.allowedScope) (c : Call) : Scoped P (step ⟨false, s⟩ c).2.st := by
  cases hop : c.op with
  | authorize r required => rw [step_authorize hop]; exact hs
  | configure cl us => rw [step_configure hop]; exact ⟨hs.access, hs.refresh, hs.codes⟩
  | serve r =>
    rw [step_serve hop]
    have hserved := Server.served s r c.local
    show Scoped P (s.handle r c.local).2
    generalize (s.handle r c.local).1 = reply at hserved
    generalize (s.handle r c.local).2 = s' at hserved ⊢
    cases hserved with
    | notFound | refused | refusedRedirect | notice | crash | introspect => exact hs
    | implicit rq _ _ _ hsc => exact hs.grant _ _ _ _ (hP _ _ ((C07_includes ..).mp hsc) hcfg)
    | password rq _ _ hsc => exact hs.grant _ _ _ _ (hP _ _ ((C07_includes ..).mp hsc) hcfg)
    | client rq _ _ _ hsc => exact hs.grant _ _ _ _ (hP _ _ ((C07_includes ..).mp hsc) hcfg)
    | code rq _ _ _ hsc =>
      exact ⟨hs.access, hs.refresh, scoped_set hs.codes _ (hP _ _ ((C07_includes ..).mp hsc) hcfg)⟩
    | replay =>
      exact ⟨fun e he => hs.access e (Suite.Agree.mem_deleteByCode he), fun e he => hs.refresh e (Suite.Agree.mem_deleteByCode he), hs.codes⟩
    | exchange rq _ _ x _ stored hst _ _ _ _ a b =>
      have hx := hs.codes _ (GoMap.get?_some_mem hst)
      have hgr := hs.grant a (some b) (c.local.clock (c.local.tick + 1)) (c.local.clock (c.local.tick + 2))
        (cred := { clientID := rq.clientID, username := stored.username, scope := stored.scope,
                   code := x.signatureString }) hx
      exact ⟨hgr.access, hgr.refresh, scoped_used hs.codes _⟩
    | refresh rq _ _ t _ stored hst _ _ scope _ hsc a b =>
      have hx := hP _ _ ((C07_includes ..).mp hsc) (hs.refresh _ (GoMap.get?_some_mem hst))
      exact ⟨scoped_set hs.access _ hx, scoped_del (scoped_set hs.refresh _ hx) _, hs.codes⟩
    | revoke => exact ⟨scoped_del hs.access _, scoped_del hs.refresh _, hs.codes⟩
    | revokeHalf => exact ⟨scoped_del hs.access _, hs.refresh, hs.codes⟩

/-- **C91.** Whoever is admitted for a scope, this scope was allowed by the configuration of some call
before. -/
theorem C91_scope (h0 : Started s₀) (hl : Life s₀ h s) {c : Call} {r : Request} {required : Scope}
    (hc : c.op = .authorize r required) (ha : (step ⟨false, s⟩ c).1 = .admitted) :
    ∃ x ∈ h, Within required x.1.allowedScope := by
  have key : Scoped (fun sc => ∃ x ∈ h, Within sc x.1.allowedScope) s := by
    clear ha hc
    induction hl with
    | start =>
      constructor
      · rw [h0.access]; exact fun e he => nomatch he
      · rw [h0.refresh]; exact fun e he => nomatch he
      · rw [h0.codes]; exact fun e he => nomatch he
    | call c hl ih =>
      refine step_scoped (fun a b hab ⟨x, h1, h2⟩ => ⟨x, h1, fun i hi => h2 i (hab i hi)⟩) ?_
        ⟨_, List.mem_cons_self .., fun i hi => hi⟩ c
      constructor
      · exact fun e he => let ⟨x, h1, h2⟩ := ih.access e he; ⟨x, List.mem_cons_of_mem _ h1, h2⟩
      · exact fun e he => let ⟨x, h1, h2⟩ := ih.refresh e he; ⟨x, List.mem_cons_of_mem _ h1, h2⟩
      · exact fun e he => let ⟨x, h1, h2⟩ := ih.codes e he; ⟨x, List.mem_cons_of_mem _ h1, h2⟩
    | reconfigure cfg _ ih => exact ⟨ih.access, ih.refresh, ih.codes⟩
  obtain ⟨required', text, t, cred, ⟨r', h1, _⟩, _, h3, _, h5⟩ := (C73_admits_iff s c).mp ha
  rw [hc] at h1
  cases h1
  obtain ⟨x, h6, h7⟩ := key.access _ (GoMap.get?_some_mem h3)
  exact ⟨x, h6, fun i hi => h7 i (h5 i hi)⟩

/-- **C91.** Narrowing the allowed scope, on the other hand, takes nothing back: who is admitted, and which
codes and refresh tokens are worth new tokens, does not depend on it. -/
theorem C91_narrowed (s : Server) (allowed : Scope) :
    (∀ c : Call, (step ⟨false, { s with config := { s.config with allowedScope := allowed } }⟩ c).1 = .admitted ↔
      (step ⟨false, s⟩ c).1 = .admitted) ∧
    ∀ {c : Call} {rq : TokenRequest}, AsksToken c rq →
      rq.grantType = b!"refresh_token" ∨ rq.grantType = b!"authorization_code" →
      ((∃ a, Hands ⟨c, (step ⟨false, { s with config := { s.config with allowedScope := allowed } }⟩ c).1⟩
          .access a) ↔
        ∃ a, Hands ⟨c, (step ⟨false, s⟩ c).1⟩ .access a) := by
  refine ⟨fun c => ?_, fun {c rq} hc hg => ?_⟩
  · rw [C73_admits_iff, C73_admits_iff]
  · rw [C73_granted_iff _ hc, C73_granted_iff _ hc]
    have key : Merits { s with config := { s.config with allowedScope := allowed } } c rq ↔ Merits s c rq := by
      constructor <;> intro h <;> cases h with
      | password h => rcases hg with hg | hg <;> rw [hg] at h <;> cases h
      | client h => rcases hg with hg | hg <;> rw [hg] at h <;> cases h
      | exchange h1 h2 h3 h4 h5 h6 h7 => exact .exchange h1 h2 h3 h4 h5 h6 h7
      | refresh h1 h2 h3 h4 h5 h6 => exact .refresh h1 h2 h3 h4 h5 h6
    rw [key]
    exact Iff.rfl

/-! ### Restarts and several servers -/

theorem granted_of_used {c : Call} {t : HS256Token}
    (h : UsesUp s.config ⟨c, (step ⟨false, s⟩ c).1⟩ t ∨ Redeems s.config ⟨c, (step ⟨false, s⟩ c).1⟩ t) :
    ∃ a, Hands ⟨c, (step ⟨false, s⟩ c).1⟩ .access a := by
  have hev := evolves s c
  generalize (⟨c, (step ⟨false, s⟩ c).1⟩ : Event) = e at hev h ⊢
  generalize (step ⟨false, s⟩ c).2.st = s' at hev
  have hno : ∀ {a b x rev}, Obs s.config e a b x none none rev → False := by
    intro a b x rev o
    rcases h with h | h
    · cases (o.usesUp t).mp h
    · cases (o.redeems t).mp h
  cases hev with
  | same q => exact (hno q).elim
  | code _ o => exact (hno o).elim
  | grant o => exact ⟨_, (o.access _).mpr rfl⟩
  | replay q => exact (hno q).elim
  | revoke o => exact (hno o).elim
  | half q => exact (hno q).elim

/-- What a server honours is in its maps. -/
theorem honoured_stored {c : Call} {t : HS256Token} (hh : Honours s c t) :
    (∃ k cred, (tokens s k).get? t.signatureString = some cred) ∨
      ∃ cred, s.authorizationCodes.get? t.signatureString = some cred := by
  rcases hh with ⟨required, text, h1, ⟨t', h2, h3⟩, h4⟩ | h | h
  · obtain ⟨_, text', t'', cred, h5, h6, h7, _⟩ := (C73_admits_iff s c).mp h4
    obtain rfl := presents_unique h1 h5
    rw [h2] at h6
    cases h6
    exact .inl ⟨.access, cred, by rw [← h3]; exact h7⟩
  · obtain ⟨a, ha⟩ := granted_of_used (.inl h)
    obtain ⟨rq, res, v, ⟨r, h1, h2, h3, _⟩, h4, ⟨t', h5, h6⟩, _⟩ := h
    obtain ⟨_, hm, _⟩ := (C73_granted_iff s ⟨r, h1, h2, h3⟩).mp ⟨a, ha⟩
    cases hm with
    | password h => rw [h4] at h; cases h
    | client h => rw [h4] at h; cases h
    | exchange h => rw [h4] at h; cases h
    | refresh _ h7 h8 =>
      rw [h5] at h7
      cases h7
      exact .inl ⟨.refresh, _, by rw [← h6]; exact h8⟩
  · obtain ⟨a, ha⟩ := granted_of_used (.inr h)
    obtain ⟨rq, res, v, ⟨r, h1, h2, h3, _⟩, h4, ⟨t', h5, h6⟩, _⟩ := h
    obtain ⟨_, hm, _⟩ := (C73_granted_iff s ⟨r, h1, h2, h3⟩).mp ⟨a, ha⟩
    cases hm with
    | password h => rw [h4] at h; cases h
    | client h => rw [h4] at h; cases h
    | refresh h => rw [h4] at h; cases h
    | exchange _ h7 h8 =>
      rw [h5] at h7
      cases h7
      exact .inr ⟨_, by rw [← h6]; exact h8⟩

theorem life_code_origin (hl : Life s₀ h s) {sig : Str} {cred : ServerCredential}
    (hg : s.authorizationCodes.get? sig = some cred) :
    (∃ cred', s₀.authorizationCodes.get? sig = some cred') ∨
      ∃ x ∈ h, ∃ t, HandsCode x.2 t ∧ t.signatureString = sig := by
  induction hl generalizing cred with
  | start => exact .inl ⟨_, hg⟩
  | call c hl ih =>
    rcases (C73_codes _ c sig cred).mp hg with ⟨t, _, _, _, h1, h2, _⟩ | ⟨_, old, h1, _⟩
    · exact .inr ⟨_, List.mem_cons_self .., t, h1, h2⟩
    · rcases ih h1 with h | ⟨x, h2, h3⟩
      · exact .inl h
      · exact .inr ⟨x, List.mem_cons_of_mem _ h2, h3⟩
  | reconfigure cfg _ ih => exact ih hg

/-- **C91.** A server honours only what it has handed out itself, to the letter of the signature, since
it was started. -/
theorem C91_own (h0 : Started s₀) (hl : Life s₀ h s) {c : Call} {t : HS256Token} (hh : Honours s c t) :
    ∃ x ∈ h, ∃ t', Gives x.2 t' ∧ t'.signatureString = t.signatureString := by
  rcases honoured_stored hh with ⟨k, cred, hg⟩ | ⟨cred, hg⟩
  · rcases life_origin (started_keysOnce h0) hl hg with h | ⟨x, h1, t', h2, h3, _⟩
    · cases k
      · have h : s₀.accessTokens.get? _ = _ := h
        rw [h0.access] at h
        cases h
      · have h : s₀.refreshTokens.get? _ = _ := h
        rw [h0.refresh] at h
        cases h
    · exact ⟨x, h1, t', .inl ⟨k, h2⟩, h3⟩
  · rcases life_code_origin hl hg with ⟨_, h⟩ | ⟨x, h1, t', h2, h3⟩
    · rw [h0.codes] at h
      cases h
    · exact ⟨x, h1, t', .inr h2, h3⟩

/-- **C91.** Hence, when a server goes down, at whatever point of whatever calls, everything that it has
handed out is worth nothing to the one that is started in its place (or that runs beside it), even with the
same secret, clients and users: until that one hands out the same by itself. -/
theorem C91_restart {down : Server} {tr : List Act} {w : World} {i : Nat} {e : Event} {t : HS256Token}
    (_ : Run down tr w) (_ : Observed tr i e) (_ : Gives e t)
    (h0 : Started s₀) (hl : Life s₀ h s)
    (hn : ∀ x ∈ h, ∀ t', Gives x.2 t' → t'.signatureString ≠ t.signatureString) (c : Call) :
    ¬ Honours s c t := by
  intro hh
  obtain ⟨x, h1, t', h2, h3⟩ := C91_own h0 hl hh
  exact hn x h1 t' h2 h3

/-! ### Copies of the maps -/

theorem history_append {s₁ : Server} {h₁ h₂ : List Event} {s₂ : Shared Server}
    (hh : History s₀ h₁ ⟨false, s₁⟩) (hh' : History s₁ h₂ s₂) : History s₀ (h₂ ++ h₁) s₂ := by
  induction hh' with
  | start => exact hh
  | next c _ ih => exact .next c ih

/-- **C91.** A copy of the server that is taken while the mutex is free (or held by who copies), at any
point of any concurrent calls, goes on where the calls so far have led: it behaves as if these, with all
that were answered, had been made on it one after the other. -/
theorem C91_copy {tr : List Act} {w : World} (hr : Run s₀ tr w) (hf : w.shared.locked = false) :
    ∃ order, Linearizes s₀ tr order ⟨false, w.shared.st⟩ ∧
      ∀ {h' : List Event} {s' : Shared Server}, History w.shared.st h' s' →
        History s₀ (h' ++ order.map (·.2)) s' := by
  obtain ⟨order, s, hlin, heq⟩ := C47_linearizable hr
  have : s = ⟨false, w.shared.st⟩ := by
    rw [← heq hf]
    obtain ⟨⟨l, st⟩, _⟩ := w
    cases hf
    rfl
  subst this
  exact ⟨order, hlin, fun hh => history_append hlin.history hh⟩

/-! ### A copy in the middle of a call -/

namespace Demo

/-- Whether a choice makes no new call. -/
def Choice.quiet : Choice → Bool
  | .invoke .. => false
  | _ => true

theorem choose_continues {w w' : World} {act : Act} {c : Choice} (hq : c.quiet = true)
    (h : choose w c = some (act, w')) : act.continues := by
  cases choose_next h with
  | invoke i c' hi =>
    cases c with
    | invoke => cases hq
    | step j =>
      simp only [choose] at h
      split at h
      · cases h
      · split at h
        · cases h
        · cases h
    | answer j =>
      simp only [choose] at h
      split at h
      · cases h
      · split at h
        · cases h
        · cases h
  | step => trivial
  | answer => trivial

theorem follow_proceeds {w₀ w : World} {tr : List Act} (cs : List Choice) (hq : cs.all (·.quiet) = true)
    (h : Proceeds w₀ tr w) : Proceeds w₀ (follow w tr cs).1 (follow w tr cs).2 := by
  induction cs generalizing tr w with
  | nil => exact h
  | cons c cs ih =>
    obtain ⟨h1, h2⟩ := Bool.and_eq_true_iff.mp hq
    simp only [follow]
    split
    · rename_i hc; exact ih h2 (.next h (choose_continues h1 hc) (choose_next hc))
    · exact ih h2 h

theorem presents {token : Str} (ht : token ≠ []) (required : Scope) (time : Int) :
    Presents (present token required time) required token :=
  ⟨_, rfl, demo_bearer ht⟩

theorem honoured {s : Server} {t : HS256Token} {required : Scope} {time : Int} (ht : t.string ≠ [])
    (hs : SameToken s.config t.string t)
    (ha : (step ⟨false, s⟩ (present t.string required time)).1 = .admitted) :
    Honours s (present t.string required time) t :=
  .inl ⟨required, t.string, presents ht required time, hs, ha⟩

/-- Redeeming the code `x2`. -/
def redeem (coins : Str) : Call := post b!"/token" b!"c1:s1"
  (b!"grant_type=authorization_code&redirect_uri=http%3A%2F%2Fexample.com%2Fcb&code=" ++ x2.string) coins 1

/-- A code is requested; then it is redeemed, but only the first 14 steps of that call are made. -/
def torn : List Act × World := follow (world server) [] (
  [.invoke 0 (post b!"/authorize" []
    (b!"response_type=code&client_id=c1&username=u1&password=p1" ++
      b!"&redirect_uri=http%3A%2F%2Fexample.com%2Fcb") [5, 6] 0)] ++
  List.replicate 40 (.step 0) ++ [.answer 0, .invoke 1 (redeem [11, 12, 13, 14])] ++
  List.replicate 14 (.step 1))

/-- The rest of that call. -/
def mended : List Act × World := follow torn.2 [] (List.replicate 20 (.step 1) ++ [.answer 1])

end Demo

/-- **C91.** But a copy that is taken while a call holds the mutex may have half of it: here a code is
redeemed, and the copy has the tokens, but does not know that the code is used. It redeems the code once
more, and honours both access tokens. -/
theorem C91_torn : ∃ s₀ tr w, Started s₀ ∧ Run s₀ tr w ∧ ∃ acts w' i e x a, Proceeds w acts w' ∧
    Observed (acts ++ tr) i e ∧ Redeems s₀.config e x ∧ Hands e .access a ∧
    ∃ c a', Redeems s₀.config ⟨c, (step ⟨false, w.shared.st⟩ c).1⟩ x ∧
      Hands ⟨c, (step ⟨false, w.shared.st⟩ c).1⟩ .access a' ∧ a' ≠ a ∧
      ∃ c₁ c₂, Honours (step ⟨false, w.shared.st⟩ c).2.st c₁ a ∧
        Honours (step ⟨false, w.shared.st⟩ c).2.st c₂ a' := by
  have hev : ∃ x ∈ Demo.events (Demo.mended.1 ++ Demo.torn.1), x.1 = 1 ∧
      Redeems Demo.server.config x.2 Demo.x2 ∧ Hands x.2 .access Demo.a4 := by decide +kernel
  obtain ⟨⟨i, e⟩, h1, _, h3, h4⟩ := hev
  refine ⟨_, _, _, Demo.started, Demo.follow_run _ .start, _, _, i, e, _, _,
    Demo.follow_proceeds _ (by decide +kernel) .refl, Demo.mem_events.mp h1, h3, h4,
    Demo.redeem [21, 22, 23, 24], Demo.a8, by decide +kernel, by decide +kernel, by decide +kernel, _, _,
    Demo.honoured (required := none) (time := 10) (by decide +kernel) (by decide +kernel) (by decide +kernel),
    Demo.honoured (required := none) (time := 10) (by decide +kernel) (by decide +kernel) (by decide +kernel)⟩

/-! ### Examples -/

namespace Demo

/-- What happens to a server: a call, or a new configuration. -/
inductive Move where
  | call (c : Call)
  | reconfigure (cfg : ServerConfig)

/-- The life with these moves. -/
def live (s : Server) (h : List (ServerConfig × Event)) : List Move → List (ServerConfig × Event) × Server
  | [] => (h, s)
  | .call c :: ms => live (step ⟨false, s⟩ c).2.st ((s.config, ⟨c, (step ⟨false, s⟩ c).1⟩) :: h) ms
  | .reconfigure cfg :: ms => live { s with config := cfg } h ms

theorem live_life {s₀ s : Server} {h : List (ServerConfig × Event)} (ms : List Move) (hl : Life s₀ h s) :
    Life s₀ (live s h ms).1 (live s h ms).2 := by
  induction ms generalizing s h with
  | nil => exact hl
  | cons m ms ih =>
    cases m with
    | call c => exact ih (.call c hl)
    | reconfigure cfg => exact ih (.reconfigure cfg hl)

/-- Everything else as it was, with an empty allowed scope and shorter lives. -/
def narrow : ServerConfig := { server.config with allowedScope := none, accessTokenLifespan := 60 * second }

/-- Everything else as it was, with another secret. -/
def rotated : ServerConfig := { server.config with secret := b!"other" }

/-- Everything else as it was, with a longer secret that makes the same signatures: HMAC fills the key up
with zeros. -/
def padded : ServerConfig := { server.config with secret := b!"key" ++ [0] }

/-- The first call of the session hands out `a1` and `r1` for `foo`; then scopes are narrowed. -/
def narrowed : List (ServerConfig × Event) × Server :=
  live server [] [.call Demo.c1, .reconfigure narrow]

/-- Using the refresh token. -/
def again : Call := post b!"/token" b!"c1:s1" (b!"grant_type=refresh_token&refresh_token=" ++ r1.string)
  [11, 12, 13, 14] 1010

end Demo

/-- Non-vacuity of `C91_admitted`, `C91_scope` and `C91_own`: after the narrowing, `a1` is still admitted for
`foo`, which is no longer allowed, at a time at which it would be expired with the new lifespan. -/
example : Started Demo.server ∧ Life Demo.server Demo.narrowed.1 Demo.narrowed.2 ∧
    (step ⟨false, Demo.narrowed.2⟩ (Demo.present Demo.a1.string (some [b!"foo"]) 2000)).1 = .admitted ∧
    Honours Demo.narrowed.2 (Demo.present Demo.a1.string (some [b!"foo"]) 2000) Demo.a1 ∧
    ¬ Within (some [b!"foo"]) Demo.narrowed.2.config.allowedScope :=
  ⟨Demo.started, Demo.live_life _ .start, by decide +kernel,
    Demo.honoured (by decide +kernel) (by decide +kernel) (by decide +kernel), by decide +kernel⟩

/-- Non-vacuity of `C91_narrowed`: the refresh token is still worth an access token, which is admitted for
`foo`. -/
example : (∃ rq, AsksToken Demo.again rq ∧ rq.grantType = b!"refresh_token") ∧
    Hands ⟨Demo.again, (step ⟨false, Demo.narrowed.2⟩ Demo.again).1⟩ .access Demo.a4 ∧
    Honours (step ⟨false, Demo.narrowed.2⟩ Demo.again).2.st
      (Demo.present Demo.a4.string (some [b!"foo"]) 1020) Demo.a4 := by
  refine ⟨?_, by decide +kernel,
    Demo.honoured (by decide +kernel) (by decide +kernel) (by decide +kernel)⟩
  have h : (asksToken Demo.again).map (·.grantType) = some b!"refresh_token" := by decide +kernel
  obtain ⟨rq, h1, h2⟩ := Option.map_eq_some_iff.mp h
  exact ⟨rq, (asksToken_iff ..).mpr h1, h2⟩

/-- Non-vacuity of `C91_secret` and `C91_secret_grant`: with the longer secret that makes the same
signatures, `a1` is admitted and `r1` is worth an access token. -/
example : Presents (Demo.present Demo.a1.string none 1100) none Demo.a1.string ∧
    HS256Token.parse Demo.s1.config.secret Demo.a1.string = .ok Demo.a1 ∧
    (step ⟨false, { Demo.s1 with config := Demo.padded }⟩ (Demo.present Demo.a1.string none 1100)).1 =
      .admitted ∧
    Demo.padded.secret ≠ Demo.s1.config.secret ∧
    (∃ rq, AsksToken Demo.again rq ∧ rq.grantType = b!"refresh_token" ∧
      HS256Token.parse Demo.s1.config.secret rq.refreshToken = .ok Demo.r1) ∧
    Hands ⟨Demo.again, (step ⟨false, { Demo.s1 with config := Demo.padded }⟩ Demo.again).1⟩
      .access Demo.a4 := by
  refine ⟨Demo.presents (by decide +kernel) _ _, by decide +kernel, by decide +kernel, by decide +kernel, ?_,
    by decide +kernel⟩
  have h : (asksToken Demo.again).map (fun rq => (rq.grantType, rq.refreshToken)) =
      some (b!"refresh_token", Demo.r1.string) := by decide +kernel
  obtain ⟨rq, h1, h2⟩ := Option.map_eq_some_iff.mp h
  obtain ⟨h2, h3⟩ := Prod.mk.inj h2
  exact ⟨rq, (asksToken_iff ..).mpr h1, h2, by rw [h3]; decide +kernel⟩

/-- Non-vacuity of `C91_kept` and `C91_secret_back`: while the secret is another one, `a1` is refused; when
the old one is back, it is admitted. -/
example : KeysOnce Demo.s1 ∧
    (let x := Demo.live { Demo.s1 with config := Demo.rotated } [] [.call (Demo.present Demo.a1.string none 1050)]
     Life { Demo.s1 with config := Demo.rotated } x.1 x.2 ∧
     (∀ e ∈ x.1, e.2.answer ≠ .admitted) ∧
     ∃ cred, Demo.s1.accessTokens.get? Demo.a1.signatureString = some cred ∧
      (∀ e ∈ x.1, ¬ Ends e.1 e.2 .access Demo.a1 {
        client := cred.clientID, user := cred.username, scope := cred.scope,
        expires := cred.expiresAt, origin := cred.code }) ∧
      (step ⟨false, { x.2 with config := Demo.s1.config }⟩ (Demo.present Demo.a1.string none 1100)).1 =
        .admitted) := by
  refine ⟨by decide +kernel, Demo.live_life _ .start, by decide +kernel, {
    clientID := b!"c1", username := b!"u1", scope := some [b!"foo"], expiresAt := 4600 * second }, by decide +kernel,
    ?_, by decide +kernel⟩
  intro e he
  rw [List.mem_singleton.mp he]
  refine not_ends (by decide +kernel) (by decide +kernel) (fun h => h.1 rfl) ?_
  rintro ⟨rq, res, h, _⟩
  rw [revocationCall_asked] at h
  exact absurd h.1 (by rw [(by decide +kernel : asksRevocation _ = none)]; simp)

/-- Non-vacuity of `C91_restart`: the run of two calls that use the same refresh token, and the server
started again, on which the refresh token is tried. -/
example : ∃ i e t, Run Demo.server Demo.redeemTwice.1 Demo.redeemTwice.2 ∧
    Observed Demo.redeemTwice.1 i e ∧ Gives e t ∧
    (let x := Demo.live Demo.server [] [.call (Demo.redeem [21, 22, 23, 24])]
     Life Demo.server x.1 x.2 ∧
      ∀ y ∈ x.1, ∀ t', Gives y.2 t' → t'.signatureString ≠ t.signatureString) := by
  have hev : ∃ x ∈ Demo.events Demo.redeemTwice.1, HandsCode x.2 Demo.x2 := by decide +kernel
  obtain ⟨⟨i, e⟩, h1, h2⟩ := hev
  refine ⟨i, e, _, Demo.redeemTwice_run, Demo.mem_events.mp h1, .inr h2, Demo.live_life _ .start, ?_⟩
  intro y hy t' hg
  rw [List.mem_singleton.mp hy] at hg
  rcases hg with ⟨k, hg⟩ | hg
  · cases k
    · exact absurd hg (hands_none (by decide +kernel))
    · exact absurd hg (hands_none (by decide +kernel))
  · exact absurd hg (handsCode_none (by decide +kernel))

/-- Non-vacuity of `C91_copy`: after that run the mutex is free. -/
example : Run Demo.server Demo.redeemTwice.1 Demo.redeemTwice.2 ∧
    Demo.redeemTwice.2.shared.locked = false :=
  ⟨Demo.redeemTwice_run, by decide +kernel⟩

/-- A copy also brings back what was revoked after it was taken: here `a1` is revoked by the call `c6` and no
longer admitted, but the copy that was taken before admits it. -/
example : (step ⟨false, Demo.s6⟩ (Demo.present Demo.a1.string none 1100)).1 ≠ .admitted ∧
    History Demo.s5 [Demo.e6] ⟨false, Demo.s6⟩ ∧
    (step ⟨false, Demo.s5⟩ (Demo.present Demo.a1.string none 1100)).1 = .admitted := by
  refine ⟨by decide +kernel, ?_, by decide +kernel⟩
  have h := History.next Demo.c6 (History.start (s₀ := Demo.s5))
  rw [Demo.step6] at h
  exact h

end OAuth2

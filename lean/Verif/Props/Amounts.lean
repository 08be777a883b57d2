import Verif.Spec.Amounts
import Verif.Lemmas.Shape
import Verif.Lemmas.Demo
import Verif.Lemmas.Exact
import Verif.Lemmas.Replies
import Verif.Props.Scopes

/-!
C99: how much the server stores.
-/

namespace OAuth2

open Spec

variable {s : Server} {c : Call}

/-! ### Maps -/

theorem del_length {α : Type} (m : GoMap α) (k : Str) : (m.del k).length ≤ m.length :=
  List.length_filter_le _ _

theorem set_length {α : Type} (m : GoMap α) (k : Str) (v : α) : (m.set k v).length ≤ m.length + 1 :=
  Nat.succ_le_succ (del_length m k)

theorem set_ne_nil {α : Type} (m : GoMap α) (k : Str) (v : α) : 0 < (m.set k v).length :=
  Nat.succ_pos _

theorem del_fresh {α : Type} {m : GoMap α} {k : Str} (h : m.get? k = none) : m.del k = m := by
  unfold GoMap.del
  rw [List.filter_eq_self]
  intro e he
  induction m with
  | nil => cases he
  | cons x m ih =>
    obtain ⟨k', v⟩ := x
    unfold GoMap.get? at h
    split at h
    · cases h
    · next hk =>
      cases he with
      | head => simpa using hk
      | tail _ he => exact ih h he

theorem set_fresh {α : Type} {m : GoMap α} {k : Str} (h : m.get? k = none) (v : α) :
    (m.set k v).length = m.length + 1 := by
  unfold GoMap.set
  rw [del_fresh h]
  rfl

theorem del_present {α : Type} {m : GoMap α} {k : Str} {v : α} (h : m.get? k = some v) :
    (m.del k).length + 1 ≤ m.length := by
  induction m with
  | nil => cases h
  | cons x m ih =>
    obtain ⟨k', v'⟩ := x
    unfold GoMap.get? at h
    unfold GoMap.del
    rw [List.filter_cons]
    split at h
    · next hk =>
      simp only [hk, decide_true, Bool.not_true, Bool.false_eq_true, if_false]
      have := del_length m k
      unfold GoMap.del at this
      simp only [List.length_cons]
      omega
    · next hk =>
      have := ih h
      unfold GoMap.del at this
      simp only [hk, decide_false, Bool.not_false, if_true, List.length_cons]
      omega

theorem deleteByCode_length (m : GoMap ServerCredential) (code : Str) :
    (Server.deleteByCode m code).length ≤ m.length := by
  unfold Server.deleteByCode
  suffices ∀ (l acc : GoMap ServerCredential), acc.length ≤ m.length →
      (l.foldl (fun acc e => if e.2.code = code then acc.del e.1 else acc) acc).length ≤ m.length from
    this m m (Nat.le_refl _)
  intro l
  induction l with
  | nil => intro acc h; exact h
  | cons e l ih =>
    intro acc h
    refine ih _ ?_
    show (if e.2.code = code then acc.del e.1 else acc).length ≤ m.length
    split
    · exact Nat.le_trans (del_length _ _) h
    · exact h

theorem update_length {α : Type} (m : GoMap α) (k : Str) (f : α → α) :
    (m.update k f).length = m.length := List.length_map ..

/-- Replacing a key by another does not make the map longer. -/
theorem rotate_length {α : Type} {m : GoMap α} {old new : Str} {v : α} (h : m.get? old = some v)
    (x : α) : ((m.set new x).del old).length ≤ m.length := by
  by_cases hk : new = old
  · have h1 : (m.set new x).get? old = some x := by
      rw [hk]
      exact if_pos rfl
    have := del_present h1
    have := set_length m new x
    omega
  · have h1 : ∃ y, (m.set new x).get? old = some y := by
      refine ⟨v, ?_⟩
      rw [GoMap.get?_set, if_neg (Ne.symm hk)]
      exact h
    obtain ⟨y, h1⟩ := h1
    have := del_present h1
    have := set_length m new x
    omega

theorem set_keeps {α : Type} {m : GoMap α} (hn : m.keys.Nodup) (k : Str) (v : α) :
    m.length ≤ (m.set k v).length := by
  suffices m.length ≤ (m.del k).length + 1 from this
  induction m with
  | nil => exact Nat.zero_le _
  | cons x m ih =>
    obtain ⟨k', v'⟩ := x
    have hn' := List.nodup_cons.mp hn
    unfold GoMap.del
    rw [List.filter_cons]
    by_cases hk : k' = k
    · have := del_fresh ((GoMap.get?_eq_none_iff m k).mpr (by rw [← hk]; exact hn'.1))
      unfold GoMap.del at this
      simp only [hk, decide_true, Bool.not_true, Bool.false_eq_true, if_false, this, List.length_cons,
        Nat.le_refl]
    · have := ih hn'.2
      unfold GoMap.del at this
      simp only [hk, decide_false, Bool.not_false, if_true, List.length_cons]
      omega

theorem rotate_keeps {α : Type} {m : GoMap α} (hn : m.keys.Nodup) (old new : Str) (x : α) :
    m.length ≤ ((m.set new x).del old).length + 1 ∧
    (m.get? new = none → m.length ≤ ((m.set new x).del old).length) := by
  have h1 := set_keeps (GoMap.nodup_set hn new x) old x
  have h2 := set_keeps hn new x
  have e : ((m.set new x).set old x).length = ((m.set new x).del old).length + 1 := rfl
  exact ⟨by omega, fun h => by have := set_fresh h x; omega⟩

/-! ### One call -/

/-- What a call can do to the maps. -/
inductive Resizes (s : Server) (c : Call) (x : Answer) (s' : Server) : Prop
  | same : s'.accessTokens = s.accessTokens → s'.refreshTokens = s.refreshTokens →
      s'.authorizationCodes = s.authorizationCodes → Resizes s c x s'
  | implicit (k : Str) (v : ServerCredential) (client user : Str) (scope : Scope) :
      Consent s c client user scope → Successful ⟨c, x⟩ = true →
      s'.accessTokens = s.accessTokens.set k v → s'.refreshTokens = s.refreshTokens →
      s'.authorizationCodes = s.authorizationCodes → Resizes s c x s'
  | code (k : Str) (v : ServerCredential) (client user : Str) (scope : Scope) :
      Consent s c client user scope → Successful ⟨c, x⟩ = true →
      s'.accessTokens = s.accessTokens → s'.refreshTokens = s.refreshTokens →
      s'.authorizationCodes = s.authorizationCodes.set k v → Resizes s c x s'
  | grant (k k' : Str) (v v' : ServerCredential) (client user : Str) (scope : Scope) :
      Consent s c client user scope → Successful ⟨c, x⟩ = true →
      s'.accessTokens = s.accessTokens.set k v → s'.refreshTokens = s.refreshTokens.set k' v' →
      s'.authorizationCodes = s.authorizationCodes → Resizes s c x s'
  | exchange (rq : TokenRequest) (t : HS256Token) (stored : ServerCredential) (k k' j : Str)
      (v v' : ServerCredential) (f : ServerCredential → ServerCredential) :
      AsksToken c rq → rq.grantType = b!"authorization_code" →
      HS256Token.parse s.config.secret rq.code = .ok t →
      s.authorizationCodes.get? t.signatureString = some stored → stored.used = false →
      Successful ⟨c, x⟩ = true →
      s'.accessTokens = s.accessTokens.set k v → s'.refreshTokens = s.refreshTokens.set k' v' →
      s'.authorizationCodes = s.authorizationCodes.update j f → Resizes s c x s'
  | refresh (rq : TokenRequest) (t : HS256Token) (stored : ServerCredential) (k k' : Str)
      (v v' : ServerCredential) (hk : k = firstDrawn s c ∧ k' = secondDrawn s c) :
      AsksToken c rq → rq.grantType = b!"refresh_token" →
      HS256Token.parse s.config.secret rq.refreshToken = .ok t →
      s.refreshTokens.get? t.signatureString = some stored →
      Successful ⟨c, x⟩ = true →
      s'.accessTokens = s.accessTokens.set k v →
      s'.refreshTokens = (s.refreshTokens.set k' v').del t.signatureString →
      s'.authorizationCodes = s.authorizationCodes → Resizes s c x s'
  | fewer : ((∃ rq, AsksRevocation c rq) ∨
        ∃ rq t stored, AsksToken c rq ∧ rq.grantType = b!"authorization_code" ∧
          HS256Token.parse s.config.secret rq.code = .ok t ∧
          s.authorizationCodes.get? t.signatureString = some stored ∧ stored.used = true) →
      s'.accessTokens.length ≤ s.accessTokens.length → s'.refreshTokens.length ≤ s.refreshTokens.length →
      s'.authorizationCodes = s.authorizationCodes →
      (s.accessTokens.keys.Nodup → s'.accessTokens.keys.Nodup) →
      (s.refreshTokens.keys.Nodup → s'.refreshTokens.keys.Nodup) → Resizes s c x s'

/-- The two tokens of a grant are made from the first bytes of the source of randomness. -/
theorem drawn_signatures {s : Server} {c : Call} {a b : HS256Token}
    (hg : Server.mint s.config true c.local.coins = some (a, some b)) :
    a.signatureString = firstDrawn s c ∧ b.signatureString = secondDrawn s c := by
  unfold Server.mint Server.gen at hg
  have e : c.local.coins = c.coins := rfl
  rw [e] at hg
  split at hg
  · cases hg
  · next a' coins h =>
    split at h
    · cases h
    · cases h
      simp only [if_true] at hg
      split at hg
      · cases hg
      · next b' _ h =>
        split at h
        · cases h
        · cases h
          cases hg
          exact ⟨rfl, rfl⟩

/-- Every call does one of these. -/
theorem resizes (s : Server) (c : Call) :
    ∃ s', (step ⟨false, s⟩ c).2 = ⟨false, s'⟩ ∧ Resizes s c (step ⟨false, s⟩ c).1 s' := by
  cases hop : c.op with
  | configure clients users =>
    refine ⟨{ s with clients := clients, users := users }, ?_, .same rfl rfl rfl⟩
    unfold step
    rw [hop]
  | authorize r required =>
    rw [step_authorize hop]
    exact ⟨s, rfl, .same rfl rfl rfl⟩
  | serve r =>
    obtain ⟨reply, s', he, hv, _⟩ := step_served hop s
    rw [he]
    refine ⟨s', rfl, ?_⟩
    have h303 : ∀ {rq : AuthorizationRequest}, Server.AuthorizationFor s r rq → ∀ params f,
        Successful ⟨c, .answered (redirectTo {} rq.redirectURI params f).result⟩ = true := by
      intro rq hf params f
      obtain ⟨_, u, hu⟩ := authorizationRequest_uri hf.parsed
      obtain ⟨L, hL⟩ := redirectLocation_isSome hu params f
      unfold Successful
      simp only [(redirectTo_result (h := []) rfl hL).2.2]
      rfl
    have h200 : ∀ {t : TokenResponse}, t.redirectURI = [] →
        Successful ⟨c, (Reply.token t).answer⟩ = true := by
      intro t ht
      show Successful ⟨c, .answered ((Reply.token t).render {}).result⟩ = true
      rw [token_result ht]
      rfl
    have hask : ∀ {rq : TokenRequest}, Server.TokenRequestFor s r rq → AsksToken c rq := fun hf =>
      ⟨r, hop, (lastSegment_iff _ _).mpr hf.path, hf.parsed⟩
    have hauth : ∀ {rq : AuthorizationRequest}, Server.AuthorizationFor s r rq → r.method ≠ b!"GET" →
        Password s (Server.formUser r) (Server.formPassword r) →
        Consent s c rq.clientID (Server.formUser r) rq.scope := by
      intro rq hf hm hu
      obtain ⟨cl, hc1, hc2⟩ := hf.client
      exact .authorization ⟨r, hop, (lastSegment_iff _ _).mpr hf.path, hm, hf.parsed, rfl, rfl⟩ hu hc1 hc2
    cases hv with
    | notFound => exact .same rfl rfl rfl
    | refused => exact .same rfl rfl rfl
    | refusedRedirect => exact .same rfl rfl rfl
    | notice => exact .same rfl rfl rfl
    | crash => exact .same rfl rfl rfl
    | introspect => exact .same rfl rfl rfl
    | implicit rq hf hm ht hs hu a hg =>
      refine .implicit _ _ _ _ _ (hauth hf hm hu) ?_ rfl rfl rfl
      have hne := (authorizationRequest_uri hf.parsed).1
      show Successful ⟨c, .answered ((Reply.token _).render {}).result⟩ = true
      rw [render_token_redirect (by exact hne)]
      exact h303 hf _ _
    | code rq hf hm ht hs hu x rest hg =>
      exact .code _ _ _ _ _ (hauth hf hm hu) (h303 hf _ _) rfl rfl rfl
    | password rq hf ht hs hu a b hg =>
      exact .grant _ _ _ _ _ _ _ (.password (hask hf) ht hf.client hu) (h200 rfl) rfl rfl rfl
    | client rq hf ht hc hs a b hg =>
      obtain ⟨cl, hc1, hc2⟩ := hc
      refine .grant _ _ _ _ _ _ _ (.client (hask hf) ht hc1 hc2 ?_) (h200 rfl) rfl rfl rfl
      obtain ⟨cl', h1, h2⟩ := hf.client
      rw [hc1] at h1
      cases h1
      exact h2 hc2
    | exchange rq hf ht x hc stored hst hu hx ho hr a b hg =>
      exact .exchange rq x stored _ _ x.signatureString _ _ (fun c => { c with used := true }) (hask hf) ht hc
        hst hu (h200 rfl) rfl rfl rfl
    | refresh rq hf ht t hc stored hst hx ho scope hsc hs a b hg =>
      exact .refresh rq t stored _ _ _ _ (drawn_signatures hg) (hask hf) ht hc hst (h200 rfl) rfl rfl rfl
    | replay rq hf ht x hc stored hst hu =>
      exact .fewer (.inr ⟨rq, x, stored, hask hf, ht, hc, hst, hu⟩) (deleteByCode_length _ _)
        (deleteByCode_length _ _) rfl (fun h => nodup_deleteByCode h _) fun h => nodup_deleteByCode h _
    | revoke rq hp hq hc t ht ha hr =>
      exact .fewer (.inl ⟨rq, r, hop, (lastSegment_iff _ _).mpr hp, hq⟩) (del_length _ _)
        (del_length _ _) rfl (fun h => GoMap.nodup_del h _) fun h => GoMap.nodup_del h _
    | revokeHalf rq hp hq hc t ht ca ha hao cr hr hro =>
      exact .fewer (.inl ⟨rq, r, hop, (lastSegment_iff _ _).mpr hp, hq⟩) (del_length _ _)
        (Nat.le_refl _) rfl (fun h => GoMap.nodup_del h _) id

/-! ### The claims -/

/-- **C99.** A call adds at most one access token, one refresh token or code, and two entries in all,
and none if it is not answered with success or a redirect. -/
theorem C99_call : ∃ s', (step ⟨false, s⟩ c).2 = ⟨false, s'⟩ ∧
    s'.accessTokens.length ≤ s.accessTokens.length + 1 ∧
    s'.refreshTokens.length + s'.authorizationCodes.length ≤
      s.refreshTokens.length + s.authorizationCodes.length + 1 ∧
    entries s' ≤ entries s + 2 ∧
    (Successful ⟨c, (step ⟨false, s⟩ c).1⟩ = false →
      s'.accessTokens.length ≤ s.accessTokens.length ∧
      s'.refreshTokens.length ≤ s.refreshTokens.length ∧
      s'.authorizationCodes.length = s.authorizationCodes.length) := by
  obtain ⟨s', he, h⟩ := resizes s c
  refine ⟨s', he, ?_⟩
  unfold entries
  cases h with
  | same h1 h2 h3 => rw [h1, h2, h3]; omega
  | implicit k v _ _ _ _ hs h1 h2 h3 =>
    have := set_length s.accessTokens k v
    rw [h1, h2, h3, hs]
    exact ⟨this, by omega, by omega, nofun⟩
  | code k v _ _ _ _ hs h1 h2 h3 =>
    have := set_length s.authorizationCodes k v
    rw [h1, h2, h3, hs]
    exact ⟨by omega, by omega, by omega, nofun⟩
  | grant k k' v v' _ _ _ _ hs h1 h2 h3 =>
    have := set_length s.accessTokens k v
    have := set_length s.refreshTokens k' v'
    rw [h1, h2, h3, hs]
    exact ⟨by omega, by omega, by omega, nofun⟩
  | exchange _ _ _ k k' j v v' f _ _ _ _ _ hs h1 h2 h3 =>
    have := set_length s.accessTokens k v
    have := set_length s.refreshTokens k' v'
    rw [h1, h2, h3, hs, update_length]
    exact ⟨by omega, by omega, by omega, nofun⟩
  | refresh _ t stored k k' v v' _ _ _ _ hst hs h1 h2 h3 =>
    have := set_length s.accessTokens k v
    have := rotate_length hst (new := k') v'
    rw [h1, h2, h3, hs]
    exact ⟨by omega, by omega, by omega, nofun⟩
  | fewer _ h1 h2 h3 => rw [h3]; omega

/-- **C99.** So after any history there are at most as many access tokens, and at most as many refresh
tokens and codes together, as there were calls answered with success or a redirect. -/
theorem C99_history {s₀ : Server} (h0 : Started s₀) {h : List Event} {x : Shared Server}
    (hh : History s₀ h x) : x.st.accessTokens.length ≤ successes h ∧
    x.st.refreshTokens.length + x.st.authorizationCodes.length ≤ successes h := by
  suffices x.locked = false ∧ x.st.accessTokens.length ≤ successes h ∧
      x.st.refreshTokens.length + x.st.authorizationCodes.length ≤ successes h from this.2
  induction hh with
  | start => exact ⟨rfl, by rw [h0.access]; exact Nat.zero_le _, by
      rw [h0.refresh, h0.codes]; exact Nat.zero_le _⟩
  | @next h y c _ ih =>
    obtain ⟨l, s⟩ := y
    obtain ⟨hl, h1, h2⟩ := ih
    cases hl
    obtain ⟨s', he, k1, k2, _, k3⟩ := C99_call (s := s) (c := c)
    rw [he]
    refine ⟨rfl, ?_⟩
    unfold successes at *
    rw [List.filter_cons]
    simp only at h1 h2 ⊢
    cases hs : Successful ⟨c, (step ⟨false, s⟩ c).1⟩ with
    | true => simp only [if_true, List.length_cons]; omega
    | false =>
      obtain ⟨k4, k5, k6⟩ := k3 hs
      simp only [Bool.false_eq_true, if_false]
      omega

/-- **C99.** Whoever makes the server store more has the password of a user, the secret of a
confidential client, a code that was not used, or a refresh token that is stored. -/
theorem C99_who {s' : Server} (he : (step ⟨false, s⟩ c).2 = ⟨false, s'⟩)
    (hg : entries s < entries s') :
    (∃ client user scope, Consent s c client user scope) ∨
    (∃ rq t stored, AsksToken c rq ∧ rq.grantType = b!"authorization_code" ∧
      HS256Token.parse s.config.secret rq.code = .ok t ∧
      s.authorizationCodes.get? t.signatureString = some stored ∧ stored.used = false) ∨
    ∃ rq t stored, AsksToken c rq ∧ rq.grantType = b!"refresh_token" ∧
      HS256Token.parse s.config.secret rq.refreshToken = .ok t ∧
      s.refreshTokens.get? t.signatureString = some stored := by
  obtain ⟨s'', he', h⟩ := resizes s c
  rw [he] at he'
  cases he'
  unfold entries at hg
  cases h with
  | same h1 h2 h3 => rw [h1, h2, h3] at hg; omega
  | implicit k v _ _ _ hc => exact .inl ⟨_, _, _, hc⟩
  | code k v _ _ _ hc => exact .inl ⟨_, _, _, hc⟩
  | grant k k' v v' _ _ _ hc => exact .inl ⟨_, _, _, hc⟩
  | exchange rq t stored k k' j v v' f h1 h2 h3 h4 h5 =>
    exact .inr (.inl ⟨rq, t, stored, h1, h2, h3, h4, h5⟩)
  | refresh rq t stored k k' v v' _ h1 h2 h3 h4 => exact .inr (.inr ⟨rq, t, stored, h1, h2, h3, h4⟩)
  | fewer _ h1 h2 h3 => rw [h3] at hg; omega

/-- A call asks the token endpoint for one thing. -/
theorem asked_once {rq rq' : TokenRequest} (h : AsksToken c rq) (h' : AsksToken c rq') : rq = rq' := by
  obtain ⟨r, h1, _, h2⟩ := h
  obtain ⟨r', h1', _, h2'⟩ := h'
  rw [h1] at h1'
  cases h1'
  rw [h2] at h2'
  cases h2'
  rfl

/-- A refresh request is not what entitles to tokens in the first place. -/
theorem refresh_no_consent {rq : TokenRequest} (hc : AsksToken c rq)
    (hgt : rq.grantType = b!"refresh_token") {client user : Str} {scope : Scope}
    (h : Consent s c client user scope) : False := by
  cases h with
  | authorization h =>
    obtain ⟨r, h1, h2, _⟩ := h
    obtain ⟨r', h1', h2', _⟩ := hc
    rw [h1] at h1'
    cases h1'
    rw [lastSegment_iff] at h2 h2'
    rw [h2] at h2'
    exact absurd h2' (by decide)
  | password h h1 =>
    cases asked_once hc h
    rw [hgt] at h1
    exact absurd h1 (by decide)
  | client h h1 =>
    cases asked_once hc h
    rw [hgt] at h1
    exact absurd h1 (by decide)

/-- **C99.** Refreshing does not make the refresh tokens more, but no access token goes: with one refresh
token after the other, access tokens pile up. -/
theorem C99_refresh {rq : TokenRequest} (hc : AsksToken c rq) (hgt : rq.grantType = b!"refresh_token")
    {s' : Server} (he : (step ⟨false, s⟩ c).2 = ⟨false, s'⟩) :
    s'.refreshTokens.length ≤ s.refreshTokens.length ∧
    s'.authorizationCodes = s.authorizationCodes ∧
    ∀ k v, s.accessTokens.get? k = some v → ∃ v', s'.accessTokens.get? k = some v' := by
  obtain ⟨s'', he', h⟩ := resizes s c
  rw [he] at he'
  cases he'
  cases h with
  | same h1 h2 h3 => exact ⟨by rw [h2]; exact Nat.le_refl _, h3, fun k v h => ⟨v, by rw [h1]; exact h⟩⟩
  | implicit k v _ _ _ h => exact (refresh_no_consent hc hgt h).elim
  | code k v _ _ _ h => exact (refresh_no_consent hc hgt h).elim
  | grant k k' v v' _ _ _ h => exact (refresh_no_consent hc hgt h).elim
  | exchange rq' t stored k k' j v v' f h1 h2 =>
    cases asked_once hc h1
    rw [hgt] at h2
    exact absurd h2 (by decide)
  | refresh rq' t stored k k' v v' _ h1 h2 h3 h4 hs h5 h6 h7 =>
    refine ⟨by rw [h6]; exact rotate_length h4 v', h7, fun j x h => ?_⟩
    rw [h5, GoMap.get?_set]
    by_cases hj : j = k
    · exact ⟨v, if_pos hj⟩
    · exact ⟨x, by rw [if_neg hj]; exact h⟩
  | fewer h =>
    rcases h with ⟨rq', r, h1, h2, _⟩ | ⟨rq', t, stored, h1, h2, _⟩
    · obtain ⟨r', h1', h2', _⟩ := hc
      rw [h1] at h1'
      cases h1'
      rw [lastSegment_iff] at h2 h2'
      rw [h2] at h2'
      exact absurd h2' (by decide)
    · cases asked_once hc h1
      rw [hgt] at h2
      exact absurd h2 (by decide)

/-- **C99.** A granted request for tokens with the password of a user makes the server store exactly two
entries more, if neither signature is stored yet. -/
theorem C99_grows {rq : TokenRequest} (hc : AsksToken c rq) (hgt : rq.grantType = b!"password")
    (hi : Identified s rq.clientID rq.clientSecret) (hu : Password s rq.username rq.password)
    (hw : Within rq.scope s.config.allowedScope) (hn : Enough s.config c 2)
    (ha : s.accessTokens.get? (firstDrawn s c) = none)
    (hb : s.refreshTokens.get? (secondDrawn s c) = none) :
    ∃ s', (step ⟨false, s⟩ c).2 = ⟨false, s'⟩ ∧
      s'.accessTokens.length = s.accessTokens.length + 1 ∧
      s'.refreshTokens.length = s.refreshTokens.length + 1 ∧
      s'.authorizationCodes = s.authorizationCodes := by
  obtain ⟨client, _, h2⟩ := step_grant hc hi (by rw [hgt]; decide)
  rw [h2]
  obtain ⟨h1, h3⟩ := hn
  have hg : Server.mint s.config true c.local.coins = some
      (HS256Token.fromKey s.config.secret (c.coins.take s.config.keyLength.toNat),
        some (HS256Token.fromKey s.config.secret
          ((c.coins.drop s.config.keyLength.toNat).take s.config.keyLength.toNat))) := by
    unfold Server.mint Server.gen
    have e : c.local.coins = c.coins := rfl
    rw [e, if_neg (by omega)]
    simp only [if_true]
    rw [if_neg (by rw [List.length_drop]; omega)]
  refine ⟨_, rfl, ?_⟩
  unfold Server.grantReply
  rw [if_pos (by rw [hgt]; decide), (Server.userOK_iff _ _ _).mpr hu, (C07_includes _ _).mpr hw]
  unfold Server.issue
  rw [hg]
  exact ⟨set_fresh ha _, set_fresh hb _, rfl⟩

/-- The keys of the maps are distinct. -/
structure Tidy (s : Server) : Prop where
  access : s.accessTokens.keys.Nodup
  refresh : s.refreshTokens.keys.Nodup
  codes : s.authorizationCodes.keys.Nodup

theorem update_keys {α : Type} (m : GoMap α) (k : Str) (f : α → α) : (m.update k f).keys = m.keys := by
  unfold GoMap.update GoMap.keys
  rw [List.map_map]
  apply List.map_congr_left
  intro e _
  simp only [Function.comp]
  split <;> rfl

theorem tidy_step (h : Tidy s) : ∃ s', (step ⟨false, s⟩ c).2 = ⟨false, s'⟩ ∧ Tidy s' := by
  obtain ⟨s', he, hr⟩ := resizes s c
  refine ⟨s', he, ?_⟩
  obtain ⟨a, b, d⟩ := h
  cases hr with
  | same h1 h2 h3 => exact ⟨by rw [h1]; exact a, by rw [h2]; exact b, by rw [h3]; exact d⟩
  | implicit k v _ _ _ _ hs h1 h2 h3 =>
    exact ⟨by rw [h1]; exact GoMap.nodup_set a _ _, by rw [h2]; exact b, by rw [h3]; exact d⟩
  | code k v _ _ _ _ hs h1 h2 h3 =>
    exact ⟨by rw [h1]; exact a, by rw [h2]; exact b, by rw [h3]; exact GoMap.nodup_set d _ _⟩
  | grant k k' v v' _ _ _ _ hs h1 h2 h3 =>
    exact ⟨by rw [h1]; exact GoMap.nodup_set a _ _, by rw [h2]; exact GoMap.nodup_set b _ _,
      by rw [h3]; exact d⟩
  | exchange _ _ _ k k' j v v' f _ _ _ _ _ hs h1 h2 h3 =>
    exact ⟨by rw [h1]; exact GoMap.nodup_set a _ _, by rw [h2]; exact GoMap.nodup_set b _ _,
      by rw [h3, update_keys]; exact d⟩
  | refresh _ t stored k k' v v' _ _ _ _ hst hs h1 h2 h3 =>
    exact ⟨by rw [h1]; exact GoMap.nodup_set a _ _,
      by rw [h2]; exact GoMap.nodup_del (GoMap.nodup_set b _ _) _, by rw [h3]; exact d⟩
  | fewer _ h1 h2 h3 h4 h5 => exact ⟨h4 a, h5 b, by rw [h3]; exact d⟩

theorem tidy_history {s₀ : Server} (h0 : Started s₀) {h : List Event} {x : Shared Server}
    (hh : History s₀ h x) : ∃ s, x = ⟨false, s⟩ ∧ Tidy s := by
  induction hh with
  | start =>
    refine ⟨s₀, rfl, ?_, ?_, ?_⟩
    · rw [h0.access]; exact List.nodup_nil
    · rw [h0.refresh]; exact List.nodup_nil
    · rw [h0.codes]; exact List.nodup_nil
  | next c _ ih =>
    obtain ⟨s, rfl, ht⟩ := ih
    exact tidy_step ht

/-- **C99.** Nothing is forgotten by itself: whatever the clock says, after any history only revocations
and used codes that turn up again make the entries fewer. (And a refresh token, if both signatures drawn
for the new tokens are stored already.) -/
theorem C99_kept {s₀ : Server} (h0 : Started s₀) {h : List Event} (hh : History s₀ h ⟨false, s⟩)
    {s' : Server} (he : (step ⟨false, s⟩ c).2 = ⟨false, s'⟩) (hg : entries s' < entries s) :
    (∃ rq, AsksRevocation c rq) ∨
    (∃ rq t stored, AsksToken c rq ∧ rq.grantType = b!"authorization_code" ∧
      HS256Token.parse s.config.secret rq.code = .ok t ∧
      s.authorizationCodes.get? t.signatureString = some stored ∧ stored.used = true) ∨
    (∃ rq, AsksToken c rq ∧ rq.grantType = b!"refresh_token") ∧
      s.accessTokens.get? (firstDrawn s c) ≠ none ∧ s.refreshTokens.get? (secondDrawn s c) ≠ none := by
  obtain ⟨_, hx, a, b, d⟩ := tidy_history h0 hh
  cases hx
  obtain ⟨s'', he', h⟩ := resizes s c
  rw [he] at he'
  cases he'
  unfold entries at hg
  cases h with
  | same h1 h2 h3 => rw [h1, h2, h3] at hg; omega
  | implicit k v _ _ _ _ _ h1 h2 h3 =>
    have := set_keeps a k v
    rw [h1, h2, h3] at hg; omega
  | code k v _ _ _ _ _ h1 h2 h3 =>
    have := set_keeps d k v
    rw [h1, h2, h3] at hg; omega
  | grant k k' v v' _ _ _ _ _ h1 h2 h3 =>
    have := set_keeps a k v
    have := set_keeps b k' v'
    rw [h1, h2, h3] at hg; omega
  | exchange _ _ _ k k' j v v' f _ _ _ _ _ _ h1 h2 h3 =>
    have := set_keeps a k v
    have := set_keeps b k' v'
    rw [h1, h2, h3, update_length] at hg; omega
  | refresh rq t stored k k' v v' hk h1 h2 _ _ _ h3 h4 h5 =>
    obtain ⟨rfl, rfl⟩ := hk
    have e1 := set_keeps a (firstDrawn s c) v
    obtain ⟨e2, e3⟩ := rotate_keeps b t.signatureString (secondDrawn s c) v'
    rw [h3, h4, h5] at hg
    refine .inr (.inr ⟨⟨rq, h1, h2⟩, fun h => ?_, fun h => ?_⟩)
    · have := set_fresh h v
      omega
    · have := e3 h
      omega
  | fewer h =>
    rcases h with h | h
    · exact .inl h
    · exact .inr (.inl h)

/-- Non-vacuity: in the session, the token request with the password (`c1`) stores two entries, the
refresh (`c4`) one access token more and no refresh token, and the code used again (`c5`) and the revocation
(`c6`) make the entries fewer. -/
example : entries Demo.server = 0 ∧ Demo.s1.accessTokens.length = 1 ∧ Demo.s1.refreshTokens.length = 1 ∧
    Demo.s4.accessTokens.length = Demo.s3.accessTokens.length + 1 ∧
    Demo.s4.refreshTokens.length = Demo.s3.refreshTokens.length ∧
    entries Demo.s5 < entries Demo.s4 ∧ entries Demo.s6 < entries Demo.s5 := by decide +kernel

/-- Non-vacuity: the first request of the session meets the hypotheses of `C99_grows`. -/
example : ∃ s', (step ⟨false, Demo.server⟩ Demo.c1).2 = ⟨false, s'⟩ ∧ entries s' = 2 := by
  obtain ⟨s', h1, h2, h3, h4⟩ := C99_grows (s := Demo.server) (c := Demo.c1) (rq := {
      grantType := b!"password", username := b!"u1", password := b!"p1", scope := some [b!"foo"],
      clientID := b!"c1", clientSecret := b!"s1" })
    (by decide +kernel) rfl (by decide +kernel) (by decide +kernel) (by decide +kernel)
    (by decide +kernel) (by decide +kernel) (by decide +kernel)
  refine ⟨s', h1, ?_⟩
  unfold entries
  rw [h2, h3, h4]
  decide +kernel

/-- Non-vacuity: the used code that turns up meets the hypotheses of `C99_kept`, the refresh those of
`C99_who` and of `C99_refresh`. -/
example : (step ⟨false, Demo.s4⟩ Demo.c5).2 = ⟨false, Demo.s5⟩ ∧ entries Demo.s5 < entries Demo.s4 ∧
    (step ⟨false, Demo.s3⟩ Demo.c4).2 = ⟨false, Demo.s4⟩ ∧ entries Demo.s3 < entries Demo.s4 ∧
    Started Demo.server ∧ History Demo.server [Demo.e4, Demo.e3, Demo.e2, Demo.e1] ⟨false, Demo.s4⟩ :=
  ⟨by rw [Demo.step5], by decide +kernel, by rw [Demo.step4], by decide +kernel, Demo.started,
    Demo.history4⟩

end OAuth2

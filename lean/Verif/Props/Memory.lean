import Verif.Props.EndToEnd

/-!
C64: what the public maps of the server hold after any history.
-/

namespace OAuth2

open Spec

variable {s₀ : Server} {s : Shared Server} {h : List Event}

/-- **C64.** The map `AccessTokens` holds exactly the access tokens in force, under their signatures,
with what they stand for. -/
theorem C64_access_tokens (h0 : Started s₀) (hh : History s₀ h s) (sig : Str)
    (cred : ServerCredential) :
    s.st.accessTokens.get? sig = some cred ↔
      ∃ t g, t.signatureString = sig ∧ InForce s₀.config h .access t g ∧ cred = {
        clientID := g.client, username := g.user, expiresAt := g.expires, scope := g.scope,
        redirectURI := [], code := g.origin, used := false } := by
  obtain ⟨st, rfl, ex⟩ := history_state h0 hh
  exact ex.access sig cred

/-- **C64.** The map `RefreshTokens` holds exactly the refresh tokens in force. -/
theorem C64_refresh_tokens (h0 : Started s₀) (hh : History s₀ h s) (sig : Str)
    (cred : ServerCredential) :
    s.st.refreshTokens.get? sig = some cred ↔
      ∃ t g, t.signatureString = sig ∧ InForce s₀.config h .refresh t g ∧ cred = {
        clientID := g.client, username := g.user, expiresAt := g.expires, scope := g.scope,
        redirectURI := [], code := g.origin, used := false } := by
  obtain ⟨st, rfl, ex⟩ := history_state h0 hh
  exact ex.refresh sig cred

/-- **C64.** The map `AuthorizationCodes` holds exactly the codes on record, with what they stand for
and whether they were redeemed. -/
theorem C64_codes (h0 : Started s₀) (hh : History s₀ h s) (sig : Str) (cred : ServerCredential) :
    s.st.authorizationCodes.get? sig = some cred ↔
      ∃ x g redeemed, x.signatureString = sig ∧ Code s₀.config h x g redeemed ∧ cred = {
        clientID := g.client, username := g.user, expiresAt := g.expires, scope := g.scope,
        redirectURI := g.redirectURI, code := [], used := redeemed } := by
  obtain ⟨st, rfl, ex⟩ := history_state h0 hh
  exact ex.codes sig cred

/-- A redeemed code is not redeemed again. -/
theorem redeemed_once (h0 : Started s₀) {e : Event} (hh : History s₀ (e :: h) s) {x : HS256Token}
    {g : CodeGrant} (hx : Code s₀.config h x g true) : ¬ Redeems s₀.config e x := by
  obtain ⟨st, h1, ex, h2, hs⟩ := history_seen (new := []) h0 hh
  intro hr
  have hno : ∀ {a b c use rev}, Obs s₀.config e a b c none use rev → False := fun o => by
    have := (o.redeems x).mp hr
    cases this
  cases hs with
  | quiet q => exact hno q
  | revoke sig o => exact hno o
  | implicit _ _ _ _ _ _ _ _ _ _ _ o => exact hno o
  | code _ _ _ _ _ _ _ _ _ _ _ o => exact hno o
  | password _ _ _ _ _ _ _ _ _ _ _ o => exact hno o
  | client _ _ _ _ _ _ _ _ _ _ _ o => exact hno o
  | refresh _ _ _ _ _ _ _ _ _ _ _ _ _ _ _ _ o => exact hno o
  | exchange r rq res a b y g' hop hf ht hy hsame hx' ho hr' hcall o =>
    have h3 := Option.some.inj ((o.redeems x).mp hr)
    have h4 := (ex.codes _ _).mpr ⟨x, g, true, rfl, hx, rfl⟩
    have h5 := (ex.codes _ _).mpr ⟨y, g', false, h3, hy, rfl⟩
    rw [h4] at h5
    exact absurd (codeGrant_cred_inj (Option.some.inj h5)).2 (by decide)

/-- **C64.** Codes are never forgotten: the map `AuthorizationCodes` has an entry under a signature
exactly if a code with this signature was handed out at some time. -/
theorem C64_codes_kept (h0 : Started s₀) (hh : History s₀ h s) (sig : Str) :
    (∃ cred, s.st.authorizationCodes.get? sig = some cred) ↔
      ∃ e ∈ h, ∃ x, HandsCode e x ∧ x.signatureString = sig := by
  have key : (∃ cred, s.st.authorizationCodes.get? sig = some cred) ↔
      ∃ x g b, x.signatureString = sig ∧ Code s₀.config h x g b := by
    constructor
    · rintro ⟨cred, h1⟩
      obtain ⟨x, g, b, h2, h3, _⟩ := (C64_codes h0 hh sig cred).mp h1
      exact ⟨x, g, b, h2, h3⟩
    · rintro ⟨x, g, b, h2, h3⟩
      exact ⟨_, (C64_codes h0 hh sig _).mpr ⟨x, g, b, h2, h3, rfl⟩⟩
  rw [key]
  clear key
  induction hh with
  | start =>
    constructor
    · rintro ⟨x, g, b, _, h1⟩; cases h1
    · rintro ⟨e, h1, _⟩; cases h1
  | @next h s c hh ih =>
    have hh' := History.next c hh
    generalize (⟨c, (step s c).1⟩ : Event) = e at hh' ⊢
    constructor
    · rintro ⟨x, g, b, h2, h3⟩
      cases h3 with
      | issued h4 h5 h6 => exact ⟨e, by simp, x, h6, h2⟩
      | redeemed h4 h5 =>
        obtain ⟨e', h6, h7⟩ := ih.mp ⟨x, g, _, h2, h4⟩
        exact ⟨e', List.mem_cons_of_mem _ h6, h7⟩
      | later h4 h5 h6 =>
        obtain ⟨e', h6, h7⟩ := ih.mp ⟨x, g, _, h2, h4⟩
        exact ⟨e', List.mem_cons_of_mem _ h6, h7⟩
    · rintro ⟨e', h1, x, h2, h3⟩
      by_cases hn : ∃ x', HandsCode e x' ∧ x'.signatureString = sig
      · obtain ⟨x', h4, h5⟩ := hn
        obtain ⟨rq, u, res, h6, h7, _⟩ := id h4
        exact ⟨x', _, _, h5, .issued h6 h7 h4⟩
      · rcases List.mem_cons.mp h1 with rfl | h1
        · exact absurd ⟨x, h2, h3⟩ hn
        · obtain ⟨x', g, b, h4, h5⟩ := ih.mpr ⟨e', h1, x, h2, h3⟩
          have hno : ∀ c', HandsCode e c' → c'.signatureString ≠ x'.signatureString :=
            fun c' h6 h7 => hn ⟨c', h6, h7.trans h4⟩
          by_cases hr : Redeems s₀.config e x'
          · cases b with
            | false => exact ⟨x', g, true, h4, .redeemed h5 hr⟩
            | true => exact absurd hr (redeemed_once h0 hh' h5)
          · exact ⟨x', g, b, h4, .later h5 hr hno⟩

/-- An event hands out at most one token of each kind. -/
theorem hands_unique (h0 : Started s₀) {e : Event} (hh : History s₀ (e :: h) s) {k : Kind}
    {t t' : HS256Token} (h1 : Hands e k t) (h2 : Hands e k t') : t = t' := by
  obtain ⟨st, _, _, _, hs⟩ := history_seen (new := []) h0 hh
  have key : ∀ {a b c red use rev}, Obs s₀.config e a b c red use rev → t = t' := by
    intro a b c red use rev o
    cases k with
    | access => exact Option.some.inj (((o.access t).mp h1).symm.trans ((o.access t').mp h2))
    | refresh => exact Option.some.inj (((o.refresh t).mp h1).symm.trans ((o.refresh t').mp h2))
  cases hs with
  | quiet q => exact key q
  | revoke sig o => exact key o
  | implicit _ _ _ _ _ _ _ _ _ _ _ o => exact key o
  | code _ _ _ _ _ _ _ _ _ _ _ o => exact key o
  | password _ _ _ _ _ _ _ _ _ _ _ o => exact key o
  | client _ _ _ _ _ _ _ _ _ _ _ o => exact key o
  | refresh _ _ _ _ _ _ _ _ _ _ _ _ _ _ _ _ o => exact key o
  | exchange _ _ _ _ _ _ _ _ _ _ _ _ _ _ _ _ o => exact key o

/-- Different tokens in force come from different events. -/
theorem inForce_count (h0 : Started s₀) (hh : History s₀ h s) {k : Kind} {sigs : List Str}
    (hn : sigs.Nodup)
    (hs : ∀ sig ∈ sigs, ∃ t g, t.signatureString = sig ∧ InForce s₀.config h k t g) :
    ∃ l : List Event, l.Sublist h ∧ (∀ e ∈ l, ∃ t, Hands e k t) ∧ sigs.length ≤ l.length := by
  induction hh generalizing sigs with
  | start =>
    refine ⟨[], List.nil_sublist _, by simp, ?_⟩
    cases sigs with
    | nil => simp
    | cons sig sigs =>
      obtain ⟨t, g, _, h1⟩ := hs sig (by simp)
      cases h1
  | @next h s c hh ih =>
    have hh' := History.next c hh
    generalize (⟨c, (step s c).1⟩ : Event) = e at hh' hs ⊢
    by_cases ht : ∃ t, Hands e k t
    · obtain ⟨t, ht⟩ := ht
      obtain ⟨l, h1, h2, h3⟩ := ih (hn.erase t.signatureString) fun sig hsig => by
        obtain ⟨hne, hm⟩ := (List.Nodup.mem_erase_iff hn).mp hsig
        obtain ⟨t', g, h4, h5⟩ := hs sig hm
        rcases inForce_cons.mp h5 with h6 | h6
        · cases hands_unique h0 hh' ht h6.hands
          exact absurd h4.symm hne
        · exact ⟨t', g, h4, h6.1⟩
      refine ⟨e :: l, h1.cons_cons e, ?_, ?_⟩
      · intro e' he
        rcases List.mem_cons.mp he with rfl | he
        · exact ⟨t, ht⟩
        · exact h2 e' he
      · have := List.length_erase (l := sigs) (a := t.signatureString)
        rw [List.length_cons]
        split at this <;> omega
    · obtain ⟨l, h1, h2, h3⟩ := ih hn fun sig hsig => by
        obtain ⟨t', g, h4, h5⟩ := hs sig hsig
        rcases inForce_cons.mp h5 with h6 | h6
        · exact absurd ⟨_, h6.hands⟩ ht
        · exact ⟨t', g, h4, h6.1⟩
      exact ⟨l, h1.cons e, h2, h3⟩

theorem keys_length {α : Type} (m : GoMap α) : m.keys.length = m.length := by
  unfold GoMap.keys; simp

theorem get?_of_key {α : Type} {m : GoMap α} {k : Str} (h : k ∈ m.keys) : ∃ v, m.get? k = some v := by
  induction m with
  | nil => cases h
  | cons e m ih =>
    obtain ⟨i, v⟩ := e
    rw [GoMap.get?_cons]
    by_cases hi : i = k
    · rw [if_pos hi]; exact ⟨v, rfl⟩
    · rw [if_neg hi]
      apply ih
      unfold GoMap.keys at h ⊢
      rw [List.map_cons] at h
      rcases List.mem_cons.mp h with h | h
      · exact absurd h.symm hi
      · exact h

/-- **C64.** The maps of tokens have no more entries than there were answers that handed out a token
of the kind, and only one entry under a key. -/
theorem C64_size (h0 : Started s₀) (hh : History s₀ h s) :
    s.st.accessTokens.keys.Nodup ∧ s.st.refreshTokens.keys.Nodup ∧
    (∃ l : List Event, l.Sublist h ∧ (∀ e ∈ l, ∃ t, Hands e .access t) ∧
      s.st.accessTokens.length ≤ l.length) ∧
    (∃ l : List Event, l.Sublist h ∧ (∀ e ∈ l, ∃ t, Hands e .refresh t) ∧
      s.st.refreshTokens.length ≤ l.length) := by
  obtain ⟨st, rfl, ex⟩ := history_state h0 hh
  refine ⟨ex.nodupA, ex.nodupR, ?_, ?_⟩
  · rw [← keys_length]
    refine inForce_count h0 hh ex.nodupA fun sig hsig => ?_
    obtain ⟨cred, h1⟩ := get?_of_key hsig
    obtain ⟨t, g, h2, h3, _⟩ := (ex.access _ _).mp h1
    exact ⟨t, g, h2, h3⟩
  · rw [← keys_length]
    refine inForce_count h0 hh ex.nodupR fun sig hsig => ?_
    obtain ⟨cred, h1⟩ := get?_of_key hsig
    obtain ⟨t, g, h2, h3, _⟩ := (ex.refresh _ _).mp h1
    exact ⟨t, g, h2, h3⟩

/-- Non-vacuity: the maps after nine events of the session. Five events handed out an access token;
one of the tokens was revoked and one died with its code. The redeemed code is still there. -/
example : History Demo.server
      [Demo.e9, Demo.e8, Demo.e7, Demo.e6, Demo.e5, Demo.e4, Demo.e3, Demo.e2, Demo.e1]
      ⟨false, Demo.s9⟩ ∧
    Demo.s9.accessTokens.keys = [Demo.a8.signatureString, Demo.a7.signatureString,
      Demo.a4.signatureString] ∧
    Demo.s9.authorizationCodes.keys = [Demo.x9.signatureString, Demo.x2.signatureString] :=
  ⟨Demo.history9, by decide +kernel, by decide +kernel⟩

end OAuth2

import Verif.Spec.Scope
import Verif.Lemmas.Form
import Verif.Props.Scopes
import Verif.Props.Redirects
import Verif.Props.Bearer
import Verif.Model.Introspection
import Verif.Model.Revocation
import Verif.Model.Authorization
/-
C18–C22: requests on the wire.
-/

namespace OAuth2

open Spec

set_option linter.unusedSimpArgs false

/-! ### Building -/

theorem get?_append {α : Type} (a b : GoMap α) (k : Str) :
    GoMap.get? (a ++ b) k = (GoMap.get? a k).or (GoMap.get? b k) := by
  induction a with
  | nil => rfl
  | cons e a ih =>
    obtain ⟨k', v⟩ := e
    simp only [List.cons_append, GoMap.get?_cons, ih]
    split <;> rfl

theorem get?_opt {α : Type} (c : Prop) [Decidable c] (k' : Str) (v : α) (k : Str) :
    GoMap.get? (if c then [(k', v)] else [] : GoMap α) k = if k' = k ∧ c then some v else none := by
  by_cases h : c <;> by_cases hk : k' = k <;> simp [h, hk, GoMap.get?_cons, GoMap.get?_nil]

theorem keys_opt {α : Type} (c : Prop) [Decidable c] (k : Str) (v : α) :
    (GoMap.keys (if c then [(k, v)] else [] : GoMap α)).Sublist [k] := by
  split
  · exact List.Sublist.refl _
  · exact List.nil_sublist _

theorem keys_append {α : Type} (a b : GoMap α) : (a ++ b).keys = a.keys ++ b.keys := List.map_append

theorem formPost_build {uri : Str} {u : URL} (hu : parseURL uri = some u)
    (hq : (parseQuery u.rawQuery).2 = false) {values : Values}
    (hl : values.encode.length ≤ 10485760) (hn : values.keys.Nodup) (id secret : Str) :
    ∃ r, buildFormRequest uri values id secret = some r ∧
      FormPost r (parseQuery values.encode).1 ∧
      (id ≠ [] ∨ secret ≠ [] → r.basicAuth = cutByte 0x3A (id ++ 0x3A :: secret)) ∧
      (id = [] → secret = [] → r.basicAuth = none) := by
  have hpe := (parseQuery_encode hn).1
  have hk : canonicalKey b!"Authorization" ≠ canonicalKey b!"Content-Type" := by decide
  have hmt : parseMediaType b!"application/x-www-form-urlencoded" =
    (b!"application/x-www-form-urlencoded", false) := by decide +kernel
  unfold buildFormRequest newPostRequest
  rw [hu]
  simp only [Option.bind_eq_bind, Option.bind_some, Option.pure_def, Option.some.injEq,
    exists_eq_left']
  by_cases h : id ≠ [] ∨ secret ≠ []
  · simp only [h, if_true]
    refine ⟨⟨rfl, ⟨rfl, rfl⟩, ?_, ⟨values.encode, rfl, rfl, hl, Prod.ext rfl hpe⟩, hq⟩, ?_, ?_⟩
    · rw [Header.get_set, if_pos rfl, hmt]
    · intro _
      unfold Request.basicAuth Request.setBasicAuth
      simp only
      rw [Header.get_set, if_neg hk, Header.get_set, if_pos rfl, if_neg (by simp),
        parseBasicAuth_encode]
    · intro h1 h2
      rcases h with h | h
      · exact absurd h1 h
      · exact absurd h2 h
  · simp only [h, if_false]
    refine ⟨⟨rfl, ⟨rfl, rfl⟩, ?_, ⟨values.encode, rfl, rfl, hl, Prod.ext rfl hpe⟩, hq⟩, ?_, ?_⟩
    · rw [Header.get_set, if_pos rfl, hmt]
    · exact fun h' => absurd h' (by simp [not_or] at h; simp [h])
    · intro _ _
      unfold Request.basicAuth
      simp only
      rw [Header.get_set, if_neg hk]
      rfl

/-! ### C18 -/

theorem tokenRequestValues_nodup (t : TokenRequest) : (tokenRequestValues t).keys.Nodup := by
  unfold tokenRequestValues
  simp only [keys_append]
  have h := ((((((keys_opt (t.grantType ≠ []) b!"grant_type" [t.grantType]).append
    (keys_opt (t.scope.items.length ≠ 0) b!"scope" [t.scope.string])).append
    (keys_opt (t.username ≠ []) b!"username" [t.username])).append
    (keys_opt (t.password ≠ []) b!"password" [t.password])).append
    (keys_opt (t.refreshToken ≠ []) b!"refresh_token" [t.refreshToken])).append
    (keys_opt (t.redirectURI ≠ []) b!"redirect_uri" [queryEscape t.redirectURI])).append
    (keys_opt (t.code ≠ []) b!"code" [t.code])
  exact h.nodup (by decide)

theorem tokenRequestValues_get (t : TokenRequest) :
    let v := tokenRequestValues t
    v.get b!"grant_type" = t.grantType ∧ v.get b!"scope" = (if t.scope.items.length ≠ 0 then t.scope.string else []) ∧
    v.get b!"username" = t.username ∧ v.get b!"password" = t.password ∧
    v.get b!"refresh_token" = t.refreshToken ∧ v.get b!"redirect_uri" = queryEscape t.redirectURI ∧
    v.get b!"code" = t.code := by
  have e : ∀ x : Str, (((if x ≠ [] then some [x] else none : Option (List Str)).getD []).headD []) = x := by
    intro x; by_cases h : x = [] <;> simp [h]
  simp only [tokenRequestValues, Values.get_eq, Values.all, get?_append, get?_opt]
  refine ⟨?_, ?_, ?_, ?_, ?_, ?_, ?_⟩
  all_goals simp (decide := true) only [true_and, false_and, if_false, Option.none_or, Option.or_none, e]
  · by_cases h : t.scope.items.length = 0 <;> simp [h]
  · by_cases h : t.redirectURI = [] <;> simp [h]; rfl

theorem token_ok_form {r : Request} {form : Values} (h : FormPost r form) {t : TokenRequest}
    (hp : parseTokenRequest r = .ok t) :
    t.grantType = form.get b!"grant_type" ∧ t.scope = Scope.parse (form.get b!"scope") ∧
    t.username = form.get b!"username" ∧ t.password = form.get b!"password" ∧
    t.refreshToken = form.get b!"refresh_token" ∧ t.code = form.get b!"code" ∧
    queryUnescape (form.get b!"redirect_uri") = some t.redirectURI ∧
    (t.clientID, t.clientSecret) =
      (r.basicAuth).getD (form.get b!"client_id", form.get b!"client_secret") := by
  unfold parseTokenRequest at hp
  rw [if_neg (by simp [h.method]), parseForm_formPost h] at hp
  have hba := basicAuth_congr (r := { r with postForm := some form, form := some (copyValues form (parseQuery r.rawQuery).1) }) (r' := r) rfl
  simp only [Option.getD_some, Bool.false_eq_true, if_false, hba] at hp
  obtain ⟨cred, hc, hp⟩ : ∃ cred, cred = (r.basicAuth).getD (form.get b!"client_id", form.get b!"client_secret") ∧
      (if form.get b!"grant_type" = [] then
        .error (invalidRequest b!"missing grant type")
      else if cred.1 = [] then .error (invalidRequest b!"missing client identification")
      else
        match queryUnescape (form.get b!"redirect_uri") with
        | none => .error (invalidRequest b!"invalid redirect URI")
        | some uri =>
          if (!if uri ≠ [] then
              match parseRequestURI uri with
              | none => false
              | some u => decide (u.fragment = [])
            else true) = true then .error (invalidRequest b!"invalid redirect URI")
          else .ok {
            grantType := form.get b!"grant_type", scope := Scope.parse (form.get b!"scope"),
            clientID := cred.1, clientSecret := cred.2, username := form.get b!"username",
            password := form.get b!"password", refreshToken := form.get b!"refresh_token",
            redirectURI := uri, code := form.get b!"code" } : Except Error TokenRequest) = .ok t := by
    refine ⟨_, rfl, ?_⟩
    rcases hc : r.basicAuth with _ | ⟨u, p⟩
    · simp only [hc] at hp
      exact hp
    · simp only [hc] at hp
      exact hp
  rw [← hc]
  by_cases h1 : form.get b!"grant_type" = []
  · rw [if_pos h1] at hp; cases hp
  rw [if_neg h1] at hp
  by_cases h2 : cred.1 = []
  · rw [if_pos h2] at hp; cases hp
  rw [if_neg h2] at hp
  cases hu : queryUnescape (form.get b!"redirect_uri") with
  | none => rw [hu] at hp; cases hp
  | some uri =>
    rw [hu] at hp
    simp only at hp
    generalize (if uri ≠ [] then _ else true : Bool) = ok at hp
    cases ok with
    | false => simp at hp
    | true =>
      simp only [Bool.not_true, Bool.false_eq_true, if_false, Except.ok.injEq] at hp
      subst hp
      exact ⟨rfl, rfl, rfl, rfl, rfl, rfl, rfl, rfl⟩

/-- **C18.** Building the HTTP request and parsing it on the server gives back the same token
request. -/
theorem C18_token_request {uri : Str} {u : URL} (hu : parseURL uri = some u)
    (hq : (parseQuery u.rawQuery).2 = false) (t : TokenRequest)
    (hsize : (tokenRequestValues t).encode.length ≤ 10485760)
    (hg : t.grantType ≠ []) (hc : t.clientID ≠ []) (hcolon : 0x3A ∉ t.clientID)
    (hs : CleanScope t.scope)
    (hr : t.redirectURI = [] ∨ ∃ v, parseRequestURI t.redirectURI = some v) :
    ∃ r, buildTokenRequest uri t = some r ∧ parseTokenRequest r = .ok t := by
  obtain ⟨r, h1, h2, h3, -⟩ := formPost_build hu hq hsize (tokenRequestValues_nodup t) t.clientID
    t.clientSecret
  refine ⟨r, h1, ?_⟩
  have hb := h3 (Or.inl hc)
  rw [cutByte_append _ hcolon] at hb
  obtain ⟨g1, g2, g3, g4, g5, g6, g7⟩ := tokenRequestValues_get t
  have hscope : Scope.parse (if t.scope.items.length ≠ 0 then t.scope.string else []) = t.scope := by
    by_cases h : t.scope.items.length = 0
    · rw [if_neg (by simp [h])]
      cases hsc : t.scope with
      | none => decide
      | some l =>
        have := (hs l hsc).1
        rw [hsc] at h
        exact absurd (List.eq_nil_of_length_eq_zero h) this
    · rw [if_pos h, parse_string_of_clean hs]
  unfold parseTokenRequest
  rw [if_neg (by simp [h2.method]), parseForm_formPost h2]
  have hba := (basicAuth_congr (r := { r with postForm := some (parseQuery (tokenRequestValues t).encode).1, form := some (copyValues (parseQuery (tokenRequestValues t).encode).1 (parseQuery r.rawQuery).1) }) (r' := r) rfl).trans hb
  simp only [Option.getD_some, Bool.false_eq_true, if_false,
    parseQuery_encode_get (tokenRequestValues_nodup t), g1, g2, g3, g4, g5, g6, g7,
    hg, hba, hc, queryUnescape_queryEscape, hscope]
  rw [if_neg]
  rcases hr with hr | ⟨v, hv⟩
  · simp [hr]
  · simp only [hv, C17_fragment_never_seen hv]
    simp

/-- A nontrivial request that meets the hypotheses. -/
example : let t : TokenRequest := {
      grantType := b!"authorization_code", scope := some [b!"a", b!"b+c"], clientID := b!"my client",
      clientSecret := b!"s:ü%", username := b!"&=?", redirectURI := b!"https://x.com/%41+b?q=1;2",
      code := b!"c o" }
    (parseURL b!"https://host/oauth2/token?x=y").isSome ∧ CleanScope t.scope ∧
    (parseRequestURI t.redirectURI).isSome ∧
    ((buildTokenRequest b!"https://host/oauth2/token?x=y" t).map parseTokenRequest) = some (.ok t) := by
  refine ⟨by decide +kernel, ?_, by decide +kernel, by decide +kernel⟩
  exact parse_clean b!"a b+c"

/-- **C18** (finding). A colon in the client id moves the rest of the id into the secret. -/
theorem C18_colon {uri : Str} {u : URL} (hu : parseURL uri = some u)
    (hq : (parseQuery u.rawQuery).2 = false) (t : TokenRequest) {a b : Str}
    (ha : t.clientID = a ++ [0x3A] ++ b) (hcolon : 0x3A ∉ a)
    (hsize : (tokenRequestValues t).encode.length ≤ 10485760) {r : Request} {t' : TokenRequest}
    (hr : buildTokenRequest uri t = some r) (hp : parseTokenRequest r = .ok t') :
    t'.clientID = a ∧ t'.clientSecret = b ++ [0x3A] ++ t.clientSecret := by
  obtain ⟨r', h1, h2, h3, -⟩ := formPost_build hu hq hsize (tokenRequestValues_nodup t) t.clientID
    t.clientSecret
  have hr' : buildFormRequest uri (tokenRequestValues t) t.clientID t.clientSecret = some r := hr
  rw [h1] at hr'
  cases hr'
  have hb := h3 (Or.inl (by simp [ha]))
  rw [ha, List.append_assoc, List.append_assoc, List.singleton_append, cutByte_append _ hcolon] at hb
  have := (token_ok_form h2 hp).2.2.2.2.2.2.2
  rw [hb] at this
  exact ⟨congrArg (·.1) this, (congrArg (·.2) this).trans (by simp)⟩

/-! ### C19 -/

theorem hint_values {a b : Str} :
    let v : Values := (if a ≠ [] then [(b!"token", [a])] else []) ++
      (if b.length ≠ 0 then [(b!"token_type_hint", [b])] else [])
    v.keys.Nodup ∧ v.get b!"token" = a ∧ v.get b!"token_type_hint" = b := by
  refine ⟨?_, ?_, ?_⟩
  · rw [keys_append]
    exact ((keys_opt (a ≠ []) b!"token" [a]).append
      (keys_opt (b.length ≠ 0) b!"token_type_hint" [b])).nodup (by decide)
  all_goals
    simp only [Values.get_eq, Values.all, get?_append, get?_opt]
    simp (decide := true) only [true_and, false_and, if_false, Option.none_or, Option.or_none]
  · by_cases h : a = [] <;> simp [h]
  · by_cases h : b = []
    · subst h; rfl
    · simp [h]

/-- **C19.** Building and parsing an introspection request gives back the same request. -/
theorem C19_introspection_request {uri : Str} {u : URL} (hu : parseURL uri = some u)
    (hq : (parseQuery u.rawQuery).2 = false) (q : IntrospectionRequest)
    (hsize : (introspectionRequestValues q).encode.length ≤ 10485760)
    (ht : q.token ≠ []) (hc : q.clientID ≠ [] ∨ q.clientSecret ≠ []) (hcolon : 0x3A ∉ q.clientID) :
    ∃ r, buildIntrospectionRequest uri q = some r ∧ parseIntrospectionRequest r = .ok q := by
  have hv := @hint_values q.token q.tokenTypeHint
  obtain ⟨r, h1, h2, h3, -⟩ := formPost_build hu hq hsize hv.1 q.clientID q.clientSecret
  refine ⟨r, h1, ?_⟩
  have hb := h3 hc
  rw [cutByte_append _ hcolon] at hb
  unfold parseIntrospectionRequest
  rw [if_neg (by simp [h2.method]), parseForm_formPost h2]
  have hba := (basicAuth_congr (r := { r with postForm := some (parseQuery (introspectionRequestValues q).encode).1, form := some (copyValues (parseQuery (introspectionRequestValues q).encode).1 (parseQuery r.rawQuery).1) }) (r' := r) rfl).trans hb
  have e1 : (parseQuery (introspectionRequestValues q).encode).1.get b!"token" = q.token := (parseQuery_encode_get hv.1 b!"token").trans hv.2.1
  have e2 : (parseQuery (introspectionRequestValues q).encode).1.get b!"token_type_hint" = q.tokenTypeHint :=
    (parseQuery_encode_get hv.1 b!"token_type_hint").trans hv.2.2
  simp only [Option.getD_some, Bool.false_eq_true, if_false, hba]
  rw [e1, e2, if_neg ht]

/-- **C19.** Building and parsing a revocation request gives back the same request. -/
theorem C19_revocation_request {uri : Str} {u : URL} (hu : parseURL uri = some u)
    (hq : (parseQuery u.rawQuery).2 = false) (q : RevocationRequest)
    (hsize : (revocationRequestValues q).encode.length ≤ 10485760)
    (ht : q.token ≠ []) (hc : q.clientID ≠ [] ∨ q.clientSecret ≠ []) (hcolon : 0x3A ∉ q.clientID) :
    ∃ r, buildRevocationRequest uri q = some r ∧ parseRevocationRequest r = .ok q := by
  have hv := @hint_values q.token q.tokenTypeHint
  obtain ⟨r, h1, h2, h3, -⟩ := formPost_build hu hq hsize hv.1 q.clientID q.clientSecret
  refine ⟨r, h1, ?_⟩
  have hb := h3 hc
  rw [cutByte_append _ hcolon] at hb
  unfold parseRevocationRequest
  rw [if_neg (by simp [h2.method]), parseForm_formPost h2]
  have hba := (basicAuth_congr (r := { r with postForm := some (parseQuery (revocationRequestValues q).encode).1, form := some (copyValues (parseQuery (revocationRequestValues q).encode).1 (parseQuery r.rawQuery).1) }) (r' := r) rfl).trans hb
  have e1 : (parseQuery (revocationRequestValues q).encode).1.get b!"token" = q.token := (parseQuery_encode_get hv.1 b!"token").trans hv.2.1
  have e2 : (parseQuery (revocationRequestValues q).encode).1.get b!"token_type_hint" = q.tokenTypeHint :=
    (parseQuery_encode_get hv.1 b!"token_type_hint").trans hv.2.2
  simp only [Option.getD_some, Bool.false_eq_true, if_false, hba]
  rw [e1, e2, if_neg ht]

example : let q : RevocationRequest := {
      token := b!"a+b.c&d", tokenTypeHint := b!"access_token", clientID := b!"", clientSecret := b!":x" }
    (buildRevocationRequest b!"http://h/revoke" q).map parseRevocationRequest = some (.ok q) := by
  decide +kernel

/-! ### C20 -/

theorem unescape_literal {s : Str} (h : 0x25 ∉ s ∧ 0x2B ∉ s) : queryUnescape s = some s := by
  unfold queryUnescape
  induction s with
  | nil => rfl
  | cons c s ih =>
    simp only [List.mem_cons, not_or] at h
    rw [unescape_plain s (fun e => h.1.1 e.symm) (fun e => h.2.1 e.symm) (by decide) (by decide),
      ih ⟨h.1.2, h.2.2⟩]
    rfl

theorem unescape_length (s : Str) : ∀ t, unescape .queryComponent s = some t →
    t.length ≤ s.length ∧ (0x25 ∈ s → t.length < s.length) := by
  induction s using unescape.induct (mode := .queryComponent) with
  | case1 => intro t h; simp [unescape] at h; subst h; simp
  | _ =>
    intro t h
    rw [unescape.eq_def] at h
    simp_all
    try (obtain ⟨u, hu, rfl⟩ := h; grind)

theorem unescape_fixed {s : Str} (h : queryUnescape s = some s) : 0x25 ∉ s ∧ 0x2B ∉ s := by
  have h25 : 0x25 ∉ s := fun hm => by
    have := (unescape_length _ _ h).2 hm
    omega
  refine ⟨h25, ?_⟩
  unfold queryUnescape at h
  induction s with
  | nil => simp
  | cons c s ih =>
    simp only [List.mem_cons, not_or] at h25
    have hc : c ≠ 0x25 := fun e => h25.1 e.symm
    rw [unescape.eq_def] at h
    simp only [hc, if_false] at h
    split at h
    · simp only [if_true, Option.map_eq_some_iff, List.cons.injEq] at h
      obtain ⟨u, _, h', _⟩ := h
      rename_i e _ _
      rw [e] at h'
      exact absurd h' (by decide)
    · rename_i hp
      simp at h
      simp only [List.mem_cons, not_or]
      exact ⟨fun e => hp e.symm, ih h h25.2⟩

/-- **C20** (finding). The redirect URI of a form is decoded a second time, which changes it. -/
theorem C20_refuted : ∃ (r : Request) (form : Values) (t : TokenRequest), FormPost r form ∧
    parseTokenRequest r = .ok t ∧ t.redirectURI ≠ form.get b!"redirect_uri" := by
  refine ⟨{
      method := b!"POST",
      header := [(b!"Content-Type", [b!"application/x-www-form-urlencoded"])],
      body := some b!"grant_type=authorization_code&client_id=c&redirect_uri=https%3A%2F%2Fx.com%2Fa%2520b" },
    [(b!"redirect_uri", [b!"https://x.com/a%20b"]), (b!"client_id", [b!"c"]),
      (b!"grant_type", [b!"authorization_code"])],
    { grantType := b!"authorization_code", clientID := b!"c", redirectURI := b!"https://x.com/a b" },
    ⟨rfl, ⟨rfl, rfl⟩, by decide +kernel, ⟨_, rfl, rfl, by decide, by decide +kernel⟩, by decide +kernel⟩,
    by decide +kernel, by decide +kernel⟩

/-- **C20**, for redirect URIs without `%` and `+` (missing: URIs with these bytes, see
`C20_refuted`). The redirect URI of a token request is the one in the form. -/
theorem C20_token_redirect_partial {r : Request} {form : Values} (h : FormPost r form)
    {t : TokenRequest} (hp : parseTokenRequest r = .ok t)
    (hb : 0x25 ∉ form.get b!"redirect_uri" ∧ 0x2B ∉ form.get b!"redirect_uri") :
    t.redirectURI = form.get b!"redirect_uri" := by
  have := (token_ok_form h hp).2.2.2.2.2.2.1
  rw [unescape_literal hb] at this
  exact (Option.some.inj this).symm

/-- **C20**, the extent of the finding. A redirect URI that is put into a form as it is, is changed
exactly when it contains `%` or `+`. -/
theorem C20_token_redirect_iff {r : Request} {form : Values} (h : FormPost r form)
    {t : TokenRequest} (hp : parseTokenRequest r = .ok t) :
    t.redirectURI = form.get b!"redirect_uri" ↔
      0x25 ∉ form.get b!"redirect_uri" ∧ 0x2B ∉ form.get b!"redirect_uri" :=
  ⟨fun e => unescape_fixed (e ▸ (token_ok_form h hp).2.2.2.2.2.2.1),
    C20_token_redirect_partial h hp⟩

/-- **C20.** If the client encodes the URI before putting it into the form, as this library's
client does, the server sees the URI itself. -/
theorem C20_token_redirect_encoded {r : Request} {form : Values} (h : FormPost r form)
    {t : TokenRequest} (hp : parseTokenRequest r = .ok t) {uri : Str}
    (hb : form.get b!"redirect_uri" = queryEscape uri) : t.redirectURI = uri := by
  have := (token_ok_form h hp).2.2.2.2.2.2.1
  rw [hb, queryUnescape_queryEscape] at this
  exact (Option.some.inj this).symm

theorem auth_ok_form {r : Request} {q : AuthorizationRequest}
    (hp : parseAuthorizationRequest r = .ok q) :
    (r.method = b!"GET" ∨ r.method = b!"POST") ∧ r.parseForm.2 = false ∧
    q.responseType = (r.parseForm.1.form.getD []).get b!"response_type" ∧
    q.scope = Scope.parse ((r.parseForm.1.form.getD []).get b!"scope") ∧
    q.clientID = (r.parseForm.1.form.getD []).get b!"client_id" ∧
    q.state = (r.parseForm.1.form.getD []).get b!"state" ∧
    queryUnescape ((r.parseForm.1.form.getD []).get b!"redirect_uri") = some q.redirectURI := by
  unfold parseAuthorizationRequest at hp
  split at hp
  · cases hp
  rename_i hm
  simp only at hp
  split at hp
  · cases hp
  rename_i hf
  split at hp
  · cases hp
  split at hp
  · cases hp
  split at hp
  · cases hp
  rename_i hu
  split at hp
  · cases hp
  split at hp
  · cases hp
  split at hp
  · cases hp
  cases hp
  refine ⟨?_, by simpa using hf, rfl, rfl, rfl, rfl, hu⟩
  by_cases h : r.method = b!"GET"
  · exact Or.inl h
  · exact Or.inr (Decidable.byContradiction fun h' => hm ⟨h, h'⟩)

/-! ### C21 -/

theorem lowerByte_basic : ∀ b ∈ b!"basic", ∀ n : Fin 256,
    (lowerByte (UInt8.ofNat n.val) = b ↔ (UInt8.ofNat n.val = b ∨ UInt8.ofNat n.val + 32 = b)) := by
  decide +kernel

theorem equalFold_basic (s word : Str) (hw : ∀ b ∈ word, b ∈ b!"basic") :
    s.map lowerByte = word ↔ AnyCase s word := by
  induction word generalizing s with
  | nil => cases s <;> simp [AnyCase]
  | cons b word ih =>
    cases s with
    | nil => simp [AnyCase]
    | cons a s =>
      simp only [List.map_cons, List.cons.injEq, AnyCase]
      rw [ih s fun x hx => hw x (List.mem_cons_of_mem _ hx)]
      have := forall_u8 (P := fun a => lowerByte a = b ↔ (a = b ∨ a + 32 = b))
        (lowerByte_basic b (hw b (by simp))) a
      rw [this]

theorem lowerByte_space : ∀ a : UInt8, lowerByte a = 0x20 ↔ a = 0x20 := by
  apply forall_u8; decide +kernel

theorem basicAuth_iff (r : Request) (u p : Str) :
    r.basicAuth = some (u, p) ↔ NamesUser (r.header.get b!"Authorization") u p := by
  unfold Request.basicAuth NamesUser
  generalize r.header.get b!"Authorization" = h
  have hf : ∀ h : Str, equalFold h b!"Basic " = true ↔ ∃ word, h = word ++ [0x20] ∧ AnyCase word b!"basic" := by
    intro h
    unfold equalFold
    rw [decide_eq_true_iff]
    have e : b!"Basic ".map lowerByte = b!"basic" ++ [0x20] := by decide
    rw [e]
    constructor
    · intro hh
      obtain ⟨w, t, rfl, h1, h2⟩ := List.map_eq_append_iff.mp hh
      cases t with
      | nil => simp at h2
      | cons x t =>
        simp only [List.map_cons, List.cons.injEq, List.map_eq_nil_iff] at h2
        obtain ⟨h2, rfl⟩ := h2
        refine ⟨w, by rw [(lowerByte_space x).mp h2], (equalFold_basic w _ fun _ h => h).mp h1⟩
    · rintro ⟨w, rfl, hw⟩
      rw [List.map_append, (equalFold_basic w _ fun _ h => h).mpr hw]
      rfl
  constructor
  · intro hh
    simp only at hh
    split at hh
    · cases hh
    unfold parseBasicAuth at hh
    split at hh
    · cases hh
    split at hh
    · cases hh
    rename_i _ hpre
    obtain ⟨w, hw, ha⟩ := (hf _).mp (by simpa using hpre)
    cases hd : b64StdDecode (h.drop 6) with
    | none => rw [hd] at hh; cases hh
    | some d =>
      rw [hd] at hh
      have hc := (cutByte_some_iff 0x3A d u p).mp hh
      refine ⟨w, h.drop 6, ?_, ha, ?_, hc.2⟩
      · rw [← hw, List.take_append_drop]
      · rw [hd, hc.1]
        simp
  · rintro ⟨w, text, rfl, ha, hd, hu⟩
    have hwl : w.length = 5 := anyCase_length ha
    have e1 : (w ++ [0x20] ++ text).take 6 = w ++ [0x20] := List.take_left' (by simp [hwl])
    have e2 : (w ++ [0x20] ++ text).drop 6 = text := List.drop_left' (by simp [hwl])
    simp only
    rw [if_neg (by simp)]
    unfold parseBasicAuth
    rw [if_neg (by simp; omega), e1, e2, if_neg (by rw [(hf _).mpr ⟨w, rfl, ha⟩]; simp), hd]
    simp only [Option.bind_eq_bind, Option.bind_some]
    rw [cutByte_some_iff]
    exact ⟨by simp, hu⟩

/-- **C21.** If the request has a basic authorization header, client id and secret are the ones it
names. -/
theorem C21_header_wins {r : Request} {form : Values} (h : FormPost r form) {t : TokenRequest}
    (hp : parseTokenRequest r = .ok t) {u p : Str}
    (hn : NamesUser (r.header.get b!"Authorization") u p) :
    t.clientID = u ∧ t.clientSecret = p := by
  have := (token_ok_form h hp).2.2.2.2.2.2.2
  rw [(basicAuth_iff r u p).mpr hn] at this
  exact ⟨congrArg (·.1) this, congrArg (·.2) this⟩

/-- **C21.** Otherwise both come from the body. -/
theorem C21_body_otherwise {r : Request} {form : Values} (h : FormPost r form) {t : TokenRequest}
    (hp : parseTokenRequest r = .ok t)
    (hn : ¬ ∃ u p, NamesUser (r.header.get b!"Authorization") u p) :
    t.clientID = form.get b!"client_id" ∧ t.clientSecret = form.get b!"client_secret" := by
  have hb := (token_ok_form h hp).2.2.2.2.2.2.2
  have : r.basicAuth = none := by
    cases hc : r.basicAuth with
    | none => rfl
    | some up => exact absurd ⟨up.1, up.2, (basicAuth_iff r up.1 up.2).mp hc⟩ hn
  rw [this] at hb
  exact ⟨congrArg (·.1) hb, congrArg (·.2) hb⟩

/-- **C21.** With a basic authorization header, the fields `client_id` and `client_secret` of the
body have no influence on the result, error or not. -/
theorem C21_body_ignored {r r' : Request} {form form' : Values} (h : FormPost r form)
    (h' : FormPost r' form') (hh : r.header = r'.header) {u p : Str}
    (hn : NamesUser (r.header.get b!"Authorization") u p)
    (hsame : ∀ k, k ≠ b!"client_id" → k ≠ b!"client_secret" → form.get k = form'.get k) :
    parseTokenRequest r = parseTokenRequest r' := by
  have hb : r.basicAuth = some (u, p) := (basicAuth_iff r u p).mpr hn
  have hb' : r'.basicAuth = some (u, p) := (basicAuth_congr hh).symm.trans hb
  unfold parseTokenRequest
  rw [if_neg (by simp [h.method]), if_neg (by simp [h'.method]), parseForm_formPost h,
    parseForm_formPost h']
  have hba := (basicAuth_congr (r := { r with postForm := some form, form := some (copyValues form (parseQuery r.rawQuery).1) }) (r' := r) rfl).trans hb
  have hba' := (basicAuth_congr (r := { r' with postForm := some form', form := some (copyValues form' (parseQuery r'.rawQuery).1) }) (r' := r') rfl).trans hb'
  simp only [Option.getD_some, Bool.false_eq_true, if_false, hba, hba']
  rw [hsame b!"grant_type" (by decide) (by decide), hsame b!"scope" (by decide) (by decide),
    hsame b!"username" (by decide) (by decide), hsame b!"password" (by decide) (by decide),
    hsame b!"refresh_token" (by decide) (by decide), hsame b!"redirect_uri" (by decide) (by decide),
    hsame b!"code" (by decide) (by decide)]

example : NamesUser b!"bASIC YTpiOmM=" b!"a" b!"b:c" :=
  ⟨b!"bASIC", b!"YTpiOmM=", by decide, by simp only [AnyCase]; decide, by decide +kernel, by decide⟩

/-- A request that meets the hypotheses of the theorems above, with different credentials in
header and body. -/
example : ∃ (r : Request) (form : Values) (t : TokenRequest), FormPost r form ∧
    parseTokenRequest r = .ok t ∧ form.get b!"client_id" = b!"x" ∧ t.clientID = b!"a" ∧
    t.clientSecret = b!"b:c" := by
  refine ⟨{
      method := b!"POST",
      header := [(b!"Content-Type", [b!"application/x-www-form-urlencoded"]),
        (b!"Authorization", [b!"Basic YTpiOmM="])],
      body := some b!"grant_type=password&client_id=x&client_secret=y" },
    [(b!"client_secret", [b!"y"]), (b!"client_id", [b!"x"]), (b!"grant_type", [b!"password"])],
    { grantType := b!"password", clientID := b!"a", clientSecret := b!"b:c" },
    ⟨rfl, ⟨rfl, rfl⟩, by decide +kernel, ⟨_, rfl, rfl, by decide, by decide +kernel⟩, by decide +kernel⟩,
    by decide +kernel, by decide +kernel, rfl, rfl⟩

/-! ### C22 -/

theorem parseForm_query (r : Request) (hf : r.form = none) {q q' : Str}
    (hq : (parseQuery q).2 = false) (hq' : (parseQuery q').2 = false) :
    ({ r with rawQuery := q } : Request).parseForm.2 = ({ r with rawQuery := q' } : Request).parseForm.2 ∧
    ({ r with rawQuery := q } : Request).parseForm.1.postForm =
      ({ r with rawQuery := q' } : Request).parseForm.1.postForm ∧
    ({ r with rawQuery := q } : Request).parseForm.1.header = r.header := by
  unfold Request.parseForm
  simp only [hf, hq, hq', Bool.or_false, and_true]
  exact ⟨rfl, rfl⟩

/-- **C22.** The query has no influence on a token request. -/
theorem C22_token_query (r : Request) (hf : r.form = none) {q q' : Str}
    (hq : (parseQuery q).2 = false) (hq' : (parseQuery q').2 = false) :
    parseTokenRequest { r with rawQuery := q } = parseTokenRequest { r with rawQuery := q' } := by
  obtain ⟨h1, h2, h3⟩ := parseForm_query r hf hq hq'
  obtain ⟨-, -, h4⟩ := parseForm_query r hf hq' hq
  have hb := (basicAuth_congr (h3.trans h4.symm) :
    ({ r with rawQuery := q } : Request).parseForm.1.basicAuth = ({ r with rawQuery := q' } : Request).parseForm.1.basicAuth)
  unfold parseTokenRequest
  simp only [h1, h2, hb]

/-- **C22.** The query has no influence on an introspection request. -/
theorem C22_introspection_query (r : Request) (hf : r.form = none) {q q' : Str}
    (hq : (parseQuery q).2 = false) (hq' : (parseQuery q').2 = false) :
    parseIntrospectionRequest { r with rawQuery := q } =
      parseIntrospectionRequest { r with rawQuery := q' } := by
  obtain ⟨h1, h2, h3⟩ := parseForm_query r hf hq hq'
  obtain ⟨-, -, h4⟩ := parseForm_query r hf hq' hq
  have hb := (basicAuth_congr (h3.trans h4.symm) :
    ({ r with rawQuery := q } : Request).parseForm.1.basicAuth = ({ r with rawQuery := q' } : Request).parseForm.1.basicAuth)
  unfold parseIntrospectionRequest
  simp only [h1, h2, hb]

/-- **C22.** The query has no influence on a revocation request. -/
theorem C22_revocation_query (r : Request) (hf : r.form = none) {q q' : Str}
    (hq : (parseQuery q).2 = false) (hq' : (parseQuery q').2 = false) :
    parseRevocationRequest { r with rawQuery := q } =
      parseRevocationRequest { r with rawQuery := q' } := by
  obtain ⟨h1, h2, h3⟩ := parseForm_query r hf hq hq'
  obtain ⟨-, -, h4⟩ := parseForm_query r hf hq' hq
  have hb := (basicAuth_congr (h3.trans h4.symm) :
    ({ r with rawQuery := q } : Request).parseForm.1.basicAuth = ({ r with rawQuery := q' } : Request).parseForm.1.basicAuth)
  unfold parseRevocationRequest
  simp only [h1, h2, hb]

end OAuth2

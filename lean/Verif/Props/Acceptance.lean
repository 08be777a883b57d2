import Verif.Props.Endpoints
import Verif.Spec.Accept

/-!
C52: exactly which requests are accepted, and what is read from them.
-/

namespace OAuth2

open Spec

set_option linter.unusedSimpArgs false

/-! ### Forms -/

/-- A POST request that is parsed without error has a form, or no post values at all. -/
theorem parseForm_ok {r : Request} (hp : r.postForm = none) (hf : r.form = none)
    (hm : r.method = b!"POST") (h : r.parseForm.2 = false) :
    (∃ form, FormPost r form) ∨
      (r.parseForm.1.postForm = some [] ∧ (parseQuery r.rawQuery).2 = false ∧
        ∃ data mt, r.body = some data ∧ (r.header.get b!"Content-Type" = [] ∨
          parseMediaType (r.header.get b!"Content-Type") = (mt, false) ∧
          mt ≠ b!"application/x-www-form-urlencoded")) := by
  unfold Request.parseForm at h ⊢
  simp only [hp, hf, hm, true_or, if_true, Bool.or_eq_false_iff] at h ⊢
  obtain ⟨h1, h2⟩ := h
  unfold parsePostForm at h1 ⊢
  cases hb : r.body with
  | none => simp [hb] at h1
  | some data =>
    simp only [hb] at h1 ⊢
    by_cases hct : r.header.get b!"Content-Type" = []
    · right
      simp only [hct, if_true] at h1 ⊢
      have e1 : (parseMediaType b!"application/octet-stream").1 ≠
        b!"application/x-www-form-urlencoded" := by decide +kernel
      simp only [e1, if_false] at h1 ⊢
      exact ⟨rfl, h2, _, [], rfl, .inl trivial⟩
    · simp only [hct, if_false] at h1 ⊢
      by_cases hmt : (parseMediaType (r.header.get b!"Content-Type")).1 =
          b!"application/x-www-form-urlencoded"
      · left
        simp only [hmt, if_true] at h1
        split at h1
        · simp at h1
        rename_i h3
        split at h1
        · simp at h1
        rename_i h4
        simp only [Bool.or_eq_false_iff] at h1
        refine ⟨(parseQuery data).1, hm, ⟨hp, hf⟩, Prod.ext hmt h1.1,
          ⟨data, hb, ?_, Nat.le_of_not_lt h4, Prod.ext rfl h1.2⟩, h2⟩
        cases hbe : r.bodyErr with
        | false => rfl
        | true =>
          rw [hbe] at h3
          simp only [Bool.true_and, decide_eq_true_eq] at h3
          omega
      · right
        simp only [hmt, if_false] at h1 ⊢
        exact ⟨rfl, h2, _, (parseMediaType (r.header.get b!"Content-Type")).1, rfl,
          .inr ⟨Prod.ext rfl h1, hmt⟩⟩

/-- The converse. -/
theorem parseForm_other {r : Request} (hp : r.postForm = none) (hf : r.form = none)
    (hm : r.method = b!"POST") (h2 : (parseQuery r.rawQuery).2 = false) {data mt : Str}
    (hb : r.body = some data) (hct : r.header.get b!"Content-Type" = [] ∨
      parseMediaType (r.header.get b!"Content-Type") = (mt, false) ∧
      mt ≠ b!"application/x-www-form-urlencoded") :
    r.parseForm.2 = false ∧ r.parseForm.1.postForm = some [] := by
  have hpf : parsePostForm r = (none, false) := by
    unfold parsePostForm
    simp only [hb]
    by_cases hct' : r.header.get b!"Content-Type" = []
    · simp only [hct', if_true]
      have e1 : (parseMediaType b!"application/octet-stream").1 ≠
        b!"application/x-www-form-urlencoded" := by decide +kernel
      have e2 : (parseMediaType b!"application/octet-stream").2 = false := by decide +kernel
      simp only [e1, if_false, e2]
    · obtain ⟨h3, h4⟩ := hct.resolve_left hct'
      simp only [hct', if_false, h3, h4]
  unfold Request.parseForm
  simp only [hp, hf, hm, true_or, if_true, hpf, h2, Bool.or_self, Option.getD_none, and_self]

theorem credentials_iff {r : Request} {form : Values} {id secret : Str} :
    Credentials r form id secret ↔
      (id, secret) = (r.basicAuth).getD (form.get b!"client_id", form.get b!"client_secret") := by
  constructor
  · rintro (h | h)
    · rw [(basicAuth_iff r id secret).mpr h]; rfl
    · have : r.basicAuth = none := by
        cases hc : r.basicAuth with
        | none => rfl
        | some up => exact absurd ⟨up.1, up.2, (basicAuth_iff r up.1 up.2).mp hc⟩ h
      rw [this]; rfl
  · intro h
    cases hc : r.basicAuth with
    | none =>
      rw [hc] at h
      simp only [Option.getD_none, Prod.mk.injEq] at h
      rw [h.1, h.2]
      refine .form ?_
      rintro ⟨u, p, hn⟩
      rw [(basicAuth_iff r u p).mpr hn] at hc
      cases hc
    | some up =>
      rw [hc] at h
      simp only [Option.getD_some] at h
      subst h
      exact .header ((basicAuth_iff r _ _).mp hc)

/-! ### C52 -/

/-- **C52.** A token request is accepted exactly if it is a POST request with a form that has a
grant type, names a client, and has no redirect URI or one that names a target; and then it has
exactly these fields. -/
theorem C52_token_accepted {r : Request} (hfresh : r.postForm = none ∧ r.form = none)
    (t : TokenRequest) :
    parseTokenRequest r = .ok t ↔ ∃ form, FormPost r form ∧
      t.grantType = form.get b!"grant_type" ∧ t.grantType ≠ [] ∧
      Credentials r form t.clientID t.clientSecret ∧ t.clientID ≠ [] ∧
      t.scope = Scope.parse (form.get b!"scope") ∧
      t.username = form.get b!"username" ∧ t.password = form.get b!"password" ∧
      t.refreshToken = form.get b!"refresh_token" ∧ t.code = form.get b!"code" ∧
      queryUnescape (form.get b!"redirect_uri") = some t.redirectURI ∧
      (t.redirectURI = [] ∨ Target t.redirectURI) := by
  constructor
  · intro hp
    have hm : r.method = b!"POST" := by
      apply Decidable.byContradiction
      intro h
      unfold parseTokenRequest at hp
      rw [if_pos h] at hp
      cases hp
    have herr : r.parseForm.2 = false := by
      cases h : r.parseForm.2 with
      | false => rfl
      | true =>
        unfold parseTokenRequest at hp
        rw [if_neg (by simp [hm])] at hp
        simp only [h, if_true] at hp
        cases hp
    obtain ⟨form, hform⟩ : ∃ form, FormPost r form := by
      rcases parseForm_ok hfresh.1 hfresh.2 hm herr with h | ⟨h, _⟩
      · exact h
      · unfold parseTokenRequest at hp
        rw [if_neg (by simp [hm])] at hp
        simp only [herr, Bool.false_eq_true, if_false, h, Option.getD_some] at hp
        rw [if_pos (by rfl)] at hp
        cases hp
    obtain ⟨h1, h2, h3, h4, h5, h6, h7, h8⟩ := token_ok_form hform hp
    refine ⟨form, hform, h1, ?_, credentials_iff.mpr h8, ?_, h2, h3, h4, h5, h6, h7, ?_⟩
    all_goals
      unfold parseTokenRequest at hp
      rw [if_neg (by simp [hm]), parseForm_formPost hform] at hp
      have hba := basicAuth_congr (r := { r with postForm := some form, form := some (copyValues form (parseQuery r.rawQuery).1) }) (r' := r) rfl
      simp only [Option.getD_some, Bool.false_eq_true, if_false, hba] at hp
      split at hp
      · cases hp
      rename_i hg
    · rw [h1]; exact hg
    · intro hid
      rw [hid] at h8
      rcases hc : r.basicAuth with _ | ⟨u, p⟩
      · rw [hc] at h8 hp
        simp only [Option.getD_none, Prod.mk.injEq] at h8
        simp only [← h8.1, if_true] at hp
        cases hp
      · rw [hc] at h8 hp
        simp only [Option.getD_some, Prod.mk.injEq] at h8
        simp only [← h8.1, if_true] at hp
        cases hp
    · by_cases hr : t.redirectURI = []
      · exact .inl hr
      right
      cases hu : parseRequestURI t.redirectURI with
      | some u => exact ⟨u, hu⟩
      | none =>
        simp only [h7, hr, ne_eq, not_false_eq_true, if_true, hu, Bool.not_false] at hp
        repeat' split at hp
        all_goals cases hp
  · rintro ⟨form, hform, h1, h1', h2, h2', h3, h4, h5, h6, h7, h8, h9⟩
    unfold parseTokenRequest
    rw [if_neg (by simp [hform.method]), parseForm_formPost hform]
    have hba := basicAuth_congr (r := { r with postForm := some form, form := some (copyValues form (parseQuery r.rawQuery).1) }) (r' := r) rfl
    simp only [Option.getD_some, Bool.false_eq_true, if_false, hba]
    have hcred := credentials_iff.mp h2
    rw [if_neg (by rw [← h1]; exact h1')]
    rcases hc : r.basicAuth with _ | ⟨u, p⟩
    all_goals
      rw [hc] at hcred
      simp only [Option.getD_none, Option.getD_some, Prod.mk.injEq] at hcred
      simp only [← hcred.1, ← hcred.2]
      rw [if_neg h2']
      simp only [h8]
      rw [if_neg (by
        rcases h9 with h9 | ⟨u, hu⟩
        · simp [h9]
        · simp [hu, C17_fragment_never_seen hu]), ← h1, ← h3, ← h4, ← h5, ← h6, ← h7]

/-- The part of `ParseIntrospectionRequest` and `ParseRevocationRequest` that is the same. -/
theorem hinted_accepted {α : Type} {r : Request} (hfresh : r.postForm = none ∧ r.form = none)
    (mk : Str → Str → Str → Str → α) (x : α) {res : Except Error α}
    (hres : res = (if r.method ≠ b!"POST" then .error (invalidRequest b!"invalid HTTP method")
      else if r.parseForm.2 then .error (invalidRequest b!"malformed query parameters or body form")
      else if ((r.parseForm.1.postForm.getD [] : Values).get b!"token") = [] then
        .error (invalidRequest b!"missing token")
      else match r.parseForm.1.basicAuth with
        | none => .error (invalidRequest b!"missing or invalid HTTP authorization header")
        | some (u, p) => .ok (mk ((r.parseForm.1.postForm.getD [] : Values).get b!"token")
            ((r.parseForm.1.postForm.getD [] : Values).get b!"token_type_hint") u p))) :
    res = .ok x ↔ ∃ form u p, FormPost r form ∧ form.get b!"token" ≠ [] ∧
      NamesUser (r.header.get b!"Authorization") u p ∧
      x = mk (form.get b!"token") (form.get b!"token_type_hint") u p := by
  have hpf : r.parseForm.1.header = r.header := by
    unfold Request.parseForm
    cases r.form <;> rfl
  rw [hres]
  constructor
  · intro hp
    split at hp
    · cases hp
    rename_i hm
    have hm : r.method = b!"POST" := by simpa using hm
    split at hp
    · cases hp
    rename_i herr
    have herr : r.parseForm.2 = false := by simpa using herr
    split at hp
    · cases hp
    rename_i htok
    obtain ⟨form, hform⟩ : ∃ form, FormPost r form := by
      rcases parseForm_ok hfresh.1 hfresh.2 hm herr with h | ⟨h, _⟩
      · exact h
      · rw [h] at htok
        exact absurd rfl htok
    rw [basicAuth_congr hpf] at hp
    rw [parseForm_formPost hform] at hp htok
    simp only [Option.getD_some] at hp htok
    rcases hc : r.basicAuth with _ | ⟨u, p⟩
    · rw [hc] at hp; cases hp
    · rw [hc] at hp
      simp only [Except.ok.injEq] at hp
      exact ⟨form, u, p, hform, htok, (basicAuth_iff r u p).mp hc, hp.symm⟩
  · rintro ⟨form, u, p, hform, h1, h2, rfl⟩
    rw [if_neg (by simp [hform.method]), basicAuth_congr hpf, parseForm_formPost hform]
    simp only [Option.getD_some, Bool.false_eq_true, if_false, h1, (basicAuth_iff r u p).mpr h2]

/-- **C52.** An introspection request is accepted exactly if it is a POST request with a form that
has a token, and a readable basic authorization header; and then it has exactly these fields. -/
theorem C52_introspection_accepted {r : Request} (hfresh : r.postForm = none ∧ r.form = none)
    (q : IntrospectionRequest) :
    parseIntrospectionRequest r = .ok q ↔ ∃ form, FormPost r form ∧
      q.token = form.get b!"token" ∧ q.token ≠ [] ∧
      q.tokenTypeHint = form.get b!"token_type_hint" ∧
      NamesUser (r.header.get b!"Authorization") q.clientID q.clientSecret := by
  have key := hinted_accepted hfresh (fun a b c d => IntrospectionRequest.mk a b c d) q
    (res := parseIntrospectionRequest r) rfl
  rw [key]
  constructor
  · rintro ⟨form, u, p, h1, h2, h3, rfl⟩
    exact ⟨form, h1, rfl, h2, rfl, h3⟩
  · rintro ⟨form, h1, h2, h3, h4, h5⟩
    exact ⟨form, _, _, h1, by rw [← h2]; exact h3, h5, by cases q; simp_all⟩

/-- **C52.** The same for revocation requests. -/
theorem C52_revocation_accepted {r : Request} (hfresh : r.postForm = none ∧ r.form = none)
    (q : RevocationRequest) :
    parseRevocationRequest r = .ok q ↔ ∃ form, FormPost r form ∧
      q.token = form.get b!"token" ∧ q.token ≠ [] ∧
      q.tokenTypeHint = form.get b!"token_type_hint" ∧
      NamesUser (r.header.get b!"Authorization") q.clientID q.clientSecret := by
  have key := hinted_accepted hfresh (fun a b c d => RevocationRequest.mk a b c d) q
    (res := parseRevocationRequest r) rfl
  rw [key]
  constructor
  · rintro ⟨form, u, p, h1, h2, h3, rfl⟩
    exact ⟨form, h1, rfl, h2, rfl, h3⟩
  · rintro ⟨form, h1, h2, h3, h4, h5⟩
    exact ⟨form, _, _, h1, by rw [← h2]; exact h3, h5, by cases q; simp_all⟩

theorem submits_iff {r : Request} (hfresh : r.postForm = none ∧ r.form = none)
    (all : Str → List Str) :
    Submits r all ↔ (r.method = b!"GET" ∨ r.method = b!"POST") ∧ r.parseForm.2 = false ∧
      ∀ k, all k = (r.parseForm.1.form.getD []).all k := by
  have hform : ∀ k, (r.parseForm.1.form.getD []).all k =
      (r.parseForm.1.postForm.getD []).all k ++ (parseQuery r.rawQuery).1.all k := by
    intro k
    rw [parseForm_form r hfresh.2, Option.getD_some, copyValues_all _ (parseQuery_nodup _)]
  have hget : r.method = b!"GET" → r.parseForm.2 = (parseQuery r.rawQuery).2 ∧
      r.parseForm.1.postForm = some [] := by
    intro h
    unfold Request.parseForm
    simp only [hfresh.1, hfresh.2, h]
    exact ⟨rfl, rfl⟩
  constructor
  · intro h
    cases h with
    | get h1 h2 =>
      refine ⟨.inl h1, by rw [(hget h1).1]; exact h2, fun k => ?_⟩
      rw [hform, (hget h1).2]
      simp [Values.all, GoMap.get?_nil]
    | form h1 =>
      refine ⟨.inr h1.method, by rw [parseForm_formPost h1], fun k => ?_⟩
      rw [hform, parseForm_formPost h1]
      rfl
    | other h1 h2 h3 h4 =>
      obtain ⟨h5, h6⟩ := parseForm_other hfresh.1 hfresh.2 h1 h4 h2 h3
      refine ⟨.inr h1, h5, fun k => ?_⟩
      rw [hform, h6]
      simp [Values.all, GoMap.get?_nil]
  · rintro ⟨hm, herr, hall⟩
    have : all = fun k => (r.parseForm.1.postForm.getD []).all k ++ (parseQuery r.rawQuery).1.all k := by
      funext k; rw [hall, hform]
    subst this
    rcases hm with hm | hm
    · have := Submits.get hm (by rw [← (hget hm).1]; exact herr)
      rw [(hget hm).2]
      exact this
    · rcases parseForm_ok hfresh.1 hfresh.2 hm herr with ⟨form, h⟩ | ⟨h1, h2, data, mt, h3, h4⟩
      · have := Submits.form h
        rw [parseForm_formPost h]
        exact this
      · have := Submits.other hm h3 h4 h2
        rw [h1]
        exact this

/-- **C52.** An authorization request is accepted exactly if it is a GET or POST request whose
parameters have a response type, a client id and a redirect URI that names a target; and then it
has exactly these fields, each the first value of its parameter. -/
theorem C52_authorization_accepted {r : Request} (hfresh : r.postForm = none ∧ r.form = none)
    (q : AuthorizationRequest) :
    parseAuthorizationRequest r = .ok q ↔ ∃ all, Submits r all ∧
      q.responseType = (all b!"response_type").headD [] ∧ q.responseType ≠ [] ∧
      q.clientID = (all b!"client_id").headD [] ∧ q.clientID ≠ [] ∧
      queryUnescape ((all b!"redirect_uri").headD []) = some q.redirectURI ∧
      q.redirectURI ≠ [] ∧ Target q.redirectURI ∧
      q.scope = Scope.parse ((all b!"scope").headD []) ∧ q.state = (all b!"state").headD [] := by
  constructor
  · intro hp
    obtain ⟨h1, h2, h3, h4, h5, h6, h7⟩ := auth_ok_form hp
    refine ⟨fun k => (r.parseForm.1.form.getD []).all k,
      (submits_iff hfresh _).mpr ⟨h1, h2, fun k => rfl⟩, ?_⟩
    simp only [← Values.get_eq]
    unfold parseAuthorizationRequest at hp
    split at hp
    · cases hp
    simp only [h2, Bool.false_eq_true, if_false] at hp
    split at hp
    · cases hp
    rename_i hr
    split at hp
    · cases hp
    rename_i hc
    simp only [h7] at hp
    split at hp
    · cases hp
    rename_i hu
    refine ⟨h3, by rw [h3]; exact hr, h5, by rw [h5]; exact hc, h7, hu, ?_, h4, h6⟩
    cases hx : parseRequestURI q.redirectURI with
    | none => simp [hx] at hp
    | some u => exact ⟨u, hx⟩
  · rintro ⟨all, hall, h1, h1', h2, h2', h3, h3', ⟨u, hu⟩, h4, h5⟩
    obtain ⟨hm, herr, hall⟩ := (submits_iff hfresh _).mp hall
    simp only [hall, ← Values.get_eq] at h1 h2 h3 h4 h5
    unfold parseAuthorizationRequest
    rw [if_neg (by rcases hm with hm | hm <;> rw [hm] <;> decide)]
    simp only [herr, Bool.false_eq_true, if_false]
    rw [if_neg (by rw [← h1]; exact h1'), if_neg (by rw [← h2]; exact h2')]
    simp only [h3]
    rw [if_neg h3']
    simp only [hu, C17_fragment_never_seen hu, ne_eq, not_true, if_false, ← h1, ← h2, ← h4, ← h5]

/-- **C20**, authorization requests: for redirect URIs without `%` and `+`, the server sees the URI
that was submitted (missing: URIs with these bytes, see `C20_authorization_redirect_iff`). -/
theorem C20_authorization_redirect_partial {r : Request}
    (hfresh : r.postForm = none ∧ r.form = none) {all : Str → List Str} (h : Submits r all)
    {q : AuthorizationRequest} (hp : parseAuthorizationRequest r = .ok q)
    {uri : Str} (hf : (all b!"redirect_uri").headD [] = uri) (hb : 0x25 ∉ uri ∧ 0x2B ∉ uri) :
    q.redirectURI = uri := by
  have hall := ((submits_iff hfresh _).mp h).2.2
  have := (auth_ok_form hp).2.2.2.2.2.2
  rw [Values.get_eq, ← hall, hf, unescape_literal hb] at this
  exact (Option.some.inj this).symm

/-- **C20**, the extent of the finding for authorization requests. -/
theorem C20_authorization_redirect_iff {r : Request}
    (hfresh : r.postForm = none ∧ r.form = none) {all : Str → List Str} (h : Submits r all)
    {q : AuthorizationRequest} (hp : parseAuthorizationRequest r = .ok q) :
    q.redirectURI = (all b!"redirect_uri").headD [] ↔
      0x25 ∉ (all b!"redirect_uri").headD [] ∧ 0x2B ∉ (all b!"redirect_uri").headD [] := by
  have hall := ((submits_iff hfresh _).mp h).2.2
  have := (auth_ok_form hp).2.2.2.2.2.2
  rw [Values.get_eq, ← hall] at this
  exact ⟨fun e => unescape_fixed (e ▸ this),
    fun hb => C20_authorization_redirect_partial hfresh h hp rfl hb⟩

/-- **C20.** An authorization request whose redirect URI was encoded before it was put into the
query or form is read as meant. -/
theorem C20_authorization_redirect_encoded {r : Request}
    (hfresh : r.postForm = none ∧ r.form = none) {all : Str → List Str} (h : Submits r all)
    {q : AuthorizationRequest} (hp : parseAuthorizationRequest r = .ok q)
    {uri : Str} (hf : (all b!"redirect_uri").headD [] = queryEscape uri) : q.redirectURI = uri := by
  have hall := ((submits_iff hfresh _).mp h).2.2
  have := (auth_ok_form hp).2.2.2.2.2.2
  rw [Values.get_eq, ← hall, hf, queryUnescape_queryEscape] at this
  exact (Option.some.inj this).symm

/-- An authorization request whose redirect URI is read as submitted, and one whose is not. -/
example : ∃ r all q, (r.postForm = none ∧ r.form = none) ∧ Submits r all ∧
    parseAuthorizationRequest r = .ok q ∧ (all b!"redirect_uri").headD [] = b!"https://x.com/cb" ∧
    q.redirectURI = b!"https://x.com/cb" :=
  ⟨{ method := b!"GET", rawQuery := b!"response_type=code&client_id=c&redirect_uri=https://x.com/cb" },
    _, { responseType := b!"code", clientID := b!"c", redirectURI := b!"https://x.com/cb" },
    ⟨rfl, rfl⟩, .get rfl (by decide +kernel), by decide +kernel, by decide +kernel, rfl⟩

example : ∃ r all q, (r.postForm = none ∧ r.form = none) ∧ Submits r all ∧
    parseAuthorizationRequest r = .ok q ∧ (all b!"redirect_uri").headD [] = b!"https://x.com/a+b" ∧
    q.redirectURI = b!"https://x.com/a b" :=
  ⟨{ method := b!"GET",
      rawQuery := b!"response_type=code&client_id=c&redirect_uri=https://x.com/a%2Bb" },
    _, { responseType := b!"code", clientID := b!"c", redirectURI := b!"https://x.com/a b" },
    ⟨rfl, rfl⟩, .get rfl (by decide +kernel), by decide +kernel, by decide +kernel, rfl⟩

/-- **C52.** Whatever arrives, a request that is not accepted is refused with `invalid_request`
and status 400, without redirect. -/
theorem C52_refusals (r : Request) (e : Error)
    (h : parseTokenRequest r = .error e ∨ parseIntrospectionRequest r = .error e ∨
      parseRevocationRequest r = .error e ∨ parseAuthorizationRequest r = .error e) :
    e.name = b!"invalid_request" ∧ e.status = 400 ∧ e.redirectURI = [] ∧ e.headers = [] := by
  rcases h with h | h | h | h
  · unfold parseTokenRequest at h
    repeat' split at h
    all_goals first
      | (cases h; exact ⟨rfl, rfl, rfl, rfl⟩)
      | (simp only at h; repeat' split at h) <;>
        (cases h <;> exact ⟨rfl, rfl, rfl, rfl⟩)
  · unfold parseIntrospectionRequest at h
    simp only at h
    repeat' split at h
    all_goals cases h <;> exact ⟨rfl, rfl, rfl, rfl⟩
  · unfold parseRevocationRequest at h
    simp only at h
    repeat' split at h
    all_goals cases h <;> exact ⟨rfl, rfl, rfl, rfl⟩
  · unfold parseAuthorizationRequest at h
    simp only at h
    repeat' split at h
    all_goals cases h <;> exact ⟨rfl, rfl, rfl, rfl⟩

/-- A token request that meets the conditions, and one with two clients in which the header's is
taken. -/
example : ∃ r form, FormPost r form ∧ (r.postForm = none ∧ r.form = none) ∧
    Credentials r form b!"a" b!"b:c" ∧ Target b!"https://x.com/cb" ∧
    parseTokenRequest r = .ok {
      grantType := b!"authorization_code", clientID := b!"a", clientSecret := b!"b:c", redirectURI := b!"https://x.com/cb", code := b!"k" } :=
  ⟨{
      method := b!"POST",
      header := [(b!"Content-Type", [b!"application/x-www-form-urlencoded"]),
        (b!"Authorization", [b!"Basic YTpiOmM="])],
      body := some b!"grant_type=authorization_code&client_id=x&redirect_uri=https://x.com/cb&code=k" },
    [(b!"code", [b!"k"]), (b!"redirect_uri", [b!"https://x.com/cb"]), (b!"client_id", [b!"x"]),
      (b!"grant_type", [b!"authorization_code"])],
    ⟨rfl, ⟨rfl, rfl⟩, by decide +kernel, ⟨_, rfl, rfl, by decide, by decide +kernel⟩,
      by decide +kernel⟩, ⟨rfl, rfl⟩, credentials_iff.mpr (by decide +kernel),
    Option.isSome_iff_exists.mp (by decide +kernel), by decide +kernel⟩

/-- An introspection request is refused without the header, though the form has credentials. -/
example : parseIntrospectionRequest {
      method := b!"POST",
      header := [(b!"Content-Type", [b!"application/x-www-form-urlencoded"])],
      body := some b!"token=t&client_id=a&client_secret=b" } =
    .error (invalidRequest b!"missing or invalid HTTP authorization header") ∧
  parseIntrospectionRequest {
      method := b!"POST",
      header := [(b!"Content-Type", [b!"application/x-www-form-urlencoded"]),
        (b!"Authorization", [b!"Basic YTpi"])],
      body := some b!"token=t&token_type_hint=x" } =
    .ok { token := b!"t", tokenTypeHint := b!"x", clientID := b!"a", clientSecret := b!"b" } := by
  decide +kernel

/-- A posted authorization request with parameters in query and body; the body's come first. -/
example : parseAuthorizationRequest {
      method := b!"POST", rawQuery := b!"state=q&client_id=d&redirect_uri=/cb",
      header := [(b!"Content-Type", [b!"application/x-www-form-urlencoded"])],
      body := some b!"response_type=code&client_id=c" } =
    .ok { responseType := b!"code", clientID := b!"c", redirectURI := b!"/cb", state := b!"q" } := by
  decide +kernel

end OAuth2

import Verif.Props.Acceptance
import Verif.Props.Refusals
import Verif.Props.Reads

/-!
C52, C66: what is said about requests that are not accepted.
-/

namespace OAuth2

open Spec

set_option linter.unusedSimpArgs false

theorem readable_iff_parsed {r : Request} (hfresh : r.postForm = none ∧ r.form = none) :
    Readable r ↔ (r.method = b!"GET" ∨ r.method = b!"POST") ∧ r.parseForm.2 = false :=
  ⟨fun ⟨all, h⟩ => have := (submits_iff hfresh all).mp h; ⟨this.1, this.2.1⟩,
    fun ⟨h1, h2⟩ => ⟨_, (submits_iff hfresh _).mpr ⟨h1, h2, fun _ => rfl⟩⟩⟩

theorem readable_post {r : Request} (hfresh : r.postForm = none ∧ r.form = none)
    (hm : r.method = b!"POST") : Readable r ↔ r.parseForm.2 = false := by
  rw [readable_iff_parsed hfresh]
  exact ⟨fun h => h.2, fun h => ⟨.inr hm, h⟩⟩

theorem body_of_form {r : Request} {form : Values} (h : FormPost r form) (k : Str) :
    inBody r k = form.get k := by
  unfold inBody
  rw [parseForm_formPost h]
  rfl

/-- The body values of a request that can be read are those of its form. -/
theorem body_cases {r : Request} (hfresh : r.postForm = none ∧ r.form = none)
    (hm : r.method = b!"POST") (h : r.parseForm.2 = false) :
    (∃ form, FormPost r form) ∨ ((∀ form, ¬ FormPost r form) ∧ ∀ k, inBody r k = []) := by
  by_cases hf : ∃ form, FormPost r form
  · exact .inl hf
  · refine .inr ⟨fun form h => hf ⟨form, h⟩, fun k => ?_⟩
    rcases parseForm_ok hfresh.1 hfresh.2 hm h with h | ⟨h, _⟩
    · exact absurd h hf
    · unfold inBody
      rw [h]
      rfl

/-- `ParseTokenRequest`, in terms of what the request says. -/
theorem parseToken_eq (r : Request) : parseTokenRequest r =
    if r.method ≠ b!"POST" then .error (invalidRequest b!"invalid HTTP method")
    else if r.parseForm.2 then .error (invalidRequest b!"malformed query parameters or body form")
    else if inBody r b!"grant_type" = [] then .error (invalidRequest b!"missing grant type")
    else if (presented r).1 = [] then .error (invalidRequest b!"missing client identification")
    else match queryUnescape (inBody r b!"redirect_uri") with
      | none => .error (invalidRequest b!"invalid redirect URI")
      | some uri =>
        if uri ≠ [] ∧ parseRequestURI uri = none then .error (invalidRequest b!"invalid redirect URI")
        else .ok {
          grantType := inBody r b!"grant_type", scope := Scope.parse (inBody r b!"scope"),
          clientID := (presented r).1, clientSecret := (presented r).2,
          username := inBody r b!"username", password := inBody r b!"password",
          refreshToken := inBody r b!"refresh_token", redirectURI := uri,
          code := inBody r b!"code" } := by
  unfold parseTokenRequest presented inBody
  simp only [basicAuth_parseForm]
  cases hb : r.basicAuth
  all_goals
    split
    · rfl
    split
    · rfl
    split
    · rfl
    simp only
    split
    · rfl
    generalize queryUnescape (Values.get _ b!"redirect_uri") = q
    cases q with
    | none => rfl
    | some uri =>
      by_cases hu : uri = []
      · simp [hu]
      · cases hx : parseRequestURI uri with
        | none => simp [hu, hx]
        | some u => simp [hu, hx, C17_fragment_never_seen hx]

/-- **C52.** A token request is not accepted exactly if something is wrong with it, and the error
says what. -/
theorem C52_token_refused {r : Request} (hfresh : r.postForm = none ∧ r.form = none) (e : Error) :
    parseTokenRequest r = .error e ↔ ∃ d, TokenFault r d ∧ e = invalidRequest d := by
  have hpres : ∀ {form : Values}, FormPost r form → ∀ id secret,
      Credentials r form id secret ↔ presented r = (id, secret) := by
    intro form hform id secret
    rw [credentials_iff]
    unfold presented
    rw [body_of_form hform, body_of_form hform]
    cases r.basicAuth <;> exact eq_comm
  rw [parseToken_eq]
  constructor
  · intro h
    split at h
    · rename_i hm
      cases h
      exact ⟨_, .method hm, rfl⟩
    rename_i hm
    have hm := Classical.not_not.mp hm
    split at h
    · rename_i herr
      cases h
      exact ⟨_, .unreadable hm (fun hr => by rw [(readable_post hfresh hm).mp hr] at herr; cases herr), rfl⟩
    rename_i herr
    have herr : r.parseForm.2 = false := by simpa using herr
    have hread := (readable_post hfresh hm).mpr herr
    split at h
    · rename_i hg
      cases h
      exact ⟨_, .grantType hm hread fun form hform => by rw [← body_of_form hform]; exact hg, rfl⟩
    rename_i hg
    obtain ⟨form, hform⟩ : ∃ form, FormPost r form := by
      rcases body_cases hfresh hm herr with h | ⟨_, h⟩
      · exact h
      · exact absurd (h _) hg
    have hg' : form.get b!"grant_type" ≠ [] := by rw [← body_of_form hform]; exact hg
    split at h
    · rename_i hid
      cases h
      exact ⟨_, .client (secret := (presented r).2) hform hg' ((hpres hform _ _).mpr (Prod.ext hid rfl)), rfl⟩
    rename_i hid
    have hcred := (hpres hform (presented r).1 (presented r).2).mpr rfl
    rw [body_of_form hform] at h
    split at h
    · rename_i hu
      cases h
      exact ⟨_, .redirectURI hform hg' hcred hid fun uri h1 => by (rw [hu] at h1; cases h1), rfl⟩
    rename_i uri hu
    split at h
    · rename_i h1
      cases h
      refine ⟨_, .redirectURI hform hg' hcred hid fun uri' h2 => ?_, rfl⟩
      rw [hu] at h2
      cases h2
      exact ⟨h1.1, fun ⟨u, h3⟩ => by rw [h1.2] at h3; cases h3⟩
    · cases h
  · rintro ⟨d, hf, rfl⟩
    cases hf with
    | method hm => rw [if_pos hm]
    | unreadable hm hr =>
      rw [readable_post hfresh hm] at hr
      rw [if_neg (by simp [hm]), if_pos (by simpa using hr)]
    | grantType hm hr hg =>
      have herr := (readable_post hfresh hm).mp hr
      rw [if_neg (by simp [hm]), if_neg (by simp [herr]), if_pos]
      rcases body_cases hfresh hm herr with ⟨form, h⟩ | ⟨_, h⟩
      · rw [body_of_form h, hg form h]
      · exact h _
    | client hform hg hc =>
      rw [if_neg (by simp [hform.method]), if_neg (by rw [parseForm_formPost hform]; simp),
        if_neg (by rw [body_of_form hform]; exact hg), if_pos (by rw [(hpres hform _ _).mp hc])]
    | redirectURI hform hg hc hid hu =>
      rw [if_neg (by simp [hform.method]), if_neg (by rw [parseForm_formPost hform]; simp),
        if_neg (by rw [body_of_form hform]; exact hg), if_neg (by rw [(hpres hform _ _).mp hc]; exact hid),
        body_of_form hform]
      cases hx : queryUnescape (Values.get _ b!"redirect_uri") with
      | none => rfl
      | some uri =>
        obtain ⟨h1, h2⟩ := hu uri hx
        simp only
        rw [if_pos]
        refine ⟨h1, ?_⟩
        cases hy : parseRequestURI uri with
        | none => rfl
        | some u => exact absurd ⟨u, hy⟩ h2

/-- The part of `ParseIntrospectionRequest` and `ParseRevocationRequest` that is the same. -/
theorem hinted_refused {α : Type} {r : Request} (hfresh : r.postForm = none ∧ r.form = none)
    (mk : Str → Str → Str → Str → α) {res : Except Error α}
    (hres : res = (if r.method ≠ b!"POST" then .error (invalidRequest b!"invalid HTTP method")
      else if r.parseForm.2 then .error (invalidRequest b!"malformed query parameters or body form")
      else if ((r.parseForm.1.postForm.getD [] : Values).get b!"token") = [] then
        .error (invalidRequest b!"missing token")
      else match r.parseForm.1.basicAuth with
        | none => .error (invalidRequest b!"missing or invalid HTTP authorization header")
        | some (u, p) => .ok (mk ((r.parseForm.1.postForm.getD [] : Values).get b!"token")
            ((r.parseForm.1.postForm.getD [] : Values).get b!"token_type_hint") u p))) (e : Error) :
    res = .error e ↔ ∃ d, ManagementFault r d ∧ e = invalidRequest d := by
  have hbody : ∀ k, (r.parseForm.1.postForm.getD [] : Values).get k = inBody r k := fun _ => rfl
  rw [hres, basicAuth_parseForm]
  simp only [hbody]
  constructor
  · intro h
    split at h
    · rename_i hm
      cases h
      exact ⟨_, .method hm, rfl⟩
    rename_i hm
    have hm := Classical.not_not.mp hm
    split at h
    · rename_i herr
      cases h
      exact ⟨_, .unreadable hm (fun hr => by rw [(readable_post hfresh hm).mp hr] at herr; cases herr), rfl⟩
    rename_i herr
    have herr : r.parseForm.2 = false := by simpa using herr
    have hread := (readable_post hfresh hm).mpr herr
    split at h
    · rename_i hg
      cases h
      exact ⟨_, .token hm hread fun form hform => by rw [← body_of_form hform]; exact hg, rfl⟩
    rename_i hg
    obtain ⟨form, hform⟩ : ∃ form, FormPost r form := by
      rcases body_cases hfresh hm herr with h | ⟨_, h⟩
      · exact h
      · exact absurd (h _) hg
    cases hb : r.basicAuth with
    | none =>
      rw [hb] at h
      cases h
      exact ⟨_, .header hform (by rw [← body_of_form hform]; exact hg) fun ⟨u, p, h1⟩ => by
        (rw [(basicAuth_iff r u p).mpr h1] at hb; cases hb), rfl⟩
    | some up => rw [hb] at h; cases h
  · rintro ⟨d, hf, rfl⟩
    cases hf with
    | method hm => rw [if_pos hm]
    | unreadable hm hr =>
      rw [readable_post hfresh hm] at hr
      rw [if_neg (by simp [hm]), if_pos (by simpa using hr)]
    | token hm hr hg =>
      have herr := (readable_post hfresh hm).mp hr
      rw [if_neg (by simp [hm]), if_neg (by simp [herr]), if_pos]
      rcases body_cases hfresh hm herr with ⟨form, h⟩ | ⟨_, h⟩
      · rw [body_of_form h, hg form h]
      · exact h _
    | header hform hg hc =>
      have hb : r.basicAuth = none := by
        cases hb : r.basicAuth with
        | none => rfl
        | some up => exact absurd ⟨up.1, up.2, (basicAuth_iff r _ _).mp hb⟩ hc
      rw [if_neg (by simp [hform.method]), if_neg (by rw [parseForm_formPost hform]; simp),
        if_neg (by rw [body_of_form hform]; exact hg), hb]

/-- **C52.** The same of introspection requests. -/
theorem C52_introspection_refused {r : Request} (hfresh : r.postForm = none ∧ r.form = none)
    (e : Error) :
    parseIntrospectionRequest r = .error e ↔ ∃ d, ManagementFault r d ∧ e = invalidRequest d :=
  hinted_refused hfresh (fun a b c d => IntrospectionRequest.mk a b c d) rfl e

/-- **C52.** The same of revocation requests. -/
theorem C52_revocation_refused {r : Request} (hfresh : r.postForm = none ∧ r.form = none)
    (e : Error) :
    parseRevocationRequest r = .error e ↔ ∃ d, ManagementFault r d ∧ e = invalidRequest d :=
  hinted_refused hfresh (fun a b c d => RevocationRequest.mk a b c d) rfl e

/-- **C52.** The same of authorization requests. -/
theorem C52_authorization_refused {r : Request} (hfresh : r.postForm = none ∧ r.form = none)
    (e : Error) :
    parseAuthorizationRequest r = .error e ↔ ∃ d, AuthorizationFault r d ∧ e = invalidRequest d := by
  have hsub : ∀ {all}, Submits r all → (r.method = b!"GET" ∨ r.method = b!"POST") ∧
      r.parseForm.2 = false ∧ ∀ k, (all k).headD [] = (r.parseForm.1.form.getD [] : Values).get k := by
    intro all h
    obtain ⟨h1, h2, h3⟩ := (submits_iff hfresh _).mp h
    exact ⟨h1, h2, fun k => by rw [h3, Values.get_eq]⟩
  have hget : ∀ k, ((r.parseForm.1.form.getD [] : Values).all k).headD [] =
      (r.parseForm.1.form.getD [] : Values).get k := fun k => (Values.get_eq _ _).symm
  unfold parseAuthorizationRequest
  simp only
  constructor
  · intro h
    split at h
    · rename_i hm
      cases h
      exact ⟨_, .method hm.1 hm.2, rfl⟩
    rename_i hm
    have hm : r.method = b!"GET" ∨ r.method = b!"POST" := by
      by_cases h1 : r.method = b!"GET"
      · exact .inl h1
      · exact .inr (Classical.byContradiction fun h2 => hm ⟨h1, h2⟩)
    split at h
    · rename_i herr
      cases h
      exact ⟨_, .unreadable hm (fun hr => by rw [((readable_iff_parsed hfresh).mp hr).2] at herr; cases herr), rfl⟩
    rename_i herr
    have herr : r.parseForm.2 = false := by simpa using herr
    have hs := (submits_iff hfresh _).mpr ⟨hm, herr, fun _ => rfl⟩
    split at h
    · rename_i h1
      cases h
      exact ⟨_, .responseType hs (by rw [hget]; exact h1), rfl⟩
    rename_i h1
    split at h
    · rename_i h2
      cases h
      exact ⟨_, .client hs (by rw [hget]; exact h1) (by rw [hget]; exact h2), rfl⟩
    rename_i h2
    split at h
    · rename_i h3
      cases h
      exact ⟨_, .noRedirectURI hs (by rw [hget]; exact h1) (by rw [hget]; exact h2)
        (fun uri h4 => by (rw [hget, h3] at h4; cases h4)), rfl⟩
    rename_i uri h3
    split at h
    · rename_i h4
      cases h
      exact ⟨_, .noRedirectURI hs (by rw [hget]; exact h1) (by rw [hget]; exact h2)
        (fun uri h5 => by (rw [hget, h3] at h5; cases h5; exact h4)), rfl⟩
    rename_i h4
    cases hx : parseRequestURI uri with
    | none =>
      rw [hx] at h
      cases h
      exact ⟨_, .redirectURI hs (by rw [hget]; exact h1) (by rw [hget]; exact h2)
        (by rw [hget]; exact h3) h4 (fun ⟨u, hu⟩ => by rw [hx] at hu; cases hu), rfl⟩
    | some u =>
      rw [hx] at h
      simp [C17_fragment_never_seen hx] at h
  · rintro ⟨d, hf, rfl⟩
    have hno : ∀ {all}, Submits r all → ¬ (r.method ≠ b!"GET" ∧ r.method ≠ b!"POST") :=
      fun h ⟨h1, h2⟩ => ((hsub h).1).elim h1 h2
    cases hf with
    | method h1 h2 => rw [if_pos ⟨h1, h2⟩]
    | unreadable hm hr =>
      rw [readable_iff_parsed hfresh] at hr
      rw [if_neg (fun ⟨h1, h2⟩ => hm.elim h1 h2), if_pos]
      cases hp : r.parseForm.2 with
      | true => rfl
      | false => exact absurd ⟨hm, hp⟩ hr
    | responseType hs h1 =>
      rw [if_neg (hno hs), if_neg (by simp [(hsub hs).2.1]), if_pos (by rw [← (hsub hs).2.2]; exact h1)]
    | client hs h1 h2 =>
      rw [if_neg (hno hs), if_neg (by simp [(hsub hs).2.1]), if_neg (by rw [← (hsub hs).2.2]; exact h1),
        if_pos (by rw [← (hsub hs).2.2]; exact h2)]
    | noRedirectURI hs h1 h2 h3 =>
      rw [if_neg (hno hs), if_neg (by simp [(hsub hs).2.1]), if_neg (by rw [← (hsub hs).2.2]; exact h1),
        if_neg (by rw [← (hsub hs).2.2]; exact h2), ← (hsub hs).2.2 b!"redirect_uri"]
      split
      · rfl
      · rename_i uri hu
        rw [if_pos (h3 uri hu)]
    | redirectURI hs h1 h2 h3 h4 h5 =>
      rw [if_neg (hno hs), if_neg (by simp [(hsub hs).2.1]), if_neg (by rw [← (hsub hs).2.2]; exact h1),
        if_neg (by rw [← (hsub hs).2.2]; exact h2), ← (hsub hs).2.2 b!"redirect_uri", h3]
      simp only
      rw [if_neg h4]
      split
      · rfl
      · rename_i u hu
        exact absurd ⟨u, hu⟩ h5

/-! ### At the endpoints -/

theorem fault_ascii {r : Request} {d : Str} (h : Faulty r d) : sanitize d = d ∧ d ≠ [] := by
  rcases h with ⟨_, h⟩ | ⟨_, h⟩ | ⟨_, h⟩ | ⟨_, h⟩ <;> cases h <;>
    exact ⟨sanitize_ascii (by decide), by decide⟩

/-- **C66.** A request to an endpoint with which something is wrong is refused with
`invalid_request`, the description says what is wrong with it, and nothing changes. -/
theorem C66_malformed_explained (st : Server) {c : Call} {r : Request} (hop : c.op = .serve r)
    (hfresh : r.postForm = none ∧ r.form = none) {d : Str} (hf : Faulty r d) :
    RefusedSaying (step ⟨false, st⟩ c).1 400 b!"invalid_request" d ∧
      (step ⟨false, st⟩ c).2 = ⟨false, st⟩ := by
  have hd := fault_ascii hf
  rw [step_serve hop]
  have hs : st.handle r c.local = (.error (invalidRequest d), st) := by
    unfold Faulty at hf
    simp only [lastSegment_iff] at hf
    unfold Server.handle
    rcases hf with ⟨h1, h2⟩ | ⟨h1, h2⟩ | ⟨h1, h2⟩ | ⟨h1, h2⟩ <;> simp only [h1]
    · show st.authorizeReply r c.local = _
      unfold Server.authorizeReply
      rw [(C52_authorization_refused hfresh _).mpr ⟨d, h2, rfl⟩]
    · show st.tokenReply r c.local = _
      unfold Server.tokenReply
      rw [(C52_token_refused hfresh _).mpr ⟨d, h2, rfl⟩]
    · show st.introspectReply r = _
      unfold Server.introspectReply
      rw [(C52_introspection_refused hfresh _).mpr ⟨d, h2, rfl⟩]
    · show st.revokeReply r = _
      unfold Server.revokeReply
      rw [(C52_revocation_refused hfresh _).mpr ⟨d, h2, rfl⟩]
  rw [hs]
  refine ⟨(refusedSaying_iff rfl _ _ _).mpr ⟨rfl,
    (sanitize_ascii (by decide) : sanitize b!"invalid_request" = _), fun text => ?_⟩, rfl⟩
  show (d ≠ [] ∧ text = sanitize d) ↔ _
  rw [hd.1]

/-- **C66.** Something is wrong with a request to an endpoint exactly if it is malformed. -/
theorem C66_malformed_iff {c : Call} {r : Request} (hop : c.op = .serve r)
    (hfresh : r.postForm = none ∧ r.form = none) : Malformed c ↔ ∃ d, Faulty r d := by
  have key : ∀ {α : Type} {res : Except Error α} {F : Str → Prop},
      (∀ e, res = .error e ↔ ∃ d, F d ∧ e = invalidRequest d) →
      ((∀ rq, res ≠ .ok rq) ↔ ∃ d, F d) := by
    intro α res F h
    constructor
    · intro h1
      cases res with
      | ok rq => exact absurd rfl (h1 rq)
      | error e =>
        obtain ⟨d, h2, _⟩ := (h e).mp rfl
        exact ⟨d, h2⟩
    · rintro ⟨d, h1⟩ rq h2
      have := (h _).mpr ⟨d, h1, rfl⟩
      rw [h2] at this
      cases this
  have k1 := key (C52_authorization_refused hfresh)
  have k2 := key (C52_token_refused hfresh)
  have k3 := key (C52_introspection_refused hfresh)
  have k4 := key (C52_revocation_refused hfresh)
  unfold Faulty
  constructor
  · rintro ⟨r', hop', h⟩
    rw [hop] at hop'
    cases hop'
    rw [k1, k2, k3, k4] at h
    rcases h with ⟨h, d, h'⟩ | ⟨h, d, h'⟩ | ⟨h, d, h'⟩ | ⟨h, d, h'⟩
    · exact ⟨d, .inl ⟨h, h'⟩⟩
    · exact ⟨d, .inr (.inl ⟨h, h'⟩)⟩
    · exact ⟨d, .inr (.inr (.inl ⟨h, h'⟩))⟩
    · exact ⟨d, .inr (.inr (.inr ⟨h, h'⟩))⟩
  · rintro ⟨d, h⟩
    refine ⟨r, hop, ?_⟩
    rw [k1, k2, k3, k4]
    rcases h with ⟨h, h'⟩ | ⟨h, h'⟩ | ⟨h, h'⟩ | ⟨h, h'⟩
    · exact .inl ⟨h, d, h'⟩
    · exact .inr (.inl ⟨h, d, h'⟩)
    · exact .inr (.inr (.inl ⟨h, d, h'⟩))
    · exact .inr (.inr (.inr ⟨h, d, h'⟩))

/-- Non-vacuity: a token request without a grant type. -/
example : ∃ r, (Demo.post b!"/token" b!"c1:s1" b!"username=u1" [] 1100).op = .serve r ∧
    (r.postForm = none ∧ r.form = none) ∧ Faulty r b!"missing grant type" := by
  refine ⟨_, rfl, ⟨rfl, rfl⟩, .inr (.inl ⟨?_, ?_⟩)⟩
  · rw [lastSegment_iff]
    decide +kernel
  · have : parseTokenRequest (match (Demo.post b!"/token" b!"c1:s1" b!"username=u1" [] 1100).op with
      | .serve r => r | _ => { method := [] }) = .error (invalidRequest b!"missing grant type") := by
      decide +kernel
    obtain ⟨d, h1, h2⟩ := (C52_token_refused ⟨rfl, rfl⟩ _).mp this
    have h3 : b!"missing grant type" = d := congrArg Error.description h2
    rw [h3]
    exact h1

end OAuth2

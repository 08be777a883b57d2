import Verif.Props.Redirects
import Verif.Props.Requests
import Verif.Props.Responses
import Verif.Lemmas.Events

/-!
C53: what responses sent through a redirect carry, and the headers of errors.
-/

namespace OAuth2

open Spec

variable {σ : Type}

set_option linter.unusedSimpArgs false

theorem not_star {uri : Str} {u : URL} (h : RedirectURI uri u) : uri ≠ b!"*" := by
  rintro rfl
  have h' : parseRequestURI b!"*" = some { path := b!"*" } := by decide
  have := h.parsed
  rw [h'] at this
  exact h.absolute (by rw [← Option.some.inj this])

theorem redirectsWith {uri : Str} {u : URL} (hu : RedirectURI uri u) {params : GoMap Str}
    (hp : params.keys.Nodup) {fields : List (Str × Option Str)} (hf : Fields params fields)
    (fragment : Bool) {s : Shared σ} {l : Local} (hw : l.w.Fresh)
    (hl : l.w.header.all b!"Location" = []) :
    ∃ l', exec (writeRedirect uri params fragment) s l = (.ret true, s, l') ∧
      RedirectsWith l'.w.result u fragment fields ∧
      ∃ L, l'.w.result.header = redirectHeader l.w.header L := by
  have key : ∀ L v, redirectLocation uri params fragment = some L → parseURL L = some v →
      (if fragment then ExtendsFragment u params v else ExtendsQuery u params v) →
      ∃ l', exec (writeRedirect uri params fragment) s l = (.ret true, s, l') ∧
      RedirectsWith l'.w.result u fragment fields ∧
      ∃ L, l'.w.result.header = redirectHeader l.w.header L := by
    intro L v h1 h2 h3
    rw [exec_writeRedirect, h1]
    simp only [redirectRecorder_fresh hw]
    refine ⟨_, rfl, ⟨rfl, L, v, params, ?_, h2, h3, hf⟩, L, rfl⟩
    show (redirectHeader l.w.header L).all _ = _
    rw [redirectHeader_location, hl]
    rfl
  cases fragment with
  | true =>
    obtain ⟨L, v, h1, h2, h3, _⟩ := location_fragment hp hu.parsed hu.absolute hu.no_hash hu.ascii
    exact key L v h1 h2 h3
  | false =>
    obtain ⟨L, h1, _, h2⟩ := location_query hp hu.parsed (not_star hu) hu.ascii
    obtain ⟨v, h2, h3⟩ := h2 hu.absolute hu.no_hash
    exact key L v h1 h2 h3

theorem unless_eq (x : Str) : (if x ≠ [] then some x else none) = unlessEmpty x := by
  unfold unlessEmpty
  by_cases h : x = [] <;> simp [h]

theorem get?_none_of_keys {params : GoMap Str} {names : List Str} (h : params.keys.Sublist names) {k : Str}
    (hk : k ∉ names) : params.get? k = none :=
  (GoMap.get?_eq_none_iff params k).mpr fun hm => hk (h.subset hm)

/-- **C53.** A token response with a redirect URI is sent as a redirect to it that carries, in the
fragment, the token type, the access token and the lifetime, the refresh token, the scope and the
state if there are any, and nothing else. -/
theorem C53_token_redirect {r : TokenResponse} {u : URL} (hu : RedirectURI r.redirectURI u)
    (s : Shared σ) (l : Local) (hw : l.w = {}) :
    ∃ l', exec (writeTokenResponse r) s l = (.ret true, s, l') ∧
      RedirectsWith l'.w.result u true [
        (b!"token_type", some r.tokenType), (b!"access_token", some r.accessToken),
        (b!"expires_in", some (itoa r.expiresIn)), (b!"refresh_token", unlessEmpty r.refreshToken),
        (b!"scope", r.scope.map (joinStr b!" ")), (b!"state", unlessEmpty r.state)] := by
  have hne : r.redirectURI ≠ [] := by
    intro h
    have := hu.parsed
    rw [h] at this
    revert this
    rw [show parseRequestURI [] = none by decide]
    simp
  have hscope : (if r.scope ≠ none then some r.scope.string else none) =
      r.scope.map (joinStr b!" ") := by
    cases r.scope with
    | none => rfl
    | some x => rfl
  have hf : Fields r.map [
        (b!"token_type", some r.tokenType), (b!"access_token", some r.accessToken),
        (b!"expires_in", some (itoa r.expiresIn)), (b!"refresh_token", unlessEmpty r.refreshToken),
        (b!"scope", r.scope.map (joinStr b!" ")), (b!"state", unlessEmpty r.state)] := by
    constructor
    · simp only [List.mem_cons, List.not_mem_nil, or_false, forall_eq_or_imp, forall_eq,
        TokenResponse.map, get?_append, get?_opt, GoMap.get?_cons, GoMap.get?_nil]
      rw [← unless_eq r.refreshToken, ← unless_eq r.state, ← hscope]
      simp (decide := true) only [true_and, false_and, if_false, if_true, Option.none_or,
        Option.or_none, Option.some_or, and_self]
    · intro k hk
      refine get?_none_of_keys (names := _) ?_ hk
      unfold TokenResponse.map
      simp only [keys_append]
      exact (((List.Sublist.refl _).append (keys_opt _ _ _)).append (keys_opt _ _ _)).append
        (keys_opt _ _ _)
  obtain ⟨l', h1, h2, _⟩ := redirectsWith (s := s) (l := l) hu r.map_nodup hf true
    (by rw [hw]; exact Recorder.fresh_empty) (by rw [hw]; rfl)
  refine ⟨l', ?_, h2⟩
  unfold writeTokenResponse
  rw [if_pos hne, h1]

/-- **C53.** A code response is sent as a redirect that adds the code, and the state if there is
one, to the query, and nothing else. -/
theorem C53_code_redirect {r : CodeResponse} {u : URL} (hu : RedirectURI r.redirectURI u)
    (s : Shared σ) (l : Local) (hw : l.w = {}) :
    ∃ l', exec (writeCodeResponse r) s l = (.ret true, s, l') ∧
      RedirectsWith l'.w.result u false [
        (b!"code", some r.code), (b!"state", unlessEmpty r.state)] := by
  have hf : Fields r.map [(b!"code", some r.code), (b!"state", unlessEmpty r.state)] := by
    constructor
    · simp only [List.mem_cons, List.not_mem_nil, or_false, forall_eq_or_imp, forall_eq,
        CodeResponse.map, get?_append, get?_opt, GoMap.get?_cons, GoMap.get?_nil]
      rw [← unless_eq r.state]
      simp (decide := true) only [true_and, false_and, if_false, if_true, Option.none_or,
        Option.or_none, Option.some_or, and_self]
    · intro k hk
      refine get?_none_of_keys (names := _) ?_ hk
      unfold CodeResponse.map
      simp only [keys_append]
      exact (List.Sublist.refl _).append (keys_opt _ _ _)
  obtain ⟨l', h1, h2, _⟩ := redirectsWith (s := s) (l := l) hu r.map_nodup hf false
    (by rw [hw]; exact Recorder.fresh_empty) (by rw [hw]; rfl)
  exact ⟨l', h1, h2⟩

theorem foldl_set_all {l : List (Str × Str)} {h : Header} {k : Str}
    (hk : ∀ p ∈ l, canonicalKey k ≠ canonicalKey p.1) :
    (l.foldl (fun h e => Header.set h e.1 e.2) h).all k = h.all k := by
  induction l generalizing h with
  | nil => rfl
  | cons p l ih =>
    rw [List.foldl_cons, ih fun q hq => hk q (List.mem_cons_of_mem _ hq), Header.all_set,
      if_neg (hk p (by simp))]

/-- The last of the headers with this name is the one that stays. -/
theorem foldl_set_mem {l : List (Str × Str)} (hd : (l.map fun p => canonicalKey p.1).Nodup)
    {h : Header} {k v : Str} (hm : (k, v) ∈ l) :
    (l.foldl (fun h e => Header.set h e.1 e.2) h).all k = [v] := by
  induction l generalizing h with
  | nil => cases hm
  | cons p l ih =>
    simp only [List.map_cons, List.nodup_cons, List.mem_map, not_exists, not_and] at hd
    rw [List.foldl_cons]
    rcases List.mem_cons.mp hm with rfl | hm
    · rw [foldl_set_all fun q hq e => hd.1 q hq e.symm, Header.all_set, if_pos rfl]
    · exact ih hd.2 hm

/-- **C53.** An error with a redirect URI is sent as a redirect that carries, in the fragment or
added to the query as the error says, its name, description, state, scope, URI and realm, each if
it is not empty, and nothing else. -/
theorem C53_error_redirect {e : Error} {u : URL} (hu : RedirectURI e.redirectURI u)
    (hh : ∀ p ∈ e.headers, canonicalKey p.1 ≠ b!"Location")
    (s : Shared σ) (l : Local) (hw : l.w = {}) :
    ∃ l', exec (writeError (.oauth e)) s l = (.ret true, s, l') ∧
      RedirectsWith l'.w.result u e.useFragment [
        (b!"error", unlessEmpty e.name), (b!"error_description", unlessEmpty e.description),
        (b!"state", unlessEmpty e.state),
        (b!"scope", if e.scope.items = [] then none else some (joinStr b!" " e.scope.items)),
        (b!"error_uri", unlessEmpty e.uri), (b!"realm", unlessEmpty e.realm)] := by
  have hne : e.redirectURI ≠ [] := by
    intro h
    have := hu.parsed
    rw [h] at this
    revert this
    rw [show parseRequestURI [] = none by decide]
    simp
  have hscope : (if e.scope.items.length > 0 then some e.scope.string else none) =
      if e.scope.items = [] then none else some (joinStr b!" " e.scope.items) := by
    cases hx : e.scope with
    | none => rfl
    | some x => cases x <;> rfl
  have hf : Fields e.map [
        (b!"error", unlessEmpty e.name), (b!"error_description", unlessEmpty e.description),
        (b!"state", unlessEmpty e.state),
        (b!"scope", if e.scope.items = [] then none else some (joinStr b!" " e.scope.items)),
        (b!"error_uri", unlessEmpty e.uri), (b!"realm", unlessEmpty e.realm)] := by
    constructor
    · simp only [List.mem_cons, List.not_mem_nil, or_false, forall_eq_or_imp, forall_eq,
        Error.map, get?_append, get?_opt]
      rw [← unless_eq e.name, ← unless_eq e.description, ← unless_eq e.state, ← unless_eq e.uri,
        ← unless_eq e.realm, ← hscope]
      simp (decide := true) only [true_and, false_and, if_false, if_true, Option.none_or,
        Option.or_none, Option.some_or, and_self]
    · intro k hk
      refine get?_none_of_keys (names := _) ?_ hk
      unfold Error.map
      simp only [keys_append]
      exact (((((keys_opt _ _ _).append (keys_opt _ _ _)).append (keys_opt _ _ _)).append
        (keys_opt _ _ _)).append (keys_opt _ _ _)).append (keys_opt _ _ _)
  obtain ⟨l', h1, h2, _⟩ := redirectsWith (s := s)
    (l := { l with w := { l.w with header := e.headers.foldl (fun h e => h.set e.1 e.2) l.w.header } })
    hu e.map_nodup hf e.useFragment
    (by simp only [hw]; exact ⟨rfl, rfl, rfl⟩)
    (by
      simp only [hw]
      rw [foldl_set_all fun p hp => ?_]
      · rfl
      · rw [show canonicalKey b!"Location" = b!"Location" by decide]
        exact fun h => hh p hp h.symm)
  refine ⟨l', ?_, h2⟩
  unfold writeError
  simp only [GoErr.asError, Option.getD_some, exec_respond_bind, ne_eq, hne, not_false_eq_true,
    if_true]
  exact h1

/-- **C53.** The headers of an error that is sent without redirect are in the response, if no two
of them have the same name and they are not among the three headers of every response. -/
theorem C53_error_headers {e : Error} (hr : e.redirectURI = []) (h1 : 100 ≤ e.status)
    (h2 : e.status ≤ 999) (hd : (e.headers.map fun p => canonicalKey p.1).Nodup)
    (s : Shared σ) (l : Local) (hw : l.w.Fresh) {k v : Str} (hm : (k, v) ∈ e.headers)
    (hk : canonicalKey k ∉ [b!"Content-Type", b!"Cache-Control", b!"Pragma"]) :
    ∃ l', exec (writeError (.oauth e)) s l = (.ret true, s, l') ∧
      l'.w.result.header.all k = [v] := by
  refine ⟨_, exec_writeError hr h1 h2 s l hw, ?_⟩
  show (jsonHeader (errorHeader e l.w.header)).all k = [v]
  simp only [List.mem_cons, List.not_mem_nil, or_false, not_or] at hk
  unfold jsonHeader
  rw [Header.all_set, if_neg (by
      rw [show canonicalKey b!"Pragma" = b!"Pragma" by decide]; exact hk.2.2),
    Header.all_set, if_neg (by
      rw [show canonicalKey b!"Cache-Control" = b!"Cache-Control" by decide]; exact hk.2.1),
    Header.all_set, if_neg (by
      rw [show canonicalKey b!"Content-Type" = b!"Content-Type" by decide]; exact hk.1)]
  exact foldl_set_mem hd hm

/-- Redirect URIs with a query, user and port meet the hypotheses. -/
example : ∃ u, RedirectURI b!"https://user@example.com:80/a%2Fb?x=1&x=2" u := by
  obtain ⟨u, hu⟩ := Option.isSome_iff_exists.mp
    (by decide +kernel : (parseRequestURI b!"https://user@example.com:80/a%2Fb?x=1&x=2").isSome = true)
  refine ⟨u, hu, ?_, by decide, .inl (by decide)⟩
  have := (by decide +kernel : (parseRequestURI b!"https://user@example.com:80/a%2Fb?x=1&x=2").all
    (·.scheme ≠ []) = true)
  rw [hu] at this
  simpa using this

/-- A complete token response, through a redirect. -/
example : (exec (writeTokenResponse (σ := Unit) {
      tokenType := b!"bearer", accessToken := b!"AB.cd", expiresIn := 3600, refreshToken := b!"EF.gh",
      scope := some [b!"a", b!"b"], state := b!"x y", redirectURI := b!"https://example.com/cb?q=1" })
      ⟨false, ()⟩ { clock := fun _ => 0 }).2.2.w.result.header.all b!"Location" =
    [b!"https://example.com/cb?q=1#access_token=AB.cd&expires_in=3600&refresh_token=EF.gh&scope=a+b&state=x+y&token_type=bearer"] := by
  decide +kernel

/-- An error with a header, through a redirect into the query. -/
example : (exec (writeError (σ := Unit) (.oauth ((invalidClient b!"unknown").setRedirect
      b!"https://example.com/cb?q=1" b!"s" false))) ⟨false, ()⟩
      { clock := fun _ => 0 }).2.2.w.result.header =
    [(b!"Referrer-Policy", [b!"origin"]), (b!"Pragma", [b!"no-cache"]),
      (b!"Cache-Control", [b!"no-store"]),
      (b!"Location", [b!"https://example.com/cb?error=invalid_client&error_description=unknown&q=1&state=s"]),
      (b!"Www-Authenticate", [b!"Basic realm=\"OAuth2\""])] := by
  decide +kernel

end OAuth2

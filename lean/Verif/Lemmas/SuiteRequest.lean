import Verif.Lemmas.Suite
import Verif.Lemmas.Served

/-!
The requests of the integration tests as the server parses them.
-/

namespace OAuth2.Suite

open _root_.OAuth2.Spec

set_option linter.unusedSimpArgs false

/-! ### Forms -/

theorem foldl_set_get? {α : Type} (m : GoMap Str) (f : Str → α) (hn : m.keys.Nodup) (v : GoMap α)
    (k : Str) : (m.foldl (fun v e => GoMap.set v e.1 (f e.2)) v).get? k =
      ((m.get? k).map f).or (v.get? k) := by
  induction m generalizing v with
  | nil => rfl
  | cons e m ih =>
    obtain ⟨k', x⟩ := e
    unfold GoMap.keys at hn ih
    rw [List.map_cons, List.nodup_cons] at hn
    rw [List.foldl_cons, ih hn.2, GoMap.get?_set, GoMap.get?_cons]
    by_cases h : k = k'
    · subst h
      rw [(GoMap.get?_eq_none_iff m k).mpr hn.1]
      simp
    · simp [h, Ne.symm h]

theorem setValues_get {m : GoMap Str} (hn : m.keys.Nodup) (k : Str) :
    (setValues m).get k = (m.get? k).getD [] := by
  unfold setValues Values.get
  rw [foldl_set_get? m (fun x => [x]) hn]
  cases m.get? k <;> rfl

theorem foldl_set_nodup {m : GoMap Str} {v : GoMap Str} (h : v.keys.Nodup) :
    (m.foldl (fun v e => GoMap.set v e.1 e.2) v).keys.Nodup := by
  induction m generalizing v with
  | nil => exact h
  | cons e m ih => exact ih (GoMap.nodup_set h _ _)

theorem extend_nodup (m ext : GoMap Str) : (extend m ext).keys.Nodup := by
  unfold extend
  exact foldl_set_nodup (foldl_set_nodup (by simp [GoMap.keys]))

theorem extend_get? {m ext : GoMap Str} (hm : m.keys.Nodup) (he : ext.keys.Nodup) (k : Str) :
    (extend m ext).get? k = (ext.get? k).or (m.get? k) := by
  unfold extend
  have h1 := foldl_set_get? ext id he (m.foldl (fun v e => GoMap.set v e.1 e.2) []) k
  have h2 := foldl_set_get? m id hm ([] : GoMap Str) k
  simp only [id] at h1 h2
  rw [h1, h2]
  simp [GoMap.get?]

theorem extend_get {m ext : GoMap Str} (hm : m.keys.Nodup) (he : ext.keys.Nodup) (k : Str) :
    (setValues (extend m ext)).get k = ((ext.get? k).or (m.get? k)).getD [] := by
  rw [setValues_get (extend_nodup _ _), extend_get? hm he]

/-! ### Requests -/

/-- The header `Do` sends. -/
def Req.head (r : Req) : Header :=
  if r.username ≠ [] then
    (setHeaders [] r.header).set b!"Authorization"
      (b!"Basic " ++ b64StdEncode (r.username ++ [0x3A] ++ r.password))
  else setHeaders [] r.header

/-- The request `Do` sends to a URL without a query. -/
def Req.sent (r : Req) (path : Str) : Request :=
  { method := r.method, path := path, header := r.head, postForm := some (setValues r.form) }

theorem request_sent {r : Req} {u : URL} (hu : parseURL r.path = some u) (hq : u.rawQuery = []) :
    r.request = some (r.sent u.path) := by
  unfold Req.request
  rw [hu]
  simp only [hq]
  rfl

theorem sent_parseForm (r : Req) (path : Str) :
    (r.sent path).parseForm = ({ r.sent path with form := some (setValues r.form) }, false) := rfl

theorem sent_basicAuth {r : Req} (hu : r.username ≠ []) (hc : (0x3A : UInt8) ∉ r.username)
    (path : Str) : (r.sent path).basicAuth = some (r.username, r.password) := by
  have h : (r.sent path).header.get b!"Authorization" =
      b!"Basic " ++ b64StdEncode (r.username ++ [0x3A] ++ r.password) := by
    show r.head.get _ = _
    unfold Req.head
    rw [if_pos hu, Header.get_set, if_pos rfl]
  unfold Request.basicAuth
  rw [h]
  simp only
  rw [if_neg (by simp), parseBasicAuth_encode]
  exact cutByte_append _ hc

theorem sent_noAuth {r : Req} (hu : r.username = []) (hh : r.header = []) (path : Str) :
    (r.sent path).basicAuth = none := by
  have : (r.sent path).header = [] := by
    show r.head = []
    unfold Req.head
    rw [hh, hu]
    rfl
  unfold Request.basicAuth
  rw [this]
  rfl

/-- Requests to the token endpoint that are understood. -/
theorem parse_token {r : Req} (path : Str) (hm : r.method = b!"POST")
    (hg : (setValues r.form).get b!"grant_type" ≠ []) (hu : r.username ≠ [])
    (hc : (0x3A : UInt8) ∉ r.username) {uri : Str}
    (hr : queryUnescape ((setValues r.form).get b!"redirect_uri") = some uri)
    (hp : uri = [] ∨ ∃ u, parseRequestURI uri = some u ∧ u.fragment = []) :
    parseTokenRequest (r.sent path) = .ok {
      grantType := (setValues r.form).get b!"grant_type"
      scope := Scope.parse ((setValues r.form).get b!"scope")
      clientID := r.username
      clientSecret := r.password
      username := (setValues r.form).get b!"username"
      password := (setValues r.form).get b!"password"
      refreshToken := (setValues r.form).get b!"refresh_token"
      redirectURI := uri
      code := (setValues r.form).get b!"code" } := by
  unfold parseTokenRequest
  have hb : Request.basicAuth { r.sent path with form := some (setValues r.form) } =
      some (r.username, r.password) := sent_basicAuth hu hc path
  rw [if_neg (by show ¬ r.method ≠ _; rw [hm]; simp), sent_parseForm]
  simp only [hb]
  simp only [Req.sent, Option.getD_some, Bool.false_eq_true, if_false, hg, hu, hr]
  rcases hp with rfl | ⟨u, h1, h2⟩
  · rfl
  · simp only [h1, h2]
    by_cases h : uri = [] <;> simp [h]

/-- Requests to the token endpoint without a grant type. -/
theorem parse_token_empty {r : Req} (path : Str) (hm : r.method = b!"POST") (hf : r.form = []) :
    parseTokenRequest (r.sent path) = .error (invalidRequest b!"missing grant type") := by
  unfold parseTokenRequest
  rw [if_neg (by show ¬ r.method ≠ _; rw [hm]; simp), sent_parseForm]
  simp only [Req.sent, hf]
  rfl

/-- Requests to the authorization endpoint that are understood. -/
theorem parse_authorization {r : Req} (path : Str) (hm : r.method = b!"GET" ∨ r.method = b!"POST")
    (ht : (setValues r.form).get b!"response_type" ≠ [])
    (hi : (setValues r.form).get b!"client_id" ≠ []) {uri : Str} {u : URL}
    (hr : queryUnescape ((setValues r.form).get b!"redirect_uri") = some uri) (hn : uri ≠ [])
    (hp : parseRequestURI uri = some u) (hf : u.fragment = []) :
    parseAuthorizationRequest (r.sent path) = .ok {
      responseType := (setValues r.form).get b!"response_type"
      scope := Scope.parse ((setValues r.form).get b!"scope")
      clientID := (setValues r.form).get b!"client_id"
      redirectURI := uri
      state := (setValues r.form).get b!"state" } := by
  unfold parseAuthorizationRequest
  rw [if_neg (by show ¬ (r.method ≠ _ ∧ r.method ≠ _); rcases hm with h | h <;> simp [h]),
    sent_parseForm]
  simp only [Req.sent, Option.getD_some, Bool.false_eq_true, if_false, ht, hi, hr, hn, hp, hf,
    ne_eq, not_true]

theorem parse_authorization_empty {r : Req} (path : Str) (hm : r.method = b!"POST")
    (hf : r.form = []) :
    parseAuthorizationRequest (r.sent path) = .error (invalidRequest b!"missing response type") := by
  unfold parseAuthorizationRequest
  rw [if_neg (by show ¬ (r.method ≠ _ ∧ r.method ≠ _); simp [hm]), sent_parseForm]
  simp only [Req.sent, hf]
  rfl

/-- Requests to the introspection endpoint. -/
theorem parse_introspection {r : Req} (path : Str) (hm : r.method = b!"POST")
    (ht : (setValues r.form).get b!"token" ≠ []) (hu : r.username ≠ [])
    (hc : (0x3A : UInt8) ∉ r.username) :
    parseIntrospectionRequest (r.sent path) = .ok {
      token := (setValues r.form).get b!"token"
      tokenTypeHint := (setValues r.form).get b!"token_type_hint"
      clientID := r.username
      clientSecret := r.password } := by
  unfold parseIntrospectionRequest
  have hb : Request.basicAuth { r.sent path with form := some (setValues r.form) } =
      some (r.username, r.password) := sent_basicAuth hu hc path
  rw [if_neg (by show ¬ r.method ≠ _; rw [hm]; simp), sent_parseForm]
  simp only [hb]
  simp only [Req.sent, Option.getD_some, Bool.false_eq_true, if_false, ht]

/-- Requests to the introspection endpoint that are not understood: no POST, no token or no
client. -/
theorem parse_introspection_error {r : Req} (path : Str)
    (h : r.method ≠ b!"POST" ∨ (setValues r.form).get b!"token" = [] ∨
      (r.username = [] ∧ r.header = [])) :
    ∃ d, parseIntrospectionRequest (r.sent path) = .error (invalidRequest d) := by
  unfold parseIntrospectionRequest
  by_cases hm : r.method = b!"POST"
  · rw [if_neg (by show ¬ r.method ≠ _; rw [hm]; simp), sent_parseForm]
    simp only [Bool.false_eq_true, if_false]
    by_cases ht : (setValues r.form).get b!"token" = []
    · rw [if_pos (show ((r.sent path).postForm.getD []).get _ = [] from ht)]
      exact ⟨_, rfl⟩
    · rw [if_neg (show ¬ ((r.sent path).postForm.getD []).get _ = [] from ht)]
      obtain ⟨h1, h2⟩ : r.username = [] ∧ r.header = [] := by
        rcases h with h | h | h
        · exact absurd hm h
        · exact absurd h ht
        · exact h
      have hb : Request.basicAuth { r.sent path with form := some (setValues r.form) } = none :=
        sent_noAuth h1 h2 path
      simp only [hb]
      exact ⟨_, rfl⟩
  · rw [if_pos (show (r.sent path).method ≠ _ from hm)]
    exact ⟨_, rfl⟩

/-- Requests to the revocation endpoint. -/
theorem parse_revocation {r : Req} (path : Str) (hm : r.method = b!"POST")
    (ht : (setValues r.form).get b!"token" ≠ []) (hu : r.username ≠ [])
    (hc : (0x3A : UInt8) ∉ r.username) :
    parseRevocationRequest (r.sent path) = .ok {
      token := (setValues r.form).get b!"token"
      tokenTypeHint := (setValues r.form).get b!"token_type_hint"
      clientID := r.username
      clientSecret := r.password } := by
  unfold parseRevocationRequest
  have hb : Request.basicAuth { r.sent path with form := some (setValues r.form) } =
      some (r.username, r.password) := sent_basicAuth hu hc path
  rw [if_neg (by show ¬ r.method ≠ _; rw [hm]; simp), sent_parseForm]
  simp only [hb]
  simp only [Req.sent, Option.getD_some, Bool.false_eq_true, if_false, ht]

/-- Requests to the revocation endpoint that are not understood. -/
theorem parse_revocation_error {r : Req} (path : Str)
    (h : r.method ≠ b!"POST" ∨ (setValues r.form).get b!"token" = [] ∨
      (r.username = [] ∧ r.header = [])) :
    ∃ d, parseRevocationRequest (r.sent path) = .error (invalidRequest d) := by
  unfold parseRevocationRequest
  by_cases hm : r.method = b!"POST"
  · rw [if_neg (by show ¬ r.method ≠ _; rw [hm]; simp), sent_parseForm]
    simp only [Bool.false_eq_true, if_false]
    by_cases ht : (setValues r.form).get b!"token" = []
    · rw [if_pos (show ((r.sent path).postForm.getD []).get _ = [] from ht)]
      exact ⟨_, rfl⟩
    · rw [if_neg (show ¬ ((r.sent path).postForm.getD []).get _ = [] from ht)]
      obtain ⟨h1, h2⟩ : r.username = [] ∧ r.header = [] := by
        rcases h with h | h | h
        · exact absurd hm h
        · exact absurd h ht
        · exact h
      have hb : Request.basicAuth { r.sent path with form := some (setValues r.form) } = none :=
        sent_noAuth h1 h2 path
      simp only [hb]
      exact ⟨_, rfl⟩
  · rw [if_pos (show (r.sent path).method ≠ _ from hm)]
    exact ⟨_, rfl⟩

/-- The token in a request for the protected resource, which may have a query. -/
theorem parse_bearer {req : Request} {tok : Str}
    (h : req.header = setHeaders [] [(b!"Authorization", b!"Bearer " ++ tok)]) (hn : tok ≠ []) :
    parseBearerToken req = .ok tok := by
  have hg : req.header.get b!"Authorization" = b!"Bearer " ++ tok := by
    rw [h]
    show (Header.set [] b!"Authorization" (b!"Bearer " ++ tok)).get _ = _
    rw [Header.get_set, if_pos rfl]
  have hl : BearerAccessTokenType.length = 6 := rfl
  unfold parseBearerToken
  rw [hg]
  simp only [hl]
  have e1 : (b!"Bearer " ++ tok).take 6 = b!"Bearer" := rfl
  have e2 : ((b!"Bearer " ++ tok).drop 6).take 1 = [0x20] := rfl
  have e3 : (b!"Bearer " ++ tok).drop (6 + 1) = tok := rfl
  have e4 : equalFold b!"Bearer" BearerAccessTokenType = true := by decide +kernel
  rw [e1, e2, e3, e4, if_neg (by simp), if_neg ?_, if_neg (by simp), if_neg (by simp)]
  have h1 : 0 < tok.length := List.length_pos_iff.mpr hn
  have h2 : (b!"Bearer ").length = 7 := rfl
  rw [List.length_append, h2]
  omega

end OAuth2.Suite

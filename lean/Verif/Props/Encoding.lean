import Verif.Lemmas.Basic64
import Verif.Lemmas.MediaType
import Verif.Lemmas.Target
import Verif.Lemmas.Decide
import Verif.Props.Acceptance
import Verif.Props.Scopes
import Verif.Spec.Document

/-!
C75: what requests mean, down to the bytes of their bodies, queries and headers.
-/

namespace OAuth2

open Spec

/-! ### The texts -/

/-- **C75.** A form (or query) can be read exactly if it is a sequence of fields with proper escapes,
and then every name has the values of its fields, in order. -/
theorem C75_form (text : Str) :
    ((parseQuery text).2 = false ↔ ∃ fields, FormData text fields) ∧
    ∀ fields, FormData text fields → ∀ name, (parseQuery text).1.all name = valuesOf fields name :=
  ⟨parseQuery_ok_iff text, fun _ h name => parseQuery_all h name⟩

/-- **C75.** Escapes in a redirect URI are undone as in a form. -/
theorem C75_escapes (text uri : Str) : queryUnescape text = some uri ↔ FormText text uri :=
  queryUnescape_iff text uri

/-- **C75.** A content type is understood exactly if it is well formed, and letter case does not
matter. -/
theorem C75_content_type (text mediaType : Str) :
    parseMediaType text = (mediaType, false) ↔ ContentType text mediaType :=
  parseMediaType_iff text mediaType

/-- **C75.** The redirect URIs that name a target are the absolute URIs, the absolute paths and the
star; they have exactly these parts. -/
theorem C75_target (uri : Str) (parts : Parts) :
    (∃ u, parseRequestURI uri = some u ∧ partsOf u = parts) ↔ RequestTarget uri parts :=
  parseRequestURI_iff uri parts

/-- **C75.** A text is understood as a reference (the address a client sends a request to, the location
a test follows) exactly if it is one; it has exactly these parts. -/
theorem C75_reference (text : Str) (parts : Parts) (fragment : Str) :
    (∃ u, parseURL text = some u ∧ partsOf u = parts ∧ u.fragment = fragment) ↔
      Reference text parts fragment :=
  parseURL_iff text parts fragment

/-- **C75.** A basic authorization header names a user exactly if it says so in base64. -/
theorem C75_credentials (r : Request) (user password : Str) :
    r.basicAuth = some (user, password) ↔
      BasicCredentials (r.header.get b!"Authorization") user password := by
  rw [basicAuth_iff, namesUser_iff]

/-- A form with both separators, a repeated name, escapes, and a name without value. -/
example : FormData b!"a=1&b%3D=%41+c;a=2&&d" [(b!"a", b!"1"), (b!"b=", b!"A c"), (b!"a", b!"2"), (b!"d", [])] :=
  .field (p := b!"a=1") (t := b!"b%3D=%41+c;a=2&&d") (by decide +kernel)
    (.value (k := b!"a") (v := b!"1") (by decide) (.byte (by decide) (by decide) .nil)
      (.byte (by decide) (by decide) .nil)) (.inl rfl)
    (.field (p := b!"b%3D=%41+c") (t := b!"a=2&&d") (by decide +kernel)
      (.value (k := b!"b%3D") (v := b!"%41+c") (by decide)
        (.byte (by decide) (by decide)
          (.escape (a := 3) (b := 13) ((hexDigit_iff _ _).mpr (by decide)) ((hexDigit_iff _ _).mpr (by decide)) .nil))
        (.escape (a := 4) (b := 1) ((hexDigit_iff _ _).mpr (by decide)) ((hexDigit_iff _ _).mpr (by decide))
          (.space (.byte (by decide) (by decide) .nil)))) (.inr rfl)
      (.field (p := b!"a=2") (t := b!"&d") (by decide +kernel)
        (.value (k := b!"a") (v := b!"2") (by decide) (.byte (by decide) (by decide) .nil)
          (.byte (by decide) (by decide) .nil)) (.inl rfl)
        (.skip (.inl rfl) (.last (by decide +kernel)
          (.name (by decide) (by decide) (.byte (by decide) (by decide) .nil))))))

/-- A form that cannot be read: an escape lacks a digit. -/
example : ¬ ∃ fields, FormData b!"a=1&b=%4" fields := by
  rw [← (C75_form _).1]; decide +kernel

/-- A content type with capital letters and parameters, and one with the same parameter twice. -/
example : ContentType b!" Application/JSON ; charset=\"a;b\"; q=1;" b!"application/json" :=
  (C75_content_type _ _).mp (by decide +kernel)

example : ¬ ContentType b!"application/json; q=1; Q=2" b!"application/json" := by
  rw [← C75_content_type]; decide +kernel

/-- A target with a user, an address with a zone, a port and escapes; what has a number sign in its
path is a target, and a relative path is not. -/
example : RequestTarget b!"HTTPS://a:b%40@[fe80::1%25en0]:80/x%20y?z"
    { scheme := b!"https", user := some ⟨b!"a", some b!"b@"⟩, host := b!"[fe80::1%en0]:80",
      path := b!"/x y", query := some b!"z" } :=
  (C75_target _ _).mp ⟨(parseRequestURI b!"HTTPS://a:b%40@[fe80::1%25en0]:80/x%20y?z").getD {},
    by decide +kernel, by rfl⟩

example : RequestTarget b!"/a#b" { path := b!"/a#b" } :=
  .path (q := []) (by unfold NoControl; decide +kernel) rfl (by decide)
    (.byte (by decide) trivial (.byte (by decide) trivial (.byte (by decide) trivial
      (.byte (by decide) trivial .nil)))) (.inl ⟨rfl, rfl⟩)

example : ¬ ∃ parts, RequestTarget b!"a/b" parts := by
  rintro ⟨parts, h⟩
  obtain ⟨u, hu, _⟩ := (C75_target _ _).mpr h
  exact absurd hu (by rw [show parseRequestURI b!"a/b" = none by decide +kernel]; exact fun h => nomatch h)

/-- As a reference, what follows the number sign is a fragment. -/
example : Reference b!"/a#b%20c" { path := b!"/a" } b!"b c" :=
  (C75_reference _ _ _).mp ⟨(parseURL b!"/a#b%20c").getD {}, by decide +kernel, by rfl, by decide +kernel⟩

/-- The header that names `a` with password `b:c`. -/
example : BasicCredentials b!"bAsIc YTpiOmM=" b!"a" b!"b:c" :=
  (C75_credentials { method := b!"POST", header := [(b!"Authorization", [b!"bAsIc YTpiOmM="])] } _ _).mp (by decide +kernel)

/-! ### The requests -/

theorem valuesOf_append (l m : List (Str × Str)) (k : Str) :
    valuesOf (l ++ m) k = valuesOf l k ++ valuesOf m k := by
  simp [valuesOf]

theorem target_iff (uri : Str) : Target uri ↔ ∃ parts, RequestTarget uri parts := by
  constructor
  · rintro ⟨u, hu⟩
    exact ⟨partsOf u, (parseRequestURI_iff _ _).mp ⟨u, hu, rfl⟩⟩
  · rintro ⟨parts, h⟩
    obtain ⟨u, hu, _⟩ := (parseRequestURI_iff _ _).mpr h
    exact ⟨u, hu⟩

theorem formPost_posts {r : Request} {form : Values} (h : FormPost r form) :
    ∃ fields query, Posts r fields query ∧ ∀ k, form.all k = valuesOf fields k := by
  obtain ⟨data, h1, h2, h3, h4⟩ := h.body
  obtain ⟨fields, hf⟩ := (parseQuery_ok_iff data).mp (by rw [h4])
  obtain ⟨query, hq⟩ := (parseQuery_ok_iff r.rawQuery).mp h.query
  refine ⟨fields, query, ⟨h.method, h.fresh, (parseMediaType_iff _ _).mp h.contentType,
    ⟨data, h1, h2, h3, hf⟩, hq⟩, fun k => ?_⟩
  have := parseQuery_all hf k
  rwa [h4] at this

theorem posts_formPost {r : Request} {fields query : List (Str × Str)} (h : Posts r fields query) :
    ∃ form, FormPost r form ∧ ∀ k, form.all k = valuesOf fields k := by
  obtain ⟨data, h1, h2, h3, hf⟩ := h.body
  refine ⟨(parseQuery data).1, ⟨h.method, h.fresh, (parseMediaType_iff _ _).mpr h.contentType,
    ⟨data, h1, h2, h3, ?_⟩, (parseQuery_ok_iff _).mpr ⟨_, h.query⟩⟩, parseQuery_all hf⟩
  have := (parseQuery_ok_iff data).mpr ⟨_, hf⟩
  rw [← this]

/-- **C75.** The parameters that the acceptance and refusal of requests depend on (C52, C53) are those
that stand in the bytes of their queries and bodies. -/
theorem C75_parameters {r : Request} {all : Str → List Str} :
    Submits r all ↔ ∃ fields, Sends r fields ∧ ∀ k, all k = valuesOf fields k := by
  constructor
  · intro h
    cases h with
    | get h1 h2 =>
      obtain ⟨q, hq⟩ := (parseQuery_ok_iff _).mp h2
      exact ⟨q, .get h1 hq, parseQuery_all hq⟩
    | form h =>
      obtain ⟨fields, query, hp, hk⟩ := formPost_posts h
      exact ⟨_, .form hp, fun k => by
        show _ ++ _ = _
        rw [valuesOf_append, hk, parseQuery_all hp.query]⟩
    | other h1 h2 h3 h4 =>
      obtain ⟨q, hq⟩ := (parseQuery_ok_iff _).mp h4
      exact ⟨q, .other h1 h2 (h3.imp_right fun h => ⟨_, (parseMediaType_iff _ _).mp h.1, h.2⟩) hq,
        parseQuery_all hq⟩
  · rintro ⟨fields, h, hk⟩
    have : all = fun k => valuesOf fields k := funext hk
    subst this
    cases h with
    | get h1 hq =>
      have := Submits.get h1 ((parseQuery_ok_iff _).mpr ⟨_, hq⟩)
      simpa only [parseQuery_all hq] using this
    | form hp =>
      obtain ⟨form, hf, hk⟩ := posts_formPost hp
      have := Submits.form hf
      simpa only [parseQuery_all hp.query, hk, ← valuesOf_append] using this
    | other h1 h2 h3 hq =>
      rcases h3 with h3 | ⟨mt, h3, h4⟩
      · have := Submits.other (mediaType := []) h1 h2 (.inl h3) ((parseQuery_ok_iff _).mpr ⟨_, hq⟩)
        simpa only [parseQuery_all hq] using this
      · have := Submits.other h1 h2 (.inr ⟨(parseMediaType_iff _ _).mpr h3, h4⟩)
          ((parseQuery_ok_iff _).mpr ⟨_, hq⟩)
        simpa only [parseQuery_all hq] using this

theorem get_field {form : Values} {fields : List (Str × Str)}
    (h : ∀ k, form.all k = valuesOf fields k) (k : Str) : form.get k = field fields k := by
  rw [Values.get_eq, h, field]

theorem credentials_from {r : Request} {form : Values} {fields : List (Str × Str)}
    (h : ∀ k, form.all k = valuesOf fields k) (id secret : Str) :
    Credentials r form id secret ↔ From r fields id secret := by
  constructor
  · intro hc
    cases hc with
    | header hn => exact .header ((namesUser_iff _ _ _).mp hn)
    | form hn =>
      rw [get_field h, get_field h]
      exact .fields fun ⟨a, b, hx⟩ => hn ⟨a, b, (namesUser_iff _ _ _).mpr hx⟩
  · intro hc
    cases hc with
    | header hn => exact .header ((namesUser_iff _ _ _).mpr hn)
    | fields hn =>
      rw [← get_field h, ← get_field h]
      exact .form fun ⟨a, b, hx⟩ => hn ⟨a, b, (namesUser_iff _ _ _).mp hx⟩

theorem scopeText_iff (text : Str) (scope : Scope) :
    scope = Scope.parse text ↔ ScopeText text scope := by
  obtain ⟨_, h2⟩ := C06_parse text
  unfold ScopeText
  simp only [C06_parse_unique]
  cases hp : Scope.parse text with
  | none =>
    rw [hp] at h2
    have : Scope.items none = [] := rfl
    simp only [this, true_and]
    constructor
    · exact .inl
    · rintro (h | ⟨items, hne, rfl, _⟩)
      · exact h
      · exact absurd rfl hne
  | some l =>
    rw [hp] at h2
    have hi : Scope.items (some l) = l := rfl
    rw [hi] at h2 ⊢
    have hne : l ≠ [] := fun h => nomatch h2.mpr h
    simp [hne]
    constructor
    · rintro rfl; exact ⟨l, hne, rfl, rfl⟩
    · rintro ⟨_, _, rfl, rfl⟩; rfl

/-- **C75.** Which token requests are accepted, and what is read from them, in terms of the bytes that
arrive. -/
theorem C75_token_request {r : Request} (hfresh : r.postForm = none ∧ r.form = none)
    (t : TokenRequest) :
    parseTokenRequest r = .ok t ↔ ∃ fields query, Posts r fields query ∧
      t.grantType = field fields b!"grant_type" ∧ t.grantType ≠ [] ∧
      From r fields t.clientID t.clientSecret ∧ t.clientID ≠ [] ∧
      ScopeText (field fields b!"scope") t.scope ∧
      t.username = field fields b!"username" ∧ t.password = field fields b!"password" ∧
      t.refreshToken = field fields b!"refresh_token" ∧ t.code = field fields b!"code" ∧
      FormText (field fields b!"redirect_uri") t.redirectURI ∧
      (t.redirectURI = [] ∨ ∃ parts, RequestTarget t.redirectURI parts) := by
  rw [C52_token_accepted hfresh]
  simp only [target_iff, queryUnescape_iff, scopeText_iff]
  constructor
  · rintro ⟨form, hf, h⟩
    obtain ⟨fields, query, hp, hk⟩ := formPost_posts hf
    simp only [get_field hk, credentials_from hk] at h
    exact ⟨fields, query, hp, h⟩
  · rintro ⟨fields, query, hp, h⟩
    obtain ⟨form, hf, hk⟩ := posts_formPost hp
    simp only [← get_field hk, ← credentials_from hk] at h
    exact ⟨form, hf, h⟩

/-- **C75.** Which introspection requests are accepted. -/
theorem C75_introspection_request {r : Request} (hfresh : r.postForm = none ∧ r.form = none)
    (q : IntrospectionRequest) :
    parseIntrospectionRequest r = .ok q ↔ ∃ fields query, Posts r fields query ∧
      q.token = field fields b!"token" ∧ q.token ≠ [] ∧
      q.tokenTypeHint = field fields b!"token_type_hint" ∧
      BasicCredentials (r.header.get b!"Authorization") q.clientID q.clientSecret := by
  rw [C52_introspection_accepted hfresh]
  simp only [namesUser_iff]
  constructor
  · rintro ⟨form, hf, h⟩
    obtain ⟨fields, query, hp, hk⟩ := formPost_posts hf
    simp only [get_field hk] at h
    exact ⟨fields, query, hp, h⟩
  · rintro ⟨fields, query, hp, h⟩
    obtain ⟨form, hf, hk⟩ := posts_formPost hp
    simp only [← get_field hk] at h
    exact ⟨form, hf, h⟩

/-- **C75.** Which revocation requests are accepted. -/
theorem C75_revocation_request {r : Request} (hfresh : r.postForm = none ∧ r.form = none)
    (q : RevocationRequest) :
    parseRevocationRequest r = .ok q ↔ ∃ fields query, Posts r fields query ∧
      q.token = field fields b!"token" ∧ q.token ≠ [] ∧
      q.tokenTypeHint = field fields b!"token_type_hint" ∧
      BasicCredentials (r.header.get b!"Authorization") q.clientID q.clientSecret := by
  rw [C52_revocation_accepted hfresh]
  simp only [namesUser_iff]
  constructor
  · rintro ⟨form, hf, h⟩
    obtain ⟨fields, query, hp, hk⟩ := formPost_posts hf
    simp only [get_field hk] at h
    exact ⟨fields, query, hp, h⟩
  · rintro ⟨fields, query, hp, h⟩
    obtain ⟨form, hf, hk⟩ := posts_formPost hp
    simp only [← get_field hk] at h
    exact ⟨form, hf, h⟩

/-- **C75.** Which authorization requests are accepted. -/
theorem C75_authorization_request {r : Request} (hfresh : r.postForm = none ∧ r.form = none)
    (q : AuthorizationRequest) :
    parseAuthorizationRequest r = .ok q ↔ ∃ fields, Sends r fields ∧
      q.responseType = field fields b!"response_type" ∧ q.responseType ≠ [] ∧
      q.clientID = field fields b!"client_id" ∧ q.clientID ≠ [] ∧
      FormText (field fields b!"redirect_uri") q.redirectURI ∧
      q.redirectURI ≠ [] ∧ (∃ parts, RequestTarget q.redirectURI parts) ∧
      ScopeText (field fields b!"scope") q.scope ∧ q.state = field fields b!"state" := by
  rw [C52_authorization_accepted hfresh]
  simp only [target_iff, queryUnescape_iff, scopeText_iff]
  constructor
  · rintro ⟨all, hs, h⟩
    obtain ⟨fields, hf, hk⟩ := C75_parameters.mp hs
    simp only [hk] at h
    exact ⟨fields, hf, h⟩
  · rintro ⟨fields, hf, h⟩
    exact ⟨fun k => valuesOf fields k, C75_parameters.mpr ⟨fields, hf, fun _ => rfl⟩, h⟩

/-- **C75.** A response says that it is JSON exactly if its content type does. -/
theorem C75_json_response (res : Response) (limit : Int) (data : Str) :
    JsonResponse res limit data ↔ data = res.body.take limit.toNat ∧
      (res.bodyErr = true → limit ≤ res.body.length) ∧
      ContentType (res.header.get b!"Content-Type") b!"application/json" := by
  unfold JsonResponse
  rw [parseMediaType_iff]

/-- A request that is accepted although its content type has capital letters and a parameter, its form
has a separator too many and a repeated field, and its base64 has a line break and stray bits. -/
def wirePost : Request where
  method := b!"POST"
  header := [(b!"Content-Type", [b!"Application/X-WWW-form-urlencoded; Charset=\"UTF-8\""]),
    (b!"Authorization", [b!"BASIC YTpi\nOmN="])]
  body := some b!"&grant%5Ftype=authorization_code;scope=a++b&redirect_uri=%2Fcb%253F&code=x&code=y"

example : (wirePost.postForm = none ∧ wirePost.form = none) ∧ parseTokenRequest wirePost = .ok {
      grantType := b!"authorization_code", clientID := b!"a", clientSecret := b!"b:c",
      scope := some [b!"a", b!"b"], redirectURI := b!"/cb?", code := b!"x" } :=
  ⟨⟨rfl, rfl⟩, by decide +kernel⟩

example : ∃ fields query, Posts wirePost fields query ∧ field fields b!"code" = b!"x" ∧
    FormText (field fields b!"redirect_uri") b!"/cb?" := by
  obtain ⟨fields, query, hp, _, _, _, _, _, _, _, _, hc, hr, _⟩ := (C75_token_request ⟨rfl, rfl⟩ _).mp
    (show parseTokenRequest wirePost = .ok {
      grantType := b!"authorization_code", clientID := b!"a", clientSecret := b!"b:c",
      scope := some [b!"a", b!"b"], redirectURI := b!"/cb?", code := b!"x" } by decide +kernel)
  exact ⟨fields, query, hp, hc.symm, hr⟩

/-- An authorization request with fields in its query. -/
example : ∃ fields, Sends {
      method := b!"GET",
      rawQuery := b!"response_type=code&client_id=c&redirect_uri=http://x/&state=%25&scope=" } fields ∧
    field fields b!"state" = b!"%" ∧ ScopeText (field fields b!"scope") none := by
  obtain ⟨fields, hf, _, _, _, _, _, _, _, hs, hst⟩ := (C75_authorization_request (r := {
        method := b!"GET",
        rawQuery := b!"response_type=code&client_id=c&redirect_uri=http://x/&state=%25&scope=" })
    ⟨rfl, rfl⟩ {
      responseType := b!"code", clientID := b!"c", redirectURI := b!"http://x/", state := b!"%" }).mp (by decide +kernel)
  exact ⟨fields, hf, hst.symm, hs⟩

/-- Introspection and revocation requests that are accepted. -/
example : parseIntrospectionRequest { wirePost with body := some b!"token=t&x" } =
      .ok { token := b!"t", clientID := b!"a", clientSecret := b!"b:c" } ∧
    parseRevocationRequest { wirePost with body := some b!"token=t&token_type_hint=h" } =
      .ok { token := b!"t", tokenTypeHint := b!"h", clientID := b!"a", clientSecret := b!"b:c" } :=
  ⟨by decide +kernel, by decide +kernel⟩

example : JsonResponse { statusCode := 200, header := [(b!"Content-Type", [b!"application/json;charset=UTF-8"])], body := b!"{}" } 100 b!"{}" :=
  (C75_json_response _ _ _).mpr ⟨rfl, fun h => absurd h (by decide), (C75_content_type _ _).mp (by decide +kernel)⟩

end OAuth2

import Verif.Lemmas.SuiteRequest

/-!
What the assertions of the integration tests read off the replies of the server.
-/

namespace OAuth2.Suite

open _root_.OAuth2.Spec

set_option linter.unusedSimpArgs false

/-! ### JSON bodies -/

/-- What `jsonField` finds among the members of an object. -/
def find (ms : List Member) (k : Str) : Option JSON :=
  GoMap.get? (ms.map fun m => (sanitize m.key, m.doc)).reverse k

theorem find_append (a b : List Member) (k : Str) : find (a ++ b) k = (find b k).or (find a k) := by
  unfold find
  rw [List.map_append, List.reverse_append, get?_append]

theorem find_nil (k : Str) : find [] k = none := rfl

theorem find_cons (m : Member) (ms : List Member) (k : Str) :
    find (m :: ms) k = (find ms k).or (if sanitize m.key = k then some m.doc else none) := by
  rw [← List.singleton_append, find_append]
  rfl

theorem find_str (k v j : Str) :
    find (strMember k v) j = if v ≠ [] ∧ sanitize k = j then some (.str (sanitize v)) else none := by
  unfold strMember
  by_cases h : v = []
  · simp [h, find_nil]
  · simp [h, find_cons, find_nil]

theorem find_scope (s : Scope) (j : Str) :
    find (scopeMember s) j =
      if s.items.length ≠ 0 ∧ b!"scope" = j then some (.str (sanitize s.string)) else none := by
  have e : sanitize b!"scope" = b!"scope" := by decide +kernel
  unfold scopeMember
  by_cases h : s.items.length = 0
  · simp only [h, if_true, ne_eq, not_true, false_and, if_false, find_nil]
  · simp only [h, if_false, find_cons, find_nil, e, ne_eq, not_false_eq_true, true_and,
      Option.none_or]

theorem find_int (k : Str) (v : Int) (j : Str) :
    find (intMember k v) j = if v ≠ 0 ∧ sanitize k = j then some (.num (itoa v)) else none := by
  unfold intMember
  by_cases h : v = 0
  · simp [h, find_nil]
  · simp [h, find_cons, find_nil]

/-- The numbers among the values of the members are not too large. -/
def Small (ms : List Member) : Prop := ∀ m ∈ ms, m.doc.readable = true

theorem small_str (k v : Str) : Small (strMember k v) := by
  intro m hm
  unfold strMember at hm
  split at hm
  · cases hm
  · rw [List.mem_singleton.mp hm]; rfl

theorem small_scope (s : Scope) : Small (scopeMember s) := by
  intro m hm
  unfold scopeMember at hm
  split at hm
  · cases hm
  · rw [List.mem_singleton.mp hm]; rfl

theorem readable_int {v : Int} (h : FitsInt64 v) : (JSON.num (itoa v)).readable = true := by
  rw [JSON.readable, (F64.parse_ofInt h.1 h.2).1]
  rfl

theorem small_int (k : Str) {v : Int} (h : FitsInt64 v) : Small (intMember k v) := by
  intro m hm
  unfold intMember at hm
  split at hm
  · cases hm
  · rw [List.mem_singleton.mp hm]; exact readable_int h

theorem small_append {a b : List Member} (ha : Small a) (hb : Small b) : Small (a ++ b) :=
  fun m hm => (List.mem_append.mp hm).elim (ha m) (hb m)

theorem readable_members (ms : List Member) (h : Small ms) :
    JSON.readableMembers (ms.map fun m => (sanitize m.key, m.doc)) = true := by
  induction ms with
  | nil => rw [List.map_nil, JSON.readableMembers]
  | cons m ms ih =>
    rw [List.map_cons, JSON.readableMembers, h m List.mem_cons_self,
      ih fun x hx => h x (List.mem_cons_of_mem _ hx)]
    rfl

theorem small_error (e : Error) : Small e.members :=
  small_append (small_append (small_append (small_append (small_append
    (fun m hm => by rw [List.mem_singleton.mp hm]; rfl) (small_str _ _)) (small_scope _))
    (small_str _ _)) (small_str _ _)) (small_str _ _)

theorem small_token {t : TokenResponse} (h : FitsInt64 t.expiresIn) : Small t.members := by
  refine small_append (small_append (small_append (fun m hm => ?_) (small_str _ _))
    (small_scope _)) (small_str _ _)
  simp only [List.mem_cons, List.not_mem_nil, or_false] at hm
  rcases hm with rfl | rfl | rfl
  · rfl
  · rfl
  · exact readable_int h

theorem fits_zero : FitsInt64 0 := by unfold FitsInt64; decide

theorem small_introspection {i : IntrospectionResponse} (he : i.extra = none)
    (hx : FitsInt64 i.expiresAt) (hi : i.issuedAt = 0) (hn : i.notBefore = 0) :
    Small i.members := by
  refine small_append (small_append (small_append (small_append (small_append (small_append
    (small_append (small_append (small_append (small_append (small_append (small_append
    (fun m hm => by rw [List.mem_singleton.mp hm]; rfl) (small_scope _)) (small_str _ _))
    (small_str _ _)) (small_str _ _)) (small_int _ hx)) (small_int _ (hi ▸ fits_zero)))
    (small_int _ (hn ▸ fits_zero))) (small_str _ _)) (small_str _ _)) (small_str _ _))
    (small_str _ _)) ?_
  rw [show mapMember b!"extra" i.extra = [] by rw [he]; rfl]
  exact fun m hm => nomatch hm

theorem parseValue_of_parseJSON {s : Str} {v : JSON} (h : parseJSON s = some v) :
    ∃ rest, parseValue (s.length + 1) 0 s = some (v, rest) := by
  unfold parseJSON at h
  split at h
  · next v' rest hp =>
    split at h
    · cases h; exact ⟨rest, hp⟩
    · cases h
  · cases h

theorem jsonField_members {w : Recorder} {ms : List Member} (hne : ms ≠ [])
    (henc : ∀ m ∈ ms, Encodes 9999 m.text m.doc) (hs : Small ms)
    (hb : w.body = jsonObject (ms.map fun m => (m.key, m.text)) ++ [0x0A]) (k : Str) :
    jsonField w k = find ms k := by
  unfold jsonField
  obtain ⟨rest, h⟩ := parseValue_of_parseJSON (parseJSON_object ms hne henc)
  rw [hb, h]
  simp only [readable_members ms hs, if_true]
  rfl

/-! ### Errors -/

/-- What an error in a JSON body leaves in the recorder. -/
theorem render_error {e : Error} (hr : e.redirectURI = []) :
    (Reply.error e).render {} = {
      header := jsonHeader (e.addHeaders []),
      sent := some (e.status.toNat, jsonHeader (e.addHeaders [])), body := e.json ++ [0x0A] } := by
  unfold Reply.render
  simp only [hr, ne_eq, not_true, if_false]
  rw [jsonRecorder_fresh ⟨rfl, rfl, rfl⟩]

theorem error_name (e : Error) {w : Recorder} (hb : w.body = e.json ++ [0x0A]) :
    jsonFieldString w b!"error" = sanitize e.name := by
  unfold jsonFieldString
  rw [Error.json_members] at hb
  rw [jsonField_members (by simp [Error.members]) e.members_encode (small_error e) hb]
  have e1 : sanitize b!"error" = b!"error" := by decide +kernel
  have e2 : sanitize b!"state" = b!"state" := by decide +kernel
  have e3 : sanitize b!"realm" = b!"realm" := by decide +kernel
  have e4 : sanitize b!"error_description" = b!"error_description" := by decide +kernel
  have e5 : sanitize b!"error_uri" = b!"error_uri" := by decide +kernel
  unfold Error.members
  simp only [find_append, find_str, find_scope, find_cons, find_nil, e1, e2, e3, e4, e5]
  simp

section

variable (handler : Request → Handler Unit) (draws : Nat → Draw)

theorem wp_expectError {e : Error} (hr : e.redirectURI = []) {status : Nat} {name : Str}
    (hs : e.status.toNat = status) (hn : sanitize e.name = name) {s : Server} {n : Nat}
    {Q : Unit → Server → Nat → Prop} (hq : Q () s n) :
    wp handler draws (expectError ((Reply.error e).render {}) status name) s n Q := by
  unfold expectError
  rw [wp_bind, wp_assert, wp_assert]
  rw [render_error hr]
  refine ⟨?_, ?_, hq⟩
  · simp [code, hs]
  · rw [error_name e rfl, hn]
    simp

theorem wp_invalidRequest {d : Str} {s : Server} {n : Nat} {Q : Unit → Server → Nat → Prop}
    (hq : Q () s n) :
    wp handler draws (expectError ((Reply.error (invalidRequest d)).render {}) 400
      b!"invalid_request") s n Q :=
  wp_expectError handler draws rfl rfl
    (by show sanitize b!"invalid_request" = _; decide +kernel) hq

theorem wp_invalidClient {d : Str} {s : Server} {n : Nat} {Q : Unit → Server → Nat → Prop}
    (hq : Q () s n) :
    wp handler draws (expectError ((Reply.error (invalidClient d)).render {}) 401
      b!"invalid_client") s n Q :=
  wp_expectError handler draws rfl rfl
    (by show sanitize b!"invalid_client" = _; decide +kernel) hq

theorem wp_invalidGrant {d : Str} {s : Server} {n : Nat} {Q : Unit → Server → Nat → Prop}
    (hq : Q () s n) :
    wp handler draws (expectError ((Reply.error (invalidGrant d)).render {}) 400
      b!"invalid_grant") s n Q :=
  wp_expectError handler draws rfl rfl
    (by show sanitize b!"invalid_grant" = _; decide +kernel) hq

theorem wp_invalidScope {d : Str} {s : Server} {n : Nat} {Q : Unit → Server → Nat → Prop}
    (hq : Q () s n) :
    wp handler draws (expectError ((Reply.error (invalidScope d)).render {}) 400
      b!"invalid_scope") s n Q :=
  wp_expectError handler draws rfl rfl
    (by show sanitize b!"invalid_scope" = _; decide +kernel) hq

theorem wp_accessDenied {d : Str} {s : Server} {n : Nat} {Q : Unit → Server → Nat → Prop}
    (hq : Q () s n) :
    wp handler draws (expectError ((Reply.error (accessDenied d)).render {}) 403
      b!"access_denied") s n Q :=
  wp_expectError handler draws rfl rfl
    (by show sanitize b!"access_denied" = _; decide +kernel) hq

theorem wp_unsupportedTokenType {d : Str} {s : Server} {n : Nat} {Q : Unit → Server → Nat → Prop}
    (hq : Q () s n) :
    wp handler draws (expectError ((Reply.error (unsupportedTokenType d)).render {}) 400
      b!"unsupported_token_type") s n Q :=
  wp_expectError handler draws rfl rfl
    (by show sanitize b!"unsupported_token_type" = _; decide +kernel) hq

theorem wp_realm {d : Str} {s : Server} {n : Nat} {Q : Unit → Server → Nat → Prop}
    (hq : Q () s n) :
    wp handler draws (expectRealm ((Reply.error (invalidClient d)).render {})) s n Q := by
  have ha : auth ((Reply.error (invalidClient d)).render {}) b!"realm" = some b!"OAuth2" := by
    rw [render_error rfl]
    have : (invalidClient d).addHeaders [] =
        [(b!"Www-Authenticate", [b!"Basic realm=\"OAuth2\""])] := by
      have : (invalidClient d).headers = [(b!"WWW-Authenticate", b!"Basic realm=\"OAuth2\"")] := rfl
      unfold Error.addHeaders
      rw [this]
      decide +kernel
    unfold auth
    simp only [this]
    decide +kernel
  unfold expectRealm
  rw [wp_bind, wp_ofOption]
  exact ⟨_, ha, (wp_assert handler draws).mpr ⟨by decide, hq⟩⟩

/-! ### Challenges -/

theorem splitComma_cons {p rest : Str} (hp : (0x2C : UInt8) ∉ p) :
    splitComma (p ++ 0x2C :: 0x20 :: rest) = p :: splitComma rest := by
  induction p with
  | nil => simp [splitComma]
  | cons c p ih =>
    simp only [List.mem_cons, not_or] at hp
    have ih := ih hp.2
    cases p with
    | nil =>
      simp only [List.cons_append, List.nil_append] at ih ⊢
      rw [splitComma, if_neg (fun h => hp.1 h.1.symm), ih]
    | cons d p =>
      simp only [List.cons_append] at ih ⊢
      rw [splitComma, if_neg (fun h => hp.1 h.1.symm), ih]

/-- The header a challenge sends. -/
def challengeText (e : Error) : Str :=
  b!"Bearer " ++ (if e.params = [] then b!"realm=\"OAuth2\"" else e.params)

theorem challenge_auth (e : Error) (key : Str) :
    auth (Server.challenge {} e) key =
      authParam key (splitComma (if e.params = [] then b!"realm=\"OAuth2\"" else e.params)) := by
  have h : (Server.challenge {} e).header.get b!"WWW-Authenticate" =
      b!"Bearer" ++ 0x20 :: (if e.params = [] then b!"realm=\"OAuth2\"" else e.params) := by
    show (Header.set [] _ _).get _ = _
    rw [Header.get_set, if_pos rfl]
    rfl
  unfold auth
  rw [h, cutByte_append _ (by decide)]

theorem challenge_code (e : Error) : code (Server.challenge {} e) = e.status.toNat := rfl

theorem challenge_body (e : Error) : (Server.challenge {} e).body = [] := rfl

theorem auth_insufficient (required : Scope) :
    auth (Server.challenge {} (insufficientScope required)) b!"error" =
      some b!"insufficient_scope" := by
  rw [challenge_auth]
  have hp : (insufficientScope required).params =
      b!"error=\"insufficient_scope\"" ++ (if required.items.length > 0 then
        0x2C :: 0x20 :: (b!"scope=\"" ++ required.string ++ b!"\"") else []) := by
    unfold Error.params Error.map insufficientScope
    by_cases h : required.items.length > 0
    · simp only [h, if_true]
      rfl
    · simp only [h, if_false]
      rfl
  rw [hp, if_neg (by simp)]
  by_cases h : required.items.length > 0
  · rw [if_pos h, splitComma_cons (by decide)]
    rfl
  · rw [if_neg h]
    decide +kernel

theorem wp_challenge {e : Error} {status : Nat} {name : Str} (hs : e.status.toNat = status)
    (ha : auth (Server.challenge {} e) b!"error" = some name) {s : Server} {n : Nat}
    {Q : Unit → Server → Nat → Prop} (hq : Q () s n) :
    wp handler draws (expectChallenge (Server.challenge {} e) status name) s n Q := by
  unfold expectChallenge
  rw [wp_bind, wp_assert]
  refine ⟨by rw [challenge_code, hs]; simp, ?_⟩
  rw [wp_bind, wp_ofOption]
  refine ⟨_, ha, ?_⟩
  rw [wp_bind, wp_assert, wp_assert]
  exact ⟨by simp, by simp [challenge_body], hq⟩

/-! ### Tokens -/

theorem render_token {t : TokenResponse} (hr : t.redirectURI = []) :
    (Reply.token t).render {} = {
      header := jsonHeader [], sent := some (200, jsonHeader []), body := t.json ++ [0x0A] } := by
  unfold Reply.render
  simp only [hr, ne_eq, not_true, if_false]
  rw [jsonRecorder_fresh ⟨rfl, rfl, rfl⟩]

/-- What the assertions on a token response read. -/
theorem token_fields (t : TokenResponse) (hf : FitsInt64 t.expiresIn) {w : Recorder}
    (hb : w.body = t.json ++ [0x0A]) :
    jsonFieldString w b!"token_type" = sanitize t.tokenType ∧
    jsonFieldString w b!"access_token" = sanitize t.accessToken ∧
    jsonFieldFloat w b!"expires_in" = F64.ofInt t.expiresIn ∧
    (t.refreshToken ≠ [] → jsonFieldString w b!"refresh_token" = sanitize t.refreshToken) ∧
    (t.scope.items.length ≠ 0 → jsonFieldString w b!"scope" = sanitize t.scope.string) := by
  unfold jsonFieldString jsonFieldFloat
  rw [TokenResponse.json_members] at hb
  simp only [jsonField_members (by simp [TokenResponse.members]) t.members_encode (small_token hf) hb]
  have e1 : sanitize b!"token_type" = b!"token_type" := by decide +kernel
  have e2 : sanitize b!"access_token" = b!"access_token" := by decide +kernel
  have e3 : sanitize b!"expires_in" = b!"expires_in" := by decide +kernel
  have e4 : sanitize b!"refresh_token" = b!"refresh_token" := by decide +kernel
  have e5 : sanitize b!"state" = b!"state" := by decide +kernel
  unfold TokenResponse.members
  simp only [find_append, find_str, find_scope, find_cons, find_nil, e1, e2, e3, e4, e5]
  refine ⟨by simp, by simp, by simp [(F64.parse_ofInt hf.1 hf.2).1], fun h => ?_, fun h => ?_⟩
  · simp [h]
  · simp at h
    simp [h]

theorem items_of_string {s : Scope} (h : s.string ≠ []) : s.items.length ≠ 0 := by
  intro h'
  apply h
  unfold Scope.string
  rw [List.length_eq_zero_iff.mp h']
  rfl

theorem wp_expectTokens {spec : Spec} {c : ServerConfig} {a b : HS256Token} {scope : Scope}
    (he : spec.expectedExpiresIn = c.accessTokenLifespan.tdiv second ∧
      FitsInt64 spec.expectedExpiresIn)
    (hs : scope.string = spec.validScope) (hu : ValidUTF8 spec.validScope)
    (hn : spec.validScope ≠ []) {s : Server} {n : Nat} {Q : Str × Str → Server → Nat → Prop}
    (hq : Q (a.string, b.string) s n) :
    wp handler draws (expectTokens spec
      ((Reply.token (Server.grantResponse c a (some b) scope)).render {})) s n Q := by
  rw [render_token rfl]
  obtain ⟨h1, h2, h3, h4, h5⟩ := token_fields (Server.grantResponse c a (some b) scope)
    (by show FitsInt64 (c.accessTokenLifespan.tdiv second); rw [← he.1]; exact he.2)
    (w := { header := jsonHeader [], sent := some (200, jsonHeader []),
            body := (Server.grantResponse c a (some b) scope).json ++ [0x0A] }) rfl
  have h4 := h4 (token_ne_nil b)
  have h5 := h5 (items_of_string (by
    show scope.string ≠ []
    rw [hs]; exact hn))
  rw [show (Server.grantResponse c a (some b) scope).accessToken = a.string from rfl,
    token_sanitize] at h2
  rw [show (Server.grantResponse c a (some b) scope).refreshToken = b.string from rfl,
    token_sanitize] at h4
  rw [show (Server.grantResponse c a (some b) scope).scope = scope from rfl, hs,
    sanitize_of_valid hu] at h5
  rw [show (Server.grantResponse c a (some b) scope).expiresIn = spec.expectedExpiresIn from
    he.1.symm] at h3
  rw [show sanitize (Server.grantResponse c a (some b) scope).tokenType = b!"bearer" by
    show sanitize BearerAccessTokenType = _
    decide +kernel] at h1
  unfold expectTokens
  simp only [h1, h2, h3, h4, h5, wp_bind, wp_assert, wp_pure]
  simp [code, token_ne_nil]
  exact hq

/-! ### Introspection and revocation -/

theorem render_introspection (i : IntrospectionResponse) :
    (Reply.introspection i).render {} = {
      header := jsonHeader [], sent := some (200, jsonHeader []), body := i.json ++ [0x0A] } := by
  show jsonRecorder {} i.json 200 = _
  rw [jsonRecorder_fresh ⟨rfl, rfl, rfl⟩]

theorem introspection_fields (i : IntrospectionResponse) (he : i.extra = none)
    (hx : FitsInt64 i.expiresAt) (hi : i.issuedAt = 0) (hn : i.notBefore = 0) :
    code ((Reply.introspection i).render {}) = 200 ∧
    jsonFieldBool ((Reply.introspection i).render {}) b!"active" = i.active ∧
    (i.tokenType ≠ [] →
      jsonFieldString ((Reply.introspection i).render {}) b!"token_type" = sanitize i.tokenType) := by
  rw [render_introspection]
  refine ⟨rfl, ?_⟩
  obtain ⟨w, hw⟩ : ∃ w : Recorder, w = {
      header := jsonHeader [], sent := some (200, jsonHeader []), body := i.json ++ [0x0A] } :=
    ⟨_, rfl⟩
  rw [← hw]
  have hb : w.body = i.json ++ [0x0A] := by rw [hw]
  unfold jsonFieldString jsonFieldBool
  rw [IntrospectionResponse.json_members] at hb
  simp only [jsonField_members (by simp [IntrospectionResponse.members])
    (i.members_encode (by rw [he]; exact representable_nil _))
    (small_introspection he hx hi hn) hb]
  have e1 : sanitize b!"active" = b!"active" := by decide +kernel
  have e2 : sanitize b!"client_id" = b!"client_id" := by decide +kernel
  have e3 : sanitize b!"username" = b!"username" := by decide +kernel
  have e4 : sanitize b!"token_type" = b!"token_type" := by decide +kernel
  have e5 : sanitize b!"exp" = b!"exp" := by decide +kernel
  have e6 : sanitize b!"iat" = b!"iat" := by decide +kernel
  have e7 : sanitize b!"nbf" = b!"nbf" := by decide +kernel
  have e8 : sanitize b!"sub" = b!"sub" := by decide +kernel
  have e9 : sanitize b!"aud" = b!"aud" := by decide +kernel
  have e10 : sanitize b!"iss" = b!"iss" := by decide +kernel
  have e11 : sanitize b!"jti" = b!"jti" := by decide +kernel
  unfold IntrospectionResponse.members
  rw [show mapMember b!"extra" i.extra = [] by rw [he]; rfl]
  simp only [find_append, find_str, find_scope, find_int, find_cons, find_nil, e1, e2, e3, e4, e5,
    e6, e7, e8, e9, e10, e11]
  refine ⟨by simp, fun h => ?_⟩
  simp [h]

theorem revoked_code : code (Reply.revoked.render {}) = 200 := rfl

/-! ### Redirects -/

/-- A redirect that carries its parameters in the fragment. -/
theorem redirect_fragment {uri : Str} {u : URL} (hu : RedirectURI uri u) {params : GoMap Str}
    (hp : params.keys.Nodup) (k : Str) :
    code (redirectTo {} uri params true) = 303 ∧
    fragment (redirectTo {} uri params true) k = some ((params.get? k).getD []) := by
  obtain ⟨L, v, h1, h2, h3, _⟩ := location_fragment hp hu.parsed hu.absolute hu.no_hash hu.ascii
  unfold redirectTo
  rw [h1]
  simp only
  rw [redirectRecorder_fresh ⟨rfl, rfl, rfl⟩]
  refine ⟨rfl, ?_⟩
  unfold fragment
  simp only [Header.get_eq, redirectHeader_location]
  rw [show (Header.all [] b!"Location" ++ [L]).headD [] = L from rfl, h2]
  obtain ⟨_, _, h4, h5⟩ := h3
  obtain ⟨⟨q, b⟩, hq⟩ : ∃ x, parseQuery v.fragment = x := ⟨_, rfl⟩
  rw [hq] at h4 h5
  simp only [hq] at h4 h5 ⊢
  rw [h4]
  simp only
  rw [Values.get_eq, h5]
  cases params.get? k <;> rfl

/-- A redirect that carries its parameters in the query. -/
theorem redirect_query {uri : Str} {u : URL} (hu : RedirectURI uri u) {params : GoMap Str}
    (hp : params.keys.Nodup) {k : Str} (hk : u.query.all k = []) :
    code (redirectTo {} uri params false) = 303 ∧
    query (redirectTo {} uri params false) k = some ((params.get? k).getD []) := by
  obtain ⟨L, h1, _, h2⟩ := location_query hp hu.parsed (not_star hu) hu.ascii
  obtain ⟨v, h2, h3⟩ := h2 hu.absolute hu.no_hash
  unfold redirectTo
  rw [h1]
  simp only
  rw [redirectRecorder_fresh ⟨rfl, rfl, rfl⟩]
  refine ⟨rfl, ?_⟩
  unfold query
  simp only [Header.get_eq, redirectHeader_location]
  rw [show (Header.all [] b!"Location" ++ [L]).headD [] = L from rfl, h2]
  simp only
  rw [Values.get_eq, h3.2.2, hk]
  cases params.get? k <;> rfl

theorem not_empty {uri : Str} {u : URL} (hu : RedirectURI uri u) : uri ≠ [] := by
  intro h
  have := hu.parsed
  rw [h, show parseRequestURI [] = none by decide] at this
  cases this

/-- An error that is sent through a redirect. -/
theorem render_redirect {name uri state : Str} {status : Int} {f : Bool} (hu : uri ≠ []) :
    (Reply.error (Error.setRedirect { status := status, name := name } uri state f)).render {} =
      redirectTo {} uri (Error.map (Error.setRedirect { status := status, name := name }
        uri state f)) f := by
  unfold Reply.render
  simp only [Error.setRedirect, ne_eq, hu, not_false_eq_true, if_true]
  rfl

theorem wp_fragmentError {name uri : Str} {u : URL} (hu : RedirectURI uri u) {status : Int}
    (hn : name ≠ []) {s : Server} {n : Nat} {Q : Unit → Server → Nat → Prop} (hq : Q () s n) :
    wp handler draws (expectRedirect fragment ((Reply.error (Error.setRedirect
      { status := status, name := name } uri b!"xyz" true)).render {}) name) s n Q := by
  have key := fun k => redirect_fragment hu (Error.map_nodup (Error.setRedirect
      { status := status, name := name } uri b!"xyz" true)) k
  rw [← render_redirect (not_empty hu)] at key
  have g1 : (Error.map (Error.setRedirect
      { status := status, name := name } uri b!"xyz" true)).get? b!"error" = some name := by
    simp [Error.map, Error.setRedirect, hn, GoMap.get?]
  have g2 : (Error.map (Error.setRedirect
      { status := status, name := name } uri b!"xyz" true)).get? b!"state" = some b!"xyz" := by
    simp [Error.map, Error.setRedirect, hn, GoMap.get?]
  unfold expectRedirect
  rw [wp_bind, wp_assert]
  refine ⟨by simp [(key []).1], ?_⟩
  rw [wp_bind, wp_ofOption]
  refine ⟨_, (key _).2, ?_⟩
  rw [wp_bind, wp_assert]
  refine ⟨by simp [g1], ?_⟩
  rw [wp_bind, wp_ofOption]
  refine ⟨_, (key _).2, ?_⟩
  rw [wp_assert]
  exact ⟨by simp [g2], hq⟩

theorem wp_queryError {name uri : Str} {u : URL} (hu : RedirectURI uri u)
    (hk : ∀ k ∈ [b!"error", b!"state", b!"code"], u.query.all k = []) {status : Int}
    (hn : name ≠ []) {s : Server} {n : Nat} {Q : Unit → Server → Nat → Prop} (hq : Q () s n) :
    wp handler draws (expectRedirect query ((Reply.error (Error.setRedirect
      { status := status, name := name } uri b!"xyz" false)).render {}) name) s n Q := by
  have key := fun k hk => redirect_query (k := k) hu (Error.map_nodup (Error.setRedirect
      { status := status, name := name } uri b!"xyz" false)) hk
  rw [← render_redirect (not_empty hu)] at key
  have g1 : (Error.map (Error.setRedirect
      { status := status, name := name } uri b!"xyz" false)).get? b!"error" = some name := by
    simp [Error.map, Error.setRedirect, hn, GoMap.get?]
  have g2 : (Error.map (Error.setRedirect
      { status := status, name := name } uri b!"xyz" false)).get? b!"state" = some b!"xyz" := by
    simp [Error.map, Error.setRedirect, hn, GoMap.get?]
  unfold expectRedirect
  rw [wp_bind, wp_assert]
  refine ⟨by simp [(key b!"error" (hk _ (by simp))).1], ?_⟩
  rw [wp_bind, wp_ofOption]
  refine ⟨_, (key _ (hk _ (by simp))).2, ?_⟩
  rw [wp_bind, wp_assert]
  refine ⟨by simp [g1], ?_⟩
  rw [wp_bind, wp_ofOption]
  refine ⟨_, (key _ (hk _ (by simp))).2, ?_⟩
  rw [wp_assert]
  exact ⟨by simp [g2], hq⟩

/-- What the tests read off a redirect with a token. -/
theorem implicit_fields {uri : Str} {u : URL} (hu : RedirectURI uri u) (c : ServerConfig)
    (a : HS256Token) {scope : Scope} (hs : scope ≠ none) :
    ∃ w, (Reply.token ((Server.grantResponse c a none scope).setRedirect uri b!"xyz")).render {} = w ∧
      code w = 303 ∧ fragment w b!"token_type" = some b!"bearer" ∧
      fragment w b!"scope" = some scope.string ∧
      fragment w b!"expires_in" = some (itoa (c.accessTokenLifespan.tdiv second)) ∧
      fragment w b!"state" = some b!"xyz" ∧ fragment w b!"refresh_token" = some [] ∧
      fragment w b!"access_token" = some a.string := by
  obtain ⟨t, ht⟩ : ∃ t, (Server.grantResponse c a none scope).setRedirect uri b!"xyz" = t := ⟨_, rfl⟩
  have hr : (Reply.token t).render {} = redirectTo {} uri t.map true := by
    have : t.redirectURI = uri := by rw [← ht]; rfl
    unfold Reply.render
    simp only [this, ne_eq, not_empty hu, not_false_eq_true, if_true]
  have key := fun k => redirect_fragment hu t.map_nodup k
  have hm : t.map = [(b!"token_type", b!"bearer"), (b!"access_token", a.string),
      (b!"expires_in", itoa (c.accessTokenLifespan.tdiv second)), (b!"scope", scope.string),
      (b!"state", b!"xyz")] := by
    rw [← ht]
    simp only [TokenResponse.map, TokenResponse.setRedirect, Server.grantResponse, ne_eq, hs,
      not_true, not_false_eq_true, if_true, if_false, List.append_nil]
    rfl
  rw [ht]
  refine ⟨_, rfl, ?_⟩
  rw [hr]
  refine ⟨(key []).1, ?_, ?_, ?_, ?_, ?_, ?_⟩ <;> rw [(key _).2, hm] <;> rfl

/-- What the tests read off a redirect with a code. -/
theorem code_fields {uri : Str} {u : URL} (hu : RedirectURI uri u)
    (hk : ∀ k ∈ [b!"error", b!"state", b!"code"], u.query.all k = []) (c : HS256Token) :
    ∃ w, (Reply.code { code := c.string, redirectURI := uri, state := b!"xyz" }).render {} = w ∧
      code w = 303 ∧ query w b!"state" = some b!"xyz" ∧ query w b!"code" = some c.string := by
  have hr : (Reply.code { code := c.string, redirectURI := uri, state := b!"xyz" }).render {} =
      redirectTo {} uri (CodeResponse.map
        { code := c.string, redirectURI := uri, state := b!"xyz" }) false := rfl
  have key := fun k hk => redirect_query (k := k) hu (CodeResponse.map_nodup
    { code := c.string, redirectURI := uri, state := b!"xyz" }) hk
  refine ⟨_, rfl, ?_⟩
  rw [hr]
  refine ⟨(key b!"state" (hk _ (by simp))).1, ?_, ?_⟩ <;> rw [(key _ (hk _ (by simp))).2] <;> rfl

end

end OAuth2.Suite

import Verif.Lemmas.Json
import Verif.Lemmas.Extra
import Verif.Lemmas.Http
import Verif.Lemmas.Trim
import Verif.Model.Introspection
import Verif.Props.Transport
/-
C12, C23, C24: responses that are written and read back.
-/

set_option linter.unusedSimpArgs false

namespace OAuth2

variable {σ : Type}

open Spec

/-- A string member with `omitempty`. -/
def strMember (k v : Str) : List Member :=
  if v = [] then [] else [{ key := k, text := jsonString v, doc := .str (sanitize v) }]

/-- A scope member with `omitempty`. -/
def scopeMember (s : Scope) : List Member :=
  if s.items.length = 0 then []
  else [{ key := b!"scope", text := s.marshalJSON, doc := .str (sanitize s.string) }]

/-- An integer member with `omitempty`. -/
def intMember (k : Str) (v : Int) : List Member :=
  if v = 0 then [] else [{ key := k, text := itoa v, doc := .num (itoa v) }]

/-- A map member with `omitempty`. -/
def mapMember (k : Str) (m : Option (List (Str × GoVal))) : List Member :=
  match m.getD [] with
  | [] => []
  | l => match (GoVal.obj l).json with
    | none => []
    | some text => [{ key := k, text := text, doc := .obj (GoVal.docEntries l) }]

theorem mapMember_encodes (k : Str) {m : Option (List (Str × GoVal))}
    (hm : Representable 9999 (.obj (m.getD []))) :
    ∀ x ∈ mapMember k m, Encodes 9999 x.text x.doc := by
  intro x hx
  unfold mapMember at hx
  cases hg : m.getD [] with
  | nil => rw [hg] at hx; cases hx
  | cons e l =>
    rw [hg] at hx hm
    obtain ⟨text, h1, h2⟩ := representable_encodes hm
    simp only [h1, List.mem_singleton] at hx
    rw [hx, ← GoVal.doc]
    exact h2

theorem mapMember_map (k : Str) (m : Option (List (Str × GoVal))) :
    (mapMember k m).map (fun m => (m.key, m.text)) = omitEmptyMap k m := by
  unfold mapMember omitEmptyMap
  cases m.getD [] with
  | nil => rfl
  | cons e l =>
    simp only
    cases (GoVal.obj (e :: l)).json <;> rfl

/-- A nil or empty map can be written. -/
theorem representable_nil (n : Nat) : Representable (n + 1) (.obj []) := .obj .nil (by simp)

theorem strMember_encodes (k v : Str) : ∀ m ∈ strMember k v, Encodes 9999 m.text m.doc := by
  intro m hm
  unfold strMember at hm
  split at hm
  · cases hm
  · rw [List.mem_singleton.mp hm]; exact encodes_string _ v

theorem scopeMember_encodes (s : Scope) : ∀ m ∈ scopeMember s, Encodes 9999 m.text m.doc := by
  intro m hm
  unfold scopeMember at hm
  split at hm
  · cases hm
  · rw [List.mem_singleton.mp hm]; exact encodes_string _ s.string

theorem intMember_encodes (k : Str) (v : Int) : ∀ m ∈ intMember k v, Encodes 9999 m.text m.doc := by
  intro m hm
  unfold intMember at hm
  split at hm
  · cases hm
  · rw [List.mem_singleton.mp hm]; exact encodes_int _ v

theorem strMember_map (k v : Str) : (strMember k v).map (fun m => (m.key, m.text)) = omitEmpty k v := by
  unfold strMember omitEmpty
  split <;> rfl

theorem scopeMember_map (s : Scope) : (scopeMember s).map (fun m => (m.key, m.text)) =
    if s.items.length = 0 then [] else [(b!"scope", s.marshalJSON)] := by
  unfold scopeMember
  split <;> rfl

theorem intMember_map (k : Str) (v : Int) :
    (intMember k v).map (fun m => (m.key, m.text)) = omitZero k v := by
  unfold intMember omitZero
  split <;> rfl

/-- Decoding an optional string member into a field that is empty. -/
theorem foldlM_strMember {α : Type} (f : α → Str → JSON → Option α) (t t' : α) (k v : Str)
    (hk : sanitize k = k)
    (hset : f t k (.str (sanitize v)) = some t') (hnil : v = [] → t' = t) :
    ((strMember k v).map fun m => (sanitize m.key, m.doc)).foldlM (fun t m => f t m.1 m.2) t =
      some t' := by
  unfold strMember
  split
  · rename_i h; rw [hnil h]; rfl
  · simp only [List.map_cons, List.map_nil, List.foldlM_cons, List.foldlM_nil, hk, hset]
    rfl

theorem foldlM_intMember {α : Type} (f : α → Str → JSON → Option α) (t t' : α) (k : Str) (v : Int)
    (hk : sanitize k = k)
    (hset : f t k (.num (itoa v)) = some t') (hnil : v = 0 → t' = t) :
    ((intMember k v).map fun m => (sanitize m.key, m.doc)).foldlM (fun t m => f t m.1 m.2) t =
      some t' := by
  unfold intMember
  split
  · rename_i h; rw [hnil h]; rfl
  · simp only [List.map_cons, List.map_nil, List.foldlM_cons, List.foldlM_nil, hk, hset]
    rfl

theorem foldlM_scopeMember {α : Type} (f : α → Str → JSON → Option α) (t t' : α) (s : Scope)
    (hset : f t b!"scope" (.str (sanitize s.string)) = some t') (hnil : s.items = [] → t' = t) :
    ((scopeMember s).map fun m => (sanitize m.key, m.doc)).foldlM (fun t m => f t m.1 m.2) t =
      some t' := by
  unfold scopeMember
  split
  · rename_i h; rw [hnil (List.length_eq_zero_iff.mp h)]; rfl
  · have hk : sanitize b!"scope" = b!"scope" := by decide
    simp only [List.map_cons, List.map_nil, List.foldlM_cons, List.foldlM_nil, hk, hset]
    rfl

theorem foldlM_mapMember {α : Type} (f : α → Str → JSON → Option α) (t t' : α) (k : Str)
    (m : Option (List (Str × GoVal))) (hm : Representable 9999 (.obj (m.getD [])))
    (hk : sanitize k = k)
    (hset : m.getD [] ≠ [] → f t k (.obj (GoVal.docEntries (m.getD []))) = some t')
    (hnil : m.getD [] = [] → t' = t) :
    ((mapMember k m).map fun m => (sanitize m.key, m.doc)).foldlM (fun t m => f t m.1 m.2) t =
      some t' := by
  unfold mapMember
  cases hg : m.getD [] with
  | nil => rw [hnil hg]; rfl
  | cons e l =>
    have hset := hset (by rw [hg]; simp)
    rw [hg] at hset hm
    obtain ⟨text, h1, -⟩ := representable_encodes hm
    simp only [h1, List.map_cons, List.map_nil, List.foldlM_cons, List.foldlM_nil, hk, hset]
    rfl

theorem sanitize_nil : sanitize [] = [] := rfl

theorem sanitize_eq_nil {s : Str} (h : s = []) : sanitize s = [] := by subst h; rfl

theorem parse_sanitize_empty {s : Scope} (h : s.items = []) :
    Scope.parse (sanitize s.string) = none := by
  unfold Scope.string
  rw [h]
  decide

namespace TokenResponse

def members (r : TokenResponse) : List Member :=
  [{ key := b!"token_type", text := jsonString r.tokenType, doc := .str (sanitize r.tokenType) },
   { key := b!"access_token", text := jsonString r.accessToken, doc := .str (sanitize r.accessToken) },
   { key := b!"expires_in", text := itoa r.expiresIn, doc := .num (itoa r.expiresIn) }] ++
  strMember b!"refresh_token" r.refreshToken ++ scopeMember r.scope ++ strMember b!"state" r.state

theorem json_members (r : TokenResponse) :
    r.json = jsonObject (r.members.map fun m => (m.key, m.text)) := by
  unfold json members
  simp only [List.map_append, strMember_map, scopeMember_map]
  rfl

theorem members_encode (r : TokenResponse) : ∀ m ∈ r.members, Encodes 9999 m.text m.doc := by
  intro m hm
  unfold members at hm
  simp only [List.mem_append] at hm
  rcases hm with ((hm | hm) | hm) | hm
  · simp only [List.mem_cons, List.not_mem_nil, or_false] at hm
    rcases hm with rfl | rfl | rfl
    · exact encodes_string _ _
    · exact encodes_string _ _
    · exact encodes_int _ _
  · exact strMember_encodes _ _ m hm
  · exact scopeMember_encodes _ m hm
  · exact strMember_encodes _ _ m hm

/-- What a token response becomes on the wire. -/
def wire (r : TokenResponse) : TokenResponse :=
  { tokenType := sanitize r.tokenType, accessToken := sanitize r.accessToken,
    expiresIn := r.expiresIn, refreshToken := sanitize r.refreshToken,
    scope := Scope.parse (sanitize r.scope.string), state := sanitize r.state }

theorem unmarshal_json {r : TokenResponse} (he : isInt64 r.expiresIn) :
    unmarshal (r.json ++ [0x0A]) = some r.wire := by
  unfold unmarshal
  rw [json_members, parseJSON_object _ (by simp [members]) r.members_encode]
  simp only
  unfold members
  simp only [List.map_append, List.foldlM_append]
  have h1 : ([{ key := b!"token_type", text := jsonString r.tokenType,
                doc := .str (sanitize r.tokenType) },
      { key := b!"access_token", text := jsonString r.accessToken,
        doc := .str (sanitize r.accessToken) },
      { key := b!"expires_in", text := itoa r.expiresIn, doc := .num (itoa r.expiresIn) }].map
        (fun m : Member => (sanitize m.key, m.doc))).foldlM
        (fun (t : TokenResponse) m => t.setField m.1 m.2) {} =
      some { tokenType := sanitize r.tokenType, accessToken := sanitize r.accessToken,
             expiresIn := r.expiresIn } := by
    have k1 : sanitize b!"token_type" = b!"token_type" := by decide
    have k2 : sanitize b!"access_token" = b!"access_token" := by decide
    have k3 : sanitize b!"expires_in" = b!"expires_in" := by decide
    simp only [List.map_cons, List.map_nil, k1, k2, k3, List.foldlM_cons, List.foldlM_nil]
    have s1 : ∀ (t : TokenResponse) x, t.setField b!"token_type" (.str x) = some { t with tokenType := x } :=
      fun _ _ => rfl
    have s2 : ∀ (t : TokenResponse) x, t.setField b!"access_token" (.str x) =
        some { t with accessToken := x } := fun _ _ => rfl
    have s3 : ∀ (t : TokenResponse) x, t.setField b!"expires_in" (.num x) =
        (parseInt64 x).map fun x => { t with expiresIn := x } := fun _ _ => rfl
    simp only [s1, s2, s3, Option.bind_eq_bind, Option.bind_some, parseInt64_itoa he]
    rfl
  rw [h1]
  simp only [Option.bind_eq_bind, Option.bind_some]
  rw [foldlM_strMember TokenResponse.setField _
    { tokenType := sanitize r.tokenType, accessToken := sanitize r.accessToken,
      expiresIn := r.expiresIn, refreshToken := sanitize r.refreshToken } _ _ (by decide) rfl
      (by intro h; simp [h, sanitize_nil])]
  simp only [Option.bind_some]
  rw [foldlM_scopeMember TokenResponse.setField _
    { tokenType := sanitize r.tokenType, accessToken := sanitize r.accessToken,
      expiresIn := r.expiresIn, refreshToken := sanitize r.refreshToken,
      scope := Scope.parse (sanitize r.scope.string) } _ rfl
      (by intro h; simp [parse_sanitize_empty h])]
  simp only [Option.bind_some]
  rw [foldlM_strMember TokenResponse.setField _ r.wire _ _ (by decide) rfl
      (by intro h; simp [wire, h, sanitize_nil])]

end TokenResponse

/-- The string the wire carries for a scope, and the scope parsed from it. -/
theorem wire_scope (s : Scope) : ∃ str, Replaced s.string str ∧
    Scope.parse (sanitize s.string) = Scope.parse str := ⟨_, sanitize_replaced _, rfl⟩

/-! ### C23 -/

theorem exec_writeTokenResponse {r : TokenResponse} (hr : r.redirectURI = []) (s : Shared σ)
    (l : Local) (hw : l.w.Fresh) :
    exec (writeTokenResponse r) s l = (.ret true, s, { l with w :=
      { header := jsonHeader l.w.header, sent := some (200, jsonHeader l.w.header),
        body := r.json ++ [0x0A] } }) := by
  unfold writeTokenResponse
  rw [if_neg (by simp [hr]), exec_write r.json (by decide) (by decide), ← jsonRecorder_fresh hw]
  rfl

theorem parseTokenResponse_written {r : TokenResponse} (he : isInt64 r.expiresIn) (h : Header)
    {limit : Int} (hl : ((r.json ++ [0x0A]).length : Int) ≤ limit) :
    parseTokenResponse { statusCode := 200, header := jsonHeader h, body := r.json ++ [0x0A] } limit =
      .ok r.wire := by
  unfold parseTokenResponse
  rw [readJSONBody_written _ _ _ hl]
  simp only [TokenResponse.unmarshal_json he]

/-- **C23.** A token response without redirect is written with status 200, and reading it with a
limit not below its length gives the same fields: strings with invalid UTF-8 replaced, the scope
parsed from its printed form. -/
theorem C23_token_response {r : TokenResponse} (hr : r.redirectURI = [])
    (he : isInt64 r.expiresIn) (s : Shared σ) (l : Local) (hw : l.w.Fresh) (limit : Int) :
    ∃ l', exec (writeTokenResponse r) s l = (.ret true, s, l') ∧
      l'.w.result.statusCode = 200 ∧
      ((l'.w.result.body.length : Int) ≤ limit →
        ∃ t, parseTokenResponse l'.w.result limit = .ok t ∧
          Replaced r.tokenType t.tokenType ∧ Replaced r.accessToken t.accessToken ∧
          t.expiresIn = r.expiresIn ∧ Replaced r.refreshToken t.refreshToken ∧
          (∃ str, Replaced r.scope.string str ∧ t.scope = Scope.parse str) ∧
          Replaced r.state t.state ∧ t.redirectURI = []) := by
  refine ⟨_, exec_writeTokenResponse hr s l hw, rfl, ?_⟩
  intro hl
  exact ⟨_, parseTokenResponse_written he _ hl, sanitize_replaced _, sanitize_replaced _, rfl,
    sanitize_replaced _, wire_scope _, sanitize_replaced _, rfl⟩

/-- **C23**, for responses with valid UTF-8 and a clean scope: exactly the same response. -/
theorem C23_token_response_exact {r : TokenResponse} (hr : r.redirectURI = [])
    (he : isInt64 r.expiresIn) (h1 : ValidUTF8 r.tokenType) (h2 : ValidUTF8 r.accessToken)
    (h3 : ValidUTF8 r.refreshToken) (h4 : ValidUTF8 r.state) (h5 : CleanScope r.scope)
    (h6 : ∀ i ∈ r.scope.items, ValidUTF8 i) (s : Shared σ) (l : Local) (hw : l.w.Fresh)
    (limit : Int) :
    ∃ l', exec (writeTokenResponse r) s l = (.ret true, s, l') ∧
      ((l'.w.result.body.length : Int) ≤ limit → parseTokenResponse l'.w.result limit = .ok r) := by
  refine ⟨_, exec_writeTokenResponse hr s l hw, ?_⟩
  intro hl
  refine (parseTokenResponse_written he _ hl).trans ?_
  rw [TokenResponse.wire, sanitize_of_valid h1, sanitize_of_valid h2, sanitize_of_valid h3,
    sanitize_of_valid h4, wire_scope_clean h5 h6, ← hr]

/-- A response with quotes, a control byte, a non-ASCII letter and a two-item scope. -/
example : parseTokenResponse {
      statusCode := 200, header := jsonHeader [],
      body := (TokenResponse.mk b!"bearer" b!"a\"b<\n" 3600 b!"ü" (some [b!"x", b!"y:z"]) b!"s" []).json
        ++ [0x0A] } 2048 =
    .ok (TokenResponse.mk b!"bearer" b!"a\"b<\n" 3600 b!"ü" (some [b!"x", b!"y:z"]) b!"s" []) := by
  decide +kernel

/-! ### C24 -/

namespace IntrospectionResponse

def members (r : IntrospectionResponse) : List Member :=
  [{ key := b!"active", text := if r.active then b!"true" else b!"false", doc := .bool r.active }] ++
  scopeMember r.scope ++ strMember b!"client_id" r.clientID ++ strMember b!"username" r.username ++
  strMember b!"token_type" r.tokenType ++ intMember b!"exp" r.expiresAt ++
  intMember b!"iat" r.issuedAt ++ intMember b!"nbf" r.notBefore ++ strMember b!"sub" r.subject ++
  strMember b!"aud" r.audience ++ strMember b!"iss" r.issuer ++ strMember b!"jti" r.identifier ++
  mapMember b!"extra" r.extra

theorem json_members (r : IntrospectionResponse) :
    r.json = jsonObject (r.members.map fun m => (m.key, m.text)) := by
  unfold json members
  simp only [List.map_append, strMember_map, scopeMember_map, intMember_map, mapMember_map]
  rfl

theorem members_encode (r : IntrospectionResponse)
    (hx : Representable 9999 (.obj (r.extra.getD []))) : ∀ m ∈ r.members, Encodes 9999 m.text m.doc := by
  intro m hm
  unfold members at hm
  simp only [List.mem_append] at hm
  rcases hm with (((((((((((hm | hm) | hm) | hm) | hm) | hm) | hm) | hm) | hm) | hm) | hm) | hm) | hm
  · rw [List.mem_singleton.mp hm]; exact encodes_bool _ _
  all_goals first
    | exact strMember_encodes _ _ m hm
    | exact scopeMember_encodes _ m hm
    | exact intMember_encodes _ _ m hm
    | exact mapMember_encodes _ hx m hm

/-- What an introspection response becomes on the wire. -/
def wire (r : IntrospectionResponse) : IntrospectionResponse :=
  { active := r.active, scope := Scope.parse (sanitize r.scope.string),
    clientID := sanitize r.clientID, username := sanitize r.username,
    tokenType := sanitize r.tokenType, expiresAt := r.expiresAt, issuedAt := r.issuedAt,
    notBefore := r.notBefore, subject := sanitize r.subject, audience := sanitize r.audience,
    issuer := sanitize r.issuer, identifier := sanitize r.identifier,
    extra := match r.extra.getD [] with
      | [] => none
      | l => some (JSON.entries (GoVal.docEntries l)) }

theorem set_clientID (t : IntrospectionResponse) (x : Str) :
    t.setField b!"client_id" (.str x) = some { t with clientID := x } := by
  unfold setField
  rw [show selectField jsonFields b!"client_id" = some b!"client_id" from by decide +kernel]
  rfl

theorem set_username (t : IntrospectionResponse) (x : Str) :
    t.setField b!"username" (.str x) = some { t with username := x } := by
  unfold setField
  rw [show selectField jsonFields b!"username" = some b!"username" from by decide +kernel]
  rfl

theorem set_tokenType (t : IntrospectionResponse) (x : Str) :
    t.setField b!"token_type" (.str x) = some { t with tokenType := x } := by
  unfold setField
  rw [show selectField jsonFields b!"token_type" = some b!"token_type" from by decide +kernel]
  rfl

theorem set_subject (t : IntrospectionResponse) (x : Str) :
    t.setField b!"sub" (.str x) = some { t with subject := x } := by
  unfold setField
  rw [show selectField jsonFields b!"sub" = some b!"sub" from by decide +kernel]
  rfl

theorem set_audience (t : IntrospectionResponse) (x : Str) :
    t.setField b!"aud" (.str x) = some { t with audience := x } := by
  unfold setField
  rw [show selectField jsonFields b!"aud" = some b!"aud" from by decide +kernel]
  rfl

theorem set_issuer (t : IntrospectionResponse) (x : Str) :
    t.setField b!"iss" (.str x) = some { t with issuer := x } := by
  unfold setField
  rw [show selectField jsonFields b!"iss" = some b!"iss" from by decide +kernel]
  rfl

theorem set_identifier (t : IntrospectionResponse) (x : Str) :
    t.setField b!"jti" (.str x) = some { t with identifier := x } := by
  unfold setField
  rw [show selectField jsonFields b!"jti" = some b!"jti" from by decide +kernel]
  rfl

theorem set_expiresAt (t : IntrospectionResponse) (x : Str) :
    t.setField b!"exp" (.num x) = (parseInt64 x).map (fun x => { t with expiresAt := x }) := by
  unfold setField
  rw [show selectField jsonFields b!"exp" = some b!"exp" from by decide +kernel]
  rfl

theorem set_issuedAt (t : IntrospectionResponse) (x : Str) :
    t.setField b!"iat" (.num x) = (parseInt64 x).map (fun x => { t with issuedAt := x }) := by
  unfold setField
  rw [show selectField jsonFields b!"iat" = some b!"iat" from by decide +kernel]
  rfl

theorem set_notBefore (t : IntrospectionResponse) (x : Str) :
    t.setField b!"nbf" (.num x) = (parseInt64 x).map (fun x => { t with notBefore := x }) := by
  unfold setField
  rw [show selectField jsonFields b!"nbf" = some b!"nbf" from by decide +kernel]
  rfl

theorem set_extra (t : IntrospectionResponse) (l : List (Str × JSON)) (ht : t.extra = none)
    (hr : (JSON.obj l).readable = true) :
    t.setField b!"extra" (.obj l) = some { t with extra := some (JSON.entries l) } := by
  rw [JSON.readable] at hr
  have hd : decMap none (.obj l) = some (some (JSON.entries l)) := by
    simp only [decMap, hr]
    rfl
  unfold setField
  rw [show selectField jsonFields b!"extra" = some b!"extra" from by decide +kernel, ht]
  simp +decide only [hd]
  rfl

theorem unmarshal_json {r : IntrospectionResponse} (h1 : isInt64 r.expiresAt)
    (h2 : isInt64 r.issuedAt) (h3 : isInt64 r.notBefore)
    (hx : Representable 9999 (.obj (r.extra.getD []))) :
    unmarshal (r.json ++ [0x0A]) = some r.wire := by
  unfold unmarshal
  rw [json_members, parseJSON_object _ (by simp [members]) (r.members_encode hx)]
  simp only
  unfold members
  simp only [List.map_append, List.foldlM_append]
  obtain ⟨t0, ht0⟩ : ∃ t0, t0 = ({ active := r.active } : IntrospectionResponse) := ⟨_, rfl⟩
  have e0 : ([(⟨b!"active", if r.active then b!"true" else b!"false", .bool r.active⟩ : Member)].map (fun m : Member => (sanitize m.key, m.doc))).foldlM
        (fun (t : IntrospectionResponse) m => t.setField m.1 m.2) {} = some t0 := by
    rw [ht0]
    have k1 : sanitize b!"active" = b!"active" := by decide
    simp only [List.map_cons, List.map_nil, k1, List.foldlM_cons, List.foldlM_nil]
    rfl
  rw [ht0] at e0
  clear ht0
  rw [e0, Option.bind_eq_bind, Option.bind_some]
  rw [foldlM_scopeMember IntrospectionResponse.setField _ {
      active := r.active,
      scope := Scope.parse (sanitize r.scope.string) } r.scope rfl
    (by intro h; rw [parse_sanitize_empty h])]
  simp only [Option.bind_some]
  rw [foldlM_strMember IntrospectionResponse.setField _ {
      active := r.active,
      scope := Scope.parse (sanitize r.scope.string),
      clientID := sanitize r.clientID } _ r.clientID (by decide)
    (by rw [set_clientID]) (by intro h; rw [h, sanitize_nil])]
  simp only [Option.bind_some]
  rw [foldlM_strMember IntrospectionResponse.setField _ {
      active := r.active,
      scope := Scope.parse (sanitize r.scope.string),
      clientID := sanitize r.clientID,
      username := sanitize r.username } _ r.username (by decide)
    (by rw [set_username]) (by intro h; rw [h, sanitize_nil])]
  simp only [Option.bind_some]
  rw [foldlM_strMember IntrospectionResponse.setField _ {
      active := r.active,
      scope := Scope.parse (sanitize r.scope.string),
      clientID := sanitize r.clientID,
      username := sanitize r.username,
      tokenType := sanitize r.tokenType } _ r.tokenType (by decide)
    (by rw [set_tokenType]) (by intro h; rw [h, sanitize_nil])]
  simp only [Option.bind_some]
  rw [foldlM_intMember IntrospectionResponse.setField _ {
      active := r.active,
      scope := Scope.parse (sanitize r.scope.string),
      clientID := sanitize r.clientID,
      username := sanitize r.username,
      tokenType := sanitize r.tokenType,
      expiresAt := r.expiresAt } _ r.expiresAt (by decide)
    (by rw [set_expiresAt, parseInt64_itoa h1]; rfl) (by intro h; rw [h])]
  simp only [Option.bind_some]
  rw [foldlM_intMember IntrospectionResponse.setField _ {
      active := r.active,
      scope := Scope.parse (sanitize r.scope.string),
      clientID := sanitize r.clientID,
      username := sanitize r.username,
      tokenType := sanitize r.tokenType,
      expiresAt := r.expiresAt,
      issuedAt := r.issuedAt } _ r.issuedAt (by decide)
    (by rw [set_issuedAt, parseInt64_itoa h2]; rfl) (by intro h; rw [h])]
  simp only [Option.bind_some]
  rw [foldlM_intMember IntrospectionResponse.setField _ {
      active := r.active,
      scope := Scope.parse (sanitize r.scope.string),
      clientID := sanitize r.clientID,
      username := sanitize r.username,
      tokenType := sanitize r.tokenType,
      expiresAt := r.expiresAt,
      issuedAt := r.issuedAt,
      notBefore := r.notBefore } _ r.notBefore (by decide)
    (by rw [set_notBefore, parseInt64_itoa h3]; rfl) (by intro h; rw [h])]
  simp only [Option.bind_some]
  rw [foldlM_strMember IntrospectionResponse.setField _ {
      active := r.active,
      scope := Scope.parse (sanitize r.scope.string),
      clientID := sanitize r.clientID,
      username := sanitize r.username,
      tokenType := sanitize r.tokenType,
      expiresAt := r.expiresAt,
      issuedAt := r.issuedAt,
      notBefore := r.notBefore,
      subject := sanitize r.subject } _ r.subject (by decide)
    (by rw [set_subject]) (by intro h; rw [h, sanitize_nil])]
  simp only [Option.bind_some]
  rw [foldlM_strMember IntrospectionResponse.setField _ {
      active := r.active,
      scope := Scope.parse (sanitize r.scope.string),
      clientID := sanitize r.clientID,
      username := sanitize r.username,
      tokenType := sanitize r.tokenType,
      expiresAt := r.expiresAt,
      issuedAt := r.issuedAt,
      notBefore := r.notBefore,
      subject := sanitize r.subject,
      audience := sanitize r.audience } _ r.audience (by decide)
    (by rw [set_audience]) (by intro h; rw [h, sanitize_nil])]
  simp only [Option.bind_some]
  rw [foldlM_strMember IntrospectionResponse.setField _ {
      active := r.active,
      scope := Scope.parse (sanitize r.scope.string),
      clientID := sanitize r.clientID,
      username := sanitize r.username,
      tokenType := sanitize r.tokenType,
      expiresAt := r.expiresAt,
      issuedAt := r.issuedAt,
      notBefore := r.notBefore,
      subject := sanitize r.subject,
      audience := sanitize r.audience,
      issuer := sanitize r.issuer } _ r.issuer (by decide)
    (by rw [set_issuer]) (by intro h; rw [h, sanitize_nil])]
  simp only [Option.bind_some]
  rw [foldlM_strMember IntrospectionResponse.setField _ {
      active := r.active,
      scope := Scope.parse (sanitize r.scope.string),
      clientID := sanitize r.clientID,
      username := sanitize r.username,
      tokenType := sanitize r.tokenType,
      expiresAt := r.expiresAt,
      issuedAt := r.issuedAt,
      notBefore := r.notBefore,
      subject := sanitize r.subject,
      audience := sanitize r.audience,
      issuer := sanitize r.issuer,
      identifier := sanitize r.identifier } _ r.identifier (by decide)
    (by rw [set_identifier]) (by intro h; rw [h, sanitize_nil])]
  simp only [Option.bind_some]
  rw [foldlM_mapMember IntrospectionResponse.setField _ r.wire _ r.extra hx (by decide) ?_ ?_]
  · intro hne
    rw [set_extra _ _ rfl (by have := readable_doc hx; rw [GoVal.doc] at this; exact this)]
    unfold wire
    cases hg : r.extra.getD [] with
    | nil => exact absurd hg hne
    | cons e l => rfl
  · intro h
    unfold wire
    rw [h]

end IntrospectionResponse

theorem exec_writeIntrospectionResponse {r : IntrospectionResponse}
    (hk : r.active = true → knownTokenType r.tokenType = true)
    (hx : Representable 9999 (.obj (r.extra.getD []))) (s : Shared σ) (l : Local)
    (hw : l.w.Fresh) :
    exec (writeIntrospectionResponse r) s l = (.ret true, s, { l with w :=
      { header := jsonHeader l.w.header, sent := some (200, jsonHeader l.w.header),
        body := r.json ++ [0x0A] } }) := by
  obtain ⟨text, ht, -⟩ := representable_encodes hx
  unfold writeIntrospectionResponse
  rw [if_neg (by cases h : r.active <;> simp [h] at hk ⊢; exact hk),
    if_pos (by simp [IntrospectionResponse.encodable, ht]), exec_write r.json (by decide) (by decide), ← jsonRecorder_fresh hw]
  rfl

theorem parseIntrospectionResponse_written {r : IntrospectionResponse} (h1 : isInt64 r.expiresAt)
    (h2 : isInt64 r.issuedAt) (h3 : isInt64 r.notBefore)
    (hx : Representable 9999 (.obj (r.extra.getD []))) (h : Header) {limit : Int} (hl : ((r.json ++ [0x0A]).length : Int) ≤ limit) :
    parseIntrospectionResponse
      { statusCode := 200, header := jsonHeader h, body := r.json ++ [0x0A] } limit = .ok r.wire := by
  unfold parseIntrospectionResponse
  rw [readJSONBody_written _ _ _ hl]
  simp only [IntrospectionResponse.unmarshal_json h1 h2 h3 hx]

theorem wire_extra {r : IntrospectionResponse} (hx : Representable 9999 (.obj (r.extra.getD [])))
    (hv : ValidText (.obj (r.extra.getD []))) :
    Arrives (.obj (r.extra.getD [])) (.obj (r.wire.extra.getD [])) := by
  have := value_doc hx hv
  rw [GoVal.doc, JSON.value] at this
  unfold IntrospectionResponse.wire
  cases hg : r.extra.getD [] with
  | nil => exact .obj .nil
  | cons e l => rw [hg] at this; exact this

/-- **C24.** An inactive introspection response, or an active one with a known token type, whose
extra data JSON can express, is written with status 200 and read back with the same fields: strings
with invalid UTF-8 replaced, the scope parsed from its printed form, and the same extra data if its
strings are valid UTF-8, except that an integer has become the nearest floating-point number. (A nil
map is read back for an empty one.) -/
theorem C24_introspection_response {r : IntrospectionResponse}
    (hk : r.active = true → r.tokenType = b!"access_token" ∨ r.tokenType = b!"refresh_token")
    (h1 : isInt64 r.expiresAt) (h2 : isInt64 r.issuedAt) (h3 : isInt64 r.notBefore)
    (hx : Representable 9999 (.obj (r.extra.getD [])))
    (s : Shared σ) (l : Local) (hw : l.w.Fresh) (limit : Int) :
    ∃ l', exec (writeIntrospectionResponse r) s l = (.ret true, s, l') ∧
      l'.w.result.statusCode = 200 ∧
      ((l'.w.result.body.length : Int) ≤ limit →
        ∃ t, parseIntrospectionResponse l'.w.result limit = .ok t ∧
          t.active = r.active ∧ (∃ str, Replaced r.scope.string str ∧ t.scope = Scope.parse str) ∧
          Replaced r.clientID t.clientID ∧ Replaced r.username t.username ∧
          Replaced r.tokenType t.tokenType ∧ t.expiresAt = r.expiresAt ∧
          t.issuedAt = r.issuedAt ∧ t.notBefore = r.notBefore ∧ Replaced r.subject t.subject ∧
          Replaced r.audience t.audience ∧ Replaced r.issuer t.issuer ∧
          Replaced r.identifier t.identifier ∧
          (ValidText (.obj (r.extra.getD [])) →
            Arrives (.obj (r.extra.getD [])) (.obj (t.extra.getD [])))) := by
  have hk' : r.active = true → knownTokenType r.tokenType = true := by
    intro h
    rcases hk h with h | h <;> rw [h] <;> decide
  refine ⟨_, exec_writeIntrospectionResponse hk' hx s l hw, rfl, ?_⟩
  intro hl
  exact ⟨_, parseIntrospectionResponse_written h1 h2 h3 hx _ hl, rfl, wire_scope _,
    sanitize_replaced _, sanitize_replaced _, sanitize_replaced _, rfl, rfl, rfl,
    sanitize_replaced _, sanitize_replaced _, sanitize_replaced _, sanitize_replaced _, wire_extra hx⟩

/-- **C24**, for responses with valid UTF-8, a clean scope, no empty map and no integers in the extra
data: exactly the same response. -/
theorem C24_introspection_response_exact {r : IntrospectionResponse}
    (hk : r.active = true → r.tokenType = b!"access_token" ∨ r.tokenType = b!"refresh_token")
    (h1 : isInt64 r.expiresAt) (h2 : isInt64 r.issuedAt) (h3 : isInt64 r.notBefore)
    (hu : ∀ v ∈ [r.clientID, r.username, r.tokenType, r.subject, r.audience, r.issuer, r.identifier],
      ValidUTF8 v)
    (hs : CleanScope r.scope) (hi : ∀ i ∈ r.scope.items, ValidUTF8 i)
    (hx : Representable 9999 (.obj (r.extra.getD []))) (hv : ValidText (.obj (r.extra.getD [])))
    (hn : r.extra ≠ some []) (hint : ¬ HasInteger (.obj (r.extra.getD [])))
    (s : Shared σ) (l : Local) (hw : l.w.Fresh) (limit : Int) :
    ∃ l', exec (writeIntrospectionResponse r) s l = (.ret true, s, l') ∧
      ((l'.w.result.body.length : Int) ≤ limit →
        parseIntrospectionResponse l'.w.result limit = .ok r) := by
  have hk' : r.active = true → knownTokenType r.tokenType = true := by
    intro h
    rcases hk h with h | h <;> rw [h] <;> decide
  refine ⟨_, exec_writeIntrospectionResponse hk' hx s l hw, ?_⟩
  intro hl
  refine (parseIntrospectionResponse_written h1 h2 h3 hx _ hl).trans ?_
  have he : r.wire.extra = r.extra := by
    have := GoVal.obj.inj ((wire_extra hx hv).eq hint)
    unfold IntrospectionResponse.wire at this ⊢
    cases hr : r.extra with
    | none => rfl
    | some m =>
      cases m with
      | nil => exact absurd hr hn
      | cons e m =>
        rw [hr] at this
        exact congrArg some this
  congr 1
  unfold IntrospectionResponse.wire at he ⊢
  simp only at he
  rw [he]
  simp only [List.mem_cons, List.not_mem_nil, or_false, forall_eq_or_imp, forall_eq] at hu
  obtain ⟨u1, u2, u3, u4, u5, u6, u7⟩ := hu
  rw [sanitize_of_valid u1, sanitize_of_valid u2, sanitize_of_valid u3, sanitize_of_valid u4,
    sanitize_of_valid u5, sanitize_of_valid u6, sanitize_of_valid u7, wire_scope_clean hs hi]

/-- **C24.** A response whose extra data contains something JSON cannot express is not written:
an error is returned. But the status 200 has been sent by then, with an empty body, which every
client reads as an error. -/
theorem C24_inexpressible {r : IntrospectionResponse}
    (hk : r.active = true → r.tokenType = b!"access_token" ∨ r.tokenType = b!"refresh_token")
    {e : Str × GoVal} (he : e ∈ r.extra.getD []) (hv : Inexpressible e.2)
    (s : Shared σ) (l : Local) (hw : l.w.Fresh) :
    ∃ l', exec (writeIntrospectionResponse r) s l = (.ret false, s, l') ∧
      l'.w.result.statusCode = 200 ∧ l'.w.result.body = [] ∧
      ∀ limit, ∃ err, parseIntrospectionResponse l'.w.result limit = .error err := by
  have hk' : r.active = true → knownTokenType r.tokenType = true := by
    intro h
    rcases hk h with h | h <;> rw [h] <;> decide
  have hj : (GoVal.obj (r.extra.getD [])).json = none := json_inexpressible (.obj he hv)
  unfold writeIntrospectionResponse
  rw [if_neg (by cases h : r.active <;> simp [h] at hk' ⊢; exact hk'),
    if_neg (by simp [IntrospectionResponse.encodable, hj])]
  unfold writeUnencodable
  simp only [exec_respond_bind]
  rw [exec_writeHeader_bind (by decide) (by decide)]
  refine ⟨_, rfl, ?_, ?_, fun limit => ?_⟩
  · simp [Recorder.writeHeader, hw.sent, Recorder.result]
  · simp [Recorder.writeHeader, hw.sent, hw.body, Recorder.result]
  · unfold parseIntrospectionResponse
    cases hr : readJSONBody _ limit with
    | error err => exact ⟨err, rfl⟩
    | ok data =>
      have hd : data = [] := by
        unfold readJSONBody Response.readAll at hr
        simp only [Recorder.writeHeader, hw.sent, hw.body, Recorder.result, List.take_nil] at hr
        (repeat' split at hr) <;> first | cases hr | skip
        rfl
      rw [hd]
      exact ⟨.lib, by simp only; rw [show IntrospectionResponse.unmarshal [] = none from by decide +kernel]⟩

/-- The number -1.5. -/
def minusThreeHalves : F64 := { neg := true, mant := 3 * 2 ^ 51, exp := -52, valid := by decide }

/-- Extra data with nested maps and slices, numbers and text outside ASCII. -/
example : let r : IntrospectionResponse := {
      active := true, tokenType := b!"access_token", extra := some [
        (b!"a", .arr [.null, .num minusThreeHalves, .int 1600000000, .str b!"<ü>"]),
        (b!"b", .obj [(b!"", .bool true), (b!"x", .obj [])])] }
    Representable 9999 (.obj (r.extra.getD [])) ∧ ValidText (.obj (r.extra.getD [])) ∧
    r.json = b!"{\"active\":true,\"token_type\":\"access_token\",\"extra\":{\"a\":[null,-1.5,1600000000," ++
      b!"\"\\u003cü\\u003e\"],\"b\":{\"\":true,\"x\":{}}}}" := by
  refine ⟨?_, ?_, by decide +kernel⟩
  · refine .obj (by unfold KeysInOrder; decide) ?_
    simp only [Option.getD_some, List.mem_cons, List.not_mem_nil, or_false, forall_eq_or_imp, forall_eq]
    refine ⟨.arr ?_, .obj (by unfold KeysInOrder; decide) ?_⟩
    · simp only [Option.getD_some, List.mem_cons, List.not_mem_nil, or_false, forall_eq_or_imp, forall_eq]
      exact ⟨.null, .num _, .int (by decide) (by decide), .str _⟩
    · simp only [Option.getD_some, List.mem_cons, List.not_mem_nil, or_false, forall_eq_or_imp, forall_eq]
      exact ⟨.bool _, .obj .nil (by simp)⟩
  · have hu : ∀ s : Str, (∃ rs : List Nat, (∀ r ∈ rs, Scalar r) ∧ s = rs.flatMap encodeRune) →
      ValidUTF8 s := fun _ h => h
    refine .obj ?_ ?_
    · simp only [Option.getD_some, List.mem_cons, List.not_mem_nil, or_false, forall_eq_or_imp, forall_eq]
      exact ⟨hu _ ⟨[0x61], by unfold Scalar; decide, by decide⟩,
        hu _ ⟨[0x62], by unfold Scalar; decide, by decide⟩⟩
    · simp only [Option.getD_some, List.mem_cons, List.not_mem_nil, or_false, forall_eq_or_imp, forall_eq]
      refine ⟨.arr ?_, .obj ?_ ?_⟩
      · simp only [Option.getD_some, List.mem_cons, List.not_mem_nil, or_false, forall_eq_or_imp, forall_eq]
        exact ⟨.null, .num _, .int _, .str (hu _ ⟨[0x3C, 0xFC, 0x3E], by unfold Scalar; decide, by decide⟩)⟩
      · simp only [Option.getD_some, List.mem_cons, List.not_mem_nil, or_false, forall_eq_or_imp, forall_eq]
        exact ⟨hu _ ⟨[], by simp, rfl⟩, hu _ ⟨[0x78], by unfold Scalar; decide, by decide⟩⟩
      · simp only [Option.getD_some, List.mem_cons, List.not_mem_nil, or_false, forall_eq_or_imp, forall_eq]
        exact ⟨.bool _, .obj (by simp) (by simp)⟩

/-- A channel in the extra data. -/
example : (exec (writeIntrospectionResponse { extra := some [(b!"c", .arr [.other])] }) (⟨false, ()⟩ : Shared Unit)
    { clock := fun _ => 0 }).1 = .ret false := by decide +kernel

/-- **C24.** An active response with any other token type is refused: an error is returned and
nothing is written. -/
theorem C24_unknown_type_refused {r : IntrospectionResponse} (ha : r.active = true)
    (h1 : r.tokenType ≠ b!"access_token") (h2 : r.tokenType ≠ b!"refresh_token")
    (s : Shared σ) (l : Local) :
    exec (writeIntrospectionResponse r) s l = (.ret false, s, l) := by
  unfold writeIntrospectionResponse
  have : knownTokenType r.tokenType = false := by
    simp only [knownTokenType, AccessToken, RefreshToken, h1, h2]; rfl
  rw [if_pos (by simp [ha, this])]
  rfl

example : parseIntrospectionResponse {
      statusCode := 200, header := jsonHeader [],
      body := ({
        active := true, scope := some [b!"x"], clientID := b!"c&d", username := b!"u",
        tokenType := b!"access_token", expiresAt := 1700000000, issuedAt := -5 } :
          IntrospectionResponse).json ++ [0x0A] } 2048 =
    .ok {
          active := true, scope := some [b!"x"], clientID := b!"c&d", username := b!"u",
          tokenType := b!"access_token", expiresAt := 1700000000, issuedAt := -5 } := by
  decide +kernel

/-! ### C12 -/

namespace Error

def members (e : Error) : List Member :=
  [{ key := b!"error", text := jsonString e.name, doc := .str (sanitize e.name) }] ++
  strMember b!"state" e.state ++ scopeMember e.scope ++ strMember b!"realm" e.realm ++
  strMember b!"error_description" e.description ++ strMember b!"error_uri" e.uri

theorem json_members (e : Error) :
    e.json = jsonObject (e.members.map fun m => (m.key, m.text)) := by
  unfold json members
  simp only [List.map_append, strMember_map, scopeMember_map, intMember_map]
  rfl

theorem members_encode (e : Error) : ∀ m ∈ e.members, Encodes 9999 m.text m.doc := by
  intro m hm
  unfold members at hm
  simp only [List.mem_append] at hm
  rcases hm with ((((hm | hm) | hm) | hm) | hm) | hm
  · rw [List.mem_singleton.mp hm]; exact encodes_string _ _
  all_goals first
    | exact strMember_encodes _ _ m hm
    | exact scopeMember_encodes _ m hm

/-- What an error becomes on the wire. -/
def wire (e : Error) : Error :=
  { name := sanitize e.name, state := sanitize e.state,
    scope := Scope.parse (sanitize e.scope.string), realm := sanitize e.realm,
    description := sanitize e.description, uri := sanitize e.uri }

theorem unmarshal_json (e : Error) : unmarshal (e.json ++ [0x0A]) = some e.wire := by
  unfold unmarshal
  rw [json_members, parseJSON_object _ (by simp [members]) e.members_encode]
  simp only
  unfold members
  simp only [List.map_append, List.foldlM_append]
  obtain ⟨t0, ht0⟩ : ∃ t0, t0 = ({ name := sanitize e.name } : Error) := ⟨_, rfl⟩
  have e0 : ([(⟨b!"error", jsonString e.name, .str (sanitize e.name)⟩ : Member)].map (fun m : Member => (sanitize m.key, m.doc))).foldlM
        (fun (t : Error) m => t.setField m.1 m.2) {} = some t0 := by
    rw [ht0]
    have k1 : sanitize b!"error" = b!"error" := by decide
    simp only [List.map_cons, List.map_nil, k1, List.foldlM_cons, List.foldlM_nil]
    rfl
  rw [e0, Option.bind_eq_bind, Option.bind_some]
  obtain ⟨t1, ht1⟩ : ∃ t1, t1 = { t0 with state := sanitize e.state } := ⟨_, rfl⟩
  rw [foldlM_strMember Error.setField t0 t1 _ e.state (by decide) (by rw [ht1]; rfl)
    (by intro h; rw [ht1, ht0, h, sanitize_nil])]
  simp only [Option.bind_some]
  obtain ⟨t2, ht2⟩ : ∃ t2, t2 = { t1 with scope := Scope.parse (sanitize e.scope.string) } := ⟨_, rfl⟩
  rw [foldlM_scopeMember Error.setField t1 t2 e.scope (by rw [ht2]; rfl)
    (by intro h; rw [ht2, ht1, ht0, parse_sanitize_empty h])]
  simp only [Option.bind_some]
  obtain ⟨t3, ht3⟩ : ∃ t3, t3 = { t2 with realm := sanitize e.realm } := ⟨_, rfl⟩
  rw [foldlM_strMember Error.setField t2 t3 _ e.realm (by decide) (by rw [ht3]; rfl)
    (by intro h; rw [ht3, ht2, ht1, ht0, h, sanitize_nil])]
  simp only [Option.bind_some]
  obtain ⟨t4, ht4⟩ : ∃ t4, t4 = { t3 with description := sanitize e.description } := ⟨_, rfl⟩
  rw [foldlM_strMember Error.setField t3 t4 _ e.description (by decide) (by rw [ht4]; rfl)
    (by intro h; rw [ht4, ht3, ht2, ht1, ht0, h, sanitize_nil])]
  simp only [Option.bind_some]
  rw [foldlM_strMember Error.setField t4 { t4 with uri := sanitize e.uri } _ e.uri (by decide) rfl
    (by intro h; rw [ht4, ht3, ht2, ht1, ht0, h, sanitize_nil])]
  rw [ht4, ht3, ht2, ht1, ht0, wire]

end Error

/-- The header map after `WriteError` applied the error's own headers. -/
def errorHeader (e : Error) (h : Header) : Header :=
  e.headers.foldl (fun h p => h.set p.1 p.2) h

theorem exec_writeError {e : Error} (hr : e.redirectURI = []) (h1 : 100 ≤ e.status)
    (h2 : e.status ≤ 999) (s : Shared σ) (l : Local) (hw : l.w.Fresh) :
    exec (writeError (.oauth e)) s l = (.ret true, s, { l with w :=
      { header := jsonHeader (errorHeader e l.w.header),
        sent := some (e.status.toNat, jsonHeader (errorHeader e l.w.header)),
        body := e.json ++ [0x0A] } }) := by
  unfold writeError
  simp only [GoErr.asError, Option.getD_some, exec_respond_bind, ne_eq, hr, not_true, if_false]
  rw [exec_write e.json h1 h2]
  have := jsonRecorder_fresh (w := ⟨errorHeader e l.w.header, l.w.sent, l.w.body, l.w.superfluous⟩)
    ⟨hw.sent, hw.body, hw.superfluous⟩ e.json e.status.toNat
  simp only [errorHeader] at this ⊢
  rw [this]

/-- **C12.** An error without redirect and with a three-digit status is written with that status;
reading the response gives an OAuth2 error with the same fields (invalid UTF-8 replaced, the scope
parsed from its printed form) and the status of the response. -/
theorem C12_error_roundtrip {e : Error} (hr : e.redirectURI = []) (h1 : 100 ≤ e.status)
    (h2 : e.status ≤ 999) (s : Shared σ) (l : Local) (hw : l.w.Fresh) (limit : Int) :
    ∃ l', exec (writeError (.oauth e)) s l = (.ret true, s, l') ∧
      (l'.w.result.statusCode : Int) = e.status ∧
      ((l'.w.result.body.length : Int) ≤ limit →
        ∃ t, parseRequestError l'.w.result limit = .oauth t ∧
          Replaced e.name t.name ∧ Replaced e.state t.state ∧
          (∃ str, Replaced e.scope.string str ∧ t.scope = Scope.parse str) ∧
          Replaced e.realm t.realm ∧ Replaced e.description t.description ∧
          Replaced e.uri t.uri ∧ t.status = e.status) := by
  refine ⟨_, exec_writeError hr h1 h2 s l hw, ?_, ?_⟩
  · simp only [Recorder.result]; omega
  intro hl
  have htake : (e.json ++ [0x0A]).take limit.toNat = e.json ++ [0x0A] := by
    apply List.take_of_length_le
    simp only [Recorder.result] at hl
    omega
  refine ⟨{ e.wire with status := e.status }, ?_, sanitize_replaced _, sanitize_replaced _,
    wire_scope _, sanitize_replaced _, sanitize_replaced _, sanitize_replaced _, rfl⟩
  unfold parseRequestError Response.readAll
  simp only [Recorder.result, htake, Error.unmarshal_json]
  have : ((e.status.toNat : Nat) : Int) = e.status := by omega
  rw [this]

/-- **C12.** Anything that is not an OAuth2 error is sent as `server_error` with status 500 and no
details, and reads back as such. -/
theorem C12_foreign_error {err : GoErr} (herr : ∀ e, err ≠ .oauth e) (s : Shared σ) (l : Local)
    (hw : l.w.Fresh) (limit : Int) :
    ∃ l', exec (writeError err) s l = (.ret true, s, l') ∧ l'.w.result.statusCode = 500 ∧
      l'.w.result.body = b!"{\"error\":\"server_error\"}\n" ∧
      ((l'.w.result.body.length : Int) ≤ limit →
        parseRequestError l'.w.result limit = .oauth { name := b!"server_error", status := 500 }) := by
  have heq : exec (writeError err) s l = exec (writeError (.oauth (serverError []))) s l := by
    cases err with
    | oauth e => exact absurd rfl (herr e)
    | msg t => rfl
    | lib => rfl
  rw [heq, exec_writeError rfl (by decide) (by decide) s l hw]
  refine ⟨_, rfl, rfl, (by decide +kernel :
    (serverError []).json ++ [0x0A] = b!"{\"error\":\"server_error\"}\n"), ?_⟩
  intro hl
  have htake : ((serverError []).json ++ [0x0A]).take limit.toNat = (serverError []).json ++ [0x0A] := by
    apply List.take_of_length_le
    simp only [Recorder.result] at hl
    omega
  unfold parseRequestError Response.readAll
  simp only [Recorder.result, htake, Error.unmarshal_json]
  decide +kernel

example : (exec (writeError (σ := Unit) (.oauth {
      name := b!"invalid_scope", status := 400,
      scope := some [b!"a", b!"b"], description := b!"\"quoted\" text" })) ⟨false, ()⟩
      { clock := fun _ => 0 }).2.2.w.result.body =
    b!"{\"error\":\"invalid_scope\",\"scope\":\"a b\",\"error_description\":\"\\\"quoted\\\" text\"}\n" := by
  decide +kernel

end OAuth2

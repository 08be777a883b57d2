import Verif.Lemmas.Document
import Verif.Lemmas.Decide
/-
C74: what a client reads from the responses of any server.
-/

namespace OAuth2

open Spec

theorem tokenFields_lower : ∀ f ∈ TokenResponse.jsonFields, lowerName f := by
  decide +kernel

theorem introspectionFields_lower : ∀ f ∈ IntrospectionResponse.jsonFields, lowerName f := by
  decide +kernel

theorem errorFields_lower : ∀ f ∈ Error.jsonFields, lowerName f := by
  decide +kernel

theorem fieldFold_cons {α : Type} (fields : List Str) (dec : α → JSON → Option α) (f : Str)
    (old : α) (m : Str × JSON) (l : List (Str × JSON)) :
    fieldFold fields dec f old (m :: l) =
      if selectField fields m.1 = some f then (dec old m.2).bind fun x => fieldFold fields dec f x l
      else fieldFold fields dec f old l := by
  unfold fieldFold
  rw [List.foldlM_cons]
  split <;> rfl

theorem token_fold (l : List (Str × JSON)) (t t' : TokenResponse) :
    l.foldlM (fun t m => TokenResponse.setField t m.1 m.2) t = some t' ↔
      fieldFold TokenResponse.jsonFields decStr b!"token_type" t.tokenType l = some t'.tokenType ∧
      fieldFold TokenResponse.jsonFields decStr b!"access_token" t.accessToken l =
        some t'.accessToken ∧
      fieldFold TokenResponse.jsonFields decInt b!"expires_in" t.expiresIn l = some t'.expiresIn ∧
      fieldFold TokenResponse.jsonFields decStr b!"refresh_token" t.refreshToken l =
        some t'.refreshToken ∧
      fieldFold TokenResponse.jsonFields (fun _ v => Scope.unmarshalValue v) b!"scope" t.scope l =
        some t'.scope ∧
      fieldFold TokenResponse.jsonFields decStr b!"state" t.state l = some t'.state ∧
      t'.redirectURI = t.redirectURI := by
  induction l generalizing t with
  | nil =>
    obtain ⟨_, _, _, _, _, _, _⟩ := t
    obtain ⟨_, _, _, _, _, _, _⟩ := t'
    simp [fieldFold, eq_comm]
  | cons m l ih =>
    rw [List.foldlM_cons]
    simp only [fieldFold_cons]
    unfold TokenResponse.setField
    cases hsel : selectField TokenResponse.jsonFields m.1 with
    | none =>
      simp only [reduceCtorEq, if_false]
      exact ih t
    | some f =>
      have hf := ((selectField_iff tokenFields_lower m.1 f).mp hsel).1
      simp only [TokenResponse.jsonFields, List.mem_cons, List.not_mem_nil, or_false] at hf
      rcases hf with rfl | rfl | rfl | rfl | rfl | rfl
      all_goals
        simp +decide only [if_false, if_true]
      · cases h : decStr t.tokenType m.2 with
        | none => simp
        | some x => exact ih _
      · cases h : decStr t.accessToken m.2 with
        | none => simp
        | some x => exact ih _
      · cases h : decInt t.expiresIn m.2 with
        | none => simp
        | some x => exact ih _
      · cases h : decStr t.refreshToken m.2 with
        | none => simp
        | some x => exact ih _
      · cases h : Scope.unmarshalValue m.2 with
        | none => simp
        | some x => exact ih _
      · cases h : decStr t.state m.2 with
        | none => simp
        | some x => exact ih _

theorem introspection_fold (l : List (Str × JSON)) (t t' : IntrospectionResponse) :
    l.foldlM (fun t m => IntrospectionResponse.setField t m.1 m.2) t = some t' ↔
      fieldFold IntrospectionResponse.jsonFields decBool b!"active" t.active l =
        some t'.active ∧
      fieldFold IntrospectionResponse.jsonFields (fun _ v => Scope.unmarshalValue v) b!"scope" t.scope l =
        some t'.scope ∧
      fieldFold IntrospectionResponse.jsonFields decStr b!"client_id" t.clientID l =
        some t'.clientID ∧
      fieldFold IntrospectionResponse.jsonFields decStr b!"username" t.username l =
        some t'.username ∧
      fieldFold IntrospectionResponse.jsonFields decStr b!"token_type" t.tokenType l =
        some t'.tokenType ∧
      fieldFold IntrospectionResponse.jsonFields decInt b!"exp" t.expiresAt l =
        some t'.expiresAt ∧
      fieldFold IntrospectionResponse.jsonFields decInt b!"iat" t.issuedAt l =
        some t'.issuedAt ∧
      fieldFold IntrospectionResponse.jsonFields decInt b!"nbf" t.notBefore l =
        some t'.notBefore ∧
      fieldFold IntrospectionResponse.jsonFields decStr b!"sub" t.subject l =
        some t'.subject ∧
      fieldFold IntrospectionResponse.jsonFields decStr b!"aud" t.audience l =
        some t'.audience ∧
      fieldFold IntrospectionResponse.jsonFields decStr b!"iss" t.issuer l =
        some t'.issuer ∧
      fieldFold IntrospectionResponse.jsonFields decStr b!"jti" t.identifier l =
        some t'.identifier ∧
      fieldFold IntrospectionResponse.jsonFields decMap b!"extra" t.extra l =
        some t'.extra := by
  induction l generalizing t with
  | nil =>
    obtain ⟨_, _, _, _, _, _, _, _, _, _, _, _, _⟩ := t
    obtain ⟨_, _, _, _, _, _, _, _, _, _, _, _, _⟩ := t'
    simp [fieldFold]
  | cons m l ih =>
    rw [List.foldlM_cons]
    simp only [fieldFold_cons]
    unfold IntrospectionResponse.setField
    cases hsel : selectField IntrospectionResponse.jsonFields m.1 with
    | none =>
      simp only [reduceCtorEq, if_false]
      exact ih t
    | some f =>
      have hf := ((selectField_iff introspectionFields_lower m.1 f).mp hsel).1
      simp only [IntrospectionResponse.jsonFields, List.mem_cons, List.not_mem_nil, or_false] at hf
      rcases hf with rfl | rfl | rfl | rfl | rfl | rfl | rfl | rfl | rfl | rfl | rfl | rfl | rfl
      all_goals simp +decide only [if_false, if_true]
      · cases h : decBool t.active m.2 with
        | none => simp
        | some x => exact ih _
      · cases h : Scope.unmarshalValue m.2 with
        | none => simp
        | some x => exact ih _
      · cases h : decStr t.clientID m.2 with
        | none => simp
        | some x => exact ih _
      · cases h : decStr t.username m.2 with
        | none => simp
        | some x => exact ih _
      · cases h : decStr t.tokenType m.2 with
        | none => simp
        | some x => exact ih _
      · cases h : decInt t.expiresAt m.2 with
        | none => simp
        | some x => exact ih _
      · cases h : decInt t.issuedAt m.2 with
        | none => simp
        | some x => exact ih _
      · cases h : decInt t.notBefore m.2 with
        | none => simp
        | some x => exact ih _
      · cases h : decStr t.subject m.2 with
        | none => simp
        | some x => exact ih _
      · cases h : decStr t.audience m.2 with
        | none => simp
        | some x => exact ih _
      · cases h : decStr t.issuer m.2 with
        | none => simp
        | some x => exact ih _
      · cases h : decStr t.identifier m.2 with
        | none => simp
        | some x => exact ih _
      · cases h : decMap t.extra m.2 with
        | none => simp
        | some x => exact ih _

theorem error_fold (l : List (Str × JSON)) (t t' : Error) :
    l.foldlM (fun t m => Error.setField t m.1 m.2) t = some t' ↔
      fieldFold Error.jsonFields decStr b!"error" t.name l =
        some t'.name ∧
      fieldFold Error.jsonFields decStr b!"state" t.state l =
        some t'.state ∧
      fieldFold Error.jsonFields (fun _ v => Scope.unmarshalValue v) b!"scope" t.scope l =
        some t'.scope ∧
      fieldFold Error.jsonFields decStr b!"realm" t.realm l =
        some t'.realm ∧
      fieldFold Error.jsonFields decStr b!"error_description" t.description l =
        some t'.description ∧
      fieldFold Error.jsonFields decStr b!"error_uri" t.uri l =
        some t'.uri ∧
      t'.status = t.status ∧
      t'.headers = t.headers ∧
      t'.redirectURI = t.redirectURI ∧
      t'.useFragment = t.useFragment := by
  induction l generalizing t with
  | nil =>
    obtain ⟨_, _, _, _, _, _, _, _, _, _⟩ := t
    obtain ⟨_, _, _, _, _, _, _, _, _, _⟩ := t'
    simp [fieldFold, eq_comm]
  | cons m l ih =>
    rw [List.foldlM_cons]
    simp only [fieldFold_cons]
    unfold Error.setField
    cases hsel : selectField Error.jsonFields m.1 with
    | none =>
      simp only [reduceCtorEq, if_false]
      exact ih t
    | some f =>
      have hf := ((selectField_iff errorFields_lower m.1 f).mp hsel).1
      simp only [Error.jsonFields, List.mem_cons, List.not_mem_nil, or_false] at hf
      rcases hf with rfl | rfl | rfl | rfl | rfl | rfl
      all_goals simp +decide only [if_false, if_true]
      · cases h : decStr t.name m.2 with
        | none => simp
        | some x => exact ih _
      · cases h : decStr t.state m.2 with
        | none => simp
        | some x => exact ih _
      · cases h : Scope.unmarshalValue m.2 with
        | none => simp
        | some x => exact ih _
      · cases h : decStr t.realm m.2 with
        | none => simp
        | some x => exact ih _
      · cases h : decStr t.description m.2 with
        | none => simp
        | some x => exact ih _
      · cases h : decStr t.uri m.2 with
        | none => simp
        | some x => exact ih _

theorem strFold {fields : List Str} (hf : ∀ f ∈ fields, lowerName f) {f : Str} (hm : f ∈ fields)
    (l : List (Str × JSON)) (x : Str) :
    fieldFold fields decStr f [] l = some x ↔ StrField l f x :=
  fieldFold_iff hf hm (fun m _ => decStr_iff m.2) [] x

theorem boolFold {fields : List Str} (hf : ∀ f ∈ fields, lowerName f) {f : Str} (hm : f ∈ fields)
    (l : List (Str × JSON)) (x : Bool) :
    fieldFold fields decBool f false l = some x ↔ BoolField l f x :=
  fieldFold_iff hf hm (fun m _ => decBool_iff m.2) false x

theorem intFold {fields : List Str} (hf : ∀ f ∈ fields, lowerName f) {f : Str} (hm : f ∈ fields)
    {l : List (Str × JSON)} (hl : wellNumbered l) (x : Int) :
    fieldFold fields decInt f 0 l = some x ↔ IntField l f x :=
  fieldFold_iff hf hm (fun m h => decInt_iff m.2 (hl.num h)) 0 x

theorem scopeFold {fields : List Str} (hf : ∀ f ∈ fields, lowerName f) {f : Str} (hm : f ∈ fields)
    (l : List (Str × JSON)) (x : Option (List Str)) :
    fieldFold fields (fun _ v => Scope.unmarshalValue v) f none l = some x ↔ ScopeField l f x :=
  fieldFold_iff hf hm (fun m _ => unmarshalValue_iff m.2) none x

theorem token_members {l : List (Str × JSON)} (hl : wellNumbered l) (t : TokenResponse) :
    l.foldlM (fun t m => TokenResponse.setField t m.1 m.2) {} = some t ↔ TokenMembers l t := by
  rw [token_fold]
  constructor
  · rintro ⟨h0, h1, h2, h3, h4, h5, h6⟩
    exact ⟨(strFold tokenFields_lower (by decide) l _).mp h0,
      (strFold tokenFields_lower (by decide) l _).mp h1,
      (intFold tokenFields_lower (by decide) hl _).mp h2,
      (strFold tokenFields_lower (by decide) l _).mp h3,
      (scopeFold tokenFields_lower (by decide) l _).mp h4,
      (strFold tokenFields_lower (by decide) l _).mp h5,
      h6⟩
  · rintro ⟨h0, h1, h2, h3, h4, h5, h6⟩
    exact ⟨(strFold tokenFields_lower (by decide) l _).mpr h0,
      (strFold tokenFields_lower (by decide) l _).mpr h1,
      (intFold tokenFields_lower (by decide) hl _).mpr h2,
      (strFold tokenFields_lower (by decide) l _).mpr h3,
      (scopeFold tokenFields_lower (by decide) l _).mpr h4,
      (strFold tokenFields_lower (by decide) l _).mpr h5,
      h6⟩

theorem introspection_members {l : List (Str × JSON)} (hl : wellNumbered l) (t : IntrospectionResponse) :
    l.foldlM (fun t m => IntrospectionResponse.setField t m.1 m.2) {} = some t ↔ IntrospectionMembers l t := by
  rw [introspection_fold]
  constructor
  · rintro ⟨h0, h1, h2, h3, h4, h5, h6, h7, h8, h9, h10, h11, h12⟩
    exact ⟨(boolFold introspectionFields_lower (by decide) l _).mp h0,
      (scopeFold introspectionFields_lower (by decide) l _).mp h1,
      (strFold introspectionFields_lower (by decide) l _).mp h2,
      (strFold introspectionFields_lower (by decide) l _).mp h3,
      (strFold introspectionFields_lower (by decide) l _).mp h4,
      (intFold introspectionFields_lower (by decide) hl _).mp h5,
      (intFold introspectionFields_lower (by decide) hl _).mp h6,
      (intFold introspectionFields_lower (by decide) hl _).mp h7,
      (strFold introspectionFields_lower (by decide) l _).mp h8,
      (strFold introspectionFields_lower (by decide) l _).mp h9,
      (strFold introspectionFields_lower (by decide) l _).mp h10,
      (strFold introspectionFields_lower (by decide) l _).mp h11,
      (mapField_iff introspectionFields_lower (by decide) hl _).mp h12⟩
  · rintro ⟨h0, h1, h2, h3, h4, h5, h6, h7, h8, h9, h10, h11, h12⟩
    exact ⟨(boolFold introspectionFields_lower (by decide) l _).mpr h0,
      (scopeFold introspectionFields_lower (by decide) l _).mpr h1,
      (strFold introspectionFields_lower (by decide) l _).mpr h2,
      (strFold introspectionFields_lower (by decide) l _).mpr h3,
      (strFold introspectionFields_lower (by decide) l _).mpr h4,
      (intFold introspectionFields_lower (by decide) hl _).mpr h5,
      (intFold introspectionFields_lower (by decide) hl _).mpr h6,
      (intFold introspectionFields_lower (by decide) hl _).mpr h7,
      (strFold introspectionFields_lower (by decide) l _).mpr h8,
      (strFold introspectionFields_lower (by decide) l _).mpr h9,
      (strFold introspectionFields_lower (by decide) l _).mpr h10,
      (strFold introspectionFields_lower (by decide) l _).mpr h11,
      (mapField_iff introspectionFields_lower (by decide) hl _).mpr h12⟩

theorem error_members (l : List (Str × JSON)) (t : Error) :
    l.foldlM (fun t m => Error.setField t m.1 m.2) {} = some t ↔ ErrorMembers l t ∧ t.status = 0 := by
  rw [error_fold]
  constructor
  · rintro ⟨h0, h1, h2, h3, h4, h5, h6, h7, h8, h9⟩
    exact ⟨⟨(strFold errorFields_lower (by decide) l _).mp h0,
      (strFold errorFields_lower (by decide) l _).mp h1,
      (scopeFold errorFields_lower (by decide) l _).mp h2,
      (strFold errorFields_lower (by decide) l _).mp h3,
      (strFold errorFields_lower (by decide) l _).mp h4,
      (strFold errorFields_lower (by decide) l _).mp h5,
      h7,
      h8,
      h9⟩, h6⟩
  · rintro ⟨⟨h0, h1, h2, h3, h4, h5, h7, h8, h9⟩, h6⟩
    exact ⟨(strFold errorFields_lower (by decide) l _).mpr h0,
      (strFold errorFields_lower (by decide) l _).mpr h1,
      (scopeFold errorFields_lower (by decide) l _).mpr h2,
      (strFold errorFields_lower (by decide) l _).mpr h3,
      (strFold errorFields_lower (by decide) l _).mpr h4,
      (strFold errorFields_lower (by decide) l _).mpr h5,
      h6,
      h7,
      h8,
      h9⟩

/-- **C74.** The documents that are understood are those of RFC 8259, nested up to 10000 levels, and
what is understood is what they denote. -/
theorem C74_json (s : Str) (v : JSON) : parseJSON s = some v ↔ JsonText 10000 v s :=
  parseJSON_iff s v

theorem unmarshal_iff {α : Type} {f : α → Str → JSON → Option α} {z : α} {U : Str → Option α}
    (hU : ∀ data, U data = match parseJSON data with
      | some (.obj l) => l.foldlM (fun t m => f t m.1 m.2) z
      | some .null => some z
      | _ => none) {P : List (Str × JSON) → α → Prop}
    (hP : ∀ l, wellNumbered l → ∀ t, l.foldlM (fun t m => f t m.1 m.2) z = some t ↔ P l t)
    (data : Str) (t : α) : U data = some t ↔ ∃ l, Document data l ∧ P l t := by
  have h0 : ∀ t, P [] t ↔ z = t := fun t => by
    rw [← hP [] (by intro lit h; rcases h with _ | _ | ⟨hm, _⟩; cases hm)]; simp
  have hn : ∀ v, parseJSON data = some v → ((∃ l, v = .obj l) ∨ v = .null) ∨
      ¬ ∃ l, Document data l := by
    intro v hv
    cases v with
    | obj l => exact Or.inl (Or.inl ⟨l, rfl⟩)
    | null => exact Or.inl (Or.inr rfl)
    | _ =>
      refine Or.inr ?_
      rintro ⟨l, h | ⟨h, _⟩⟩ <;> rw [← C74_json, hv] at h <;> simp at h
  rw [hU]
  constructor
  · intro h
    cases hp : parseJSON data with
    | none => rw [hp] at h; exact nomatch h
    | some v =>
      rw [hp] at h
      have hj := (C74_json _ _).mp hp
      cases v with
      | obj l => exact ⟨l, Or.inl hj, (hP l (wellNumbered_of_text hj) t).mp h⟩
      | null => cases h; exact ⟨[], Or.inr ⟨hj, rfl⟩, (h0 z).mpr rfl⟩
      | _ => exact nomatch h
  · rintro ⟨l, h | ⟨h, rfl⟩, ht⟩
    · rw [(C74_json _ _).mpr h]
      exact (hP l (wellNumbered_of_text h) t).mpr ht
    · rw [(C74_json _ _).mpr h]
      exact congrArg some ((h0 t).mp ht)

theorem readJSONBody_iff (res : Response) (limit : Int) (data : Str) :
    readJSONBody res limit = .ok data ↔ JsonResponse res limit data := by
  have hb : (res.bodyErr && decide (res.body.length < limit.toNat)) = false ↔
      (res.bodyErr = true → limit ≤ res.body.length) := by
    cases res.bodyErr with
    | false => simp
    | true => simp
  constructor
  · intro h
    obtain ⟨h1, h2, h3, h4⟩ := readJSONBody_ok h
    exact ⟨h1, hb.mp h4, Prod.ext h3 h2⟩
  · rintro ⟨rfl, h2, h3⟩
    exact readJSONBody_of (by rw [h3]) (by rw [h3]) (hb.mpr h2)

/-- **C74.** The token response that a client understands. -/
theorem C74_token (res : Response) (limit : Int) (t : TokenResponse) :
    parseTokenResponse res limit = .ok t ↔
      ∃ data l, JsonResponse res limit data ∧ Document data l ∧ TokenMembers l t := by
  have hu := unmarshal_iff tokenUnmarshal_eq fun l hl t => token_members hl t
  simp only [← readJSONBody_iff]
  unfold parseTokenResponse
  cases h : readJSONBody res limit with
  | error e => simp
  | ok data =>
    have hd := hu data t
    simp only [Except.ok.injEq]
    cases hx : TokenResponse.unmarshal data with
    | none =>
      rw [hx] at hd
      simp only [reduceCtorEq, false_iff, not_exists, not_and] at hd ⊢
      rintro d l rfl h1 h2
      exact hd l h1 h2
    | some t' =>
      rw [hx, Option.some.injEq] at hd
      simp only [Except.ok.injEq, hd]
      constructor
      · rintro ⟨l, h1, h2⟩; exact ⟨data, l, rfl, h1, h2⟩
      · rintro ⟨d, l, rfl, h1, h2⟩; exact ⟨l, h1, h2⟩

/-- **C74.** The description of a token that a client understands. -/
theorem C74_introspection (res : Response) (limit : Int) (t : IntrospectionResponse) :
    parseIntrospectionResponse res limit = .ok t ↔
      ∃ data l, JsonResponse res limit data ∧ Document data l ∧ IntrospectionMembers l t := by
  have hu := unmarshal_iff introspectionUnmarshal_eq fun l hl t => introspection_members hl t
  simp only [← readJSONBody_iff]
  unfold parseIntrospectionResponse
  cases h : readJSONBody res limit with
  | error e => simp
  | ok data =>
    have hd := hu data t
    simp only [Except.ok.injEq]
    cases hx : IntrospectionResponse.unmarshal data with
    | none =>
      rw [hx] at hd
      simp only [reduceCtorEq, false_iff, not_exists, not_and] at hd ⊢
      rintro d l rfl h1 h2
      exact hd l h1 h2
    | some t' =>
      rw [hx, Option.some.injEq] at hd
      simp only [Except.ok.injEq, hd]
      constructor
      · rintro ⟨l, h1, h2⟩; exact ⟨data, l, rfl, h1, h2⟩
      · rintro ⟨d, l, rfl, h1, h2⟩; exact ⟨l, h1, h2⟩

/-- **C74.** The error that a client understands. Here the content type does not matter, nor does
a connection that breaks. -/
theorem C74_error (res : Response) (limit : Int) (e : Error) :
    parseRequestError res limit = .oauth e ↔
      (∃ l, Document (res.body.take limit.toNat) l ∧ ErrorMembers l e) ∧
        e.status = res.statusCode := by
  have hu := unmarshal_iff errorUnmarshal_eq fun l _ t => error_members l t
  have hd := fun e => hu (res.body.take limit.toNat) e
  unfold parseRequestError Response.readAll
  cases hx : Error.unmarshal (res.body.take limit.toNat) with
  | none =>
    simp only [hx, reduceCtorEq, false_iff, not_exists, not_and] at hd ⊢
    rintro ⟨l, h1, h2⟩
    exact absurd rfl (hd { e with status := 0 } l h1 ⟨h2.1, h2.2, h2.3, h2.4, h2.5, h2.6, h2.7, h2.8, h2.9⟩)
  | some e' =>
    simp only [hx, Option.some.injEq] at hd
    simp only [hx, GoErr.oauth.injEq]
    constructor
    · rintro rfl
      obtain ⟨l, h1, h2, h3⟩ := (hd e').mp rfl
      exact ⟨⟨l, h1, h2.1, h2.2, h2.3, h2.4, h2.5, h2.6, h2.7, h2.8, h2.9⟩, rfl⟩
    · rintro ⟨⟨l, h1, h2⟩, h3⟩
      have := (hd { e with status := 0 }).mpr
        ⟨l, h1, ⟨h2.1, h2.2, h2.3, h2.4, h2.5, h2.6, h2.7, h2.8, h2.9⟩, rfl⟩
      rw [this, ← h3]

/-- **C74.** Everything else is reported with the status line. -/
theorem C74_error_other (res : Response) (limit : Int)
    (h : ∀ l e, Document (res.body.take limit.toNat) l → ¬ ErrorMembers l e) :
    parseRequestError res limit = .msg (b!"unexpected response: " ++ res.status) := by
  have hd : ∀ e, parseRequestError res limit ≠ .oauth e := fun e he => by
    obtain ⟨⟨l, h1, h2⟩, _⟩ := (C74_error res limit e).mp he
    exact h l e h1 h2
  unfold parseRequestError at hd ⊢
  simp only at hd ⊢
  split
  · rename_i e he
    rw [he] at hd
    exact absurd rfl (hd _)
  · rfl

/-- **C74.** A text is a document in one way only. -/
theorem C74_unambiguous {s : Str} {v w : JSON} (h : JsonText 10000 v s) (h' : JsonText 10000 w s) :
    v = w := by
  rw [← C74_json] at h h'
  rw [h] at h'
  exact Option.some.inj h'

/-- **C74.** A response that declares itself as something else is not a token response, nor a
description of a token; the caller is told what it is. -/
theorem C74_content_type (res : Response) (limit : Int) {mt : Str}
    (hm : parseMediaType (res.header.get b!"Content-Type") = (mt, false))
    (hj : mt ≠ b!"application/json") (hb : res.bodyErr = true → limit ≤ res.body.length) :
    parseTokenResponse res limit =
      .error (.msg (b!"unexpected content type: \"" ++ mt ++ b!"\"")) ∧
    parseIntrospectionResponse res limit =
      .error (.msg (b!"unexpected content type: \"" ++ mt ++ b!"\"")) := by
  have hb : (res.bodyErr && decide (res.body.length < limit.toNat)) = false := by
    cases h : res.bodyErr with
    | false => simp
    | true =>
      have := hb h
      simp
      omega
  have : readJSONBody res limit =
      .error (.msg (b!"unexpected content type: \"" ++ mt ++ b!"\"")) := by
    unfold readJSONBody Response.readAll
    simp only [hm, hb, Bool.false_eq_true, if_false, ne_eq, hj, not_false_eq_true, if_true]
  unfold parseTokenResponse parseIntrospectionResponse
  rw [this]
  exact ⟨rfl, rfl⟩

/-! ### Members that no field is named after -/

theorem fieldFold_unknown {α : Type} {fields : List Str} {dec : α → JSON → Option α} {f : Str}
    {m : Str × JSON} (h : selectField fields m.1 ≠ some f) (a b : List (Str × JSON)) (old : α) :
    fieldFold fields dec f old (a ++ m :: b) = fieldFold fields dec f old (a ++ b) := by
  induction a generalizing old with
  | nil => rw [List.nil_append, fieldFold_cons, if_neg h]; rfl
  | cons x a ih =>
    rw [List.cons_append, List.cons_append, fieldFold_cons, fieldFold_cons]
    simp only [ih]

theorem selectField_unknown {fields : List Str} (hf : ∀ f ∈ fields, lowerName f) {k : Str}
    (h : ∀ f ∈ fields, ¬ Folded k f) (f : Str) : selectField fields k ≠ some f := by
  rw [ne_eq, selectField_iff hf]
  exact fun hs => h f hs.1 hs.2

/-- **C74.** Members with other names make no difference, whatever they hold: a document in which
one has been left out says the same about the token response, the token and the error. -/
theorem C74_unknown {data data' : Str} {a b : List (Str × JSON)} {k : Str} {v : JSON}
    (h : JsonText 10000 (.obj (a ++ (k, v) :: b)) data) (h' : JsonText 10000 (.obj (a ++ b)) data') :
    ((∀ f ∈ [b!"token_type", b!"access_token", b!"expires_in", b!"refresh_token", b!"scope",
        b!"state"], ¬ Folded k f) →
      TokenResponse.unmarshal data = TokenResponse.unmarshal data') ∧
    ((∀ f ∈ [b!"active", b!"scope", b!"client_id", b!"username", b!"token_type", b!"exp", b!"iat",
        b!"nbf", b!"sub", b!"aud", b!"iss", b!"jti", b!"extra"], ¬ Folded k f) →
      IntrospectionResponse.unmarshal data = IntrospectionResponse.unmarshal data') ∧
    ((∀ f ∈ [b!"error", b!"state", b!"scope", b!"realm", b!"error_description", b!"error_uri"],
        ¬ Folded k f) → Error.unmarshal data = Error.unmarshal data') := by
  rw [← C74_json] at h h'
  refine ⟨fun hk => ?_, fun hk => ?_, fun hk => ?_⟩
  · rw [tokenUnmarshal_eq, tokenUnmarshal_eq, h, h']
    have hu := selectField_unknown tokenFields_lower hk
    refine Option.ext fun t => ?_
    show List.foldlM _ _ _ = some t ↔ List.foldlM _ _ _ = some t
    rw [token_fold, token_fold]
    simp only [fieldFold_unknown (m := (k, v)) (hu _)]
  · rw [introspectionUnmarshal_eq, introspectionUnmarshal_eq, h, h']
    have hu := selectField_unknown introspectionFields_lower hk
    refine Option.ext fun t => ?_
    show List.foldlM _ _ _ = some t ↔ List.foldlM _ _ _ = some t
    rw [introspection_fold, introspection_fold]
    simp only [fieldFold_unknown (m := (k, v)) (hu _)]
  · rw [errorUnmarshal_eq, errorUnmarshal_eq, h, h']
    have hu := selectField_unknown errorFields_lower hk
    refine Option.ext fun t => ?_
    show List.foldlM _ _ _ = some t ↔ List.foldlM _ _ _ = some t
    rw [error_fold, error_fold]
    simp only [fieldFold_unknown (m := (k, v)) (hu _)]

/-! ### A response of another server -/

/-- With white space, escapes, names in other case, duplicates, `null` and an unknown member. -/
def foreignBody : Str := b!" {\t\"ACCESS_TOKEN\" : \"a\\u0062c\\/\",\n\"token_type\":\"mac\", \"Token_Type\": \"bearer\",\"expires_in\":3600,\"refresh_token\":null,\"scope\":\" foo  bar\",\"x\":[1.5e3,{\"scope\":[]},true]} \r\n"

def foreignResponse : Response :=
  { statusCode := 200, header := [(b!"Content-Type", [b!"Application/JSON; charset=utf-8"])],
    body := foreignBody }

theorem foreign_token : parseTokenResponse foreignResponse 2048 = .ok
    { tokenType := b!"bearer", accessToken := b!"abc/", expiresIn := 3600,
      scope := some [b!"foo", b!"bar"] } := by decide +kernel

example : ∃ data l, JsonResponse foreignResponse 2048 data ∧ Document data l ∧ TokenMembers l
    { tokenType := b!"bearer", accessToken := b!"abc/", expiresIn := 3600,
      scope := some [b!"foo", b!"bar"] } :=
  (C74_token _ _ _).mp foreign_token

/-- The number 1. -/
def F64.one : F64 := { neg := false, mant := 2 ^ 52, exp := -52, valid := by decide }

/-- The number 3. -/
def F64.three : F64 := { neg := false, mant := 3 * 2 ^ 51, exp := -51, valid := by decide }

/-- The extra data of a token in two parts, with a key in both. -/
def foreignExtra : Response :=
  { statusCode := 200, header := [(b!"Content-Type", [b!"application/json"])],
    body := b!"{\"active\":true,\"extra\":{\"z\":0},\"extra\":null,\"exp\":-0,\"extra\":{\"b\":1,\"a\":[null]},\"K\":7,\"Extra\":{\"b\":{\"y\":2,\"x\":1,\"y\":3}}}" }

example : ∃ data l, JsonResponse foreignExtra 2048 data ∧ Document data l ∧ IntrospectionMembers l
    { active := true, extra := some [(b!"a", .arr [.null]),
        (b!"b", .obj [(b!"x", .num .one), (b!"y", .num .three)])] } :=
  (C74_introspection _ _ _).mp (by decide +kernel)

/-- An error with a status of its own, no content type, and a broken connection after the end. -/
def foreignError : Response :=
  { statusCode := 429, body := b!"{\"error\":\"slow_down\",\"\\u0065rror_description\":\"\\ud83d\\ude00 \\ud83d\"}",
    bodyErr := true }

example : (∃ l, Document (foreignError.body.take 2048) l ∧ ErrorMembers l
    { name := b!"slow_down", description := b!"😀 �", status := 429 }) ∧
    (429 : Int) = foreignError.statusCode :=
  (C74_error foreignError 2048 _).mp (by decide +kernel)

example : parseRequestError { foreignError with body := b!"<html>", status := b!"429 Too Many" }
    2048 = .msg b!"unexpected response: 429 Too Many" := by
  refine C74_error_other _ _ ?_
  rintro l e (h | ⟨h, _⟩) _ <;> rw [← C74_json] at h
  · have : parseJSON b!"<html>" = none := by decide +kernel
    exact nomatch this.symm.trans h
  · have : parseJSON b!"<html>" = none := by decide +kernel
    exact nomatch this.symm.trans h

example : parseTokenResponse { foreignResponse with header := [(b!"Content-Type", [b!"text/html"])] }
    2048 = .error (.msg b!"unexpected content type: \"text/html\"") :=
  (C74_content_type _ _ (mt := b!"text/html") (by decide +kernel) (by decide)
    (fun h => absurd h (by decide))).1

example : TokenResponse.unmarshal b!"{\"state\":\"s\",\"interval\":[5],\"scope\":\"a\"}" =
    TokenResponse.unmarshal b!"{\"state\" : \"s\", \"scope\":\"a\"}" :=
  (C74_unknown (a := [(b!"state", .str b!"s")]) (b := [(b!"scope", .str b!"a")])
    (k := b!"interval") (v := .arr [.num b!"5"])
    ((C74_json _ _).mp rfl) ((C74_json _ _).mp rfl)).1 (by
      intro f hf h
      have h1 := h.foldKey (tokenFields_lower f hf)
      have h2 : foldKey b!"interval" ∉ TokenResponse.jsonFields := by decide +kernel
      exact h2 (h1 ▸ hf))

end OAuth2

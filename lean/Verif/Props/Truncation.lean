import Verif.Lemmas.JsonPrefix
import Verif.Lemmas.Http
import Verif.Model.Introspection
/-
C25: reading only a part of a response.
-/

namespace OAuth2

/-- Decoding into one of the structs of /repo. -/
theorem unmarshal_prefix {α : Type} {f : List (Str × JSON) → Option α} {z : α} {U : Str → Option α}
    (hU : ∀ data, U data = match parseJSON data with
      | some (.obj l) => f l
      | some .null => some z
      | _ => none) {s q : Str} {t : α} {v : JSON}
    (h1 : U s = some t) (h2 : parseJSON (s ++ q) = some v) : U (s ++ q) = some t := by
  rw [hU] at h1 ⊢
  cases hp : parseJSON s with
  | none => simp [hp] at h1
  | some w =>
    have hn : w.isNum = false := by
      cases w <;> first | rfl | (simp [hp] at h1)
    have := parseJSON_append hp hn h2
    subst this
    rw [hp] at h1
    rw [h2]
    exact h1

theorem readJSONBody_ok {res : Response} {limit : Int} {data : Str}
    (h : readJSONBody res limit = .ok data) : data = res.body.take limit.toNat ∧
      (parseMediaType (res.header.get b!"Content-Type")).2 = false ∧
      (parseMediaType (res.header.get b!"Content-Type")).1 = b!"application/json" ∧
      (res.bodyErr && res.body.length < limit.toNat) = false := by
  unfold readJSONBody Response.readAll at h
  simp only at h
  split at h
  · cases h
  · rename_i h0
    split at h
    · cases h
    · rename_i h1
      split at h
      · cases h
      · rename_i h2
        cases h
        simp only [ne_eq, Decidable.not_not] at h2
        exact ⟨rfl, by simpa using h1, h2, by simpa using h0⟩

theorem readJSONBody_of {res : Response} {limit : Int}
    (h1 : (parseMediaType (res.header.get b!"Content-Type")).2 = false)
    (h2 : (parseMediaType (res.header.get b!"Content-Type")).1 = b!"application/json")
    (h3 : (res.bodyErr && res.body.length < limit.toNat) = false) :
    readJSONBody res limit = .ok (res.body.take limit.toNat) := by
  unfold readJSONBody Response.readAll
  simp only [h1, h2, h3, Bool.false_eq_true, if_false, ne_eq, not_true]

theorem take_split (s : Str) {a b : Nat} (h : a ≤ b) : ∃ q, s.take b = s.take a ++ q :=
  ⟨(s.take b).drop a, by
    conv => lhs; rw [← List.take_append_drop a (s.take b)]
    rw [List.take_take, Nat.min_eq_left h]⟩

theorem tokenUnmarshal_eq (data : Str) : TokenResponse.unmarshal data = match parseJSON data with
      | some (.obj l) => l.foldlM (fun t m => TokenResponse.setField t m.1 m.2) {}
      | some .null => some {}
      | _ => none := rfl

theorem introspectionUnmarshal_eq (data : Str) :
    IntrospectionResponse.unmarshal data = match parseJSON data with
      | some (.obj l) => l.foldlM (fun t m => IntrospectionResponse.setField t m.1 m.2) {}
      | some .null => some {}
      | _ => none := rfl

theorem errorUnmarshal_eq (data : Str) : Error.unmarshal data = match parseJSON data with
      | some (.obj l) => l.foldlM (fun t m => Error.setField t m.1 m.2) {}
      | some .null => some {}
      | _ => none := rfl

theorem parse_of_unmarshal {α : Type} {f : List (Str × JSON) → Option α} {z : α}
    {U : Str → Option α} (hU : ∀ data, U data = match parseJSON data with
      | some (.obj l) => f l
      | some .null => some z
      | _ => none) {s : Str} {t : α} (h : U s = some t) : ∃ v, parseJSON s = some v := by
  rw [hU] at h
  cases hp : parseJSON s with
  | none => simp [hp] at h
  | some v => exact ⟨v, rfl⟩

/-- **C25.** Whatever the token response, a smaller limit never yields another answer than a
larger one: the same token response, or an error. -/
theorem C25_token_smaller_limit (res : Response) {small large : Int} (h : small ≤ large)
    {t : TokenResponse} (ht : parseTokenResponse res large = .ok t) :
    parseTokenResponse res small = .ok t ∨ ∃ e, parseTokenResponse res small = .error e := by
  unfold parseTokenResponse at ht ⊢
  cases hr : readJSONBody res large with
  | error e => simp [hr] at ht
  | ok data =>
    obtain ⟨hd, h1, h2, h3⟩ := readJSONBody_ok hr
    have hle : small.toNat ≤ large.toNat := by omega
    have h3' : (res.bodyErr && res.body.length < small.toNat) = false := by
      cases hb : res.bodyErr
      · rfl
      · simp [hb] at h3 ⊢; omega
    rw [readJSONBody_of h1 h2 h3']
    simp only [hr] at ht
    obtain ⟨q, hq⟩ := take_split res.body hle
    rw [hd, hq] at ht
    cases hu : TokenResponse.unmarshal (res.body.take small.toNat ++ q) with
    | none => simp [hu] at ht
    | some t' =>
      simp only [hu, Except.ok.injEq] at ht
      subst ht
      simp only
      cases hs : TokenResponse.unmarshal (res.body.take small.toNat) with
      | none => exact Or.inr ⟨_, rfl⟩
      | some t'' =>
        left
        obtain ⟨v, hv⟩ := parse_of_unmarshal tokenUnmarshal_eq hu
        have := unmarshal_prefix tokenUnmarshal_eq hs hv
        rw [hu] at this
        simp only [Option.some.inj this]

/-- **C25.** The same for introspection responses. -/
theorem C25_introspection_smaller_limit (res : Response) {small large : Int} (h : small ≤ large)
    {t : IntrospectionResponse} (ht : parseIntrospectionResponse res large = .ok t) :
    parseIntrospectionResponse res small = .ok t ∨
      ∃ e, parseIntrospectionResponse res small = .error e := by
  unfold parseIntrospectionResponse at ht ⊢
  cases hr : readJSONBody res large with
  | error e => simp [hr] at ht
  | ok data =>
    obtain ⟨hd, h1, h2, h3⟩ := readJSONBody_ok hr
    have hle : small.toNat ≤ large.toNat := by omega
    have h3' : (res.bodyErr && res.body.length < small.toNat) = false := by
      cases hb : res.bodyErr
      · rfl
      · simp [hb] at h3 ⊢; omega
    rw [readJSONBody_of h1 h2 h3']
    simp only [hr] at ht
    obtain ⟨q, hq⟩ := take_split res.body hle
    rw [hd, hq] at ht
    cases hu : IntrospectionResponse.unmarshal (res.body.take small.toNat ++ q) with
    | none => simp [hu] at ht
    | some t' =>
      simp only [hu, Except.ok.injEq] at ht
      subst ht
      simp only
      cases hs : IntrospectionResponse.unmarshal (res.body.take small.toNat) with
      | none => exact Or.inr ⟨_, rfl⟩
      | some t'' =>
        left
        obtain ⟨v, hv⟩ := parse_of_unmarshal introspectionUnmarshal_eq hu
        have := unmarshal_prefix introspectionUnmarshal_eq hs hv
        rw [hu] at this
        simp only [Option.some.inj this]

/-- **C25.** For a body that is one JSON document and is read without transport error: whatever
token response a limited read gives, reading the whole body gives it too. -/
theorem C25_token_whole_body (res : Response) (hb : res.bodyErr = false) {v : JSON}
    (hv : parseJSON res.body = some v) {limit whole : Int} (hw : (res.body.length : Int) ≤ whole)
    {t : TokenResponse} (ht : parseTokenResponse res limit = .ok t) :
    parseTokenResponse res whole = .ok t := by
  unfold parseTokenResponse at ht ⊢
  cases hr : readJSONBody res limit with
  | error e => simp [hr] at ht
  | ok data =>
    obtain ⟨hd, h1, h2, h3⟩ := readJSONBody_ok hr
    rw [readJSONBody_of h1 h2 (by simp [hb])]
    simp only [hr] at ht
    subst hd
    cases hs : TokenResponse.unmarshal (res.body.take limit.toNat) with
    | none => simp [hs] at ht
    | some t' =>
      simp only [hs, Except.ok.injEq] at ht
      subst ht
      have hall : res.body.take whole.toNat = res.body := List.take_of_length_le (by omega)
      rw [hall]
      have hq : res.body.take limit.toNat ++ res.body.drop limit.toNat = res.body :=
        List.take_append_drop _ _
      have := unmarshal_prefix tokenUnmarshal_eq hs (q := res.body.drop limit.toNat) (v := v)
        (by rw [hq]; exact hv)
      rw [hq] at this
      simp only [this]

/-- **C25.** The same for introspection responses. -/
theorem C25_introspection_whole_body (res : Response) (hb : res.bodyErr = false) {v : JSON}
    (hv : parseJSON res.body = some v) {limit whole : Int} (hw : (res.body.length : Int) ≤ whole)
    {t : IntrospectionResponse} (ht : parseIntrospectionResponse res limit = .ok t) :
    parseIntrospectionResponse res whole = .ok t := by
  unfold parseIntrospectionResponse at ht ⊢
  cases hr : readJSONBody res limit with
  | error e => simp [hr] at ht
  | ok data =>
    obtain ⟨hd, h1, h2, h3⟩ := readJSONBody_ok hr
    rw [readJSONBody_of h1 h2 (by simp [hb])]
    simp only [hr] at ht
    subst hd
    cases hs : IntrospectionResponse.unmarshal (res.body.take limit.toNat) with
    | none => simp [hs] at ht
    | some t' =>
      simp only [hs, Except.ok.injEq] at ht
      subst ht
      have hall : res.body.take whole.toNat = res.body := List.take_of_length_le (by omega)
      rw [hall]
      have hq : res.body.take limit.toNat ++ res.body.drop limit.toNat = res.body :=
        List.take_append_drop _ _
      have := unmarshal_prefix introspectionUnmarshal_eq hs (q := res.body.drop limit.toNat) (v := v)
        (by rw [hq]; exact hv)
      rw [hq] at this
      simp only [this]

/-- **C25.** Error responses: a smaller limit gives the same OAuth2 error or none. -/
theorem C25_error_smaller_limit (res : Response) {small large : Int} (h : small ≤ large)
    {e : Error} (he : parseRequestError res large = .oauth e) :
    parseRequestError res small = .oauth e ∨ ∃ m, parseRequestError res small = .msg m := by
  unfold parseRequestError Response.readAll at he ⊢
  simp only at he ⊢
  obtain ⟨q, hq⟩ := take_split res.body (show small.toNat ≤ large.toNat by omega)
  rw [hq] at he
  cases hu : Error.unmarshal (res.body.take small.toNat ++ q) with
  | none => simp [hu] at he
  | some t' =>
    simp only [hu, GoErr.oauth.injEq] at he
    subst he
    cases hs : Error.unmarshal (res.body.take small.toNat) with
    | none => exact Or.inr ⟨_, rfl⟩
    | some t'' =>
      left
      obtain ⟨v, hv⟩ := parse_of_unmarshal errorUnmarshal_eq hu
      have := unmarshal_prefix errorUnmarshal_eq hs hv
      rw [hu] at this
      simp only [Option.some.inj this]

/-- A body whose newline is cut off is still read, one cut earlier is not. -/
example : let res : Response := {
      statusCode := 200, header := [(b!"Content-Type", [b!"application/json"])],
      body := b!"{\"access_token\":\"a\",\"expires_in\":12}\n" }
    parseTokenResponse res 36 = .ok { accessToken := b!"a", expiresIn := 12 } ∧
    parseTokenResponse res 37 = .ok { accessToken := b!"a", expiresIn := 12 } ∧
    parseTokenResponse res 35 = .error .lib := by decide +kernel

/-- Without the hypothesis that the body is one document the whole body may be refused although a
part of it is read. -/
example : let res : Response := {
      statusCode := 200, header := [(b!"Content-Type", [b!"application/json"])],
      body := b!"{\"access_token\":\"a\"}x" }
    parseTokenResponse res 20 = .ok { accessToken := b!"a" } ∧
    parseTokenResponse res 21 = .error .lib := by decide +kernel

end OAuth2

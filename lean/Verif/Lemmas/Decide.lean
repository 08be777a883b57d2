import Verif.Lemmas.Events

/-!
The notions of Spec/History.lean can be evaluated. Used only to show that hypotheses are met.
-/

namespace OAuth2

open Spec

instance (path seg : Str) : Decidable (LastSegment path seg) :=
  decidable_of_iff _ (lastSegment_iff path seg).symm

/-- The response of a call, for computing with concrete calls. -/
def Spec.Answer.response : Answer → Response
  | .answered res => res
  | .rejected res => res
  | _ => { statusCode := 0 }

/-- The string members of a body. -/
def stringMembers (body : Str) : List (Str × Str) :=
  match parseJSON body with
  | some (.obj ms) => ms.filterMap fun m => match m.2 with
    | .str v => some (m.1, v)
    | _ => none
  | _ => []

theorem jsonMember_members (res : Response) (name value : Str) :
    JsonMember res name value ↔ (name, value) ∈ stringMembers res.body := by
  unfold JsonMember stringMembers
  cases h : parseJSON res.body with
  | none => simp
  | some d =>
    cases d with
    | obj ms =>
      simp only [Option.some.injEq, JSON.obj.injEq, exists_eq_left', List.mem_filterMap]
      constructor
      · intro hm; exact ⟨_, hm, rfl⟩
      · rintro ⟨⟨k, d⟩, hm, h⟩
        cases d <;> simp at h
        obtain ⟨rfl, rfl⟩ := h
        exact hm
    | _ => simp

instance (res : Response) (name value : Str) : Decidable (JsonMember res name value) :=
  decidable_of_iff _ (jsonMember_members res name value).symm

theorem fragment_members (res : Response) (name value : Str) :
    FragmentParameter res name value ↔ match res.header.all b!"Location" with
      | [l] => match cutLastByte 0x23 l with
        | some (_, f) => match unescape .fragment f with
          | some p => (parseQuery p).1.all name = [value]
          | none => False
        | none => False
      | _ => False := by
  unfold FragmentParameter
  constructor
  · rintro ⟨front, f, p, h1, h2, h3, h4⟩
    rw [h1]
    have := cutLastByte_append (sep := 0x23) front h2
    rw [List.append_assoc]
    simp only [List.singleton_append, this, h3, h4]
  · intro h
    split at h
    · next l hl =>
      split at h
      · next front f hf =>
        split at h
        · next p hp =>
          obtain ⟨h1, h2⟩ := (cutLastByte_some_iff _ _ _ _).mp hf
          exact ⟨front, f, p, by rw [hl, h1]; simp, h2, hp, h⟩
        · exact h.elim
      · exact h.elim
    · exact h.elim

instance (res : Response) (name value : Str) : Decidable (FragmentParameter res name value) :=
  @decidable_of_iff _ _ (fragment_members res name value).symm (by
    split
    · split
      · split <;> infer_instance
      · infer_instance
    · infer_instance)

theorem query_members (uri : Str) (res : Response) (name value : Str) :
    AddedParameter uri res name value ↔ match parseRequestURI uri, res.header.all b!"Location" with
      | some u, [l] => match cutLastByte 0x3F l with
        | some (_, q) => (parseQuery q).1.all name = u.query.all name ++ [value]
        | none => False
      | _, _ => False := by
  unfold AddedParameter
  constructor
  · rintro ⟨u, front, q, h1, h2, h3, h4⟩
    rw [h1, h2]
    have := cutLastByte_append (sep := 0x3F) front h3
    rw [List.append_assoc]
    simp only [List.singleton_append, this, h4]
  · intro h
    split at h
    · next u l hu hl =>
      split at h
      · next front q hf =>
        obtain ⟨h1, h2⟩ := (cutLastByte_some_iff _ _ _ _).mp hf
        exact ⟨u, front, q, hu, by rw [hl, h1]; simp, h2, h⟩
      · exact h.elim
    · exact h.elim

instance (uri : Str) (res : Response) (name value : Str) :
    Decidable (AddedParameter uri res name value) :=
  @decidable_of_iff _ _ (query_members uri res name value).symm (by
    split
    · split <;> infer_instance
    · infer_instance)

/-- The token request of a call. -/
def asksToken (c : Call) : Option TokenRequest :=
  match c.op with
  | .serve r =>
    if Server.lastSegment r.path = b!"token" then
      match parseTokenRequest r with
      | .ok rq => some rq
      | .error _ => none
    else none
  | _ => none

theorem asksToken_iff (c : Call) (rq : TokenRequest) : AsksToken c rq ↔ asksToken c = some rq := by
  unfold AsksToken asksToken
  cases c.op with
  | serve r =>
    simp only [Op.serve.injEq, exists_eq_left', lastSegment_iff]
    by_cases h : Server.lastSegment r.path = b!"token"
    · rw [if_pos h]
      cases parseTokenRequest r <;> simp [h]
    · rw [if_neg h]
      simp [h]
  | _ => simp

instance (c : Call) (rq : TokenRequest) : Decidable (AsksToken c rq) :=
  decidable_of_iff _ (asksToken_iff c rq).symm

theorem tokenCall_asked (e : Event) (rq : TokenRequest) (res : Response) :
    TokenCall e rq res ↔ asksToken e.call = some rq ∧ e.answer = .answered res := by
  rw [← asksToken_iff]
  unfold TokenCall AsksToken
  constructor
  · rintro ⟨r, h1, h2, h3, h4⟩
    exact ⟨⟨r, h1, h2, h3⟩, h4⟩
  · rintro ⟨⟨r, h1, h2, h3⟩, h4⟩
    exact ⟨r, h1, h2, h3, h4⟩

instance (e : Event) (rq : TokenRequest) (res : Response) : Decidable (TokenCall e rq res) :=
  decidable_of_iff _ (tokenCall_asked e rq res).symm

/-- The authorization request of a call, with the user name and the password. -/
def asksAuthorization (c : Call) : Option (AuthorizationRequest × Str × Str) :=
  match c.op with
  | .serve r =>
    if Server.lastSegment r.path = b!"authorize" ∧ r.method ≠ b!"GET" then
      match parseAuthorizationRequest r with
      | .ok rq => some (rq, (r.parseForm.1.postForm.getD []).get b!"username",
          (r.parseForm.1.postForm.getD []).get b!"password")
      | .error _ => none
    else none
  | _ => none

theorem asksAuthorization_iff (c : Call) (rq : AuthorizationRequest) (u p : Str) :
    AsksAuthorization c rq u p ↔ asksAuthorization c = some (rq, u, p) := by
  unfold AsksAuthorization asksAuthorization
  cases c.op with
  | serve r =>
    simp only [Op.serve.injEq, exists_eq_left', lastSegment_iff]
    by_cases h : Server.lastSegment r.path = b!"authorize" ∧ r.method ≠ b!"GET"
    · rw [if_pos h]
      cases parseAuthorizationRequest r with
      | error e => simp
      | ok q =>
        simp only [h.1, true_and, Except.ok.injEq, Option.some.injEq, Prod.mk.injEq]
        exact ⟨fun ⟨_, h1, h2, h3⟩ => ⟨h1, h2.symm, h3.symm⟩,
          fun ⟨h1, h2, h3⟩ => ⟨h.2, h1, h2.symm, h3.symm⟩⟩
    · rw [if_neg h]
      constructor
      · rintro ⟨h1, h2, _⟩; exact absurd ⟨h1, h2⟩ h
      · intro h; cases h
  | _ => simp

instance (c : Call) (rq : AuthorizationRequest) (u p : Str) :
    Decidable (AsksAuthorization c rq u p) :=
  decidable_of_iff _ (asksAuthorization_iff c rq u p).symm

theorem authorizationCall_asked (e : Event) (rq : AuthorizationRequest) (u : Str) (res : Response) :
    AuthorizationCall e rq u res ↔
      (asksAuthorization e.call).map (fun x => (x.1, x.2.1)) = some (rq, u) ∧
        e.answer = .answered res := by
  have : (asksAuthorization e.call).map (fun x => (x.1, x.2.1)) = some (rq, u) ↔
      ∃ p, AsksAuthorization e.call rq u p := by
    simp only [asksAuthorization_iff]
    cases asksAuthorization e.call with
    | none => simp
    | some x =>
      obtain ⟨a, b, c⟩ := x
      simp
  rw [this]
  unfold AuthorizationCall AsksAuthorization
  constructor
  · rintro ⟨r, h1, h2, h3, h4, h5, h6⟩
    exact ⟨⟨_, r, h1, h2, h3, h4, h5, rfl⟩, h6⟩
  · rintro ⟨⟨_, r, h1, h2, h3, h4, h5, rfl⟩, h6⟩
    exact ⟨r, h1, h2, h3, h4, h5, h6⟩

instance (e : Event) (rq : AuthorizationRequest) (u : Str) (res : Response) :
    Decidable (AuthorizationCall e rq u res) :=
  decidable_of_iff _ (authorizationCall_asked e rq u res).symm

/-- The introspection request of a call. -/
def asksIntrospection (c : Call) : Option IntrospectionRequest :=
  match c.op with
  | .serve r =>
    if Server.lastSegment r.path = b!"introspect" then
      match parseIntrospectionRequest r with
      | .ok rq => some rq
      | .error _ => none
    else none
  | _ => none

theorem asksIntrospection_iff (c : Call) (rq : IntrospectionRequest) :
    AsksIntrospection c rq ↔ asksIntrospection c = some rq := by
  unfold AsksIntrospection asksIntrospection
  cases c.op with
  | serve r =>
    simp only [Op.serve.injEq, exists_eq_left', lastSegment_iff]
    by_cases h : Server.lastSegment r.path = b!"introspect"
    · rw [if_pos h]
      cases parseIntrospectionRequest r <;> simp [h]
    · rw [if_neg h]
      simp [h]
  | _ => simp

instance (c : Call) (rq : IntrospectionRequest) : Decidable (AsksIntrospection c rq) :=
  decidable_of_iff _ (asksIntrospection_iff c rq).symm

/-- The revocation request of a call. -/
def asksRevocation (c : Call) : Option RevocationRequest :=
  match c.op with
  | .serve r =>
    if Server.lastSegment r.path = b!"revoke" then
      match parseRevocationRequest r with
      | .ok rq => some rq
      | .error _ => none
    else none
  | _ => none

theorem asksRevocation_iff (c : Call) (rq : RevocationRequest) :
    AsksRevocation c rq ↔ asksRevocation c = some rq := by
  unfold AsksRevocation asksRevocation
  cases c.op with
  | serve r =>
    simp only [Op.serve.injEq, exists_eq_left', lastSegment_iff]
    by_cases h : Server.lastSegment r.path = b!"revoke"
    · rw [if_pos h]
      cases parseRevocationRequest r <;> simp [h]
    · rw [if_neg h]
      simp [h]
  | _ => simp

instance (c : Call) (rq : RevocationRequest) : Decidable (AsksRevocation c rq) :=
  decidable_of_iff _ (asksRevocation_iff c rq).symm

theorem revocationCall_asked (e : Event) (rq : RevocationRequest) (res : Response) :
    RevocationCall e rq res ↔ asksRevocation e.call = some rq ∧ e.answer = .answered res := by
  rw [← asksRevocation_iff]
  unfold RevocationCall AsksRevocation
  constructor
  · rintro ⟨r, h1, h2, h3, h4⟩
    exact ⟨⟨r, h1, h2, h3⟩, h4⟩
  · rintro ⟨⟨r, h1, h2, h3⟩, h4⟩
    exact ⟨r, h1, h2, h3, h4⟩

/-! Existential statements over an event quantify over what the event determines. -/

theorem exists_tokenCall (e : Event) (P : TokenRequest → Response → Prop) :
    (∃ rq res, TokenCall e rq res ∧ P rq res) ↔ match asksToken e.call, e.answer with
      | some rq, .answered res => P rq res
      | _, _ => False := by
  simp only [tokenCall_asked]
  cases asksToken e.call <;> cases e.answer <;> simp [and_assoc]

theorem exists_authorizationCall (e : Event) (P : AuthorizationRequest → Str → Response → Prop) :
    (∃ rq u res, AuthorizationCall e rq u res ∧ P rq u res) ↔
      match asksAuthorization e.call, e.answer with
      | some (rq, u, _), .answered res => P rq u res
      | _, _ => False := by
  simp only [authorizationCall_asked]
  cases asksAuthorization e.call with
  | none => simp
  | some x =>
    obtain ⟨a, b, c⟩ := x
    cases e.answer <;> simp
    rename_i res
    constructor
    · rintro ⟨rq, u, res', ⟨⟨rfl, rfl⟩, rfl⟩, h⟩; exact h
    · intro h; exact ⟨a, b, res, ⟨⟨rfl, rfl⟩, rfl⟩, h⟩

theorem exists_revocationCall (e : Event) (P : RevocationRequest → Response → Prop) :
    (∃ rq res, RevocationCall e rq res ∧ P rq res) ↔ match asksRevocation e.call, e.answer with
      | some rq, .answered res => P rq res
      | _, _ => False := by
  simp only [revocationCall_asked]
  cases asksRevocation e.call <;> cases e.answer <;> simp [and_assoc]

instance (e : Event) (P : TokenRequest → Response → Prop) [∀ rq res, Decidable (P rq res)] :
    Decidable (∃ rq res, TokenCall e rq res ∧ P rq res) :=
  @decidable_of_iff _ _ (exists_tokenCall e P).symm (by split <;> infer_instance)

instance (e : Event) (P : AuthorizationRequest → Str → Response → Prop)
    [∀ rq u res, Decidable (P rq u res)] :
    Decidable (∃ rq u res, AuthorizationCall e rq u res ∧ P rq u res) :=
  @decidable_of_iff _ _ (exists_authorizationCall e P).symm (by split <;> infer_instance)

instance (e : Event) (P : RevocationRequest → Response → Prop) [∀ rq res, Decidable (P rq res)] :
    Decidable (∃ rq res, RevocationCall e rq res ∧ P rq res) :=
  @decidable_of_iff _ _ (exists_revocationCall e P).symm (by split <;> infer_instance)

instance (e : Event) (k : Kind) (t : HS256Token) : Decidable (Hands e k t) := by
  unfold Hands; infer_instance

instance (e : Event) (t : HS256Token) : Decidable (HandsCode e t) := by
  unfold HandsCode; infer_instance

instance (cfg : ServerConfig) (text : Str) (t : HS256Token) : Decidable (SameToken cfg text t) :=
  @decidable_of_iff _ (match HS256Token.parse cfg.secret text with
    | .ok t' => t'.signatureString = t.signatureString
    | .error _ => False) (by
      unfold SameToken
      cases HS256Token.parse cfg.secret text <;> simp) (by split <;> infer_instance)

instance (res : Response) (name : Str) : Decidable (∃ v, JsonMember res name v) :=
  decidable_of_iff (∃ m ∈ stringMembers res.body, m.1 = name) (by
    simp only [jsonMember_members]
    constructor
    · rintro ⟨⟨k, v⟩, h, rfl⟩; exact ⟨v, h⟩
    · rintro ⟨v, h⟩; exact ⟨_, h, rfl⟩)

instance (cfg : ServerConfig) (e : Event) (c : HS256Token) : Decidable (Redeems cfg e c) :=
  decidable_of_iff (∃ rq res, TokenCall e rq res ∧ (rq.grantType = b!"authorization_code" ∧
    SameToken cfg rq.code c ∧ ∃ a, JsonMember res b!"access_token" a)) (by
      unfold Redeems
      constructor
      · rintro ⟨rq, res, h1, h2, h3, a, h4⟩; exact ⟨rq, res, a, h1, h2, h3, h4⟩
      · rintro ⟨rq, res, a, h1, h2, h3, h4⟩; exact ⟨rq, res, h1, h2, h3, a, h4⟩)

instance (cfg : ServerConfig) (e : Event) (c : HS256Token) : Decidable (UsesUp cfg e c) :=
  decidable_of_iff (∃ rq res, TokenCall e rq res ∧ (rq.grantType = b!"refresh_token" ∧
    SameToken cfg rq.refreshToken c ∧ ∃ a, JsonMember res b!"access_token" a)) (by
      unfold UsesUp
      constructor
      · rintro ⟨rq, res, h1, h2, h3, a, h4⟩; exact ⟨rq, res, a, h1, h2, h3, h4⟩
      · rintro ⟨rq, res, a, h1, h2, h3, h4⟩; exact ⟨rq, res, h1, h2, h3, a, h4⟩)

instance (cfg : ServerConfig) (e : Event) (sig : Str) : Decidable (Replays cfg e sig) :=
  @decidable_of_iff _ (∃ rq res, TokenCall e rq res ∧ (rq.grantType = b!"authorization_code" ∧
    (match HS256Token.parse cfg.secret rq.code with
      | .ok c => c.signatureString = sig
      | .error _ => False) ∧ JsonMember res b!"error" b!"invalid_grant" ∧
    JsonMember res b!"error_description" b!"unknown authorization code")) (by
      unfold Replays
      constructor
      · rintro ⟨rq, res, h1, h2, h3, h4⟩
        cases hc : HS256Token.parse cfg.secret rq.code with
        | error x => rw [hc] at h3; exact h3.elim
        | ok c => rw [hc] at h3; exact ⟨rq, res, c, h1, h2, hc, h3, h4⟩
      · rintro ⟨rq, res, c, h1, h2, h3, h4, h5⟩
        refine ⟨rq, res, h1, h2, ?_, h5⟩
        rw [h3]
        exact h4) (by
      have : ∀ rq : TokenRequest, Decidable (match HS256Token.parse cfg.secret rq.code with
        | .ok c => c.signatureString = sig
        | .error _ => False) := fun rq => by split <;> infer_instance
      infer_instance)

instance (cfg : ServerConfig) (e : Event) (t : HS256Token) : Decidable (Revokes cfg e t) := by
  unfold Revokes; infer_instance

instance (cfg : ServerConfig) (e : Event) (t : HS256Token) (client : Str) :
    Decidable (HalfRevokes cfg e t client) := by
  unfold HalfRevokes; infer_instance

instance (x : Answer) (status : Nat) (name : Str) : Decidable (RefusedWith x status name) :=
  @decidable_of_iff _ (match x with
    | .answered res => res.statusCode = status ∧ JsonMember res b!"error" name
    | _ => False) (by
      unfold RefusedWith
      cases x <;> simp) (by split <;> infer_instance)

/-- The values under which an event may hand out tokens. -/
def handed (e : Event) (k : Kind) : List Str :=
  (match asksToken e.call, e.answer with
    | some _, .answered res =>
      (stringMembers res.body).filterMap fun m => if m.1 = k.name then some m.2 else none
    | _, _ => []) ++
  (match k, asksAuthorization e.call, e.answer with
    | .access, some (rq, _, _), .answered res =>
      if rq.responseType = b!"token" then
        match res.header.all b!"Location" with
        | [l] => match cutLastByte 0x23 l with
          | some (_, f) => match unescape .fragment f with
            | some p => (parseQuery p).1.all b!"access_token"
            | none => []
          | none => []
        | _ => []
      else []
    | _, _, _ => [])

theorem hands_handed {e : Event} {k : Kind} {t : HS256Token} (h : Hands e k t) :
    t.string ∈ handed e k := by
  unfold handed
  rw [List.mem_append]
  rcases h with ⟨rq, res, h1, h2⟩ | ⟨rfl, rq, u, res, h1, h2, h3⟩
  · left
    obtain ⟨h1, h4⟩ := (tokenCall_asked _ _ _).mp h1
    rw [h1, h4]
    rw [jsonMember_members] at h2
    exact List.mem_filterMap.mpr ⟨_, h2, if_pos rfl⟩
  · right
    obtain ⟨h1, h4⟩ := (authorizationCall_asked _ _ _ _).mp h1
    cases h5 : asksAuthorization e.call with
    | none => rw [h5] at h1; cases h1
    | some x =>
      obtain ⟨rq', u', p⟩ := x
      rw [h5] at h1
      cases h1
      rw [h4]
      simp only [if_pos h2]
      obtain ⟨front, f, p, g1, g2, g3, g4⟩ := h3
      have := cutLastByte_append (sep := 0x23) front g2
      rw [g1, List.append_assoc]
      simp only [List.singleton_append, this, g3, g4]
      exact List.mem_singleton.mpr rfl

theorem hands_only {e : Event} {k : Kind} {t a : HS256Token} (hl : handed e k = [a.string])
    (h : Hands e k t) : t = a := by
  have := hands_handed h
  rw [hl, List.mem_singleton] at this
  exact string_injective this

theorem hands_none {e : Event} {k : Kind} {t : HS256Token} (hl : handed e k = []) :
    ¬ Hands e k t := by
  intro h
  have := hands_handed h
  rw [hl] at this
  cases this

/-- The values under which an event may hand out codes. -/
def handedCodes (e : Event) : List Str :=
  match asksAuthorization e.call, e.answer with
  | some (rq, _, _), .answered res =>
    if rq.responseType = b!"code" then
      match res.header.all b!"Location" with
      | [l] => match cutLastByte 0x3F l with
        | some (_, q) => (parseQuery q).1.all b!"code"
        | none => []
      | _ => []
    else []
  | _, _ => []

theorem handsCode_handed {e : Event} {t : HS256Token} (h : HandsCode e t) :
    t.string ∈ handedCodes e := by
  unfold handedCodes
  obtain ⟨rq, u, res, h1, h2, h3⟩ := h
  obtain ⟨h1, h4⟩ := (authorizationCall_asked _ _ _ _).mp h1
  cases h5 : asksAuthorization e.call with
  | none => rw [h5] at h1; cases h1
  | some x =>
    obtain ⟨rq', u', p⟩ := x
    rw [h5] at h1
    cases h1
    rw [h4]
    simp only [if_pos h2]
    obtain ⟨u, front, q, g1, g2, g3, g4⟩ := h3
    have := cutLastByte_append (sep := 0x3F) front g3
    rw [g2, List.append_assoc]
    simp only [List.singleton_append, this, g4]
    simp

theorem handsCode_only {e : Event} {t a : HS256Token} (hl : handedCodes e = [a.string])
    (h : HandsCode e t) : t = a := by
  have := handsCode_handed h
  rw [hl, List.mem_singleton] at this
  exact string_injective this

theorem handsCode_none {e : Event} {t : HS256Token} (hl : handedCodes e = []) :
    ¬ HandsCode e t := by
  intro h
  have := handsCode_handed h
  rw [hl] at this
  cases this

instance (s : Server) (id secret : Str) : Decidable (Identified s id secret) :=
  @decidable_of_iff _ (match s.clients.get? id with
    | some c => c.confidential = true → c.secret = secret
    | none => False) (by
      unfold Identified
      cases s.clients.get? id <;> simp) (by split <;> infer_instance)

instance (s : Server) (u p : Str) : Decidable (Password s u p) :=
  @decidable_of_iff _ (match s.users.get? u with
    | some c => c.secret = p
    | none => False) (by
      unfold Password
      cases s.users.get? u <;> simp) (by split <;> infer_instance)

instance (inner outer : Scope) : Decidable (Within inner outer) := by
  unfold Within; infer_instance

instance (cfg : ServerConfig) (c : Call) (n : Nat) : Decidable (Enough cfg c n) := by
  unfold Enough; infer_instance

end OAuth2

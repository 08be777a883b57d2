import Verif.Lemmas.Rfc
import Verif.Lemmas.RfcDemo
import Verif.Props.Access
/-
C80: the server does what RFC 6750, RFC 7009 and RFC 7662 demand (Verif/Spec/Rfc.lean), sentence by
sentence: access to resources, revocation and introspection. Where it does not, see
Verif/Props/RfcNot.lean.
-/

namespace OAuth2

open Spec Rfc

/-! ### RFC 6750 -/

/-- **C80.** Access tokens in the authorization header open resources. -/
theorem C80_6750_header : Upheld Rfc6750.header := by
  intro x hx r required text g hop hb hopen hw
  obtain ⟨s₀, st, cx⟩ := context hx
  obtain ⟨t, h1, h2, h3⟩ := hopen
  rw [cx.config] at h1 h2
  rw [cx.answer, C27_admits_iff cx.started cx.history]
  exact ⟨required, text, t, g, ⟨r, hop, hb⟩, h2, h1, h3, hw⟩

/-- Non-vacuity: the access token of the first event of the session. -/
example : ∃ (x : Exchange) (r : Request) (g : Grant), x.Happens ∧ x.call.op = .authorize r (some [b!"foo"]) ∧
    CarriesBearer (r.header.get b!"Authorization") Demo.a1.string ∧
    Opens x.config x.past Demo.a1.string x.now g ∧ Within (some [b!"foo"]) g.scope := by
  exact ⟨_, _, _, demo_presents Demo.started Demo.history1 Demo.a1.string (some [b!"foo"]) 1100, rfl,
    demo_bearer (by decide +kernel), ⟨Demo.a1, demo_access1, by decide +kernel, by decide +kernel⟩, by decide⟩

theorem bearer_unique {header a b : Str} (h1 : CarriesBearer header a) (h2 : CarriesBearer header b) :
    a = b := by
  obtain ⟨w, e1, hw, _⟩ := h1
  obtain ⟨w', e2, hw', _⟩ := h2
  have hl : w.length = w'.length := by
    have l1 := anyCase_length hw
    have l2 := anyCase_length hw'
    rw [l1, l2]
  rw [e1, List.append_assoc, List.append_assoc] at e2
  have := (List.append_inj e2 hl).2
  exact (List.cons.inj this).2

section
variable {x : Exchange} {s₀ st : Server} (cx : Context x s₀ st)
include cx

/-- Whoever is kept out is kept out for a reason. -/
theorem Context.rejected {given : Str} {required : Scope} {res : Response}
    (h : x.Resource given required res) :
    ∃ status challenge, AccessRefusal x.config x.past given required x.now status challenge ∧
      res.statusCode = status ∧ res.header.all b!"WWW-Authenticate" = [challenge] := by
  obtain ⟨r, hop, rfl, ha⟩ := h
  have key : ∀ {status challenge}, AccessRefusal x.config x.past (r.header.get b!"Authorization")
      required x.now status challenge → ∃ status challenge, AccessRefusal x.config x.past
        (r.header.get b!"Authorization") required x.now status challenge ∧
        res.statusCode = status ∧ res.header.all b!"WWW-Authenticate" = [challenge] := by
    intro status challenge hr
    refine ⟨status, challenge, hr, ?_⟩
    rw [cx.config] at hr
    obtain ⟨res', h1, h2, h3, _⟩ := (C66_access cx.started cx.history hop status challenge).mpr hr
    rw [← cx.answer, ha] at h1
    cases h1
    exact ⟨h2, h3⟩
  by_cases h1 : r.header.get b!"Authorization" = []
  · exact key (.missing h1)
  by_cases h2 : ∃ text, CarriesBearer (r.header.get b!"Authorization") text
  · obtain ⟨text, h2⟩ := h2
    by_cases h3 : Signed x.config text
    · by_cases h4 : ∃ t g, InForce x.config x.past .access t g ∧ SameToken x.config text t
      · obtain ⟨t, g, h4, h5⟩ := h4
        by_cases h6 : x.now ≤ g.expires
        · by_cases h7 : Within required g.scope
          · have := C80_6750_header
            rw [cx.answer, (C27_admits_iff cx.started cx.history x.call).mpr ⟨required, text, t, g,
              ⟨r, hop, h2⟩, cx.config ▸ h5, cx.config ▸ h4, h6, h7⟩] at ha
            cases ha
          · exact key (.scope h2 ⟨t, h4, h5, h6⟩ h7)
        · exact key (.expired h2 h4 h5 (by unfold Time at *; omega))
      · exact key (.unknown h2 h3 fun t g h5 h6 => h4 ⟨t, g, h5, h6⟩)
    · exact key (.forged h2 h3)
  · exact key (.malformed h1 fun text h => h2 ⟨text, h⟩)

end

/-- **C80.** Whoever is kept out is told so by a challenge for a bearer token. -/
theorem C80_6750_challenge : Upheld Rfc6750.challenge := by
  intro x hx given required res h
  obtain ⟨s₀, st, cx⟩ := context hx
  obtain ⟨status, challenge, hr, _, h2⟩ := cx.rejected h
  rw [h2]
  cases hr with
  | missing => exact ⟨[(b!"realm", b!"OAuth2")], by decide, by decide, by decide⟩
  | malformed =>
    exact ⟨[(b!"error", b!"invalid_request"), (b!"error_description", b!"malformed authorization header")],
      by decide, by decide, by decide⟩
  | forged =>
    exact ⟨[(b!"error", b!"invalid_token"), (b!"error_description", b!"malformed token")],
      by decide, by decide, by decide⟩
  | unknown =>
    exact ⟨[(b!"error", b!"invalid_token"), (b!"error_description", b!"unknown token")],
      by decide, by decide, by decide⟩
  | expired =>
    exact ⟨[(b!"error", b!"invalid_token"), (b!"error_description", b!"expired token")],
      by decide, by decide, by decide⟩
  | scope =>
    refine ⟨[(b!"error", b!"insufficient_scope"), (b!"scope", required.string)], by simp,
      by simp, ?_⟩
    simp [param, joinStr]

/-- Non-vacuity: an unknown token. -/
example : ∃ (x : Exchange) (res : Response), x.Happens ∧
    x.Resource (b!"Bearer " ++ Demo.a1.string) (some [b!"foo"]) res := by
  exact ⟨_, _, demo_presents Demo.started .start Demo.a1.string (some [b!"foo"]) 1100, _, rfl, rfl,
    (by decide +kernel : _ = Answer.rejected (Demo.response Demo.server
      (Demo.present Demo.a1.string (some [b!"foo"]) 1100)))⟩

/-- **C80.** Whoever comes without credentials is not told of an error. -/
theorem C80_6750_noErrorCode : Upheld Rfc6750.noErrorCode := by
  intro x hx required res h
  obtain ⟨s₀, st, cx⟩ := context hx
  obtain ⟨status, challenge, hr, h1, h2⟩ := cx.rejected h
  have no : ∀ {text}, ¬ CarriesBearer [] text := by
    rintro text ⟨w, h, _⟩
    have := congrArg List.length h
    simp at this
  rw [h1, h2]
  cases hr with
  | missing => exact ⟨rfl, rfl⟩
  | malformed h => exact absurd rfl h
  | forged h => exact absurd h no
  | unknown h => exact absurd h no
  | expired h => exact absurd h no
  | scope h => exact absurd h no

/-- Non-vacuity: a request without authorization. -/
example : ∃ (x : Exchange) (res : Response), x.Happens ∧ x.Resource [] (some [b!"foo"]) res := by
  refine ⟨Demo.exchange Demo.server [] Demo.server { op := .authorize { method := b!"GET", path := b!"/api" } (some [b!"foo"]), clock := fun _ => 0 }, _,
    .intro _ Demo.started .start fun r hr => (by cases hr), _, rfl, rfl,
    (by decide +kernel : _ = Answer.rejected (Demo.response Demo.server
      { op := .authorize { method := b!"GET", path := b!"/api" } (some [b!"foo"]), clock := fun _ => 0 }))⟩

/-- **C80.** Headers that are not understood are malformed requests. -/
theorem C80_6750_invalidRequest : Upheld Rfc6750.invalidRequest := by
  intro x hx given required res h hne hn
  obtain ⟨s₀, st, cx⟩ := context hx
  obtain ⟨status, challenge, hr, h1, h2⟩ := cx.rejected h
  rw [h1, h2]
  cases hr with
  | missing h => exact absurd h hne
  | malformed h => exact ⟨rfl, b!", error_description=\"malformed authorization header\"", by decide⟩
  | forged h => exact absurd h (hn _)
  | unknown h => exact absurd h (hn _)
  | expired h => exact absurd h (hn _)
  | scope h => exact absurd h (hn _)

/-- Non-vacuity: basic credentials in place of a token. -/
example : ∃ (x : Exchange) (res : Response), x.Happens ∧ x.Resource b!"Basic YzE6czE=" (some [b!"foo"]) res ∧
    ∀ text, ¬ CarriesBearer b!"Basic YzE6czE=" text := by
  refine ⟨Demo.exchange Demo.server [] Demo.server { op := .authorize { method := b!"GET", path := b!"/api", header := [(b!"Authorization", [b!"Basic YzE6czE="])] } (some [b!"foo"]), clock := fun _ => 0 }, _,
    .intro _ Demo.started .start fun r hr => (by cases hr), ⟨_, rfl, rfl,
    (by decide +kernel : _ = Answer.rejected (Demo.response Demo.server
      { op := .authorize { method := b!"GET", path := b!"/api", header := [(b!"Authorization", [b!"Basic YzE6czE="])] } (some [b!"foo"]), clock := fun _ => 0 }))⟩, ?_⟩
  rintro text ⟨w, h1, h2, _⟩
  have hl := anyCase_length h2
  match w, hl with
  | [a, b, c, d, e, f], _ =>
    rw [List.append_assoc] at h1
    have := (List.append_inj (s₁ := b!"Basic ") (t₁ := b!"YzE6czE=") h1 rfl).2
    exact absurd (List.cons.inj this).1 (by decide)

/-- **C80.** Tokens that do not open anything are invalid. -/
theorem C80_6750_invalidToken : Upheld Rfc6750.invalidToken := by
  intro x hx given required res text h hb hn
  obtain ⟨s₀, st, cx⟩ := context hx
  obtain ⟨status, challenge, hr, h1, h2⟩ := cx.rejected h
  rw [h1, h2]
  cases hr with
  | missing h =>
    subst h
    obtain ⟨w, h, _⟩ := hb
    have := congrArg List.length h
    simp at this
  | malformed _ h => exact absurd hb (h _)
  | forged h => exact ⟨rfl, b!", error_description=\"malformed token\"", by decide⟩
  | unknown h => exact ⟨rfl, b!", error_description=\"unknown token\"", by decide⟩
  | expired h => exact ⟨rfl, b!", error_description=\"expired token\"", by decide⟩
  | scope h h' => exact absurd (bearer_unique h hb ▸ h') (hn _)

/-- Non-vacuity: a token that was not issued. -/
example : ∃ (x : Exchange) (res : Response), x.Happens ∧
    x.Resource (b!"Bearer " ++ Demo.a1.string) (some [b!"foo"]) res ∧
    CarriesBearer (b!"Bearer " ++ Demo.a1.string) Demo.a1.string ∧
    ∀ g, ¬ Opens x.config x.past Demo.a1.string x.now g := by
  refine ⟨_, _, demo_presents Demo.started .start Demo.a1.string (some [b!"foo"]) 1100, ⟨_, rfl, rfl,
    (by decide +kernel : _ = Answer.rejected (Demo.response Demo.server
      (Demo.present Demo.a1.string (some [b!"foo"]) 1100)))⟩, demo_bearer (by decide +kernel), ?_⟩
  rintro g ⟨t, hi, _⟩
  cases hi

/-- **C80.** Tokens that open something but not this do not have the scope that it takes. -/
theorem C80_6750_insufficientScope : Upheld Rfc6750.insufficientScope := by
  intro x hx given required res text g h hb hopen
  obtain ⟨s₀, st, cx⟩ := context hx
  obtain ⟨status, challenge, hr, h1, h2⟩ := cx.rejected h
  obtain ⟨t, k1, k2, k3⟩ := hopen
  rw [h1, h2]
  cases hr with
  | missing h =>
    subst h
    obtain ⟨w, h, _⟩ := hb
    have := congrArg List.length h
    simp at this
  | malformed _ h => exact absurd hb (h _)
  | forged h h' => exact absurd ⟨_, (bearer_unique hb h ▸ k2).choose_spec.1⟩ h'
  | unknown h _ h' => exact absurd (bearer_unique hb h ▸ k2) (h' t g k1)
  | expired h h3 h4 h5 =>
    have := bearer_unique h hb
    subst this
    have := token_unique cx.exactly k1 h3 (same_same k2 h4)
    subst this
    unfold Time at *
    omega
  | scope h h' hw =>
    have := bearer_unique h hb
    subst this
    obtain ⟨t', h3, h4, _⟩ := h'
    have := token_unique cx.exactly k1 h3 (same_same k2 h4)
    subst this
    exact ⟨rfl, hw, rfl⟩

/-- Non-vacuity: the scope of the token does not suffice. -/
example : ∃ (x : Exchange) (res : Response) (g : Grant), x.Happens ∧
    x.Resource (b!"Bearer " ++ Demo.a1.string) (some [b!"bar"]) res ∧
    CarriesBearer (b!"Bearer " ++ Demo.a1.string) Demo.a1.string ∧
    Opens x.config x.past Demo.a1.string x.now g := by
  exact ⟨_, _, _, demo_presents Demo.started Demo.history1 Demo.a1.string (some [b!"bar"]) 1100, ⟨_, rfl, rfl,
    (by decide +kernel : _ = Answer.rejected (Demo.response Demo.s1
      (Demo.present Demo.a1.string (some [b!"bar"]) 1100)))⟩, demo_bearer (by decide +kernel),
    Demo.a1, demo_access1, by decide +kernel, by decide +kernel⟩

/-! ### RFC 7009 -/

section
variable {x : Exchange} {s₀ st : Server} (cx : Context x s₀ st)
include cx

/-- A revocation request is refused exactly for the reasons to do so. -/
theorem Context.revocation {fields : List (Str × Str)} {id secret : Str} {res : Response}
    (h : x.About b!"revoke" fields id secret res) :
    (field fields b!"token" = [] ∧ Rfc.Error res b!"invalid_request") ∨
    ∃ rq, RevocationCall x.event rq res ∧ rq.token = field fields b!"token" ∧ rq.clientID = id ∧
      (∀ name, Rfc.Error res name ↔ ManagementRefusal x.config x.past st
        (field fields b!"token_type_hint") id secret (field fields b!"token") name) ∧
      ((∀ name, ¬ Rfc.Error res name) → res.statusCode = 200) := by
  obtain ⟨r, query, hat, hp, hb⟩ := h
  have hfresh := cx.fresh r hat.1
  cases hq : parseRevocationRequest r with
  | error e =>
    left
    have hbad : Malformed x.call :=
      ⟨r, hat.1, .inr (.inr (.inr ⟨hat.2.1, fun rq h => by rw [hq] at h; cases h⟩))⟩
    obtain ⟨h1, h2⟩ := refused_error hat.2.2 (cx.answer ▸ (C66_malformed st hbad).1)
    refine ⟨?_, by omega, h2⟩
    apply Classical.byContradiction
    intro hne
    have ok := (C75_revocation_request hfresh {
      token := field fields b!"token", tokenTypeHint := field fields b!"token_type_hint",
      clientID := id, clientSecret := secret }).mpr ⟨fields, query, hp, rfl, hne, rfl, hb⟩
    rw [hq] at ok
    cases ok
  | ok rq =>
    right
    obtain ⟨f, q, hp', h1, _, h2, h3⟩ := (C75_revocation_request hfresh rq).mp hq
    obtain ⟨e1, e2⟩ := credentials_unique h3 hb
    rw [posts_field hp' hp] at h1 h2
    have hv := C66_revocation cx.started cx.history (rq := rq) ⟨r, hat.1, hat.2.1, hq⟩
    rw [← cx.config, h1, h2, e1, e2] at hv
    have hiff : ∀ name, Rfc.Error res name ↔ ManagementRefusal x.config x.past st
        (field fields b!"token_type_hint") id secret (field fields b!"token") name := by
      intro name
      constructor
      · rintro ⟨h1, h2⟩
        exact ((hv.1 _ name h1).mp ⟨res, cx.reply hat, rfl, h2⟩).1
      · intro hr
        obtain ⟨h1, h2⟩ := refused_error (cx.reply hat) ((hv.1 _ name (statusOf_ge name)).mpr ⟨hr, rfl⟩)
        exact ⟨h1 ▸ statusOf_ge name, h2⟩
    refine ⟨rq, ⟨r, hat.1, hat.2.1, hq, hat.2.2⟩, h1, e1, hiff, fun hn => ?_⟩
    obtain ⟨res', h1, h2⟩ := hv.2 fun name hr => hn name ((hiff name).mpr hr)
    rw [cx.reply hat] at h1
    cases h1
    exact h2

/-- An introspection request is refused exactly for the reasons to do so. -/
theorem Context.introspection {fields : List (Str × Str)} {id secret : Str} {res : Response}
    (h : x.About b!"introspect" fields id secret res) :
    (field fields b!"token" = [] ∧ Rfc.Error res b!"invalid_request") ∨
    ∃ r rq, x.At b!"introspect" r res ∧ parseIntrospectionRequest r = .ok rq ∧
      rq.token = field fields b!"token" ∧ rq.clientID = id ∧ rq.clientSecret = secret ∧
      (∀ name, Rfc.Error res name ↔ ManagementRefusal x.config x.past st
        (field fields b!"token_type_hint") id secret (field fields b!"token") name) ∧
      ((∀ name, ¬ Rfc.Error res name) → res.statusCode = 200) := by
  obtain ⟨r, query, hat, hp, hb⟩ := h
  have hfresh := cx.fresh r hat.1
  cases hq : parseIntrospectionRequest r with
  | error e =>
    left
    have hbad : Malformed x.call :=
      ⟨r, hat.1, .inr (.inr (.inl ⟨hat.2.1, fun rq h => by rw [hq] at h; cases h⟩))⟩
    obtain ⟨h1, h2⟩ := refused_error hat.2.2 (cx.answer ▸ (C66_malformed st hbad).1)
    refine ⟨?_, by omega, h2⟩
    apply Classical.byContradiction
    intro hne
    have ok := (C75_introspection_request hfresh {
      token := field fields b!"token", tokenTypeHint := field fields b!"token_type_hint",
      clientID := id, clientSecret := secret }).mpr ⟨fields, query, hp, rfl, hne, rfl, hb⟩
    rw [hq] at ok
    cases ok
  | ok rq =>
    right
    obtain ⟨f, q, hp', h1, _, h2, h3⟩ := (C75_introspection_request hfresh rq).mp hq
    obtain ⟨e1, e2⟩ := credentials_unique h3 hb
    rw [posts_field hp' hp] at h1 h2
    have hv := C66_introspection cx.started cx.history (rq := rq) ⟨r, hat.1, hat.2.1, hq⟩
    rw [← cx.config, h1, h2, e1, e2] at hv
    have hiff : ∀ name, Rfc.Error res name ↔ ManagementRefusal x.config x.past st
        (field fields b!"token_type_hint") id secret (field fields b!"token") name := by
      intro name
      constructor
      · rintro ⟨h1, h2⟩
        exact ((hv.1 _ name h1).mp ⟨res, cx.reply hat, rfl, h2⟩).1
      · intro hr
        obtain ⟨h1, h2⟩ := refused_error (cx.reply hat) ((hv.1 _ name (statusOf_ge name)).mpr ⟨hr, rfl⟩)
        exact ⟨h1 ▸ statusOf_ge name, h2⟩
    refine ⟨r, rq, hat, hq, h1, e1, e2, hiff, fun hn => ?_⟩
    obtain ⟨res', h1, h2⟩ := hv.2 fun name hr => hn name ((hiff name).mpr hr)
    rw [cx.reply hat] at h1
    cases h1
    exact h2

/-- A successful answer of the introspection endpoint. -/
theorem Context.described {r : Request} {res : Response} (h : x.At b!"introspect" r res)
    (hs : res.statusCode = 200) :
    ∃ rq t, parseIntrospectionRequest r = .ok rq ∧ Identified st rq.clientID rq.clientSecret ∧
      HS256Token.parse x.config.secret rq.token = .ok t ∧
      ∃ members, parseJSON res.body = some (.obj members) ∧
        ∀ b, (b!"active", JSON.bool b) ∈ members ↔ (b = true ↔ ∃ k y g, InForce x.config x.past k y g ∧
          y.signatureString = t.signatureString ∧ g.client = rq.clientID) := by
  obtain ⟨reply, s', h1, h2, _⟩ := step_served h.1 st
  have hp := (lastSegment_iff _ _).mp h.2.1
  have hno : ∀ p, p ≠ b!"introspect" → Server.lastSegment r.path ≠ p := by
    rintro p h1 rfl; exact h1 hp
  have ha := cx.reply h
  rw [h1] at ha
  simp only at ha
  have hcfg : x.config = st.config := cx.exactly.config.symm
  cases h2 with
  | notFound _ _ h3 => exact absurd hp h3
  | refused e he hre =>
    cases ha
    rw [error_result hre] at hs
    simp only at hs
    omega
  | refusedRedirect rq h => exact absurd h.path (hno _ (by decide))
  | notice rq h => exact absurd h.path (hno _ (by decide))
  | crash => cases ha
  | implicit rq h => exact absurd h.path (hno _ (by decide))
  | code rq h => exact absurd h.path (hno _ (by decide))
  | password _ hf => exact absurd hf.path (hno _ (by decide))
  | client _ hf => exact absurd hf.path (hno _ (by decide))
  | replay _ hf => exact absurd hf.path (hno _ (by decide))
  | exchange _ hf => exact absurd hf.path (hno _ (by decide))
  | refresh _ hf => exact absurd hf.path (hno _ (by decide))
  | revoke _ hp => exact absurd hp (hno _ (by decide))
  | revokeHalf _ hp => exact absurd hp (hno _ (by decide))
  | introspect rq _ hq hid t ht hta htr i hi =>
    refine ⟨rq, t, hq, hid, hcfg ▸ ht, ?_⟩
    have hshape : i = {} ∨ ∃ kind cred, i = Server.describe kind cred := by
      rw [hi]
      split
      · exact .inr ⟨_, _, rfl⟩
      · split
        · exact .inr ⟨_, _, rfl⟩
        · exact .inl rfl
    have hx : i.extra = none := by rcases hshape with rfl | ⟨_, _, rfl⟩ <;> rfl
    have hdoc : parseJSON res.body = some (.obj (i.members.map fun m => (sanitize m.key, m.doc))) := by
      cases ha
      apply json_document (by simp [IntrospectionResponse.members]) (i.members_encode (by
        rw [hx]; exact representable_nil _))
      rw [introspection_result, IntrospectionResponse.json_members]
    have hmem : (b!"active", JSON.bool i.active) ∈ i.members.map fun m => (sanitize m.key, m.doc) := by
      refine List.mem_map.mpr
        ⟨⟨b!"active", if i.active then b!"true" else b!"false", .bool i.active⟩, ?_, ?_⟩
      · unfold IntrospectionResponse.members
        simp
      · simp only [Prod.mk.injEq, and_true]
        decide +kernel
    have hnd : ((i.members.map fun m => (sanitize m.key, m.doc)).map (·.1)).Nodup := by
      cases cx.conforms h with
      | description ms _ _ _ _ hms hsub =>
        rw [hdoc] at hms
        cases hms
        exact hsub.nodup (by decide)
      | tokens _ _ _ h' => exact absurd (lastSegment_unique h.2.1 h') (by decide)
      | revoked h' => exact absurd (lastSegment_unique h.2.1 h') (by decide)
      | failure _ name _ _ _ _ _ h' =>
        have := statusOf_ge name
        omega
      | redirect _ h' => exact absurd (lastSegment_unique h.2.1 h') (by decide)
      | page h' => exact absurd (lastSegment_unique h.2.1 h') (by decide)
      | notFound h' => exact absurd h.2.1 (h' _ (by decide))
    have hact : i.active = true ↔ ∃ k y g, InForce x.config x.past k y g ∧
        y.signatureString = t.signatureString ∧ g.client = rq.clientID := by
      cases hr : st.refreshTokens.get? t.signatureString with
      | some c =>
        rw [hr] at hi
        obtain ⟨y, g, k1, k2, k3⟩ := (cx.exactly.refresh _ _).mp hr
        refine ⟨fun _ => ⟨.refresh, y, g, k2, k1, ?_⟩, fun _ => by rw [hi]; rfl⟩
        have := htr c hr
        rw [k3] at this
        exact this
      | none =>
        rw [hr] at hi
        cases hacc : st.accessTokens.get? t.signatureString with
        | some c =>
          rw [hacc] at hi
          obtain ⟨y, g, k1, k2, k3⟩ := (cx.exactly.access _ _).mp hacc
          refine ⟨fun _ => ⟨.access, y, g, k2, k1, ?_⟩, fun _ => by rw [hi]; rfl⟩
          have := hta c hacc
          rw [k3] at this
          exact this
        | none =>
          rw [hacc] at hi
          rw [hi]
          refine ⟨fun h => (nomatch h), ?_⟩
          rintro ⟨k, y, g, k1, k2, _⟩
          exfalso
          cases k with
          | access =>
            have := (cx.exactly.access _ _).mpr ⟨y, g, k2, k1, rfl⟩
            rw [hacc] at this
            cases this
          | refresh =>
            have := (cx.exactly.refresh _ _).mpr ⟨y, g, k2, k1, rfl⟩
            rw [hr] at this
            cases this
    refine ⟨_, hdoc, fun b => ?_⟩
    rw [← hact]
    constructor
    · intro hb
      have := error_failure.pairwise_fst hnd hb hmem
      cases this
      exact Iff.rfl
    · intro hb
      have : b = i.active := by
        clear hmem hnd hdoc
        cases hia : i.active with
        | true => exact hb.mpr hia
        | false =>
          rw [hia] at hb
          cases b with
          | true => exact (hb.mp rfl).symm
          | false => rfl
      rw [this]
      exact hmem

end

/-- **C80.** A client that is not who it says or to whom the token was not issued is told so. -/
theorem C80_7009_validates : Upheld Rfc7009.validates := by
  intro x hx fields id secret res h hbad
  obtain ⟨s₀, st, cx⟩ := context hx
  rcases cx.revocation h with ⟨_, h1⟩ | ⟨rq, _, _, _, hiff, _⟩
  · exact h1.1
  · by_cases hh : field fields b!"token_type_hint" ∈ [[], b!"access_token", b!"refresh_token"]
    · by_cases hi : Identified st id secret
      · rcases hbad with hbad | hbad
        · exact absurd (cx.authentic.mpr hi) hbad
        · exact ((hiff _).mpr (.foreign hh hi hbad)).1
      · exact ((hiff _).mpr (.unidentified hh hi)).1
    · exact ((hiff _).mpr (.hint hh)).1

/-- Non-vacuity: a client with a wrong secret, and a client with the token of another. -/
example : (∃ (x : Exchange) (fields : List (Str × Str)) (res : Response), x.Happens ∧
      x.About b!"revoke" fields b!"c1" b!"s2" res ∧ ¬ x.Authentic b!"c1" b!"s2") ∧
    ∃ (x : Exchange) (fields : List (Str × Str)) (res : Response), x.Happens ∧
      x.About b!"revoke" fields b!"c2" [] res ∧ Foreign x.config x.past (field fields b!"token") b!"c2" := by
  constructor
  · obtain ⟨fields, ht, hf⟩ := demo_about (endpoint := b!"revoke") (s₀ := Demo.server) (s := Demo.server) (h := [])
      (auth := b!"c1:s2") (coins := []) (time := 1000) (path := b!"/revoke")
      (form := b!"token=" ++ Demo.a1.string)
      b!"c1" b!"s2" (by decide +kernel) (by decide +kernel) (by decide +kernel) (by decide +kernel)
    refine ⟨_, _, _, demo_happens Demo.started .start .., ht, ?_⟩
    change ¬ Identified Demo.server _ _
    decide +kernel
  · obtain ⟨fields, ht, hf⟩ := demo_about (endpoint := b!"revoke") (s₀ := Demo.server) (s := Demo.s1) (h := [Demo.e1])
      (auth := b!"c2:") (coins := []) (time := 1000) (path := b!"/revoke")
      (form := b!"token=" ++ Demo.a1.string)
      b!"c2" [] (by decide +kernel) (by decide +kernel) (by decide +kernel) (by decide +kernel)
    exact ⟨_, _, _, demo_happens Demo.started Demo.history1 .., ht, .access, Demo.a1, _, demo_access1, (by rw [hf]; decide +kernel), by decide⟩

/-- **C80.** A token that is revoked is out of force at once, whatever the hint says. -/
theorem C80_7009_invalidates : Upheld Rfc7009.invalidates := by
  intro x hx fields id secret res h hs k t g hsame hi
  obtain ⟨s₀, st, cx⟩ := context hx
  rcases cx.revocation h with ⟨_, h1⟩ | ⟨rq, hcall, htok, _⟩
  · have := h1.1
    omega
  · rcases inForce_cons.mp hi with hi | ⟨_, hi⟩
    · obtain ⟨r, h1, h2, _⟩ := hcall
      rcases hi.hands with ⟨_, _, ⟨r', h1', h2', _⟩, _⟩ | ⟨_, _, _, _, ⟨r', h1', h2', _⟩, _⟩
      all_goals
        rw [h1] at h1'
        cases h1'
        exact absurd (lastSegment_unique h2 h2') (by decide)
    · exact hi (.inr (.inl ⟨rq, res, hcall, htok ▸ hsame, hs⟩))

/-- Non-vacuity: a client revokes its access token, which was in force. -/
example : ∃ (x : Exchange) (fields : List (Str × Str)) (res : Response) (g : Grant), x.Happens ∧
    x.About b!"revoke" fields b!"c1" b!"s1" res ∧ res.statusCode = 200 ∧
    SameToken x.config (field fields b!"token") Demo.a1 ∧ InForce x.config x.past .access Demo.a1 g := by
  obtain ⟨fields, ht, hf⟩ := demo_about (endpoint := b!"revoke") (s₀ := Demo.server) (s := Demo.s1) (h := [Demo.e1])
    (auth := b!"c1:s1") (coins := []) (time := 1000) (path := b!"/revoke")
    (form := b!"token=" ++ Demo.a1.string)
    b!"c1" b!"s1" (by decide +kernel) (by decide +kernel) (by decide +kernel) (by decide +kernel)
  exact ⟨_, _, _, _, demo_happens Demo.started Demo.history1 .., ht, by decide +kernel, (by rw [hf]; decide +kernel), demo_access1⟩

/-- **C80.** Revoking a token of the server that is not in force is a success. -/
theorem C80_7009_invalidTokenSigned : Upheld Rfc7009.invalidTokenSigned := by
  intro x hx fields id secret res h hid hne hhint hsig hun
  obtain ⟨s₀, st, cx⟩ := context hx
  rcases cx.revocation h with ⟨h1, _⟩ | ⟨rq, hcall, htok, _, hiff, h200⟩
  · exact absurd h1 hne
  · refine h200 fun name he => ?_
    cases (hiff name).mp he with
    | hint h => rw [hhint] at h; exact h (by decide)
    | unidentified _ h => exact h (cx.authentic.mp hid)
    | forged _ _ h => exact h hsig
    | foreign _ _ h =>
      obtain ⟨k, t, g, h1, h2, _⟩ := h
      exact hun k t g h1 h2

/-- Non-vacuity: a token that was not issued. -/
example : ∃ (x : Exchange) (fields : List (Str × Str)) (res : Response), x.Happens ∧
    x.About b!"revoke" fields b!"c1" b!"s1" res ∧ x.Authentic b!"c1" b!"s1" ∧
    field fields b!"token" = Demo.a1.string ∧ field fields b!"token_type_hint" = [] ∧
    Signed x.config (field fields b!"token") ∧ x.Unknown (field fields b!"token") := by
  obtain ⟨fields, ht, hf⟩ := demo_about (endpoint := b!"revoke") (s₀ := Demo.server) (s := Demo.server) (h := [])
    (auth := b!"c1:s1") (coins := []) (time := 1000) (path := b!"/revoke")
    (form := b!"token=" ++ Demo.a1.string)
    b!"c1" b!"s1" (by decide +kernel) (by decide +kernel) (by decide +kernel) (by decide +kernel)
  refine ⟨_, _, _, demo_happens Demo.started .start .., ht, ⟨Demo.client1, rfl, fun _ => rfl⟩, (by rw [hf]; decide +kernel), (by rw [hf]; decide +kernel), ⟨Demo.a1, (by rw [hf]; decide +kernel)⟩, ?_⟩
  intro k t g hi
  cases hi

/-! ### RFC 7662 -/

/-- **C80.** Nothing is told about tokens to anyone who is not a client. -/
theorem C80_7662_authentic : Upheld Rfc7662.authentic := by
  intro x hx r res h hs
  obtain ⟨s₀, st, cx⟩ := context hx
  obtain ⟨rq, t, hq, hid, _⟩ := cx.described h hs
  obtain ⟨_, _, _, _, _, _, h3⟩ := (C75_introspection_request (cx.fresh r h.1) rq).mp hq
  exact ⟨_, _, h3, cx.authentic.mpr hid⟩

/-- Non-vacuity: a client asks about its token. -/
example : ∃ (x : Exchange) (r : Request) (res : Response), x.Happens ∧ x.At b!"introspect" r res ∧
    res.statusCode = 200 := by
  obtain ⟨fields, ht, hf⟩ := demo_about (endpoint := b!"introspect") (s₀ := Demo.server) (s := Demo.s1) (h := [Demo.e1])
    (auth := b!"c1:s1") (coins := []) (time := 1000) (path := b!"/introspect")
    (form := b!"token=" ++ Demo.a1.string)
    b!"c1" b!"s1" (by decide +kernel) (by decide +kernel) (by decide +kernel) (by decide +kernel)
  obtain ⟨r, _, hat, _⟩ := ht
  exact ⟨_, r, _, demo_happens Demo.started Demo.history1 .., hat, by decide +kernel⟩

/-- **C80.** A successful response says whether the token is active. -/
theorem C80_7662_active : Upheld Rfc7662.active := by
  intro x hx r res h hs
  obtain ⟨s₀, st, cx⟩ := context hx
  obtain ⟨rq, t, _, _, _, members, hm, hb⟩ := cx.described h hs
  by_cases hf : ∃ k y g, InForce x.config x.past k y g ∧ y.signatureString = t.signatureString ∧
      g.client = rq.clientID
  · exact ⟨members, true, hm, (hb true).mpr ⟨fun _ => hf, fun _ => rfl⟩⟩
  · exact ⟨members, false, hm, (hb false).mpr ⟨fun h => (nomatch h), fun h => absurd h hf⟩⟩

/-- Non-vacuity: a client asks about a token that was not issued. -/
example : ∃ (x : Exchange) (r : Request) (res : Response), x.Happens ∧ x.At b!"introspect" r res ∧
    res.statusCode = 200 := by
  obtain ⟨fields, ht, hf⟩ := demo_about (endpoint := b!"introspect") (s₀ := Demo.server) (s := Demo.server) (h := [])
    (auth := b!"c1:s1") (coins := []) (time := 1000) (path := b!"/introspect")
    (form := b!"token=" ++ Demo.a1.string)
    b!"c1" b!"s1" (by decide +kernel) (by decide +kernel) (by decide +kernel) (by decide +kernel)
  obtain ⟨r, _, hat, _⟩ := ht
  exact ⟨_, r, _, demo_happens Demo.started .start .., hat, by decide +kernel⟩

/-- **C80.** Active tokens were issued to the client and have not been revoked. -/
theorem C80_7662_inForce : Upheld Rfc7662.inForce := by
  intro x hx fields id secret res members h hs hm ha
  obtain ⟨s₀, st, cx⟩ := context hx
  rcases cx.introspection h with ⟨_, h1⟩ | ⟨r, rq, hat, hq, htok, hcl, _, _⟩
  · have := h1.1
    omega
  · obtain ⟨rq', t, hq', _, ht, ms, hms, hb⟩ := cx.described hat hs
    rw [hq] at hq'
    cases hq'
    rw [hm] at hms
    cases hms
    obtain ⟨k, y, g, h1, h2, h3⟩ := ((hb true).mp ha).mp rfl
    exact ⟨k, y, g, ⟨t, htok ▸ ht, h2.symm⟩, h1, h3.trans hcl⟩

/-- Non-vacuity: a client asks about its token. -/
example : ∃ (x : Exchange) (fields : List (Str × Str)) (res : Response) (members : List (Str × JSON)), x.Happens ∧
    x.About b!"introspect" fields b!"c1" b!"s1" res ∧ res.statusCode = 200 ∧
    parseJSON res.body = some (.obj members) ∧ (b!"active", .bool true) ∈ members := by
  obtain ⟨fields, ht, hf⟩ := demo_about (endpoint := b!"introspect") (s₀ := Demo.server) (s := Demo.s1) (h := [Demo.e1])
    (auth := b!"c1:s1") (coins := []) (time := 1000) (path := b!"/introspect")
    (form := b!"token=" ++ Demo.a1.string)
    b!"c1" b!"s1" (by decide +kernel) (by decide +kernel) (by decide +kernel) (by decide +kernel)
  have hb : (Demo.response Demo.s1 (Demo.post b!"/introspect" b!"c1:s1" (b!"token=" ++ Demo.a1.string) []
      1000)).body = b!"{\"active\":true,\"scope\":\"foo\",\"client_id\":\"c1\",\"username\":\"u1\"," ++
        b!"\"token_type\":\"access_token\",\"exp\":4600}\n" := by decide +kernel
  exact ⟨_, _, _, _, demo_happens Demo.started Demo.history1 .., ht, by decide +kernel, by rw [hb]; rfl, List.mem_cons_self ..⟩

/-- **C80.** Tokens of the server that are not in force are not active. -/
theorem C80_7662_unknownSigned : Upheld Rfc7662.unknownSigned := by
  intro x hx fields id secret res h hid hne hhint hsig hun
  obtain ⟨s₀, st, cx⟩ := context hx
  rcases cx.introspection h with ⟨h1, _⟩ | ⟨r, rq, hat, hq, htok, hcl, _, hiff, h200⟩
  · exact absurd h1 hne
  · have hs := h200 fun name he => by
      cases (hiff name).mp he with
      | hint h => rw [hhint] at h; exact h (by decide)
      | unidentified _ h => exact h (cx.authentic.mp hid)
      | forged _ _ h => exact h hsig
      | foreign _ _ h =>
        obtain ⟨k, t, g, h1, h2, _⟩ := h
        exact hun k t g h1 h2
    obtain ⟨rq', t, hq', _, ht, ms, hms, hb⟩ := cx.described hat hs
    rw [hq] at hq'
    cases hq'
    refine ⟨hs, ms, hms, (hb false).mpr ⟨fun h => (nomatch h), ?_⟩⟩
    rintro ⟨k, y, g, h1, h2, _⟩
    exact absurd ⟨t, htok ▸ ht, h2.symm⟩ (hun k y g h1)

/-- Non-vacuity: a token that was not issued. -/
example : ∃ (x : Exchange) (fields : List (Str × Str)) (res : Response), x.Happens ∧
    x.About b!"introspect" fields b!"c1" b!"s1" res ∧ x.Authentic b!"c1" b!"s1" ∧
    field fields b!"token" = Demo.a1.string ∧ field fields b!"token_type_hint" = [] ∧
    Signed x.config (field fields b!"token") ∧ x.Unknown (field fields b!"token") := by
  obtain ⟨fields, ht, hf⟩ := demo_about (endpoint := b!"introspect") (s₀ := Demo.server) (s := Demo.server) (h := [])
    (auth := b!"c1:s1") (coins := []) (time := 1000) (path := b!"/introspect")
    (form := b!"token=" ++ Demo.a1.string)
    b!"c1" b!"s1" (by decide +kernel) (by decide +kernel) (by decide +kernel) (by decide +kernel)
  refine ⟨_, _, _, demo_happens Demo.started .start .., ht, ⟨Demo.client1, rfl, fun _ => rfl⟩, (by rw [hf]; decide +kernel), (by rw [hf]; decide +kernel), ⟨Demo.a1, (by rw [hf]; decide +kernel)⟩, ?_⟩
  intro k t g hi
  cases hi

/-- **C80.** Nothing is told about the tokens of other clients. -/
theorem C80_7662_foreignSilent : Upheld Rfc7662.foreignSilent := by
  intro x hx fields id secret res h hf
  obtain ⟨s₀, st, cx⟩ := context hx
  obtain ⟨name, he⟩ : ∃ name, Rfc.Error res name := by
    rcases cx.introspection h with ⟨_, h1⟩ | ⟨r, rq, _, _, _, _, _, hiff, _⟩
    · exact ⟨_, h1⟩
    · by_cases hh : field fields b!"token_type_hint" ∈ [[], b!"access_token", b!"refresh_token"]
      · by_cases hi : Identified st id secret
        · exact ⟨_, (hiff _).mpr (.foreign hh hi hf)⟩
        · exact ⟨_, (hiff _).mpr (.unidentified hh hi)⟩
      · exact ⟨_, (hiff _).mpr (.hint hh)⟩
  refine ⟨he.1, fun n v hm => ?_⟩
  obtain ⟨r, query, hat, _⟩ := h
  obtain ⟨ms, _, _, _, _, _, _, hp, hs⟩ := error_failure (cx.conforms hat) he.2
  exact hs.subset (List.mem_map.mpr ⟨_, member_unique hp hm, rfl⟩)

/-- Non-vacuity: a client asks about the token of another. -/
example : ∃ (x : Exchange) (fields : List (Str × Str)) (res : Response), x.Happens ∧
    x.About b!"introspect" fields b!"c2" [] res ∧ Foreign x.config x.past (field fields b!"token") b!"c2" := by
  obtain ⟨fields, ht, hf⟩ := demo_about (endpoint := b!"introspect") (s₀ := Demo.server) (s := Demo.s1) (h := [Demo.e1])
    (auth := b!"c2:") (coins := []) (time := 1000) (path := b!"/introspect")
    (form := b!"token=" ++ Demo.a1.string)
    b!"c2" [] (by decide +kernel) (by decide +kernel) (by decide +kernel) (by decide +kernel)
  exact ⟨_, _, _, demo_happens Demo.started Demo.history1 .., ht, .access, Demo.a1, _, demo_access1, (by rw [hf]; decide +kernel), by decide⟩

/-- **C80.** Nothing is told about tokens that are not active. -/
theorem C80_7662_inactiveSilent : Upheld Rfc7662.inactiveSilent := by
  intro x hx r res members h hm ha
  obtain ⟨s₀, st, cx⟩ := context hx
  have empty : res.body ≠ [] := by
    intro hb
    rw [hb, (by decide +kernel : parseJSON [] = none)] at hm
    cases hm
  have sub : ∀ {ms : List (Str × JSON)} {l : List Str}, parseJSON res.body = some (.obj ms) →
      (ms.map (·.1)).Sublist l → b!"active" ∉ l → False := by
    intro ms l hp hs hn
    rw [hm] at hp
    cases hp
    exact hn (hs.subset (List.mem_map.mpr ⟨_, ha, rfl⟩))
  cases cx.conforms h with
  | tokens _ _ _ _ _ _ hp hs => exact (sub hp hs (by decide)).elim
  | description ms active _ _ _ hp hs hact h1 =>
    rw [hm] at hp
    cases hp
    have := error_failure.pairwise_fst (hs.nodup (by decide)) ha hact
    cases this
    have hlen := h1 rfl
    match members, hlen with
    | [a], _ => rw [List.mem_singleton.mp ha]
  | revoked _ _ _ hb => exact absurd hb empty
  | failure _ _ _ _ _ _ _ _ _ hp hs => exact (sub hp hs (by decide)).elim
  | redirect _ _ _ _ hb => exact absurd hb empty
  | page h1 => exact absurd (lastSegment_unique h.2.1 h1) (by decide)
  | notFound h1 => exact absurd h.2.1 (h1 _ (by decide))

/-- Non-vacuity: a client asks about a token that was not issued. -/
example : ∃ (x : Exchange) (r : Request) (res : Response) (members : List (Str × JSON)), x.Happens ∧
    x.At b!"introspect" r res ∧ parseJSON res.body = some (.obj members) ∧
    (b!"active", .bool false) ∈ members := by
  obtain ⟨fields, ht, hf⟩ := demo_about (endpoint := b!"introspect") (s₀ := Demo.server) (s := Demo.server) (h := [])
    (auth := b!"c1:s1") (coins := []) (time := 1000) (path := b!"/introspect")
    (form := b!"token=" ++ Demo.a1.string)
    b!"c1" b!"s1" (by decide +kernel) (by decide +kernel) (by decide +kernel) (by decide +kernel)
  have hb : (Demo.response Demo.server (Demo.post b!"/introspect" b!"c1:s1" (b!"token=" ++ Demo.a1.string) []
      1000)).body = b!"{\"active\":false}\n" := by decide +kernel
  obtain ⟨r, _, hat, _⟩ := ht
  exact ⟨_, r, _, _, demo_happens Demo.started .start .., hat, by rw [hb]; rfl, List.mem_cons_self ..⟩

end OAuth2

import Verif.Lemmas.Rfc
import Verif.Props.Changes
import Verif.Lemmas.RfcDemo
/-
C80: the server does what RFC 6749 demands (Verif/Spec/Rfc.lean), sentence by sentence, at the
authorization endpoint; where it does not, see Verif/Props/RfcNot.lean.
-/

namespace OAuth2

open Spec Rfc

/-- What an authorization request reads as. -/
structure ReadsAuthorization (fields : List (Str × Str)) (rq : AuthorizationRequest) : Prop where
  responseType : rq.responseType = field fields b!"response_type"
  clientID : rq.clientID = field fields b!"client_id"
  redirectURI : FormText (field fields b!"redirect_uri") rq.redirectURI
  scope : ScopeText (field fields b!"scope") rq.scope
  state : rq.state = field fields b!"state"

theorem parsed_reads_authorization {r : Request} (hfresh : r.postForm = none ∧ r.form = none)
    {fields : List (Str × Str)} (hp : Sends r fields) {rq : AuthorizationRequest}
    (h : parseAuthorizationRequest r = .ok rq) : ReadsAuthorization fields rq := by
  obtain ⟨f, hp', h1, _, h2, _, h3, _, _, h4, h5⟩ := (C75_authorization_request hfresh rq).mp h
  have hk := sends_field hfresh hp' hp
  simp only [hk] at h1 h2 h3 h4 h5
  exact ⟨h1, h2, h3, h4, h5⟩

theorem token_map_state (t : TokenResponse) :
    t.map.get? b!"state" = unlessEmpty t.state := by
  unfold TokenResponse.map unlessEmpty
  simp only [get?_append]
  simp only [GoMap.get?_cons, GoMap.get?_nil, get?_ite]
  split <;> split <;> split <;> simp_all (decide := true)

theorem code_map_state (t : CodeResponse) :
    t.map.get? b!"state" = unlessEmpty t.state := by
  unfold CodeResponse.map unlessEmpty
  simp only [get?_append]
  simp only [GoMap.get?_cons, GoMap.get?_nil, get?_ite]
  split <;> simp_all (decide := true)

theorem error_map_state (t : OAuth2.Error) :
    t.map.get? b!"state" = unlessEmpty t.state := by
  unfold Error.map unlessEmpty
  simp only [get?_append, get?_ite]
  simp (decide := true) only [and_false, if_false, Option.none_or, Option.or_none, and_true, ne_eq]
  split <;> simp_all

section
variable {x : Exchange} {s₀ st : Server} (cx : Context x s₀ st)
include cx

/-- A redirect goes where the client wants it, with the state. -/
theorem Context.redirected {r : Request} {res : Response} (h : x.At b!"authorize" r res)
    (hl : res.header.all b!"Location" ≠ []) :
    ∃ (rq : AuthorizationRequest) (params : GoMap Str) (L : Str), Server.AuthorizationFor st r rq ∧
      params.keys.Nodup ∧ params ≠ [] ∧
      redirectLocation rq.redirectURI params (rq.responseType = TokenResponseType) = some L ∧
      res.header.all b!"Location" = [L] ∧ params.get? b!"state" = unlessEmpty rq.state ∧
      params.get? b!"refresh_token" = none ∧
      ((∃ name, params.get? b!"error" = some name) ∨
        (rq.responseType = b!"code" ∧ ∃ code, params.get? b!"code" = some code) ∨
        rq.responseType = b!"token" ∧ ∃ a, params.get? b!"access_token" = some a) := by
  obtain ⟨reply, s', h1, h2, _⟩ := step_served h.1 st
  have hp := (lastSegment_iff _ _).mp h.2.1
  have hno : ∀ p, p ≠ b!"authorize" → Server.lastSegment r.path ≠ p := by
    rintro p h1 rfl; exact h1 hp
  have ha := cx.reply h
  rw [h1] at ha
  simp only at ha
  cases h2 with
  | notFound k1 => exact absurd hp k1
  | refused err hs hr hp hh =>
    cases ha
    rw [error_result hr] at hl
    exact absurd (errorHeaders_location hh).2 hl
  | crash => cases ha
  | notice _ _ hm' => cases ha; exact absurd rfl hl
  | refusedRedirect rq hf _ err herr =>
    obtain ⟨e', L, he', hne, hL, hans, hloc, hb, _⟩ := error_location hf herr
    rw [← he', hans] at ha
    cases ha
    refine ⟨rq, e'.map, L, hf, e'.map_nodup, hne, hL, hloc, ?_, e'.map_get? (by decide), .inl ?_⟩
    · rw [error_map_state, he']; rfl
    · refine ⟨err.name, ?_⟩
      rw [he']
      rcases herr with rfl | rfl <;> rfl
  | implicit rq hf _ ht hs hu a hg =>
    obtain ⟨tr, L, htr, hL, hans, hloc, hb, _⟩ := implicit_location (a := a) st.config hf
    rw [← htr, hans] at ha
    cases ha
    refine ⟨rq, tr.map, L, hf, tr.map_nodup, by simp [TokenResponse.map], ?_, hloc, ?_,
      (tr.map_none (by rw [htr]; rfl)).1, .inr (.inr ⟨ht, _, tr.map_get?⟩)⟩
    · rw [decide_eq_true ht]; exact hL
    · rw [token_map_state, htr]; rfl
  | code rq hf _ ht _ _ c =>
    obtain ⟨cr, L, hcr, hL, hans, hloc, hb, _⟩ := code_location c.string hf
    rw [← hcr, hans] at ha
    cases ha
    refine ⟨rq, cr.map, L, hf, cr.map_nodup, by simp [CodeResponse.map], ?_, hloc, ?_,
      cr.map_none (by decide) (by decide), .inr (.inl ⟨ht, _, cr.map_get?⟩)⟩
    · rw [decide_eq_false (by rw [ht]; decide)]; exact hL
    · rw [code_map_state, hcr]
  | password _ hf => exact absurd hf.path (hno _ (by decide))
  | client _ hf => exact absurd hf.path (hno _ (by decide))
  | replay _ hf => exact absurd hf.path (hno _ (by decide))
  | exchange _ hf => exact absurd hf.path (hno _ (by decide))
  | refresh _ hf => exact absurd hf.path (hno _ (by decide))
  | introspect _ hp => exact absurd hp (hno _ (by decide))
  | revoke _ hp => exact absurd hp (hno _ (by decide))
  | revokeHalf _ hp => exact absurd hp (hno _ (by decide))

/-- An authorization request that reads as it should is refused directly exactly for the reasons to do
so. -/
theorem Context.visit {r : Request} {res : Response} (h : x.At b!"authorize" r res)
    {rq : AuthorizationRequest} (hq : parseAuthorizationRequest r = .ok rq) (name : Str) :
    Rfc.Error res name ↔ DirectRefusal st rq name := by
  have hv := C66_visit cx.started cx.history ⟨r, h.1, h.2.1, hq⟩
  constructor
  · rintro ⟨h1, h2⟩
    exact ((hv _ name h1).mp ⟨res, cx.reply h, rfl, h2⟩).1
  · intro hr
    obtain ⟨h1, h2⟩ := refused_error (cx.reply h) ((hv _ name (statusOf_ge name)).mpr ⟨hr, rfl⟩)
    exact ⟨h1 ▸ statusOf_ge name, h2⟩

/-- Requests of a registered client with its redirect URI are read. -/
theorem Context.reads {r : Request} {res : Response} (h : x.At b!"authorize" r res)
    {fields : List (Str × Str)} (hs : Sends r fields) {uri : Str}
    (ht : field fields b!"response_type" ≠ []) (hc : field fields b!"client_id" ≠ [])
    (hu : FormText (field fields b!"redirect_uri") uri) (hru : ∃ u, RedirectURI uri u) :
    ∃ rq, parseAuthorizationRequest r = .ok rq ∧ rq.redirectURI = uri ∧
      rq.clientID = field fields b!"client_id" ∧ rq.responseType = field fields b!"response_type" := by
  have htar := redirectURI_target hru
  refine ⟨{
    responseType := field fields b!"response_type", clientID := field fields b!"client_id",
    redirectURI := uri, scope := Scope.parse (field fields b!"scope"),
    state := field fields b!"state" }, (C75_authorization_request (cx.fresh r h.1) _).mpr
      ⟨fields, hs, rfl, ht, rfl, hc, hu, ?_, (target_iff _).mp htar, (scopeText_iff _ _).mp rfl, rfl⟩,
      rfl, rfl, rfl⟩
  rintro rfl
  obtain ⟨u, hu⟩ := htar
  rw [show parseRequestURI [] = none by decide] at hu
  cases hu

/-- What is said about a request that cannot be read. -/
theorem Context.unread {r : Request} {res : Response} (h : x.At b!"authorize" r res)
    (hq : ∀ rq, parseAuthorizationRequest r ≠ .ok rq) : Rfc.Error res b!"invalid_request" := by
  have hbad : Malformed x.call := ⟨r, h.1, .inl ⟨h.2.1, hq⟩⟩
  obtain ⟨h1, h2⟩ := refused_error h.2.2 (cx.answer ▸ (C66_malformed st hbad).1)
  exact ⟨by omega, h2⟩

end

theorem mem_responseTypes {t : Str} : t ∈ [b!"token", b!"code"] ↔ t ∈ [b!"code", b!"token"] := by
  simp only [List.mem_cons, List.not_mem_nil, or_false]
  exact Or.comm

theorem responseType_ne {t : Str} (h : t ∈ [b!"code", b!"token"]) : t ≠ [] := by
  rintro rfl
  revert h
  decide

/-- **C80.** Requests with the redirect URI of the client are not refused in a document; scope and
password are none of the reasons to do so. -/
theorem C80_6749_errorRedirectKnown : Upheld Rfc6749.errorRedirectKnown := by
  intro x hx fields res client h ht hc hcl hu hru name he
  obtain ⟨s₀, st, cx⟩ := context hx
  obtain ⟨r, hat, hs⟩ := h
  obtain ⟨rq, h1, h2, h3, h4⟩ := cx.reads hat hs (responseType_ne ht) hc hu hru
  have hd := (cx.visit hat h1 name).mp he
  rw [← h4, ← mem_responseTypes] at ht
  rw [cx.clients, ← h3] at hcl
  cases hd with
  | responseType h => exact h ht
  | client _ h => rw [hcl] at h; cases h
  | redirectURI _ h h' =>
    rw [hcl] at h
    cases h
    exact h' h2.symm

/-- Non-vacuity: a wrong password. -/
example : ∃ (x : Exchange) (fields : List (Str × Str)) (res : Response), x.Happens ∧ x.Authorization fields res ∧
    x.clients.get? (field fields b!"client_id") = some Demo.client1 ∧
    field fields b!"response_type" ∈ [b!"code", b!"token"] ∧
    FormText (field fields b!"redirect_uri") Demo.client1.redirectURI ∧
    (∃ u, RedirectURI Demo.client1.redirectURI u) ∧ field fields b!"password" = b!"p2" := by
  obtain ⟨fields, ht, hf⟩ := demo_authorization (s₀ := Demo.server) (s := Demo.server) (h := []) (auth := [])
    (coins := [1, 2]) (time := 1000) (path := b!"/authorize")
    (form := b!"response_type=code&client_id=c1&redirect_uri=http%3A%2F%2Fexample.com%2Fcb&username=u1&password=p2")
    (by decide +kernel) (by decide +kernel) (by decide +kernel)
  exact ⟨_, _, _, demo_happens Demo.started .start .., ht, (by rw [hf]; decide +kernel), (by rw [hf]; decide +kernel), by rw [hf, ← C75_escapes]; decide +kernel, ⟨_, Demo.client1_uri⟩, (by rw [hf]; decide +kernel)⟩

/-- **C80.** Redirect URIs are compared as they are, if there is nothing to decode in them. -/
theorem C80_6749_redirectMatchPlain : Upheld Rfc6749.redirectMatchPlain := by
  intro x hx fields res client h ht hc hcl hru hp1 hp2
  have hf : FormText (field fields b!"redirect_uri") (field fields b!"redirect_uri") :=
    (C75_escapes _ _).mp (unescape_literal ⟨hp1, hp2⟩)
  constructor
  · intro heq
    exact C80_6749_errorRedirectKnown x hx fields res client h ht hc hcl (by rw [heq]; exact hf) hru
  · intro hn
    obtain ⟨s₀, st, cx⟩ := context hx
    obtain ⟨r, hat, hs⟩ := h
    cases hq : parseAuthorizationRequest r with
    | error e => exact absurd (cx.unread hat fun rq h => by rw [hq] at h; cases h) (hn _)
    | ok rq =>
      have hr := parsed_reads_authorization (cx.fresh r hat.1) hs hq
      rw [← formText_unique hr.redirectURI hf]
      apply Classical.byContradiction
      intro hne
      refine hn _ ((cx.visit hat hq _).mpr (.redirectURI (client := client) ?_ ?_ hne))
      · rw [hr.responseType, mem_responseTypes]; exact ht
      · rw [hr.clientID, ← cx.clients]; exact hcl

/-- Non-vacuity: the URI that is registered, and another one. -/
example : (∃ (x : Exchange) (fields : List (Str × Str)) (res : Response), x.Happens ∧ x.Authorization fields res ∧
      x.clients.get? (field fields b!"client_id") = some Demo.client1 ∧
      field fields b!"response_type" ∈ [b!"code", b!"token"] ∧
      (∃ u, RedirectURI Demo.client1.redirectURI u) ∧
      field fields b!"redirect_uri" = Demo.client1.redirectURI) ∧
    ∃ (x : Exchange) (fields : List (Str × Str)) (res : Response), x.Happens ∧ x.Authorization fields res ∧
      x.clients.get? (field fields b!"client_id") = some Demo.client1 ∧
      field fields b!"response_type" ∈ [b!"code", b!"token"] ∧
      (∃ u, RedirectURI Demo.client1.redirectURI u) ∧
      field fields b!"redirect_uri" = b!"http://example.com/cd" := by
  constructor
  · obtain ⟨fields, ht, hf⟩ := demo_authorization (s₀ := Demo.server) (s := Demo.server) (h := []) (auth := [])
      (coins := [1, 2]) (time := 1000) (path := b!"/authorize")
      (form := b!"response_type=code&client_id=c1&redirect_uri=http%3A%2F%2Fexample.com%2Fcb&username=u1&password=p1")
      (by decide +kernel) (by decide +kernel) (by decide +kernel)
    exact ⟨_, _, _, demo_happens Demo.started .start .., ht, (by rw [hf]; decide +kernel), (by rw [hf]; decide +kernel), ⟨_, Demo.client1_uri⟩, (by rw [hf]; decide +kernel)⟩
  · obtain ⟨fields, ht, hf⟩ := demo_authorization (s₀ := Demo.server) (s := Demo.server) (h := []) (auth := [])
      (coins := [1, 2]) (time := 1000) (path := b!"/authorize")
      (form := b!"response_type=code&client_id=c1&redirect_uri=http%3A%2F%2Fexample.com%2Fcd&username=u1&password=p1")
      (by decide +kernel) (by decide +kernel) (by decide +kernel)
    exact ⟨_, _, _, demo_happens Demo.started .start .., ht, (by rw [hf]; decide +kernel), (by rw [hf]; decide +kernel), ⟨_, Demo.client1_uri⟩, (by rw [hf]; decide +kernel)⟩

/-- **C80.** Nobody is sent to a URI that is not that of the client. -/
theorem C80_6749_noRedirect : Upheld Rfc6749.noRedirect := by
  intro x hx fields res uri h hu hn
  obtain ⟨s₀, st, cx⟩ := context hx
  obtain ⟨r, hat, hs⟩ := h
  apply Classical.byContradiction
  intro hl
  obtain ⟨rq, params, L, hf, _⟩ := cx.redirected hat hl
  have hr := parsed_reads_authorization (cx.fresh r hat.1) hs hf.parsed
  obtain ⟨c, h1, h2⟩ := hf.client
  rw [hr.clientID, ← cx.clients] at h1
  exact hn c h1 (h2.trans (formText_unique hr.redirectURI hu))

/-- Non-vacuity: a URI that is not registered. -/
example : ∃ (x : Exchange) (fields : List (Str × Str)) (res : Response), x.Happens ∧
    x.Authorization fields res ∧ FormText (field fields b!"redirect_uri") b!"http://example.com/cd" ∧
    ∀ client, x.clients.get? (field fields b!"client_id") = some client →
      client.redirectURI ≠ b!"http://example.com/cd" := by
  obtain ⟨fields, ht, hf⟩ := demo_authorization (s₀ := Demo.server) (s := Demo.server) (h := []) (auth := [])
    (coins := [1, 2]) (time := 1000) (path := b!"/authorize")
    (form := b!"response_type=code&client_id=c1&redirect_uri=http%3A%2F%2Fexample.com%2Fcd&username=u1&password=p1")
    (by decide +kernel) (by decide +kernel) (by decide +kernel)
  refine ⟨_, _, _, demo_happens Demo.started .start .., ht, by rw [hf, ← C75_escapes]; decide +kernel, fun client hc => ?_⟩
  rw [hf, (by decide +kernel : Demo.value _ b!"client_id" = b!"c1")] at hc
  cases hc
  decide

/-- **C80.** The code flow hands back the state. -/
theorem C80_6749_state : Upheld Rfc6749.state := by
  intro x hx fields res client u h ht hcl hru hl hst
  obtain ⟨s₀, st, cx⟩ := context hx
  obtain ⟨r, hat, hs⟩ := h
  obtain ⟨rq, params, L, hf, h1, h2, h3, h4, h5, _⟩ := cx.redirected hat hl
  have hr := parsed_reads_authorization (cx.fresh r hat.1) hs hf.parsed
  obtain ⟨c, k1, k2⟩ := hf.client
  rw [hr.clientID, ← cx.clients, hcl] at k1
  cases k1
  rw [decide_eq_false (by rw [hr.responseType, ht]; decide), ← k2] at h3
  rw [addedParameter_iff h1 h2 h3 h4, h5, hr.state]
  exact if_neg hst

/-- Non-vacuity: the user authorizes the client. -/
example : ∃ (x : Exchange) (fields : List (Str × Str)) (res : Response) (u : URL), x.Happens ∧ x.Authorization fields res ∧
    x.clients.get? (field fields b!"client_id") = some Demo.client1 ∧
    field fields b!"response_type" = b!"code" ∧ RedirectURI Demo.client1.redirectURI u ∧
    res.header.all b!"Location" ≠ [] ∧ field fields b!"state" = b!"a/b" := by
  obtain ⟨fields, ht, hf⟩ := demo_authorization (s₀ := Demo.server) (s := Demo.server) (h := []) (auth := [])
    (coins := [1, 2]) (time := 1000) (path := b!"/authorize")
    (form := b!"response_type=code&client_id=c1&redirect_uri=http%3A%2F%2Fexample.com%2Fcb&username=u1&password=p1&state=a%2Fb")
    (by decide +kernel) (by decide +kernel) (by decide +kernel)
  exact ⟨_, _, _, _, demo_happens Demo.started .start .., ht, (by rw [hf]; decide +kernel), (by rw [hf]; decide +kernel), Demo.client1_uri, by decide +kernel, (by rw [hf]; decide +kernel)⟩

/-- **C80.** The implicit flow hands back the state, if it is a plain one. -/
theorem C80_6749_stateImplicitPlain : Upheld Rfc6749.stateImplicitPlain := by
  intro x hx fields res client u h ht hcl hru hl hst hpl
  obtain ⟨s₀, st, cx⟩ := context hx
  obtain ⟨r, hat, hs⟩ := h
  obtain ⟨rq, params, L, hf, h1, h2, h3, h4, h5, _⟩ := cx.redirected hat hl
  have hr := parsed_reads_authorization (cx.fresh r hat.1) hs hf.parsed
  obtain ⟨c, k1, k2⟩ := hf.client
  rw [hr.clientID, ← cx.clients, hcl] at k1
  cases k1
  rw [decide_eq_true (by rw [hr.responseType, ht]; decide), ← k2] at h3
  have k := C56_once_decoded (σ := Unit) h1 h2 hru ⟨false, ()⟩ { coins := [], clock := fun _ => 0 } rfl
  simp only at k
  obtain ⟨_, front, fragment, k3, k4, k5, k6, _⟩ := k
  have hL := (writeRedirect_result (σ := Unit) h3 ⟨false, ()⟩ { coins := [], clock := fun _ => 0 } rfl).2
  rw [hL] at k3
  obtain ⟨flds, hfl⟩ := (C75_form fragment).1.mp k5
  refine ⟨front, fragment, flds, h4.trans k3, k4, hfl, ?_⟩
  rw [← (C75_form fragment).2 flds hfl]
  have hk := k6 b!"state"
  rw [percentEscaped_plain (by decide +kernel), h5, hr.state] at hk
  rw [hk]
  show List.map _ (if field fields b!"state" = [] then none else some (field fields b!"state")).toList = _
  rw [if_neg hst]
  simp only [Option.toList_some, List.map_cons, List.map_nil]
  rw [percentEscaped_plain hpl]

/-- Non-vacuity: the user authorizes the client. -/
example : ∃ (x : Exchange) (fields : List (Str × Str)) (res : Response) (u : URL), x.Happens ∧ x.Authorization fields res ∧
    x.clients.get? (field fields b!"client_id") = some Demo.client1 ∧
    field fields b!"response_type" = b!"token" ∧ RedirectURI Demo.client1.redirectURI u ∧
    res.header.all b!"Location" ≠ [] ∧ field fields b!"state" = b!"a b" := by
  obtain ⟨fields, ht, hf⟩ := demo_authorization (s₀ := Demo.server) (s := Demo.server) (h := []) (auth := [])
    (coins := [1, 2]) (time := 1000) (path := b!"/authorize")
    (form := b!"response_type=token&client_id=c1&redirect_uri=http%3A%2F%2Fexample.com%2Fcb&username=u1&password=p1&state=a+b")
    (by decide +kernel) (by decide +kernel) (by decide +kernel)
  exact ⟨_, _, _, _, demo_happens Demo.started .start .., ht, (by rw [hf]; decide +kernel), (by rw [hf]; decide +kernel), Demo.client1_uri, by decide +kernel, (by rw [hf]; decide +kernel)⟩

/-- **C80.** The authorization endpoint issues no refresh tokens. -/
theorem C80_6749_implicitNoRefresh : Upheld Rfc6749.implicitNoRefresh := by
  intro x hx r res hat
  obtain ⟨s₀, st, cx⟩ := context hx
  refine ⟨fun fields hs ht v hv => ?_, fun v hv => ?_, fun t g hi => ?_⟩
  · have hl : res.header.all b!"Location" ≠ [] := by
      obtain ⟨_, _, _, h, _⟩ := hv
      rw [h]
      exact List.cons_ne_nil _ _
    obtain ⟨rq, params, L, hf, h1, h2, h3, h4, _, h6, _⟩ := cx.redirected hat hl
    have hr := parsed_reads_authorization (cx.fresh r hat.1) hs hf.parsed
    rw [decide_eq_true (by rw [hr.responseType, ht]; decide)] at h3
    rw [fragmentParameter_iff h1 h2 h3 h4, h6] at hv
    cases hv
  · have sub : ∀ {ms : List (Str × JSON)} {l : List Str}, parseJSON res.body = some (.obj ms) →
        (ms.map (·.1)).Sublist l → b!"refresh_token" ∉ l → False := fun hp hs hn =>
      hn (hs.subset (List.mem_map.mpr ⟨_, member_unique hp hv, rfl⟩))
    cases cx.conforms hat with
    | tokens _ _ _ h => exact absurd (lastSegment_unique h hat.2.1) (by decide)
    | description _ _ _ _ _ hp hs => exact sub hp hs (by decide)
    | revoked _ _ _ hb => exact no_member hb hv
    | failure _ _ _ _ _ _ _ _ _ hp hs => exact sub hp hs (by decide)
    | redirect _ _ _ _ hb => exact no_member hb hv
    | page _ _ _ hb =>
      obtain ⟨ms, h1, _⟩ := hv
      rw [hb, (by decide +kernel : parseJSON Server.notice = none)] at h1
      cases h1
    | notFound _ _ _ hb =>
      obtain ⟨ms, h1, _⟩ := hv
      rw [hb, (by decide +kernel : parseJSON b!"404 page not found\n" = none)] at h1
      cases h1
  · rcases inForce_cons.mp hi with hi | ⟨hi, _⟩
    · exfalso
      rcases hi.hands with ⟨rq, res', ⟨r', h1, h2, _, _⟩, hm⟩ | ⟨h, _⟩
      · have h1' : x.call.op = .serve r' := h1
        rw [hat.1] at h1'
        cases h1'
        exact absurd (lastSegment_unique hat.2.1 h2) (by decide)
      · cases h
    · exact hi

/-- Non-vacuity: the user authorizes the client, which gets an access token. -/
example : ∃ (x : Exchange) (r : Request) (res : Response) (fields : List (Str × Str)), x.Happens ∧
    x.At b!"authorize" r res ∧ Sends r fields ∧ field fields b!"response_type" = b!"token" ∧
    Hands x.event .access Demo.a1 := by
  obtain ⟨fields, ht, hf⟩ := demo_authorization (s₀ := Demo.server) (s := Demo.server) (h := []) (auth := [])
    (coins := [1, 2]) (time := 1000) (path := b!"/authorize")
    (form := b!"response_type=token&client_id=c1&redirect_uri=http%3A%2F%2Fexample.com%2Fcb&username=u1&password=p1")
    (by decide +kernel) (by decide +kernel) (by decide +kernel)
  obtain ⟨r, hat, hs⟩ := ht
  exact ⟨_, r, _, _, demo_happens Demo.started .start .., hat, hs, (by rw [hf]; decide +kernel), by decide +kernel⟩

end OAuth2

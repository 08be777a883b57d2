import Verif.Lemmas.Rfc
import Verif.Lemmas.Decide
import Verif.Lemmas.Demo
import Verif.Props.Effects

/-! Exchanges like those of the session in Verif/Lemmas/Demo.lean, as the examples and
counterexamples for C80 need them. -/

namespace OAuth2

open Spec Rfc

instance (res : Response) (name : Str) : Decidable (Rfc.Error res name) := by
  unfold Rfc.Error; infer_instance

/-- An exchange with a server. -/
def Demo.exchange (s₀ : Server) (h : List Event) (s : Server) (c : Call) : Exchange where
  config := s₀.config
  past := h
  clients := s.clients
  users := s.users
  call := c
  answer := (step ⟨false, s⟩ c).1

/-- The request of `Demo.post`. -/
def Demo.request (path auth form : Str) : Request where
  method := b!"POST"
  path := path
  body := some form
  header := [(b!"Content-Type", [b!"application/x-www-form-urlencoded"])] ++
    if auth = [] then [] else [(b!"Authorization", [b!"Basic " ++ b64StdEncode auth])]

theorem demo_happens {s₀ s : Server} {h : List Event} (h0 : Started s₀) (hh : History s₀ h ⟨false, s⟩)
    (path auth form coins : Str) (time : Int) :
    (Demo.exchange s₀ h s (Demo.post path auth form coins time)).Happens :=
  .intro _ h0 hh fun r hr => by cases hr; exact ⟨rfl, rfl⟩

/-- The response of the server. -/
def Demo.response (s : Server) (c : Call) : Response := (step ⟨false, s⟩ c).1.response

/-- The first value of a field of a form. -/
def Demo.value (form name : Str) : Str := ((parseQuery form).1.all name).headD []

section
variable {s₀ s : Server} {h : List Event} {path auth form coins : Str} {time : Int}

theorem demo_posts (hq : (parseQuery form).2 = false) (hl : form.length ≤ 10 * 2 ^ 20) :
    ∃ fields, Posts (Demo.request path auth form) fields [] ∧
      ∀ name, valuesOf fields name = (parseQuery form).1.all name := by
  obtain ⟨fields, hf⟩ := (C75_form form).1.mp hq
  refine ⟨fields, ⟨rfl, ⟨rfl, rfl⟩, ?_, ⟨form, rfl, rfl, hl, hf⟩, .empty⟩,
    fun name => ((C75_form form).2 fields hf name).symm⟩
  have : (Demo.request path auth form).header.get b!"Content-Type" =
      b!"application/x-www-form-urlencoded" := rfl
  rw [this, ← C75_content_type]
  decide +kernel

/-- A token request with an authorization header. -/
theorem demo_token (id secret : Str)
    (hseg : LastSegment path b!"token") (hq : (parseQuery form).2 = false ∧ form.length ≤ 10 * 2 ^ 20)
    (hb : (Demo.request path auth form).basicAuth = some (id, secret))
    (ha : (step ⟨false, s⟩ (Demo.post path auth form coins time)).1 =
      .answered (Demo.response s (Demo.post path auth form coins time))) :
    ∃ fields, (Demo.exchange s₀ h s (Demo.post path auth form coins time)).Token fields id secret
        (Demo.response s (Demo.post path auth form coins time)) ∧
      (∀ name, valuesOf fields name = (parseQuery form).1.all name) ∧
      ∀ name, field fields name = Demo.value form name := by
  obtain ⟨fields, hp, hv⟩ := demo_posts (path := path) (auth := auth) hq.1 hq.2
  refine ⟨fields, ⟨_, [], ⟨rfl, hseg, ha⟩, hp, .header ((C75_credentials _ _ _).mp hb)⟩, hv, fun name => ?_⟩
  unfold field Demo.value
  rw [hv]

/-- A token request without. -/
theorem demo_token_fields (id secret : Str)
    (hseg : LastSegment path b!"token") (hq : (parseQuery form).2 = false ∧ form.length ≤ 10 * 2 ^ 20)
    (hb : (Demo.request path auth form).basicAuth = none)
    (hi : Demo.value form b!"client_id" = id ∧ Demo.value form b!"client_secret" = secret)
    (ha : (step ⟨false, s⟩ (Demo.post path auth form coins time)).1 =
      .answered (Demo.response s (Demo.post path auth form coins time))) :
    ∃ fields, (Demo.exchange s₀ h s (Demo.post path auth form coins time)).Token fields id secret
        (Demo.response s (Demo.post path auth form coins time)) ∧
      ∀ name, field fields name = Demo.value form name := by
  obtain ⟨fields, hp, hv⟩ := demo_posts (path := path) (auth := auth) hq.1 hq.2
  have hf : ∀ name, field fields name = Demo.value form name := fun name => by
    unfold field Demo.value
    rw [hv]
  refine ⟨fields, ⟨_, [], ⟨rfl, hseg, ha⟩, hp, ?_⟩, hf⟩
  rw [← hi.1, ← hi.2, ← hf, ← hf]
  refine .fields ?_
  rintro ⟨u, p, hc⟩
  have := (C75_credentials (Demo.request path auth form) u p).mpr hc
  rw [hb] at this
  cases this

/-- An authorization request. -/
theorem demo_authorization
    (hseg : LastSegment path b!"authorize") (hq : (parseQuery form).2 = false ∧ form.length ≤ 10 * 2 ^ 20)
    (ha : (step ⟨false, s⟩ (Demo.post path auth form coins time)).1 =
      .answered (Demo.response s (Demo.post path auth form coins time))) :
    ∃ fields, (Demo.exchange s₀ h s (Demo.post path auth form coins time)).Authorization fields
        (Demo.response s (Demo.post path auth form coins time)) ∧
      ∀ name, field fields name = Demo.value form name := by
  obtain ⟨fields, hp, hv⟩ := demo_posts (path := path) (auth := auth) hq.1 hq.2
  have := Sends.form hp
  rw [List.append_nil] at this
  refine ⟨fields, ⟨_, ⟨rfl, hseg, ha⟩, this⟩, fun name => ?_⟩
  unfold field Demo.value
  rw [hv]

/-- An introspection or revocation request. -/
theorem demo_about {endpoint : Str} (id secret : Str)
    (hseg : LastSegment path endpoint) (hq : (parseQuery form).2 = false ∧ form.length ≤ 10 * 2 ^ 20)
    (hb : (Demo.request path auth form).basicAuth = some (id, secret))
    (ha : (step ⟨false, s⟩ (Demo.post path auth form coins time)).1 =
      .answered (Demo.response s (Demo.post path auth form coins time))) :
    ∃ fields, (Demo.exchange s₀ h s (Demo.post path auth form coins time)).About endpoint fields id secret
        (Demo.response s (Demo.post path auth form coins time)) ∧ ∀ name, field fields name = Demo.value form name := by
  obtain ⟨fields, hp, hv⟩ := demo_posts (path := path) (auth := auth) hq.1 hq.2
  refine ⟨fields, ⟨_, [], ⟨rfl, hseg, ha⟩, hp, (C75_credentials _ _ _).mp hb⟩, fun name => ?_⟩
  unfold field Demo.value
  rw [hv]

end

/-- The client `c1`. -/
def Demo.client1 : ServerEntity where
  secret := b!"s1"
  redirectURI := b!"http://example.com/cb"
  confidential := true

theorem Demo.client1_uri : RedirectURI Demo.client1.redirectURI {
    scheme := b!"http", host := b!"example.com", path := b!"/cb" } :=
  ⟨by decide +kernel, by decide, by decide, .inr (by decide)⟩

/-- What a form in the fragment says. -/
theorem fragmentForm_values {res : Response} {name value : Str} (h : FragmentForm res name value) :
    (parseQuery ((((res.header.all b!"Location").headD []).dropWhile (· ≠ 0x23)).tail)).1.all name =
      [value] := by
  obtain ⟨front, fragment, params, h1, h2, h3, h4⟩ := h
  have cut : ∀ l : Str, 0x23 ∉ l → (l ++ [0x23] ++ fragment).dropWhile (· ≠ 0x23) = 0x23 :: fragment := by
    intro l hl
    induction l with
    | nil => rfl
    | cons c l ih =>
      rw [List.mem_cons, not_or] at hl
      rw [List.cons_append, List.cons_append, List.dropWhile_cons_of_pos (by simpa using Ne.symm hl.1)]
      exact ih hl.2
  rw [h1, List.headD_cons, cut front h2, List.tail_cons, (C75_form fragment).2 _ h3, h4]

/-- After the fourth event, the code of the second one has been used. -/
theorem Demo.code4 : Code Demo.server.config [Demo.e4, Demo.e3, Demo.e2, Demo.e1] Demo.x2 {
    client := b!"c2", user := b!"u1", scope := some [b!"foo", b!"bar"],
    redirectURI := b!"http://example.org/cb?x=1", expires := 1610 * second } true := by
  refine .later (.redeemed Demo.code2 (by decide +kernel)) (by decide +kernel) ?_
  intro c hc
  exact absurd (handsCode_handed hc) (by rw [(by decide +kernel : handedCodes Demo.e4 = [])]; simp)

/-- The access token of the fourth event is in force after it. -/
theorem Demo.access4 : InForce Demo.server.config [Demo.e4, Demo.e3, Demo.e2, Demo.e1] .access Demo.a4 {
    client := b!"c2", user := b!"u1", scope := some [b!"foo"], expires := 4631 * second } := by
  have h1 : ∃ res, TokenCall Demo.e4 {
      grantType := b!"refresh_token", clientID := b!"c2", scope := some [b!"foo"],
      refreshToken := Demo.r3.string } res :=
    ⟨_, (tokenCall_asked _ _ _).mpr ⟨by decide +kernel, rfl⟩⟩
  obtain ⟨res, h1⟩ := h1
  exact .refresh h1 rfl (by decide +kernel) Demo.refresh3 (by decide +kernel) (fun h => by cases h)

/-- An event that hands out nothing does not end a token unless it is one of those that do. -/
theorem not_ends {cfg : ServerConfig} {e : Event} {t : HS256Token} {g : Grant}
    (hn : handed e .access = []) (h1 : ¬ Revokes cfg e t)
    (h2 : ¬ (g.origin ≠ [] ∧ Replays cfg e g.origin)) (h3 : ¬ HalfRevokes cfg e t g.client) :
    ¬ Ends cfg e .access t g := by
  rintro (⟨t', h, _⟩ | h | h | ⟨h, _⟩ | ⟨_, h⟩)
  · exact hands_none hn h
  · exact h1 h
  · exact h2 h
  · cases h
  · exact h3 h

theorem demo_presents {s₀ s : Server} {h : List Event} (h0 : Started s₀) (hh : History s₀ h ⟨false, s⟩)
    (token : Str) (required : Scope) (time : Int) :
    (Demo.exchange s₀ h s (Demo.present token required time)).Happens :=
  .intro _ h0 hh fun r hr => by cases hr

/-- An access token after the word `Bearer`. -/
theorem demo_bearer {token : Str} (ht : token ≠ []) : CarriesBearer (b!"Bearer " ++ token) token :=
  ⟨b!"Bearer", rfl, by unfold AnyCase; simp [AnyCase], ht⟩

/-- The access token of the third event, which was issued for the code. -/
theorem Demo.access3 : InForce Demo.server.config [Demo.e3, Demo.e2, Demo.e1] .access Demo.a3 {
    client := b!"c2", user := b!"u1", scope := some [b!"foo", b!"bar"], expires := 4621 * second,
    origin := Demo.x2.signatureString } := by
  have h1 : ∃ res, TokenCall Demo.e3 {
      grantType := b!"authorization_code", clientID := b!"c2",
      redirectURI := b!"http://example.org/cb?x=1", code := Demo.x2.string } res :=
    ⟨_, (tokenCall_asked _ _ _).mpr ⟨by decide +kernel, rfl⟩⟩
  obtain ⟨res, h1⟩ := h1
  exact .exchange h1 rfl (by decide +kernel) Demo.code2 (by decide +kernel)

end OAuth2

import Verif.Props.Acceptance
import Verif.Props.Rights
import Verif.Props.Effects
import Verif.Props.Responses
import Verif.Spec.Client

/-!
C49: the client library and the server agree, end to end.
-/

namespace OAuth2

open Spec

set_option linter.unusedSimpArgs false

variable {s₀ : Server} {s : Shared Server} {h : List Event} {cfg : ClientConfig}

/-! ### Requests -/

theorem build_path {uri : Str} {u : URL} (hu : parseURL uri = some u) {values : Values}
    {id secret : Str} {r : Request} (h : buildFormRequest uri values id secret = some r) :
    r.path = u.path := by
  unfold buildFormRequest newPostRequest at h
  rw [hu] at h
  simp only [Option.bind_eq_bind, Option.bind_some, Option.pure_def, Option.some.injEq] at h
  subst h
  simp only
  split <;> rfl

theorem sent_token (hc : Endpoint (cfg.baseURI ++ cfg.tokenEndpoint) b!"token") {rq : TokenRequest}
    (hs : Sendable rq) (coins : Str) (clock : Nat → Time) :
    ∃ r, buildTokenRequest (cfg.baseURI ++ cfg.tokenEndpoint) rq = some r ∧
      AsksToken ⟨.serve r, coins, clock⟩ rq := by
  obtain ⟨u, h1, h2, h3⟩ := hc
  obtain ⟨r, h4, h5⟩ := C18_token_request h1 h2 rq hs.size hs.grantType hs.client hs.colon hs.scope
    hs.redirect
  exact ⟨r, h4, r, rfl, by rw [build_path h1 h4]; exact h3, h5⟩

theorem sent_introspection
    (hc : Endpoint (cfg.baseURI ++ cfg.introspectionEndpoint) b!"introspect")
    {rq : IntrospectionRequest} (ht : rq.token ≠ []) (hid : rq.clientID ≠ [])
    (hcolon : 0x3A ∉ rq.clientID)
    (hsize : (introspectionRequestValues rq).encode.length ≤ maxFormSize) (coins : Str)
    (clock : Nat → Time) :
    ∃ r, buildIntrospectionRequest (cfg.baseURI ++ cfg.introspectionEndpoint) rq = some r ∧
      AsksIntrospection ⟨.serve r, coins, clock⟩ rq := by
  obtain ⟨u, h1, h2, h3⟩ := hc
  obtain ⟨r, h4, h5⟩ := C19_introspection_request h1 h2 rq hsize ht (.inl hid) hcolon
  exact ⟨r, h4, r, rfl, by rw [build_path h1 h4]; exact h3, h5⟩

theorem sent_revocation
    (hc : Endpoint (cfg.baseURI ++ cfg.revocationEndpoint) b!"revoke")
    {rq : RevocationRequest} (ht : rq.token ≠ []) (hid : rq.clientID ≠ [])
    (hcolon : 0x3A ∉ rq.clientID)
    (hsize : (revocationRequestValues rq).encode.length ≤ maxFormSize) (coins : Str)
    (clock : Nat → Time) :
    ∃ r, buildRevocationRequest (cfg.baseURI ++ cfg.revocationEndpoint) rq = some r ∧
      AsksRevocation ⟨.serve r, coins, clock⟩ rq := by
  obtain ⟨u, h1, h2, h3⟩ := hc
  obtain ⟨r, h4, h5⟩ := C19_revocation_request h1 h2 rq hsize ht (.inl hid) hcolon
  exact ⟨r, h4, r, rfl, by rw [build_path h1 h4]; exact h3, h5⟩

/-! ### Responses -/

theorem newClient_limit (cfg : ClientConfig) (t : Transport) :
    (newClient cfg t).config.responseLimit =
      (ResponseLimit cfg) ∧
    (newClient cfg t).config.baseURI = cfg.baseURI ∧
    (newClient cfg t).config.tokenEndpoint = cfg.tokenEndpoint ∧
    (newClient cfg t).config.introspectionEndpoint = cfg.introspectionEndpoint ∧
    (newClient cfg t).config.revocationEndpoint = cfg.revocationEndpoint ∧
    (newClient cfg t).client = t := by
  unfold newClient
  by_cases h : cfg.responseLimit = 0 <;> simp [h]

/-- What a method of the client library makes of an answer. -/
def received {α : Type} (parse : Response → Int → Except GoErr α) (cfg : ClientConfig) :
    Answer → Except GoErr α
  | .answered res =>
    if res.statusCode ≠ 200 then
      .error (parseRequestError res (ResponseLimit cfg))
    else parse res (ResponseLimit cfg)
  | _ => .error .lib

theorem authenticate_connected {r : Request} {rq : TokenRequest} {coins : Str} {clock : Nat → Time}
    (hb : buildTokenRequest (cfg.baseURI ++ cfg.tokenEndpoint) rq = some r) :
    Authenticates cfg s rq ⟨.serve r, coins, clock⟩
      (received parseTokenResponse cfg (step s ⟨.serve r, coins, clock⟩).1) := by
  refine ⟨⟨r, hb, rfl⟩, ?_⟩
  obtain ⟨h1, h2, h3, h4, h5, h6⟩ := newClient_limit cfg (wire s coins clock)
  unfold connected Client.authenticate received
  simp only [h1, h2, h3, h6, hb, wire]
  cases (step s ⟨.serve r, coins, clock⟩).1 <;> rfl

theorem introspect_connected {r : Request} {rq : IntrospectionRequest} {coins : Str}
    {clock : Nat → Time}
    (hb : buildIntrospectionRequest (cfg.baseURI ++ cfg.introspectionEndpoint) rq = some r) :
    Introspects cfg s rq ⟨.serve r, coins, clock⟩
      (received parseIntrospectionResponse cfg (step s ⟨.serve r, coins, clock⟩).1) := by
  refine ⟨⟨r, hb, rfl⟩, ?_⟩
  obtain ⟨h1, h2, h3, h4, h5, h6⟩ := newClient_limit cfg (wire s coins clock)
  unfold connected Client.introspect received
  simp only [h1, h2, h4, h6, hb, wire]
  cases (step s ⟨.serve r, coins, clock⟩).1 <;> rfl

/-- What is left of an answer that is not read. -/
def outcome {α : Type} : Except GoErr α → Option GoErr
  | .ok _ => none
  | .error e => some e

theorem revoke_connected {r : Request} {rq : RevocationRequest} {coins : Str}
    {clock : Nat → Time}
    (hb : buildRevocationRequest (cfg.baseURI ++ cfg.revocationEndpoint) rq = some r) :
    RevokesToken cfg s rq ⟨.serve r, coins, clock⟩
      (outcome (received (fun _ _ => .ok ()) cfg (step s ⟨.serve r, coins, clock⟩).1)) := by
  refine ⟨⟨r, hb, rfl⟩, ?_⟩
  obtain ⟨h1, h2, h3, h4, h5, h6⟩ := newClient_limit cfg (wire s coins clock)
  unfold connected Client.revoke received
  simp only [h1, h2, h5, h6, hb, wire]
  cases (step s ⟨.serve r, coins, clock⟩).1 with
  | answered res =>
    simp only
    by_cases h : res.statusCode ≠ 200
    · rw [if_pos h, if_pos h]; rfl
    · rw [if_neg h, if_neg h]; rfl
  | _ => rfl

/-- An error the server wrote is the error the client reads. -/
theorem reported {e : Error} (hs : 400 ≤ e.status ∧ e.status ≤ 403) (hr : e.redirectURI = [])
    (hf : Fits cfg (Reply.error e).answer) :
    ((Reply.error e).render {}).result.statusCode ≠ 200 ∧
    Reports (Reply.error e).answer (parseRequestError ((Reply.error e).render {}).result
      (ResponseLimit cfg)) := by
  have hf := hf _ rfl
  rw [error_result hr] at hf ⊢
  generalize (ResponseLimit cfg) = limit at hf ⊢
  have hst : ((e.status.toNat : Nat) : Int) = e.status := by omega
  refine ⟨by simp only; omega, .inl ⟨{ e.wire with status := e.status }, ?_, hs.1, hs.2, ?_⟩⟩
  · unfold parseRequestError Response.readAll
    simp only at hf
    have : (e.json ++ [0x0A]).take limit.toNat = e.json ++ [0x0A] :=
      List.take_of_length_le (by omega)
    simp only [this, Error.unmarshal_json, hst]
  · refine ⟨refusedWith_error hr rfl rfl, ?_⟩
    intro res hres hd
    cases hres
    refine (error_jsonMember (by rw [error_result hr]) _).2.1.mpr ⟨?_, rfl⟩
    intro he
    exact hd (by show sanitize e.description = []; rw [he]; rfl)

/-! ### Authenticate -/

theorem isInt64_tdiv {x : Int} (h : isInt64 x) : isInt64 (x.tdiv second) := by
  unfold isInt64 at *
  have h1 : (0 : Int) ≤ x → x.tdiv second ≤ x ∧ 0 ≤ x.tdiv second := by
    intro h
    rw [Int.tdiv_eq_ediv_of_nonneg h]
    unfold second
    omega
  have h2 : x ≤ 0 → x ≤ x.tdiv second ∧ x.tdiv second ≤ 0 := by
    intro h
    have := Int.neg_tdiv x second
    rw [Int.tdiv_eq_ediv_of_nonneg (by omega : 0 ≤ -x)] at this
    unfold second at this ⊢
    omega
  omega

theorem grant_access (s : Server) (a : HS256Token) (b : Option HS256Token) (t₁ t₂ : Time)
    (cred : ServerCredential) : (s.grant a b t₁ t₂ cred).accessTokens.get? a.signatureString =
      some { cred with expiresAt := t₁ + s.config.accessTokenLifespan } := by
  unfold Server.grant
  simp only [GoMap.get?_set, if_true]

/-- What a token request hands out is in its response. -/
theorem hands_token {c : Call} {rq : TokenRequest} (hc : AsksToken c rq) {x : Answer} {k : Kind}
    {t : HS256Token} (ht : Hands ⟨c, x⟩ k t) :
    ∃ res, TokenCall ⟨c, x⟩ rq res ∧ JsonMember res k.name t.string := by
  obtain ⟨r, h1, h2, h3⟩ := hc
  rcases ht with ⟨rq', res, h4, h5⟩ | ⟨_, rq', u, res, h4, _⟩
  · obtain ⟨r', k1, k2, k3, k4⟩ := id h4
    rw [h1] at k1
    cases k1
    rw [h3] at k3
    cases k3
    exact ⟨res, h4, h5⟩
  · obtain ⟨r', k1, k2, _⟩ := id h4
    rw [h1] at k1
    cases k1
    rw [lastSegment_iff] at h2 k2
    rw [h2] at k2
    exact absurd k2 (by decide)

/-- What a grant leaves in the server, and what its response reads as. -/
theorem delivered (h0 : Started s₀) {st : Server} (hh : History s₀ h ⟨false, st⟩)
    (hl : isInt64 s₀.config.accessTokenLifespan) {c : Call} {rq : TokenRequest} (hc : AsksToken c rq)
    {st' : Server} {a b : HS256Token} {scope : Scope}
    (hstep : step ⟨false, st⟩ c = ((Reply.token (Server.grantResponse st.config a (some b) scope)).answer,
      ⟨false, st'⟩))
    (hacc : ∃ cred, st'.accessTokens.get? a.signatureString = some cred ∧ cred.scope = scope)
    (hf : Fits cfg (step ⟨false, st⟩ c).1) :
    ∃ res trs g, (step ⟨false, st⟩ c).1 = .answered res ∧ res.statusCode = 200 ∧
      parseTokenResponse res (ResponseLimit cfg) = .ok trs ∧
      Delivers s₀.config ⟨c, (step ⟨false, st⟩ c).1⟩ h trs a g := by
  obtain ⟨st₁, hst, ex⟩ := history_state h0 hh
  cases hst
  have hh' := History.next c hh
  obtain ⟨ha, hb⟩ := hands_response hc (x := (step ⟨false, st⟩ c).1) (cfg := st.config)
    (congrArg Prod.fst hstep) rfl
  obtain ⟨g, hg, _⟩ := C28_usable (new := []) h0 hh' ha
  rw [hstep] at hf hh' hg ha hb ⊢
  simp only at hf hg ha hb hh' ⊢
  obtain ⟨st₂, hst, ex'⟩ := history_state h0 hh'
  cases hst
  obtain ⟨cred, h1, h2⟩ := hacc
  have h3 := (ex'.access _ _).mpr ⟨a, g, rfl, hg, rfl⟩
  rw [h1] at h3
  have hgs : g.scope = scope := by rw [← h2, Option.some.inj h3]; rfl
  have hf := hf _ rfl
  refine ⟨_, (Server.grantResponse st.config a (some b) scope).wire, g, rfl, ?_, ?_, ⟨⟨?_, ha⟩, hg, ⟨b, ?_, hb⟩, ?_, ?_, ?_, ⟨?_, rfl⟩⟩⟩
  · rw [token_result rfl]
  · rw [token_result rfl] at hf ⊢
    refine parseTokenResponse_written ?_ _ hf
    show isInt64 (st.config.accessTokenLifespan.tdiv second)
    rw [ex.config]
    exact isInt64_tdiv hl
  · exact token_sanitize a
  · exact token_sanitize b
  · exact (by decide +kernel : sanitize BearerAccessTokenType = b!"bearer")
  · show st.config.accessTokenLifespan.tdiv second = _
    rw [ex.config]
  · rw [hgs]
    exact wire_scope scope
  · exact sanitize_nil

/-- **C49.** `Authenticate` and the server agree. For every history and every request that the wire
can carry, either the library returns exactly the tokens the server handed out and keeps as in
force, or it returns exactly the error the server reported, and nothing was handed out. -/
theorem C49_authenticate (h0 : Started s₀) (hh : History s₀ h s)
    (hl : isInt64 s₀.config.accessTokenLifespan)
    (hcfg : Endpoint (cfg.baseURI ++ cfg.tokenEndpoint) b!"token") {rq : TokenRequest}
    (hs : Sendable rq) (coins : Str) (clock : Nat → Time) :
    ∃ r, AsksToken ⟨.serve r, coins, clock⟩ rq ∧
      (Fits cfg (step s ⟨.serve r, coins, clock⟩).1 →
        ∃ x, Authenticates cfg s rq ⟨.serve r, coins, clock⟩ x ∧
        ((∃ trs a g, x = .ok trs ∧
            Delivers s₀.config ⟨⟨.serve r, coins, clock⟩, (step s ⟨.serve r, coins, clock⟩).1⟩ h trs a g) ∨
         ∃ err, x = .error err ∧ Reports (step s ⟨.serve r, coins, clock⟩).1 err ∧
           ∀ k t, ¬ Hands ⟨⟨.serve r, coins, clock⟩, (step s ⟨.serve r, coins, clock⟩).1⟩ k t)) := by
  obtain ⟨r, hb, hc⟩ := sent_token hcfg hs coins clock
  refine ⟨r, hc, fun hf => ⟨_, authenticate_connected hb, ?_⟩⟩
  obtain ⟨st, rfl, ex⟩ := history_state h0 hh
  obtain ⟨c, hcdef⟩ : ∃ c : Call, c = ⟨.serve r, coins, clock⟩ := ⟨_, rfl⟩
  rw [← hcdef] at hc hf ⊢
  have hop : c.op = .serve r := by rw [hcdef]
  obtain ⟨r', hop', hp, hq⟩ := id hc
  rw [hop] at hop'
  cases hop'
  rw [lastSegment_iff] at hp
  obtain ⟨reply, st', h1, h2, _⟩ := step_served hop st
  have hno : ∀ p, p ≠ b!"token" → Server.lastSegment r.path ≠ p := by
    rintro p hp' rfl; exact hp' hp
  have err : ∀ e : Error, 400 ≤ e.status ∧ e.status ≤ 403 → e.redirectURI = [] → reply = .error e → _ :=
    fun e hs hr he => (reported (cfg := cfg) hs hr (by rw [h1, he] at hf; exact hf))
  have tok : ∀ a b scope, reply = .token (Server.grantResponse st.config a (some b) scope) →
      (∃ cred, st'.accessTokens.get? a.signatureString = some cred ∧ cred.scope = scope) → _ :=
    fun a b scope he hacc => delivered (cfg := cfg) h0 hh hl hc (st' := st') (a := a) (b := b)
      (scope := scope) (by rw [h1, he]) hacc hf
  have fin1 : ∀ a b scope, reply = .token (Server.grantResponse st.config a (some b) scope) →
      (∃ cred, st'.accessTokens.get? a.signatureString = some cred ∧ cred.scope = scope) →
      (∃ trs a g, received parseTokenResponse cfg (step ⟨false, st⟩ c).1 = .ok trs ∧
        Delivers s₀.config ⟨c, (step ⟨false, st⟩ c).1⟩ h trs a g) := by
    intro a b scope he hacc
    obtain ⟨res, trs, g, k1, k2, k3, k4⟩ := tok a b scope he hacc
    refine ⟨trs, a, g, ?_, k4⟩
    rw [k1]
    unfold received
    simp only [k2, ne_eq, not_true_eq_false, if_false]
    exact k3
  have fin2 : ∀ e : Error, 400 ≤ e.status ∧ e.status ≤ 403 → e.redirectURI = [] → reply = .error e →
      ∃ err, received parseTokenResponse cfg (step ⟨false, st⟩ c).1 = .error err ∧
        Reports (step ⟨false, st⟩ c).1 err ∧ ∀ k t, ¬ Hands ⟨c, (step ⟨false, st⟩ c).1⟩ k t := by
    intro e hs hr he
    obtain ⟨k1, k2⟩ := err e hs hr he
    refine ⟨_, ?_, by rw [h1, he]; exact k2, ?_⟩
    case refine_2 =>
      intro k t ht
      rw [h1, he] at ht
      obtain ⟨res, hcall, hj⟩ := hands_token hc ht
      obtain ⟨_, _, _, _, hres⟩ := hcall
      cases hres
      have hm := error_jsonMember (res := ((Reply.error e).render {}).result) (e := e)
        (by rw [error_result hr]) t.string
      cases k
      · exact hm.2.2.1 hj
      · exact hm.2.2.2 hj
    rw [h1, he]
    unfold received
    simp only [Reply.answer]
    rw [if_pos k1]
  cases h2 with
  | notFound _ h => exact absurd hp h
  | refused e hs hr => exact .inr (fin2 e hs hr rfl)
  | refusedRedirect _ hf => exact absurd hf.path (hno _ (by decide))
  | notice _ hf => exact absurd hf.path (hno _ (by decide))
  | crash => 
    refine .inr ⟨.lib, ?_, .inr ⟨rfl, ?_⟩, ?_⟩
    · rw [h1]; rfl
    · rw [h1]; exact ⟨_, rfl⟩
    · intro k t ht
      rw [h1] at ht
      obtain ⟨res, ⟨_, _, _, _, hres⟩, _⟩ := hands_token hc ht
      cases hres
  | implicit _ hf => exact absurd hf.path (hno _ (by decide))
  | code _ hf => exact absurd hf.path (hno _ (by decide))
  | password rq _ _ _ _ a b =>
    exact .inl (fin1 a b rq.scope rfl ⟨_, grant_access .., rfl⟩)
  | client rq _ _ _ _ a b =>
    exact .inl (fin1 a b rq.scope rfl ⟨_, grant_access .., rfl⟩)
  | replay => exact .inr (fin2 _ (by decide) rfl rfl)
  | exchange rq _ _ _ _ stored _ _ _ _ _ a b =>
    exact .inl (fin1 a b stored.scope rfl ⟨_, grant_access _ a (some b) _ 0 _, rfl⟩)
  | refresh rq _ _ _ _ stored _ _ _ scope hsc _ a b =>
    exact .inl (fin1 a b scope rfl ⟨_, grant_access _ a (some b) _ 0 _, rfl⟩)
  | introspect _ hp' => exact absurd hp' (hno _ (by decide))
  | revoke _ hp' => exact absurd hp' (hno _ (by decide))
  | revokeHalf _ hp' => exact absurd hp' (hno _ (by decide))

/-- Non-vacuity: a request of `c1` to the server of the session. -/
example : isInt64 Demo.server.config.accessTokenLifespan ∧
    Endpoint (b!"http://example.com" ++ b!"/oauth2/token") b!"token" ∧ Sendable {
      grantType := b!"password", username := b!"u1", password := b!"p1", scope := some [b!"foo"],
      clientID := b!"c1", clientSecret := b!"s1" } := by
  refine ⟨by unfold isInt64; decide +kernel, ?_, by decide, by decide, by decide, ?_, .inl rfl, ?_⟩
  · exact ⟨_, (by decide +kernel : parseURL b!"http://example.com/oauth2/token" = some {
      scheme := b!"http", host := b!"example.com", path := b!"/oauth2/token" }),
      by decide +kernel, (lastSegment_iff _ _).mpr (by decide +kernel)⟩
  · exact parse_clean b!"foo"
  · decide +kernel

/-- What a token stands for is determined. -/
theorem inForce_unique (h0 : Started s₀) (hh : History s₀ h s) {a : HS256Token} {g g' : Grant}
    (h1 : InForce s₀.config h .access a g) (h2 : InForce s₀.config h .access a g') : g = g' := by
  obtain ⟨st, rfl, ex⟩ := history_state h0 hh
  have k1 := (ex.access _ _).mpr ⟨a, g, rfl, h1, rfl⟩
  have k2 := (ex.access _ _).mpr ⟨a, g', rfl, h2, rfl⟩
  rw [k1] at k2
  cases g; cases g'
  simp [Grant.cred] at k2
  simp [k2]

/-- **C49.** A token request that must be honoured, sent with the client library, returns a token
response with an access token that stands for what was requested. -/
theorem C49_granted (h0 : Started s₀) (hh : History s₀ h s)
    (hl : isInt64 s₀.config.accessTokenLifespan)
    (hcfg : Endpoint (cfg.baseURI ++ cfg.tokenEndpoint) b!"token") {rq : TokenRequest}
    (hs : Sendable rq) {coins : Str} {clock : Nat → Time} {g : Grant}
    (he : Entitled s₀.config h s.st rq clock g)
    (hn : 0 ≤ s₀.config.keyLength ∧ 2 * s₀.config.keyLength.toNat ≤ coins.length) :
    ∃ r, AsksToken ⟨.serve r, coins, clock⟩ rq ∧
      (Fits cfg (step s ⟨.serve r, coins, clock⟩).1 →
        ∃ trs a, Authenticates cfg s rq ⟨.serve r, coins, clock⟩ (.ok trs) ∧
          Delivers s₀.config ⟨⟨.serve r, coins, clock⟩, (step s ⟨.serve r, coins, clock⟩).1⟩ h trs a
            g) := by
  obtain ⟨r, hc, hx⟩ := C49_authenticate h0 hh hl hcfg hs coins clock
  refine ⟨r, hc, fun hf => ?_⟩
  obtain ⟨x, h1, h2⟩ := hx hf
  have hn' : Enough s₀.config ⟨.serve r, coins, clock⟩ 2 := hn
  obtain ⟨a, ha, hg⟩ : ∃ a, Hands ⟨⟨.serve r, coins, clock⟩, (step s ⟨.serve r, coins, clock⟩).1⟩ .access a ∧
      ∀ a', Hands ⟨⟨.serve r, coins, clock⟩, (step s ⟨.serve r, coins, clock⟩).1⟩ .access a' →
        InForce s₀.config (⟨⟨.serve r, coins, clock⟩, (step s ⟨.serve r, coins, clock⟩).1⟩ :: h) .access a' g := by
    have ht : ∀ {a}, Hands ⟨⟨.serve r, coins, clock⟩, (step s ⟨.serve r, coins, clock⟩).1⟩ .access a →
        ∃ res, TokenCall ⟨⟨.serve r, coins, clock⟩, (step s ⟨.serve r, coins, clock⟩).1⟩ rq res := by
      intro a ha
      obtain ⟨res, h, _⟩ := hands_token hc ha
      exact ⟨res, h⟩
    cases he with
    | password k1 k2 k3 k4 =>
      obtain ⟨a, _, ha, _⟩ := C51_password_granted h0 hh hc k1 k2 k3 k4 hn'
      exact ⟨a, ha, fun a' ha' => .password (ht ha').choose_spec k1 ha'⟩
    | client k1 k2 k3 k4 k5 =>
      obtain ⟨a, _, ha, _⟩ := C51_client_granted h0 hh hc k1 k2 k3 k4 k5 hn'
      exact ⟨a, ha, fun a' ha' => .client (ht ha').choose_spec k1 ha'⟩
    | code k1 k2 k3 k4 k5 k6 k7 =>
      obtain ⟨a, _, ha, _⟩ := C51_code_granted h0 hh k3 hc k1 k4 k2 k5 k6 k7 hn'
      exact ⟨a, ha, fun a' ha' => .exchange (ht ha').choose_spec k1 ha' k3 k4⟩
    | refresh k1 k2 k3 k4 k5 k6 k7 =>
      obtain ⟨a, _, ha, _⟩ := C51_refresh_granted h0 hh k3 hc k1 k4 k2 k5 k6 k7 hn'
      exact ⟨a, ha, fun a' ha' => .refresh (ht ha').choose_spec k1 ha' k3 k4 (by intro h; cases h)⟩
  rcases h2 with ⟨trs, a', g', rfl, hd⟩ | ⟨err, rfl, _, hr⟩
  · refine ⟨trs, a', h1, ?_⟩
    cases inForce_unique h0 (History.next _ hh) hd.inForce (hg a' hd.access.2)
    exact hd
  · exact absurd ha (hr _ _)

/-! ### Introspect -/

/-- **C49.** `Introspect` and the server agree. Either the library returns a description of a token
of this client that is in force, or it reports an inactive token and the server knows of none, or it
returns exactly the error the server reported. -/
theorem C49_introspect (h0 : Started s₀) (hh : History s₀ h s)
    (hx : ∀ k t g, InForce s₀.config h k t g → isInt64 g.expires.unix)
    (hcfg : Endpoint (cfg.baseURI ++ cfg.introspectionEndpoint) b!"introspect")
    {rq : IntrospectionRequest} (ht : rq.token ≠ []) (hid : rq.clientID ≠ [])
    (hcolon : 0x3A ∉ rq.clientID)
    (hsize : (introspectionRequestValues rq).encode.length ≤ maxFormSize) (coins : Str)
    (clock : Nat → Time) :
    ∃ r, AsksIntrospection ⟨.serve r, coins, clock⟩ rq ∧
      (Fits cfg (step s ⟨.serve r, coins, clock⟩).1 →
        ∃ x, Introspects cfg s rq ⟨.serve r, coins, clock⟩ x ∧
        ((∃ i k t g, x = .ok i ∧ Identified s.st rq.clientID rq.clientSecret ∧
            SameToken s₀.config rq.token t ∧ InForce s₀.config h k t g ∧ g.client = rq.clientID ∧
            Describes i k g) ∨
         (x = .ok { active := false } ∧ Identified s.st rq.clientID rq.clientSecret ∧
            ∀ k t g, SameToken s₀.config rq.token t → ¬ InForce s₀.config h k t g) ∨
         ∃ err, x = .error err ∧ Reports (step s ⟨.serve r, coins, clock⟩).1 err)) := by
  obtain ⟨r, hb, hc⟩ := sent_introspection hcfg ht hid hcolon hsize coins clock
  refine ⟨r, hc, fun hf => ⟨_, introspect_connected hb, ?_⟩⟩
  obtain ⟨st, rfl, ex⟩ := history_state h0 hh
  obtain ⟨c, hcdef⟩ : ∃ c : Call, c = ⟨.serve r, coins, clock⟩ := ⟨_, rfl⟩
  rw [← hcdef] at hc hf ⊢
  obtain ⟨reply, h1, h2⟩ := introspect_served (st := st) hc
  rw [h1] at hf ⊢
  rcases h2 with ⟨e, rfl, h3, h4, h5⟩ | ⟨t', i, rfl, hident, hparse, hoa, hor, hi⟩
  · obtain ⟨k1, k2⟩ := reported ⟨h3, h4⟩ h5 hf
    refine .inr (.inr ⟨_, ?_, k2⟩)
    unfold received
    simp only [Reply.answer]
    rw [if_pos k1]
  · rw [ex.config] at hparse
    have hl := hf _ rfl
    have hrec : ∀ limit : Int, (((Reply.introspection i).render {}).result.body.length : Int) ≤ limit →
        ∀ {j}, parseIntrospectionResponse ((Reply.introspection i).render {}).result limit = .ok j →
        limit = (ResponseLimit cfg) →
        received parseIntrospectionResponse cfg (Reply.introspection i).answer = .ok j := by
      intro limit _ j hj hlim
      unfold received
      simp only [Reply.answer]
      rw [if_neg (by rw [introspection_result]; exact fun h => h rfl), ← hlim]
      exact hj
    cases hr : st.refreshTokens.get? t'.signatureString with
    | some cred =>
      rw [hr] at hi
      simp only at hi
      subst hi
      obtain ⟨t, g, hs, hfo, rfl⟩ := (ex.refresh _ _).mp hr
      exact .inl ⟨_, .refresh, t, g, hrec _ hl (parse_description (hx _ _ _ hfo) hl) rfl, hident,
        ⟨t', hparse, hs.symm⟩, hfo, hor _ hr, describes_wire .refresh g⟩
    | none =>
      rw [hr] at hi
      simp only at hi
      cases hacc : st.accessTokens.get? t'.signatureString with
      | some cred =>
        rw [hacc] at hi
        simp only at hi
        subst hi
        obtain ⟨t, g, hs, hfo, rfl⟩ := (ex.access _ _).mp hacc
        exact .inl ⟨_, .access, t, g, hrec _ hl (parse_description (hx _ _ _ hfo) hl) rfl, hident,
          ⟨t', hparse, hs.symm⟩, hfo, hoa _ hacc, describes_wire .access g⟩
      | none =>
        rw [hacc] at hi
        simp only at hi
        subst hi
        refine .inr (.inl ⟨hrec _ hl (parse_inactive hl) rfl, hident, ?_⟩)
        rintro k t g ⟨y, hy, hs⟩ hfo
        rw [hparse] at hy
        cases hy
        cases k with
        | access =>
          rw [(ex.access _ _).mpr ⟨t, g, hs.symm, hfo, rfl⟩] at hacc
          cases hacc
        | refresh =>
          rw [(ex.refresh _ _).mpr ⟨t, g, hs.symm, hfo, rfl⟩] at hr
          cases hr

/-! ### Revoke -/

/-- **C49.** `Revoke` and the server agree. Either the library returns no error and the server has
revoked what was presented, or it returns exactly the error the server reported. -/
theorem C49_revoke (h0 : Started s₀) (hh : History s₀ h s)
    (hcfg : Endpoint (cfg.baseURI ++ cfg.revocationEndpoint) b!"revoke")
    {rq : RevocationRequest} (ht : rq.token ≠ []) (hid : rq.clientID ≠ [])
    (hcolon : 0x3A ∉ rq.clientID)
    (hsize : (revocationRequestValues rq).encode.length ≤ maxFormSize) (coins : Str)
    (clock : Nat → Time) :
    ∃ r, AsksRevocation ⟨.serve r, coins, clock⟩ rq ∧
      (Fits cfg (step s ⟨.serve r, coins, clock⟩).1 →
        ∃ x, RevokesToken cfg s rq ⟨.serve r, coins, clock⟩ x ∧
        ((x = none ∧ Identified s.st rq.clientID rq.clientSecret ∧
            ∃ t, SameToken s₀.config rq.token t ∧
              Revokes s₀.config ⟨⟨.serve r, coins, clock⟩, (step s ⟨.serve r, coins, clock⟩).1⟩ t) ∨
         ∃ err, x = some err ∧ Reports (step s ⟨.serve r, coins, clock⟩).1 err ∧
            ∀ t, ¬ Revokes s₀.config
              ⟨⟨.serve r, coins, clock⟩, (step s ⟨.serve r, coins, clock⟩).1⟩ t)) := by
  obtain ⟨r, hb, hc⟩ := sent_revocation hcfg ht hid hcolon hsize coins clock
  refine ⟨r, hc, fun hf => ⟨_, revoke_connected hb, ?_⟩⟩
  obtain ⟨st, rfl, ex⟩ := history_state h0 hh
  obtain ⟨c, hcdef⟩ : ∃ c : Call, c = ⟨.serve r, coins, clock⟩ := ⟨_, rfl⟩
  rw [← hcdef] at hc hf ⊢
  obtain ⟨r', reply, s', h1, h2, h3, h4, h5⟩ := revocation_served (st := st) hc
  rw [h4] at hf ⊢
  have err : ∀ e : Error, 400 ≤ e.status ∧ e.status ≤ 403 → e.redirectURI = [] → reply = .error e →
      ∃ err, outcome (received (fun _ _ => .ok ()) cfg reply.answer) = some err ∧
        Reports reply.answer err ∧ ∀ t, ¬ Revokes s₀.config ⟨c, reply.answer⟩ t := by
    rintro e k1 k2 rfl
    obtain ⟨k3, k4⟩ := reported k1 k2 hf
    refine ⟨_, ?_, k4, ?_⟩
    · unfold received
      simp only [Reply.answer]
      rw [if_pos k3]
      rfl
    · rintro t ⟨_, res, ⟨_, _, _, _, hres⟩, _, hst⟩
      cases hres
      exact k3 hst
  rcases h5 with ⟨e, rfl, k1, k2, _⟩ | ⟨hident, t, hparse, _, ⟨rfl, _⟩ | ⟨rfl, _⟩⟩
  · exact .inr (err e k1 k2 rfl)
  · rw [ex.config] at hparse
    have hp := (lastSegment_iff r'.path b!"revoke").mpr h2
    exact .inl ⟨rfl, hident, t, ⟨t, hparse, rfl⟩, rq, _, ⟨r', h1, hp, h3, rfl⟩, ⟨t, hparse, rfl⟩, rfl⟩
  · exact .inr (err _ (by decide) rfl rfl)

/-! ### The life of a token -/

/-- **C49.** The access token that the client library returned is accepted by `Authorize`, in every
later state in which nothing has ended it, until it expires, for every scope within the one it
stands for. -/
theorem C49_accepted (h0 : Started s₀) {new old : List Event} {e : Event}
    (hh : History s₀ (new ++ e :: old) s) {trs : TokenResponse} {a : HS256Token} {g : Grant}
    (hd : Delivers s₀.config e old trs a g)
    (hn : ∀ e' ∈ new, ¬ Ends s₀.config e' .access a g) {c : Call} {required : Scope}
    (hc : Presents c required trs.accessToken) (hx : c.clock 0 ≤ g.expires)
    (hw : Within required g.scope) : (step s c).1 = .admitted := by
  have hi := inForce_later hd.inForce hn
  obtain ⟨st, rfl, ex⟩ := history_state h0 hh
  rw [hd.access.1] at hc
  exact (C27_admits_iff h0 hh c).mpr
    ⟨required, _, a, g, hc, sameToken_self (ex.valid _ _ _ hi), hi, hx, hw⟩

/-- Owners are determined by the signature and the kind. -/
theorem inForce_client (h0 : Started s₀) (hh : History s₀ h s) {k : Kind} {a a' : HS256Token}
    {g g' : Grant} (h1 : InForce s₀.config h k a g) (h2 : InForce s₀.config h k a' g')
    (hs : a'.signatureString = a.signatureString) : g'.client = g.client := by
  obtain ⟨st, rfl, ex⟩ := history_state h0 hh
  cases k with
  | access =>
    have k1 := (ex.access _ _).mpr ⟨a, g, rfl, h1, rfl⟩
    have k2 := (ex.access _ _).mpr ⟨a', g', hs, h2, rfl⟩
    rw [k1] at k2
    exact (congrArg ServerCredential.clientID (Option.some.inj k2)).symm
  | refresh =>
    have k1 := (ex.refresh _ _).mpr ⟨a, g, rfl, h1, rfl⟩
    have k2 := (ex.refresh _ _).mpr ⟨a', g', hs, h2, rfl⟩
    rw [k1] at k2
    exact (congrArg ServerCredential.clientID (Option.some.inj k2)).symm

/-- **C49.** Introspecting that token with the client library, as the client it was issued to,
describes it. No refresh token in force may have the same signature. -/
theorem C49_described (h0 : Started s₀) {new old : List Event} {e : Event}
    (hh : History s₀ (new ++ e :: old) s) {trs : TokenResponse} {a : HS256Token} {g : Grant}
    (hd : Delivers s₀.config e old trs a g)
    (hn : ∀ e' ∈ new, ¬ Ends s₀.config e' .access a g)
    (hsig : ∀ t' g', t'.signatureString = a.signatureString →
      ¬ InForce s₀.config (new ++ e :: old) .refresh t' g')
    (hx : isInt64 g.expires.unix)
    (hcfg : Endpoint (cfg.baseURI ++ cfg.introspectionEndpoint) b!"introspect")
    {rq : IntrospectionRequest} (ht : rq.token = trs.accessToken)
    (hhint : rq.tokenTypeHint ∈ [[], b!"access_token", b!"refresh_token"])
    (hid : rq.clientID = g.client) (hne : g.client ≠ []) (hcolon : 0x3A ∉ g.client)
    (hident : Identified s.st rq.clientID rq.clientSecret)
    (hsize : (introspectionRequestValues rq).encode.length ≤ maxFormSize) (coins : Str)
    (clock : Nat → Time) :
    ∃ r, AsksIntrospection ⟨.serve r, coins, clock⟩ rq ∧
      (Fits cfg (step s ⟨.serve r, coins, clock⟩).1 →
        ∃ i, Introspects cfg s rq ⟨.serve r, coins, clock⟩ (.ok i) ∧ Describes i .access g) := by
  have hi := inForce_later hd.inForce hn
  have hval : a = HS256Token.fromKey s₀.config.secret a.key := by
    obtain ⟨st, rfl, ex⟩ := history_state h0 hh
    exact ex.valid _ _ _ hi
  have hsame : SameToken s₀.config rq.token a := by
    rw [ht, hd.access.1]
    exact sameToken_self hval
  have hnil : rq.token ≠ [] := by
    rw [ht, hd.access.1]
    exact token_ne_nil a
  rw [← hid] at hne hcolon
  obtain ⟨r, hb, hc⟩ := sent_introspection hcfg hnil hne hcolon hsize coins clock
  refine ⟨r, hc, fun hf => ?_⟩
  obtain ⟨res, k1, k2, k3⟩ := C40_described h0 hh hc hhint hident hsame hi hx
    (by
      intro k' t' g' hs hi'
      cases k' with
      | access => rw [hid]; exact inForce_client h0 hh hi hi' hs
      | refresh => exact absurd hi' (hsig _ _ hs))
    (fun _ => hsig)
  obtain ⟨i, k4, k5⟩ := k3 _ (hf _ k1)
  refine ⟨i, ?_, k5⟩
  have := introspect_connected (s := s) (coins := coins) (clock := clock) hb
  rw [k1] at this
  unfold received at this
  simp only [k2, ne_eq, not_true_eq_false, if_false, k4] at this
  exact this

/-- **C49.** Revoking that token with the client library, as the client it was issued to, succeeds. No
refresh token of another client that is in force may have the same signature. -/
theorem C49_revoked (h0 : Started s₀) {new old : List Event} {e : Event}
    (hh : History s₀ (new ++ e :: old) s) {trs : TokenResponse} {a : HS256Token} {g : Grant}
    (hd : Delivers s₀.config e old trs a g)
    (hn : ∀ e' ∈ new, ¬ Ends s₀.config e' .access a g)
    (hsig : ∀ t' g', t'.signatureString = a.signatureString →
      InForce s₀.config (new ++ e :: old) .refresh t' g' → g'.client = g.client)
    (hcfg : Endpoint (cfg.baseURI ++ cfg.revocationEndpoint) b!"revoke")
    {rq : RevocationRequest} (ht : rq.token = trs.accessToken)
    (hhint : rq.tokenTypeHint ∈ [[], b!"access_token", b!"refresh_token"])
    (hid : rq.clientID = g.client) (hne : g.client ≠ []) (hcolon : 0x3A ∉ g.client)
    (hident : Identified s.st rq.clientID rq.clientSecret)
    (hsize : (revocationRequestValues rq).encode.length ≤ maxFormSize) (coins : Str)
    (clock : Nat → Time) :
    ∃ r, AsksRevocation ⟨.serve r, coins, clock⟩ rq ∧
      RevokesToken cfg s rq ⟨.serve r, coins, clock⟩ none ∧
      Revokes s₀.config ⟨⟨.serve r, coins, clock⟩, (step s ⟨.serve r, coins, clock⟩).1⟩ a := by
  have hi := inForce_later hd.inForce hn
  have hval : a = HS256Token.fromKey s₀.config.secret a.key := by
    obtain ⟨st, rfl, ex⟩ := history_state h0 hh
    exact ex.valid _ _ _ hi
  have hsame : SameToken s₀.config rq.token a := by
    rw [ht, hd.access.1]
    exact sameToken_self hval
  have hnil : rq.token ≠ [] := by
    rw [ht, hd.access.1]
    exact token_ne_nil a
  rw [← hid] at hne hcolon
  obtain ⟨r, hb, hc⟩ := sent_revocation hcfg hnil hne hcolon hsize coins clock
  obtain ⟨hrev, _⟩ := C30_owner_revokes h0 hh hc hhint hident hsame
    (by
      intro k' t' g' hs hi'
      rw [hid]
      cases k' with
      | access => exact inForce_client h0 hh hi hi' hs
      | refresh => exact hsig _ _ hs hi')
  refine ⟨r, hc, ?_, hrev⟩
  obtain ⟨_, res, ⟨_, _, _, _, hres⟩, _, hst⟩ := hrev
  have := revoke_connected (s := s) (coins := coins) (clock := clock) hb
  simp only at hres
  rw [hres] at this
  unfold received at this
  simp only [hst, ne_eq, not_true_eq_false, if_false, outcome] at this
  exact this

/-- **C49.** After that, and as long as no token with the same signature is handed out, `Authorize`
refuses the token and introspecting it with the client library reports it inactive. -/
theorem C49_refused (h0 : Started s₀) {new old : List Event} {e : Event}
    (hh : History s₀ (new ++ e :: old) s) {a : HS256Token} (hr : Revokes s₀.config e a)
    (hn : ∀ e' ∈ new, ∀ k t', Hands e' k t' → t'.signatureString ≠ a.signatureString)
    {text : Str} (ht : SameToken s₀.config text a) :
    (∀ c required, Presents c required text → (step s c).1 ≠ .admitted) ∧
    ∀ (rq : IntrospectionRequest), rq.token = text →
      rq.tokenTypeHint ∈ [[], b!"access_token", b!"refresh_token"] → rq.clientID ≠ [] →
      0x3A ∉ rq.clientID → Identified s.st rq.clientID rq.clientSecret →
      (introspectionRequestValues rq).encode.length ≤ maxFormSize →
      Endpoint (cfg.baseURI ++ cfg.introspectionEndpoint) b!"introspect" → ∀ coins clock,
      ∃ r, AsksIntrospection ⟨.serve r, coins, clock⟩ rq ∧
        (Fits cfg (step s ⟨.serve r, coins, clock⟩).1 →
          Introspects cfg s rq ⟨.serve r, coins, clock⟩ (.ok { active := false })) := by
  refine ⟨fun c required hc => C29_not_admitted h0 hh hr (fun e' he => hn e' he .access) c hc ht, ?_⟩
  rintro rq rfl hhint hne hcolon hident hsize hcfg coins clock
  have hnil : rq.token ≠ [] := by
    intro h
    obtain ⟨_, h1, _⟩ := ht
    rw [h] at h1
    cases h1
  obtain ⟨r, hb, hc⟩ := sent_introspection hcfg hnil hne hcolon hsize coins clock
  refine ⟨r, hc, fun hf => ?_⟩
  obtain ⟨res, k1, k2, k3⟩ := C29_introspected_inactive h0 hh hr hn hc hhint ht hident
  have := introspect_connected (s := s) (coins := coins) (clock := clock) hb
  rw [k1] at this
  unfold received at this
  simp only [k2, ne_eq, not_true_eq_false, if_false, k3 _ (hf _ k1)] at this
  exact this

/-! ### A session -/

/-- The client library's default configuration for a server. -/
abbrev demoClient : ClientConfig := .default b!"http://example.com"

theorem demo_configured : Configured demoClient := by
  refine ⟨⟨{ scheme := b!"http", host := b!"example.com", path := b!"/oauth2/token" }, ?_⟩,
    ⟨{ scheme := b!"http", host := b!"example.com", path := b!"/oauth2/introspect" }, ?_⟩,
    ⟨{ scheme := b!"http", host := b!"example.com", path := b!"/oauth2/revoke" }, ?_⟩⟩ <;>
  exact ⟨by decide +kernel, by decide +kernel, by decide +kernel⟩

/-- Non-vacuity of `C49_granted`: `c1` uses the password of `u1` after nine other events. -/
example : Entitled Demo.server.config
    [Demo.e9, Demo.e8, Demo.e7, Demo.e6, Demo.e5, Demo.e4, Demo.e3, Demo.e2, Demo.e1] Demo.s9 {
      grantType := b!"password", username := b!"u1", password := b!"p1", scope := some [b!"foo"],
      clientID := b!"c1", clientSecret := b!"s1" } (fun n => (2000 + n) * second) {
      client := b!"c1", user := b!"u1", scope := some [b!"foo"], expires := 5600 * second } ∧
    Demo.server.config.keyLength = 2 ∧
    Fits demoClient (step ⟨false, Demo.s9⟩ (Demo.post b!"/oauth2/token" b!"c1:s1"
      b!"grant_type=password&scope=foo&username=u1&password=p1" [20, 21, 22, 23] 2000)).1 := by
  refine ⟨.password rfl (by decide +kernel) (by decide +kernel) (by decide +kernel), rfl, ?_⟩
  intro res hres
  have : res = (step ⟨false, Demo.s9⟩ (Demo.post b!"/oauth2/token" b!"c1:s1"
      b!"grant_type=password&scope=foo&username=u1&password=p1" [20, 21, 22, 23] 2000)).1.response := by
    rw [hres]; rfl
  rw [this]
  decide +kernel

/-- What the client library makes of the first event of the session. -/
theorem demo_delivers : Delivers Demo.server.config Demo.e1 [] {
      tokenType := b!"bearer", accessToken := Demo.a1.string, expiresIn := 3600,
      refreshToken := Demo.r1.string, scope := some [b!"foo"] } Demo.a1 {
      client := b!"c1", user := b!"u1", scope := some [b!"foo"], expires := 4600 * second } :=
  ⟨⟨rfl, by decide +kernel⟩, demo_access1, ⟨Demo.r1, rfl, by decide +kernel⟩, rfl, by decide +kernel,
    ⟨sanitize b!"foo", sanitize_replaced _, by decide +kernel⟩, rfl, rfl⟩

/-- Non-vacuity of `C49_accepted`, `C49_described` and `C49_revoked`: the token of the first event,
presented right after it. -/
example : ∃ trs a g, Delivers Demo.server.config Demo.e1 [] trs a g ∧ trs.accessToken = Demo.a1.string ∧
    Presents (Demo.present trs.accessToken (some [b!"foo"]) 1100) (some [b!"foo"]) trs.accessToken ∧
    (Demo.present trs.accessToken (some [b!"foo"]) 1100).clock 0 ≤ g.expires ∧
    Within (some [b!"foo"]) g.scope ∧ isInt64 g.expires.unix ∧
    (∀ t' g', t'.signatureString = a.signatureString →
      ¬ InForce Demo.server.config [Demo.e1] .refresh t' g') ∧
    g.client = b!"c1" ∧ Identified Demo.s1 b!"c1" b!"s1" := by
  refine ⟨_, _, _, demo_delivers, rfl, ⟨_, rfl, b!"Bearer", by decide +kernel, ?_, by decide⟩,
    by decide +kernel, by decide +kernel, by unfold isInt64; decide +kernel, ?_, rfl, by decide +kernel⟩
  · unfold AnyCase
    simp [AnyCase]
  · intro t' g' hs hi
    have := (demo_inForce hi).2.2
    rw [hs] at this
    exact absurd this (by decide +kernel)

/-- The whole life of a token in one run of the client library against the server. -/
example :
    let s1 := (step ⟨false, Demo.server⟩ (Demo.post b!"/oauth2/token" b!"c1:s1"
      b!"grant_type=password&password=p1&scope=foo&username=u1" [1, 2, 3, 4] 1000)).2
    (newClient demoClient (wire ⟨false, Demo.server⟩ [1, 2, 3, 4] fun n => (1000 + n) * second)).authenticate {
        grantType := b!"password", username := b!"u1", password := b!"p1", scope := some [b!"foo"],
        clientID := b!"c1", clientSecret := b!"s1" } = .ok {
      tokenType := b!"bearer", accessToken := Demo.a1.string, expiresIn := 3600,
      refreshToken := Demo.r1.string, scope := some [b!"foo"] } ∧
    (newClient demoClient (wire s1 [] fun n => (1100 + n) * second)).introspect {
        token := Demo.a1.string, clientID := b!"c1", clientSecret := b!"s1" } = .ok {
      active := true, scope := some [b!"foo"], clientID := b!"c1", username := b!"u1",
      tokenType := b!"access_token", expiresAt := 4600 } ∧
    (newClient demoClient (wire s1 [] fun n => (1100 + n) * second)).revoke {
        token := Demo.a1.string, clientID := b!"c1", clientSecret := b!"s1" } = none := by
  refine ⟨by decide +kernel, by decide +kernel, by decide +kernel⟩

end OAuth2

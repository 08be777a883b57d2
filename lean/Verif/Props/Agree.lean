import Verif.Spec.Agree
import Verif.Props.Effects
import Verif.Props.Store
import Verif.Props.Transport
import Verif.Props.Changes
import Verif.Props.Rights
/-
C109: introspection and `Authorize` agree.
-/

namespace OAuth2

open Spec

variable {s : Server} {c d : Call} {text : Str} {i : IntrospectionResponse} {required : Scope}

theorem wire_items {x : Scope} (hc : ∀ i ∈ x.items, CleanItem i) (hv : ∀ i ∈ x.items, ValidUTF8 i) :
    (Scope.parse (sanitize x.string)).items = x.items := by
  rw [sanitize_of_valid (show ValidUTF8 x.string from valid_join hv)]
  exact C06_roundtrip _ hc

theorem reads_description {client : Str} (hl : AllTransportable s) (hr : ReadsFor ⟨false, s⟩ c client text i) :
    ∃ t, HS256Token.parse s.config.secret text = .ok t ∧
      ((∃ cred, s.refreshTokens.get? t.signatureString = some cred ∧ i.active = true ∧ i.tokenType = b!"refresh_token" ∧
          i.expiresAt = cred.expiresAt.unix ∧ i.scope.items = cred.scope.items ∧ cred.clientID = client) ∨
        (∃ cred, s.refreshTokens.get? t.signatureString = none ∧ s.accessTokens.get? t.signatureString = some cred ∧
          i.active = true ∧ i.tokenType = b!"access_token" ∧ i.expiresAt = cred.expiresAt.unix ∧ i.scope.items = cred.scope.items) ∨
        (s.refreshTokens.get? t.signatureString = none ∧ s.accessTokens.get? t.signatureString = none ∧
          i.active = false)) := by
  obtain ⟨rq, res, limit, hc, rfl, rfl, ha, hok, hl', hi⟩ := hr
  obtain ⟨reply, h1, h2⟩ := introspect_served (st := s) hc
  rw [h1] at ha
  obtain ⟨hcr, rfl⟩ := answer_eq ha
  rcases h2 with ⟨e, rfl, h3, h4, h5⟩ | ⟨t, j, rfl, hid, ht, hoa, hor, rfl⟩
  · rw [error_result h5] at hok
    simp only at hok
    omega
  refine ⟨t, ht, ?_⟩
  cases hg : s.refreshTokens.get? t.signatureString with
  | some cred =>
    rw [hg] at hi hl'
    simp only at hi hl'
    have leg := hl .refresh _ _ hg
    rw [parse_description (show isInt64 _ from leg.expiry) hl'] at hi
    cases hi
    exact .inl ⟨cred, rfl, rfl, (by decide +kernel : sanitize b!"refresh_token" = b!"refresh_token"), rfl,
      wire_items leg.clean leg.valid, hor _ hg⟩
  | none =>
    rw [hg] at hi hl'
    simp only at hi hl'
    cases hacc : s.accessTokens.get? t.signatureString with
    | some cred =>
      rw [hacc] at hi hl'
      simp only at hi hl'
      have leg := hl .access _ _ hacc
      rw [parse_description (show isInt64 _ from leg.expiry) hl'] at hi
      cases hi
      exact .inr (.inl ⟨cred, rfl, rfl, rfl,
        (by decide +kernel : sanitize b!"access_token" = b!"access_token"), rfl, wire_items leg.clean leg.valid⟩)
    | none =>
      rw [hacc] at hi hl'
      simp only at hi hl'
      rw [parse_inactive hl'] at hi
      cases hi
      exact .inr (.inr ⟨rfl, rfl, rfl⟩)

theorem unix_mono {a b : Time} (h : a ≤ b) : a.unix ≤ b.unix := Int.ediv_le_ediv (by decide) h

/-- **C109.** A resource server that goes by introspection admits every token that `Authorize` admits, unless a refresh
token is described in place of the access token. -/
theorem C109_admitted (hl : AllTransportable s) (hr : ReadsOf ⟨false, s⟩ c text i) (hd : Presents d required text)
    (ha : (step ⟨false, s⟩ d).1 = .admitted) (hk : i.tokenType ≠ b!"refresh_token") :
    Admissible i required (d.clock 0) := by
  obtain ⟨required', text', t, cred, h3, h4, h5, h6, h7⟩ := (C73_admits_iff s d).mp ha
  obtain rfl := presents_unique hd h3
  obtain rfl : required = required' := by
    obtain ⟨r, h8, _⟩ := hd
    obtain ⟨r', h9, _⟩ := h3
    rw [h8] at h9
    cases h9
    rfl
  obtain ⟨client, hr⟩ := hr
  obtain ⟨t', ht, h⟩ := reads_description hl hr
  rw [h4] at ht
  cases ht
  rcases h with ⟨_, _, _, h, _⟩ | ⟨cred', _, h8, h9, h10, h11, h12⟩ | ⟨_, h8, _⟩
  · exact absurd h hk
  · rw [h5] at h8
    cases h8
    exact ⟨h9, h10, h11 ▸ unix_mono h6, fun j hj => h12 ▸ h7 j hj⟩
  · rw [h5] at h8
    cases h8

/-- **C109.** And it admits no other tokens, except in the second in which a token expires. -/
theorem C109_admissible (hl : AllTransportable s) (hr : ReadsOf ⟨false, s⟩ c text i) (hd : Presents d required text)
    (ha : Admissible i required (d.clock 0)) (hx : (d.clock 0).unix ≠ i.expiresAt) :
    (step ⟨false, s⟩ d).1 = .admitted := by
  obtain ⟨client, hr⟩ := hr
  obtain ⟨t, ht, h⟩ := reads_description hl hr
  rcases h with ⟨_, _, _, h, _⟩ | ⟨cred, _, h8, h9, h10, h11, h12⟩ | ⟨_, _, h⟩
  · exact absurd (h.symm.trans ha.kind) (by decide)
  · refine (C73_admits_iff s d).mpr ⟨required, text, t, cred, hd, ht, h8, ?_, fun j hj => h12 ▸ ha.scope j hj⟩
    have h1 := ha.alive
    rw [h11] at h1 hx
    apply Int.le_of_lt
    apply Int.lt_of_not_ge
    intro h2
    have := unix_mono h2
    omega
  · rw [ha.active] at h
    cases h

/-- **C109.** By introspection a client finds out what its refresh token is good for: a refresh request is granted exactly
if the refresh token is good by what was read, except in the second in which it expires. -/
theorem C109_refresh {client : Str} (hl : AllTransportable s) (hr : ReadsFor ⟨false, s⟩ c client text i)
    {rq : TokenRequest} (hd : AsksToken d rq) (hg : rq.grantType = b!"refresh_token") (ht : rq.refreshToken = text)
    (hcl : rq.clientID = client) (hid : Identified s client rq.clientSecret) (he : Enough s.config d 2)
    (hx : (d.clock 0).unix ≠ i.expiresAt) :
    (∃ a, Hands ⟨d, (step ⟨false, s⟩ d).1⟩ .access a) ↔ GoodBy i .refresh rq.scope (d.clock 0) := by
  subst hcl ht
  obtain ⟨t, ht, h⟩ := reads_description hl hr
  rw [C73_granted_iff s hd]
  constructor
  · rintro ⟨_, hm, _⟩
    cases hm with
    | password m1 => exact absurd (m1.symm.trans hg) (by decide)
    | client m1 => exact absurd (m1.symm.trans hg) (by decide)
    | exchange m1 => exact absurd (m1.symm.trans hg) (by decide)
    | refresh m1 m2 m3 m4 m5 m6 =>
      rw [ht] at m2
      cases m2
      rcases h with ⟨cred, h1, h2, h3, h4, h5, _⟩ | ⟨_, h1, _⟩ | ⟨h1, _⟩
      · rw [h1] at m3
        cases m3
        exact ⟨h2, h3, h4 ▸ unix_mono m4, fun j hj => h5 ▸ m6 j hj⟩
      · rw [h1] at m3
        cases m3
      · rw [h1] at m3
        cases m3
  · intro hgood
    rcases h with ⟨cred, h1, h2, h3, h4, h5, h6⟩ | ⟨_, _, _, _, h1, _⟩ | ⟨_, _, h1⟩
    · refine ⟨hid, .refresh hg ht h1 ?_ h6 (fun j hj => h5 ▸ hgood.scope j hj), he⟩
      have h7 := hgood.alive
      rw [h4] at h7 hx
      apply Int.le_of_lt
      apply Int.lt_of_not_ge
      intro h8
      have := unix_mono h8
      omega
    · exact absurd (h1.symm.trans hgood.kind) (by decide)
    · rw [hgood.active] at h1
      cases h1

/-- **C109.** The premise of these holds after every history of a server whose allowed scopes are clean and valid UTF-8,
as long as the expiry times, in seconds, are 64 bit numbers. -/
theorem C109_transportable {s₀ : Server} {h : List Event} {s : Shared Server} (h0 : Started s₀) (hh : History s₀ h s)
    (hs : ∀ i ∈ s₀.config.allowedScope.items, CleanItem i ∧ ValidUTF8 i)
    (hx : ∀ k t g, InForce s₀.config h k t g → -2 ^ 63 ≤ g.expires.unix ∧ g.expires.unix < 2 ^ 63) :
    AllTransportable s.st := by
  have hh₀ := hh
  obtain ⟨st, rfl, ex⟩ := history_state h0 hh
  have key : ∀ k t g, InForce s₀.config h k t g → Transportable g.cred := fun k t g hi =>
    ⟨hx k t g hi, fun i hj => (hs i (C36_token_scope h0 hh₀ hi i hj)).1,
      fun i hj => (hs i (C36_token_scope h0 hh₀ hi i hj)).2⟩
  intro k sig cred hg
  cases k with
  | access =>
    obtain ⟨t, g, _, hi, rfl⟩ := (ex.access _ _).mp hg
    exact key _ _ _ hi
  | refresh =>
    obtain ⟨t, g, _, hi, rfl⟩ := (ex.refresh _ _).mp hg
    exact key _ _ _ hi

/-- Non-vacuity: the allowed scopes of the session are clean and valid. -/
example : Started Demo.server ∧ History Demo.server [Demo.e1] ⟨false, Demo.s1⟩ ∧
    (∀ i ∈ Demo.server.config.allowedScope.items, CleanItem i ∧ ValidUTF8 i) ∧
    ∀ k t g, InForce Demo.server.config [Demo.e1] k t g → -2 ^ 63 ≤ g.expires.unix ∧ g.expires.unix < 2 ^ 63 := by
  refine ⟨Demo.started, Demo.history1, fun i hi => ⟨C06_clean b!"foo bar" i ?_, valid_of_ascii ?_⟩, fun k t g hi => ?_⟩
  · have : Demo.server.config.allowedScope.items = (Scope.parse b!"foo bar").items := by decide +kernel
    exact this ▸ hi
  · exact (by decide +kernel : ∀ i ∈ Demo.server.config.allowedScope.items, ∀ c ∈ i, c < 0x80) i hi
  · rw [(demo_inForce hi).2.1]
    cases k <;> decide +kernel

theorem demo_transportable : AllTransportable Demo.s1 := by
  have leg : ∀ e : Time, -2 ^ 63 ≤ e.unix → e.unix < 2 ^ 63 →
      Transportable { clientID := b!"c1", username := b!"u1", scope := some [b!"foo"], expiresAt := e } := by
    intro e h1 h2
    refine ⟨⟨h1, h2⟩, ?_, ?_⟩
    · intro i hi
      obtain rfl := List.mem_singleton.mp hi
      exact C06_clean b!"foo" _ (by decide +kernel)
    · intro i hi
      obtain rfl := List.mem_singleton.mp hi
      exact valid_of_ascii (by decide)
  intro k sig cred hg
  cases k with
  | access =>
    obtain ⟨_, h⟩ := List.mem_singleton.mp (GoMap.get?_some_mem hg) |> Prod.mk.inj
    subst h
    exact leg _ (by decide) (by decide)
  | refresh =>
    obtain ⟨_, h⟩ := List.mem_singleton.mp (GoMap.get?_some_mem hg) |> Prod.mk.inj
    subst h
    exact leg _ (by decide) (by decide)

theorem demo_reads : ReadsOf ⟨false, Demo.s1⟩
    (Demo.post b!"/introspect" b!"c1:s1" (b!"token=" ++ Demo.a1.string) [] 1100) Demo.a1.string {
      active := true, scope := some [b!"foo"], clientID := b!"c1", username := b!"u1",
      tokenType := b!"access_token", expiresAt := 4600 } :=
  ⟨b!"c1", { token := Demo.a1.string, clientID := b!"c1", clientSecret := b!"s1" },
    (step ⟨false, Demo.s1⟩ (Demo.post b!"/introspect" b!"c1:s1" (b!"token=" ++ Demo.a1.string) [] 1100)).1.response,
    2048, by decide +kernel, rfl, rfl, by decide +kernel, by decide +kernel, by decide +kernel, by decide +kernel⟩

/-- Non-vacuity: the access token of the session is introspected, presented and admitted. -/
example : Presents (Demo.present Demo.a1.string (some [b!"foo"]) 1100) (some [b!"foo"]) Demo.a1.string ∧
    (step ⟨false, Demo.s1⟩ (Demo.present Demo.a1.string (some [b!"foo"]) 1100)).1 = .admitted ∧
    ((Demo.present Demo.a1.string (some [b!"foo"]) 1100).clock 0).unix ≠ 4600 :=
  ⟨⟨_, rfl, (C09_bearer_accept_iff _ _).mp (by decide +kernel)⟩, by decide +kernel, by decide +kernel⟩

/-- Non-vacuity: the refresh token of the session is introspected and used. -/
example : ReadsFor ⟨false, Demo.s1⟩ (Demo.post b!"/introspect" b!"c1:s1" (b!"token=" ++ Demo.r1.string) [] 1100) b!"c1"
      Demo.r1.string {
        active := true, scope := some [b!"foo"], clientID := b!"c1", username := b!"u1",
        tokenType := b!"refresh_token", expiresAt := 605801 } ∧
    AsksToken (Demo.post b!"/oauth2/token" [] (b!"grant_type=refresh_token&client_id=c1&client_secret=s1&refresh_token=" ++
      Demo.r1.string) [1, 2, 3, 4] 1100) {
        grantType := b!"refresh_token", clientID := b!"c1", clientSecret := b!"s1", refreshToken := Demo.r1.string } ∧
    Identified Demo.s1 b!"c1" b!"s1" ∧ GoodBy {
        active := true, scope := some [b!"foo"], clientID := b!"c1", username := b!"u1",
        tokenType := b!"refresh_token", expiresAt := 605801 } .refresh none (1100 * second) :=
  ⟨⟨{ token := Demo.r1.string, clientID := b!"c1", clientSecret := b!"s1" },
    (step ⟨false, Demo.s1⟩ (Demo.post b!"/introspect" b!"c1:s1" (b!"token=" ++ Demo.r1.string) [] 1100)).1.response,
    2048, by decide +kernel, rfl, rfl, by decide +kernel, by decide +kernel, by decide +kernel, by decide +kernel⟩,
    ⟨_, rfl, by decide +kernel, by decide +kernel⟩, ⟨_, rfl, fun _ => rfl⟩, ⟨rfl, rfl, by decide +kernel, nofun⟩⟩

/-- **C109.** The exception is real: half a second after it has expired, a token is admitted by a resource server that
goes by introspection, but not by `Authorize`. -/
theorem C109_last_second : ∃ s c d text i required, AllTransportable s ∧ ReadsOf ⟨false, s⟩ c text i ∧
    Presents d required text ∧ Admissible i required (d.clock 0) ∧ (step ⟨false, s⟩ d).1 ≠ .admitted :=
  ⟨Demo.s1, _, {
      Demo.present Demo.a1.string (some [b!"foo"]) 0 with clock := fun _ => 4600 * second + 500000000 },
    Demo.a1.string, _, some [b!"foo"], demo_transportable, demo_reads,
    ⟨_, rfl, (C09_bearer_accept_iff _ _).mp (by decide +kernel)⟩, ⟨rfl, rfl, by decide +kernel, fun _ hi => hi⟩,
    by decide +kernel⟩

end OAuth2

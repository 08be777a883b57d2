import Verif.Spec.Threats
import Verif.Lemmas.RfcDemo
import Verif.Lemmas.Keeps
import Verif.Props.RfcAuthorization
import Verif.Props.RfcResources
import Verif.Props.Rights
/-
C90: which of the countermeasures of RFC 6819 (Verif/Spec/Threats.lean) the server takes, and which not.
-/

namespace OAuth2

open Spec Rfc

set_option linter.unusedSimpArgs false

/-! ### Entropy -/

section
variable {x : Exchange} {s₀ st : Server} (cx : Context x s₀ st)
include cx

theorem Context.st_config : st.config = x.config := cx.exactly.config

theorem Context.issues {t : HS256Token} (h : Issues x.event t) :
    ∃ i, i ≤ 1 ∧ MadeOf x.config t (draw x.config x.call i) := by
  rw [cx.event] at h
  rw [← cx.st_config]
  rcases h with ⟨k, h⟩ | h
  · cases k with
    | access => exact ⟨0, by omega, (C71_access st h).1⟩
    | refresh => exact ⟨1, by omega, (C71_refresh st h).1⟩
  · exact ⟨0, by omega, (C71_code st h).1⟩

end

theorem draw_within (cfg : ServerConfig) (c : Call) (i : Nat) :
    ∃ before after, c.coins = before ++ draw cfg c i ++ after := by
  refine ⟨c.coins.take (i * cfg.keyLength.toNat),
    (c.coins.drop (i * cfg.keyLength.toNat)).drop cfg.keyLength.toNat, ?_⟩
  unfold draw
  rw [List.append_assoc, List.take_append_drop, List.take_append_drop]

/-- **C90.** The keys of tokens and codes are random bytes, and as many as it takes. -/
theorem C90_entropy : Upheld Rfc6819.entropy := by
  intro x hx t hl hi
  obtain ⟨s₀, st, cx⟩ := context hx
  obtain ⟨i, _, h1, _, h3⟩ := cx.issues hi
  rw [h1]
  exact ⟨by omega, draw_within ..⟩

/-- **C90.** A server with the default configuration is configured so. -/
theorem C90_entropy_default (secret : Str) (allowed : Scope) :
    16 ≤ (ServerConfig.default secret allowed).keyLength := Int.le_refl 16

/-- The server of the session, with keys of 16 bytes. -/
def Demo.long : Server := { Demo.server with config := { Demo.server.config with keyLength := 16 } }

/-- Non-vacuity: with it, a client gets tokens. -/
example : ∃ (x : Exchange) (a b : HS256Token), x.Happens ∧ 16 ≤ x.config.keyLength ∧
    Hands x.event .access a ∧ Hands x.event .refresh b := by
  refine ⟨_, HS256Token.fromKey b!"key" [1, 2, 3, 4, 5, 6, 7, 8, 9, 10, 11, 12, 13, 14, 15, 16],
    HS256Token.fromKey b!"key" [17, 18, 19, 20, 21, 22, 23, 24, 25, 26, 27, 28, 29, 30, 31, 32],
    demo_happens (s₀ := Demo.long) (s := Demo.long) ⟨rfl, rfl, rfl⟩ .start b!"/token" b!"c1:s1"
      b!"grant_type=client_credentials&scope=foo" [1, 2, 3, 4, 5, 6, 7, 8, 9, 10, 11, 12, 13, 14, 15, 16,
        17, 18, 19, 20, 21, 22, 23, 24, 25, 26, 27, 28, 29, 30, 31, 32] 1000,
    by decide, ?_, ?_⟩ <;> decide +kernel

/-- **C90.** Not followed by servers that are configured otherwise. -/
theorem C90_entropyAlways_refuted : ¬ Upheld Rfc6819.entropyAlways := by
  intro hu
  have := (hu _ (demo_happens Demo.started .start b!"/token" b!"c1:s1" b!"grant_type=client_credentials&scope=foo"
    [1, 2, 3, 4] 1000) Demo.a1 (.inl ⟨.access, by decide +kernel⟩)).1
  exact absurd this (by decide)

/-- **C90.** Access and refresh token share no random byte. -/
theorem C90_independence : Upheld Rfc6819.independence := by
  intro x hx a b ha hb
  obtain ⟨s₀, st, cx⟩ := context hx
  rw [cx.event] at ha hb
  obtain ⟨⟨h1, _, h2⟩, _⟩ := C71_access st ha
  obtain ⟨⟨h3, _, _⟩, _⟩ := C71_refresh st hb
  rw [h1, h3]
  unfold draw
  rw [Nat.zero_mul, List.drop_zero, Nat.one_mul]
  exact ⟨(x.call.coins.drop st.config.keyLength.toNat).drop st.config.keyLength.toNat, by
    rw [List.append_assoc, List.take_append_drop, List.take_append_drop]⟩

/-! ### Lifespans -/

/-- When a token in force was handed out. -/
theorem inForce_age {cfg : ServerConfig} {h : List Event} {k : Kind} {t : HS256Token} {g : Grant}
    (hi : InForce cfg h k t g) :
    ∃ e ∈ h, Hands e k t ∧ ∃ n, n ≤ 1 ∧ g.expires = expiry cfg e n k := by
  induction hi with
  | implicit _ ht => exact ⟨_, List.mem_cons_self .., ht, 0, by omega, rfl⟩
  | password _ _ ht => exact ⟨_, List.mem_cons_self .., ht, 0, by omega, rfl⟩
  | client _ _ ht => exact ⟨_, List.mem_cons_self .., ht, 0, by omega, rfl⟩
  | exchange _ _ ht => exact ⟨_, List.mem_cons_self .., ht, 1, by omega, rfl⟩
  | refresh _ _ ht => exact ⟨_, List.mem_cons_self .., ht, 1, by omega, rfl⟩
  | later _ _ ih =>
    obtain ⟨e, h1, h2⟩ := ih
    exact ⟨e, List.mem_cons_of_mem _ h1, h2⟩

/-- **C90.** Nobody is admitted with a token that is older than its lifespan. -/
theorem C90_expiration : Upheld Rfc6819.expiration := by
  intro x hx r required hop ha
  obtain ⟨s₀, st, cx⟩ := context hx
  rw [cx.answer, C27_admits_iff cx.started cx.history] at ha
  obtain ⟨_, text, t, g, ⟨r', h1, h2⟩, h3, h4, h5, _⟩ := ha
  rw [hop] at h1
  cases h1
  rw [cx.config]
  obtain ⟨e, he, h6, n, h7, h8⟩ := inForce_age h4
  refine ⟨text, t, h2, h3, e, he, h6, n, h7, ?_⟩
  rw [h8] at h5
  exact h5

/-- Non-vacuity: the access token of the first event admits. -/
example : ∃ (x : Exchange) (r : Request), x.Happens ∧ x.call.op = .authorize r (some [b!"foo"]) ∧
    x.answer = .admitted :=
  ⟨_, _, demo_presents Demo.started Demo.history1 Demo.a1.string (some [b!"foo"]) 1100, rfl,
    by decide +kernel⟩

/-- **C90.** Nor is a code redeemed. -/
theorem C90_codeExpiration : Upheld Rfc6819.codeExpiration := by
  intro x hx fields id secret res h hgt hg
  obtain ⟨s₀, st, cx⟩ := context hx
  obtain ⟨rq, h1, h2, h3, h4⟩ := cx.granted h hg
  obtain ⟨_, _, _, _, hr, _⟩ := unrefused h4
  obtain ⟨c, g, h5, h6, h7, _⟩ := hr (by rw [h3.grantType, hgt])
  obtain ⟨new, e, old, rq', u, res', hp, _, _, h8, rfl⟩ := C35_code_origin h5
  rw [h3.code] at h6
  exact ⟨c, h6, e, by rw [hp]; simp, h8, h7⟩

/-- **C90.** Nor a refresh token used. -/
theorem C90_refreshExpiration : Upheld Rfc6819.refreshExpiration := by
  intro x hx fields id secret res h hgt hg
  obtain ⟨s₀, st, cx⟩ := context hx
  obtain ⟨rq, h1, h2, h3, h4⟩ := cx.granted h hg
  obtain ⟨_, _, _, _, _, hr⟩ := unrefused h4
  obtain ⟨g, ⟨t, h5, h6, h7, _⟩, _⟩ := hr (by rw [h3.grantType, hgt])
  obtain ⟨e, he, h8, n, h9, h10⟩ := inForce_age h5
  rw [h3.refreshToken] at h6
  refine ⟨t, h6, e, he, h8, n + 1, by omega, ?_⟩
  rw [h10] at h7
  exact h7

/-! ### Bindings -/

/-- **C90.** Refresh tokens are for the client that got them. -/
theorem C90_boundRefresh : Upheld Rfc6819.boundRefresh := by
  intro x hx fields id secret res h hgt hg
  obtain ⟨s₀, st, cx⟩ := context hx
  obtain ⟨rq, h1, h2, h3, h4⟩ := cx.granted h hg
  obtain ⟨_, hi, _, _, _, hr⟩ := unrefused h4
  obtain ⟨g, ⟨t, h5, h6, _, h7⟩, _⟩ := hr (by rw [h3.grantType, hgt])
  rw [h3.refreshToken] at h6
  rw [h3.clientID, h3.clientSecret] at hi
  exact ⟨cx.authentic.mpr hi, t, g, h5, h6, h7.trans h3.clientID⟩

/-- **C90.** Codes are for the client and the redirect URI for which they were asked. -/
theorem C90_boundCode : Upheld Rfc6819.boundCode := by
  intro x hx fields id secret res h hgt hg
  obtain ⟨s₀, st, cx⟩ := context hx
  obtain ⟨rq, h1, h2, h3, h4⟩ := cx.granted h hg
  obtain ⟨_, hi, _, _, hr, _⟩ := unrefused h4
  obtain ⟨c, g, h5, h6, _, h7, h8⟩ := hr (by rw [h3.grantType, hgt])
  rw [h3.code] at h6
  rw [h3.clientID, h3.clientSecret] at hi
  exact ⟨cx.authentic.mpr hi, c, g, h5, h6, h7.trans h3.clientID, by rw [h8]; exact h3.redirectURI⟩

/-- Non-vacuity: the third event of the session redeems the code of the second. -/
example : ∃ (x : Exchange) (fields : List (Str × Str)) (res : Response), x.Happens ∧
    x.Token fields b!"c2" [] res ∧ field fields b!"grant_type" = b!"authorization_code" ∧ Grants res := by
  obtain ⟨fields, ht, hf⟩ := demo_token_fields (s₀ := Demo.server) (s := Demo.s2) (h := [Demo.e2, Demo.e1])
    (auth := []) (coins := [7, 8, 9, 10]) (time := 1020) (path := b!"/token")
    (form := b!"grant_type=authorization_code&client_id=c2&redirect_uri=http%3A%2F%2Fexample.org%2Fcb%3Fx%3D1&" ++
      b!"code=" ++ Demo.x2.string)
    b!"c2" [] (by decide +kernel) (by decide +kernel) (by decide +kernel) (by decide +kernel)
    (by decide +kernel)
  exact ⟨_, _, _, demo_happens Demo.started Demo.history2 .., ht, by rw [hf]; decide +kernel,
    Demo.a3.string, by decide +kernel⟩

/-- Non-vacuity: the fourth event of the session uses the refresh token of the third. -/
example : ∃ (x : Exchange) (fields : List (Str × Str)) (res : Response), x.Happens ∧
    x.Token fields b!"c2" [] res ∧ field fields b!"grant_type" = b!"refresh_token" ∧ Grants res ∧
    UsesUp x.config x.event Demo.r3 := by
  obtain ⟨fields, ht, hf⟩ := demo_token_fields (s₀ := Demo.server) (s := Demo.s3)
    (h := [Demo.e3, Demo.e2, Demo.e1])
    (auth := []) (coins := [11, 12, 13, 14]) (time := 1030) (path := b!"/token")
    (form := b!"grant_type=refresh_token&client_id=c2&refresh_token=" ++ Demo.r3.string)
    b!"c2" [] (by decide +kernel) (by decide +kernel) (by decide +kernel) (by decide +kernel)
    (by decide +kernel)
  exact ⟨_, _, _, demo_happens Demo.started Demo.history3 .., ht, by rw [hf]; decide +kernel,
    ⟨Demo.a4.string, by decide +kernel⟩, by decide +kernel⟩

/-! ### One use -/

section
variable {x : Exchange} {s₀ st : Server} (cx : Context x s₀ st)
include cx

theorem Context.extended : History s₀ (x.event :: x.past) (step ⟨false, st⟩ x.call).2 := by
  rw [cx.event]
  exact .next _ cx.history

end

/-- **C90.** Refresh tokens are good for one use. -/
theorem C90_oneTime : Upheld Rfc6819.oneTime := by
  intro x hx t new e old hp hu hu'
  obtain ⟨s₀, st, cx⟩ := context hx
  have hh := cx.extended
  rw [hp] at hh
  rw [cx.config] at hu hu'
  exact C31_between_uses cx.started (later := []) hh hu hu'

/-- Non-vacuity: with a random source that repeats itself a refresh token is handed out and used
twice. -/
example : ∃ (x : Exchange) (new old : List Event) (e : Event), x.Happens ∧ x.past = new ++ e :: old ∧
    UsesUp x.config e Demo.r1 ∧ UsesUp x.config x.event Demo.r1 := by
  have hh := Demo.run_history (s₀ := Demo.server) [
    Demo.post b!"/token" [] b!"grant_type=password&client_id=c2&username=u1&password=p1" [1, 2, 3, 4] 0,
    Demo.post b!"/token" [] (b!"grant_type=refresh_token&client_id=c2&refresh_token=" ++ Demo.r1.string)
      [5, 6, 7, 8] 1,
    Demo.post b!"/token" [] b!"grant_type=password&client_id=c2&username=u1&password=p1" [1, 2, 3, 4] 2] .start
  have hx := Exchange.Happens.intro (Demo.post b!"/token" []
    (b!"grant_type=refresh_token&client_id=c2&refresh_token=" ++ Demo.r1.string) [5, 6, 7, 8] 3)
    Demo.started hh (fun r hr => by cases hr; exact ⟨rfl, rfl⟩)
  exact ⟨_, [_], [_], _, hx, rfl, by decide +kernel, by decide +kernel⟩

/-- **C90.** Codes are good for one use. -/
theorem C90_oneTimeCode : Upheld Rfc6819.oneTimeCode := by
  intro x hx t new e old hp hu hu'
  obtain ⟨s₀, st, cx⟩ := context hx
  have hh := cx.extended
  rw [hp] at hh
  rw [cx.config] at hu hu'
  exact C33_redeemed_once cx.started (later := []) hh hu hu'

/-- Non-vacuity: with a random source that repeats itself a code is handed out and redeemed twice. -/
example : ∃ (x : Exchange) (new old : List Event) (e : Event), x.Happens ∧ x.past = new ++ e :: old ∧
    Redeems x.config e Demo.x2 ∧ Redeems x.config x.event Demo.x2 := by
  have hh := Demo.run_history (s₀ := Demo.server) [
    Demo.post b!"/authorize" [] (b!"response_type=code&client_id=c1&username=u1&password=p1" ++
      b!"&redirect_uri=http%3A%2F%2Fexample.com%2Fcb") [5, 6] 0,
    Demo.post b!"/token" b!"c1:s1" (b!"grant_type=authorization_code&code=" ++ Demo.x2.string ++
      b!"&redirect_uri=http%3A%2F%2Fexample.com%2Fcb") [1, 2, 3, 4] 1,
    Demo.post b!"/authorize" [] (b!"response_type=code&client_id=c1&username=u1&password=p1" ++
      b!"&redirect_uri=http%3A%2F%2Fexample.com%2Fcb") [5, 6] 2] .start
  have hx := Exchange.Happens.intro (Demo.post b!"/token" b!"c1:s1"
    (b!"grant_type=authorization_code&code=" ++ Demo.x2.string ++
      b!"&redirect_uri=http%3A%2F%2Fexample.com%2Fcb") [5, 6, 7, 8] 3)
    Demo.started hh (fun r hr => by cases hr; exact ⟨rfl, rfl⟩)
  exact ⟨_, [_], [_], _, hx, rfl, by decide +kernel, by decide +kernel⟩

/-- **C90.** With every use of a refresh token it is replaced. -/
theorem C90_rotation : Upheld Rfc6819.rotation := by
  intro x hx t hu
  obtain ⟨s₀, st, cx⟩ := context hx
  refine ⟨fun g => used_gone (new := []) hu (by simp) t g rfl, ?_⟩
  obtain ⟨st', hst', ex, _, hseen⟩ := history_seen cx.started (new := []) cx.extended
  rw [cx.config] at hu ⊢
  have hno : ∀ {a b c red rev}, Obs s₀.config x.event a b c red none rev → False := by
    intro a b c red rev o
    rw [o.usesUp] at hu
    cases hu
  have hseen' := hseen
  cases hseen with
  | quiet q => exact (hno q).elim
  | revoke sig o => exact (hno o).elim
  | implicit _ _ _ _ _ _ _ _ _ _ _ o => exact (hno o).elim
  | code _ _ _ _ _ _ _ _ _ _ _ o => exact (hno o).elim
  | password _ _ _ _ _ _ _ _ _ _ _ o _ => exact (hno o).elim
  | client _ _ _ _ _ _ _ _ _ _ _ o _ => exact (hno o).elim
  | exchange _ _ _ _ _ _ _ _ _ _ _ _ _ _ _ _ o _ => exact (hno o).elim
  | refresh _ _ _ _ b y g _ _ _ hy _ _ _ _ _ o _ =>
    have hb : Hands x.event .refresh b := (o.refresh b).mpr rfl
    refine ⟨b, hb, fun hne => hands_inForce hseen' hb fun _ hu' => hne ?_⟩
    rw [o.usesUp] at hu hu'
    exact (Option.some.inj hu').symm.trans (Option.some.inj hu)

/-- **C90.** Not followed: the refresh token that was replaced turns up again, and the one that replaced it
stays in force. -/
theorem C90_rotationRevokes_refuted : ¬ Upheld Rfc6819.rotationRevokes := by
  intro hu
  obtain ⟨fields, ht, hf⟩ := demo_token_fields (s₀ := Demo.server) (s := Demo.s4)
    (h := [Demo.e4, Demo.e3, Demo.e2, Demo.e1])
    (auth := []) (coins := [15, 16, 17, 18]) (time := 1040) (path := b!"/token")
    (form := b!"grant_type=refresh_token&client_id=c2&refresh_token=" ++ Demo.r3.string)
    b!"c2" [] (by decide +kernel) (by decide +kernel) (by decide +kernel) (by decide +kernel)
    (by decide +kernel)
  have h4 : InForce Demo.server.config [Demo.e4, Demo.e3, Demo.e2, Demo.e1] .refresh Demo.r4 {
      client := b!"c2", user := b!"u1", scope := some [b!"foo"],
      expires := expiry Demo.server.config Demo.e4 1 .refresh } := by
    obtain ⟨res, h1⟩ : ∃ res, TokenCall Demo.e4 {
        grantType := b!"refresh_token", clientID := b!"c2", scope := some [b!"foo"],
        refreshToken := Demo.r3.string } res :=
      ⟨_, (tokenCall_asked _ _ _).mpr ⟨by decide +kernel, rfl⟩⟩
    exact .refresh h1 rfl (by decide +kernel) Demo.refresh3 (by decide +kernel) (fun _ => by decide +kernel)
  refine hu _ (demo_happens Demo.started Demo.history4 ..) fields _ _ _ Demo.r3 ht
    (by rw [hf]; decide +kernel) ⟨_, rfl, by decide⟩ (by decide) (by rw [hf]; decide +kernel)
    Demo.e4 (List.mem_cons_self ..) (by decide +kernel) Demo.r4 _ (by decide +kernel) (by decide +kernel) rfl
    (.later h4 ?_)
  rintro (⟨t', h, _⟩ | h | ⟨h, _⟩ | ⟨_, h⟩ | ⟨h, _⟩)
  · exact hands_none (by decide +kernel) h
  · exact absurd h (by decide +kernel)
  · exact h rfl
  · exact absurd h (by decide +kernel)
  · cases h

/-! ### What tokens are -/

/-- **C90.** Who is admitted presents a signed token. -/
theorem C90_signed : Upheld Rfc6819.signed := by
  intro x hx r required hop ha
  obtain ⟨s₀, st, cx⟩ := context hx
  rw [cx.answer, C27_admits_iff cx.started cx.history] at ha
  obtain ⟨_, text, t, g, ⟨r', h1, h2⟩, ⟨t', h3, _⟩, _⟩ := ha
  rw [hop] at h1
  cases h1
  rw [cx.config]
  refine ⟨text, t'.key, h2, ?_⟩
  obtain ⟨_, _, _, _, _, _, _, h4⟩ := (C02_accept_iff _ _ _).mp h3
  rw [← h4]
  exact h3

/-- **C90.** No token is for more than the server allows. -/
theorem C90_limitedScope : Upheld Rfc6819.limitedScope := by
  intro x hx k t g hi
  obtain ⟨s₀, st, cx⟩ := context hx
  rw [cx.config] at hi ⊢
  exact C36_token_scope cx.started cx.extended hi

/-- Non-vacuity: there are tokens. -/
example : ∃ (x : Exchange) (t : HS256Token) (g : Grant), x.Happens ∧
    InForce x.config (x.event :: x.past) .access t g := by
  refine ⟨_, Demo.a4, _, demo_presents Demo.started Demo.history4 Demo.a4.string none 1100, .later Demo.access4 ?_⟩
  exact not_ends (by decide +kernel) (by decide +kernel) (by simp) (by decide +kernel)

/-- **C90.** Nobody is admitted but by the authorization header. -/
theorem C90_header : Upheld Rfc6819.header := by
  intro x hx r required hop hn ha
  obtain ⟨s₀, st, cx⟩ := context hx
  rw [cx.answer, C27_admits_iff cx.started cx.history] at ha
  obtain ⟨_, text, t, g, ⟨r', h1, h2⟩, _⟩ := ha
  rw [hop] at h1
  cases h1
  exact hn text h2

/-- Non-vacuity: the access token of the first event in the query. -/
example : ∃ (x : Exchange) (r : Request), x.Happens ∧ x.call.op = .authorize r (some [b!"foo"]) ∧
    ∀ text, ¬ CarriesBearer (r.header.get b!"Authorization") text := by
  refine ⟨Demo.exchange Demo.server [Demo.e1] Demo.s1 { op := Op.authorize { method := b!"GET", path := b!"/api", rawQuery := b!"access_token=" ++ Demo.a1.string } (some [b!"foo"]), clock := fun _ => 1100 * second }, _,
    .intro _ Demo.started Demo.history1 fun r hr => (by cases hr), rfl, ?_⟩
  rintro text ⟨w, h, _⟩
  have := (congrArg List.length h).symm
  rw [List.length_append, List.length_append] at this
  exact absurd this (Nat.succ_ne_zero _ ∘ (Nat.add_right_comm _ _ _).symm.trans)

/-! ### The authorization endpoint -/

/-- **C90.** The authorization endpoint gives nothing without the resource owner. -/
theorem C90_consent : Upheld Rfc6819.consent := by
  intro x hx r res t hno hat hi
  obtain ⟨s₀, st, cx⟩ := context hx
  have hop : x.event.call.op = .serve r := hat.1
  have hrest : ∀ rq, Server.AuthorizationFor st r rq → r.method ≠ b!"GET" →
      Password st (Server.formUser r) (Server.formPassword r) →
      ∃ fields query, Posts r fields query ∧
        x.Owner (field fields b!"username") (field fields b!"password") := by
    intro rq hf hm hu
    have hfresh := cx.fresh r hat.1
    obtain ⟨all, hs, _⟩ := (C52_authorization_accepted hfresh rq).mp hf.parsed
    obtain ⟨h1, h2, _⟩ := (submits_iff hfresh all).mp hs
    rw [← cx.owner] at hu
    rcases parseForm_ok hfresh.1 hfresh.2 (h1.resolve_left hm) h2 with ⟨form, h⟩ | ⟨h, _⟩
    · obtain ⟨fields, query, hp, hk⟩ := formPost_posts h
      refine ⟨fields, query, hp, ?_⟩
      unfold Server.formUser Server.formPassword at hu
      rw [parseForm_formPost h] at hu
      simp only [Option.getD_some, get_field hk] at hu
      exact hu
    · unfold Server.formUser Server.formPassword at hu
      rw [h] at hu
      exact absurd hu hno
  have hseen := seen cx.exactly x.call
  rw [← cx.event] at hseen
  have htok : ∀ rq, Server.TokenRequestFor st r rq → False := fun rq hf =>
    absurd (lastSegment_unique hat.2.1 ((lastSegment_iff _ _).mpr hf.path)) (by decide)
  have quiet : ∀ {red use rev}, Obs x.config x.event none none none red use rev → False := by
    intro red use rev o
    rcases hi with ⟨k, h⟩ | h
    · exact o.not_hands h
    · rw [o.code] at h
      cases h
  have same : ∀ {r'}, x.event.call.op = .serve r' → r' = r := by
    intro r' h
    rw [hop] at h
    cases h
    rfl
  cases hseen with
  | quiet q => exact (quiet q).elim
  | revoke sig o => exact (quiet o).elim
  | implicit r' rq _ _ h1 hf hm _ _ hu => obtain rfl := same h1; exact hrest rq hf hm hu
  | code r' rq _ _ h1 hf hm _ _ hu => obtain rfl := same h1; exact hrest rq hf hm hu
  | password r' rq _ _ _ h1 hf => obtain rfl := same h1; exact (htok rq hf).elim
  | client r' rq _ _ _ h1 hf => obtain rfl := same h1; exact (htok rq hf).elim
  | exchange r' rq _ _ _ _ _ h1 hf => obtain rfl := same h1; exact (htok rq hf).elim
  | refresh r' rq _ _ _ _ _ h1 hf => obtain rfl := same h1; exact (htok rq hf).elim

/-- Non-vacuity: the second event of the session, without its predecessor. -/
example : ∃ (x : Exchange) (r : Request) (res : Response), x.Happens ∧ ¬ x.Owner [] [] ∧
    x.At b!"authorize" r res ∧ HandsCode x.event Demo.x2 ∧ res.header.all b!"Location" ≠ [] := by
  obtain ⟨fields, ⟨r, hat, _⟩, hf⟩ := demo_authorization (s₀ := Demo.server) (s := Demo.server) (h := []) (auth := [])
    (coins := [5, 6]) (time := 1010) (path := b!"/authorize")
    (form := b!"response_type=code&client_id=c1&redirect_uri=http%3A%2F%2Fexample.com%2Fcb&" ++
      b!"username=u1&password=p1") (by decide +kernel) (by decide +kernel) (by decide +kernel)
  refine ⟨_, r, _, demo_happens Demo.started .start .., ?_, hat, by decide +kernel, by decide +kernel⟩
  rintro ⟨e, h, _⟩
  cases h

/-- **C90.** The authorization endpoint is no open redirector. -/
theorem C90_redirector : Upheld Rfc6819.redirector := by
  intro x hx r res L hat hL
  obtain ⟨s₀, st, cx⟩ := context hx
  obtain ⟨r', rq, client, u, L', hop, hp, hq, hc, he, hu, hl, hrest, _⟩ :=
    C39_redirects_registered (s := st) (c := x.call) (cx.reply hat) (by rintro h; rw [h] at hL; cases hL)
  rw [hat.1] at hop
  cases hop
  rw [hl, List.mem_singleton] at hL
  subst hL
  obtain ⟨fields, hs, _, _, h1, _, h2, _⟩ := (C75_authorization_request (cx.fresh r hat.1) rq).mp hq
  refine ⟨fields, client, u, hs, ?_, ?_, hu, hrest⟩
  · rw [cx.clients, ← h1]
    exact hc
  · rw [he]
    exact h2

/-- A browser looks at the authorization page. -/
def Demo.visit : Call where
  op := .serve {
    method := b!"GET", path := b!"/authorize",
    rawQuery := b!"response_type=code&client_id=c1&redirect_uri=http%3A%2F%2Fexample.com%2Fcb" }
  clock := fun _ => 0

/-- **C90.** Not followed: pages are not protected from frames. -/
theorem C90_frames_refuted : ¬ Upheld Rfc6819.frames := by
  intro hu
  exact hu (Demo.exchange Demo.server [] Demo.server Demo.visit)
    (.intro _ Demo.started .start fun r hr => by cases hr; exact ⟨rfl, rfl⟩) _ _
    ⟨rfl, by decide +kernel, (by decide +kernel : _ = Answer.answered (Demo.response Demo.server Demo.visit))⟩
    rfl (by decide +kernel) (by decide +kernel)

/-! ### Secrets -/

/-- **C90.** Nothing with a token or a code in it is left in caches. -/
theorem C90_notCached : Upheld Rfc6819.notCached := by
  intro x hx r res t hop ha hi
  obtain ⟨s₀, st, cx⟩ := context hx
  rw [cx.event] at hi
  obtain ⟨res', h1, h2, h3, _⟩ := C26_handed_out (s := st) (c := x.call) (by
    rcases hi with ⟨k, h⟩ | h
    · exact .inl ⟨k, t, h⟩
    · exact .inr ⟨t, h⟩)
  rw [← cx.answer, ha] at h1
  cases h1
  exact ⟨h2, h3⟩

/-- **C90.** Of the tokens and codes that it hands out, the server keeps the HMAC only. -/
theorem C90_hashes : Rfc6819.hashes := by
  intro s r clock
  obtain ⟨g, hg⟩ := keeps (s := s) (r := r) (clock := clock)
  refine ⟨fun a b => ⟨false, g a b⟩, fun coins he => ?_⟩
  rw [step_serve rfl]
  exact congrArg (Shared.mk false) (hg _ ⟨rfl, he⟩)

/-- Non-vacuity: the random bytes matter, and there are enough of them. -/
example : Enough Demo.server.config Demo.c1 2 ∧
    (step ⟨false, Demo.server⟩ Demo.c1).2 ≠
      (step ⟨false, Demo.server⟩ { Demo.c1 with coins := [5, 6, 7, 8] }).2 := by
  refine ⟨by decide, fun h => ?_⟩
  exact absurd (congrArg (fun s => (s.st.accessTokens.get? Demo.a1.signatureString).isSome) h)
    (by decide +kernel)

/-! ### Guessing -/

/-- Failed attempts that change nothing. -/
theorem history_replicate {s₀ : Server} {c : Call} {e : Event} (h : step ⟨false, s₀⟩ c = (e.answer, ⟨false, s₀⟩))
    (hc : e.call = c) (n : Nat) : History s₀ (List.replicate n e) ⟨false, s₀⟩ := by
  induction n with
  | zero => exact .start
  | succ n ih =>
    have := History.next c ih
    rw [h] at this
    obtain ⟨_, _⟩ := e
    cases hc
    exact this

/-- A wrong password. -/
def Demo.guess : Call := Demo.post b!"/token" b!"c1:s1" b!"grant_type=password&username=u1&password=p2" [] 900

/-- A wrong secret. -/
def Demo.secretGuess : Call := Demo.post b!"/token" b!"c1:s2" b!"grant_type=client_credentials" [] 900

/-- **C90.** Not followed: after any number of wrong passwords, the right one gets tokens. -/
theorem C90_locks_refuted : ¬ Rfc6819.locks := by
  rintro ⟨limit, hu⟩
  obtain ⟨fields, ht, hv, hf⟩ := demo_token (s₀ := Demo.server) (s := Demo.server)
    (h := List.replicate limit ⟨Demo.guess, (step ⟨false, Demo.server⟩ Demo.guess).1⟩)
    (auth := b!"c1:s1") (coins := [1, 2, 3, 4]) (time := 1000) (path := b!"/token")
    (form := b!"grant_type=password&username=u1&password=p1&scope=foo")
    b!"c1" b!"s1" (by decide +kernel) (by decide +kernel) (by decide +kernel)
    (by decide +kernel)
  refine hu _ (demo_happens Demo.started (history_replicate (c := Demo.guess) (by decide +kernel) rfl limit) ..)
    fields _ _ _ ht (by rw [hf]; decide +kernel) (by simp [Demo.exchange]) (fun e he => ?_)
    ⟨Demo.a1.string, by decide +kernel⟩
  obtain ⟨_, rfl⟩ := List.mem_replicate.mp he
  rw [hf]
  exact ⟨{
      grantType := b!"password", clientID := b!"c1", clientSecret := b!"s1", username := b!"u1",
      password := b!"p2" }, Demo.response Demo.server Demo.guess,
    (tokenCall_asked _ _ _).mpr ⟨by decide +kernel, by decide +kernel⟩, rfl, by decide +kernel,
    by decide +kernel⟩

/-- **C90.** Not followed: after any number of wrong secrets, the right one gets tokens. -/
theorem C90_locksClients_refuted : ¬ Rfc6819.locksClients := by
  rintro ⟨limit, hu⟩
  obtain ⟨fields, ht, hv, hf⟩ := demo_token (s₀ := Demo.server) (s := Demo.server)
    (h := List.replicate limit ⟨Demo.secretGuess, (step ⟨false, Demo.server⟩ Demo.secretGuess).1⟩)
    (auth := b!"c1:s1") (coins := [1, 2, 3, 4]) (time := 1000) (path := b!"/token")
    (form := b!"grant_type=client_credentials&scope=foo")
    b!"c1" b!"s1" (by decide +kernel) (by decide +kernel) (by decide +kernel)
    (by decide +kernel)
  refine hu _ (demo_happens Demo.started (history_replicate (c := Demo.secretGuess) (by decide +kernel) rfl limit) ..)
    fields _ _ _ ht (by simp [Demo.exchange]) (fun e he => ?_)
    ⟨Demo.a1.string, by decide +kernel⟩
  obtain ⟨_, rfl⟩ := List.mem_replicate.mp he
  exact ⟨{ grantType := b!"client_credentials", clientID := b!"c1", clientSecret := b!"s2" },
    Demo.response Demo.server Demo.secretGuess,
    (tokenCall_asked _ _ _).mpr ⟨by decide +kernel, by decide +kernel⟩, rfl, by decide +kernel⟩

end OAuth2

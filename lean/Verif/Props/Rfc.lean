import Verif.Lemmas.Rfc
import Verif.Lemmas.RfcDemo
import Verif.Props.Reads
/-
C80: the server does what the specifications demand (Verif/Spec/Rfc.lean), sentence by sentence, at
the token endpoint; where it does not, see Verif/Props/RfcNot.lean.
-/

namespace OAuth2

open Spec Rfc

/-! ### Clients -/

/-- **C80.** Access token requests that are not POST requests are refused. -/
theorem C80_6749_post : Upheld Rfc6749.post := by
  intro x hx r res h hm
  obtain ⟨s₀, st, cx⟩ := context hx
  have hbad : Malformed x.call :=
    ⟨r, h.1, .inr (.inl ⟨h.2.1, fun rq hq => hm (tokenRequest_post hq)⟩)⟩
  obtain ⟨h1, h2⟩ := refused_error h.2.2 (cx.answer ▸ (C66_malformed st hbad).1)
  exact ⟨⟨by omega, h2⟩, error_not_grants (cx.conforms h) (by omega)⟩

/-- Non-vacuity: a GET request to the token endpoint. -/
example : ∃ (x : Exchange) (r : Request) (res : Response), x.Happens ∧ x.At b!"token" r res ∧
    r.method ≠ b!"POST" := by
  refine ⟨Demo.exchange Demo.server [] Demo.server { op := .serve { method := b!"GET", path := b!"/token" }, clock := fun _ => 0 },
    _, _, .intro _ Demo.started .start ?_, ⟨rfl, by decide, (by decide +kernel : _ = Answer.answered
      (Demo.response Demo.server { op := .serve { method := b!"GET", path := b!"/token" }, clock := fun _ => 0 }))⟩, by decide⟩
  intro r hr
  cases hr
  exact ⟨rfl, rfl⟩

/-- Leaving out what is empty or not recognized. -/
theorem field_filter {names : List Str} {name : Str} (hn : name ∈ names) :
    ∀ {fields : List (Str × Str)}, (fields.map (·.1)).Nodup →
      (valuesOf fields name).head?.getD [] =
        (valuesOf (fields.filter fun p => p.1 ∈ names ∧ p.2 ≠ []) name).head?.getD []
  | [], _ => rfl
  | (k, v) :: fields, hd => by
    rw [List.map_cons, List.nodup_cons] at hd
    have ih := field_filter hn hd.2
    unfold valuesOf at ih ⊢
    by_cases hk : k = name
    · subst hk
      have hnone : fields.filter (fun p => p.1 = k) = [] := by
        rw [List.filter_eq_nil_iff]
        intro p hp he
        exact hd.1 (List.mem_map.mpr ⟨p, hp, by simpa using he⟩)
      by_cases hv : v = []
      · rw [hnone] at ih
        subst hv
        simpa [List.filter_cons, hnone, hn] using ih
      · simp [hn, hv]
    · by_cases hp : k ∈ names ∧ v ≠ []
      · simpa [List.filter_cons, hk, hp] using ih
      · have hp' : decide (k ∈ names ∧ v ≠ []) = false := by simpa using hp
        rw [List.filter_cons_of_neg (by simpa using hk), List.filter_cons_of_neg (by simp only [hp']; simp)]
        exact ih

/-- **C80.** Parameters without a value and parameters that are not recognized make no difference. -/
theorem C80_6749_omitted : Rfc6749.omitted := by
  intro s r r' fields coins clock hp hp' hpath hauth hd
  apply C70_same
  obtain ⟨form, h, hv⟩ := posts_formPost hp
  obtain ⟨form', h', hv'⟩ := posts_formPost hp'
  have hb : r.basicAuth = r'.basicAuth := by unfold Request.basicAuth; rw [hauth]
  have e : ∀ name ∈ parameterNames, inBody r name = inBody r' name := fun name hn => by
    rw [inBody_formPost h, inBody_formPost h', hv, hv', field_filter hn hd]
  have e' : ∀ name ∈ parameterNames, inForm r name = inForm r' name := fun name hn => by
    rw [inForm_formPost h, inForm_formPost h', (C75_form _).2 _ hp.query, (C75_form _).2 _ hp'.query]
    have := e name hn
    rw [inBody_formPost h, inBody_formPost h'] at this
    simpa [valuesOf] using this
  refine ⟨fun seg => by rw [hpath], h.method.trans h'.method.symm, ?_, ?_, ?_, ?_⟩
  · rw [parseForm_formPost h, parseForm_formPost h']
  · refine fun _ => ⟨?_, fun name hn => e name ?_⟩
    · unfold presented
      rw [hb, e b!"client_id" (by decide), e b!"client_secret" (by decide)]
    · revert hn; revert name; decide
  · refine fun _ => ⟨hb, fun name hn => e name ?_⟩
    revert hn; revert name; decide
  · refine fun _ => ⟨fun name hn => e' name ?_, fun name hn => e name ?_⟩ <;>
      (revert hn; revert name; decide)

/-- Non-vacuity: an empty scope and a parameter of another specification are left out. -/
example : ∃ fields : List (Str × Str),
    Posts (Demo.request b!"/token" b!"c1:s1" b!"grant_type=client_credentials&scope=&resource=a") fields [] ∧
    Posts (Demo.request b!"/token" b!"c1:s1" b!"grant_type=client_credentials")
      (fields.filter fun p => p.1 ∈ parameterNames ∧ p.2 ≠ []) [] ∧
    (fields.map (·.1)).Nodup ∧ fields.length = 3 := by
  have text : ∀ t : Str, queryUnescape t = some t → FormText t t := fun t => (C75_escapes t t).mp
  refine ⟨[(b!"grant_type", b!"client_credentials"), (b!"scope", []), (b!"resource", b!"a")],
    ⟨rfl, ⟨rfl, rfl⟩, (C75_content_type _ _).mp (by decide +kernel), ⟨_, rfl, rfl, by decide, ?_⟩, .empty⟩,
    ⟨rfl, ⟨rfl, rfl⟩, (C75_content_type _ _).mp (by decide +kernel), ⟨_, rfl, rfl, by decide, ?_⟩, .empty⟩,
    by decide, rfl⟩
  · exact .field (p := b!"grant_type=client_credentials") (t := b!"scope=&resource=a") (by decide +kernel)
      (.value (k := b!"grant_type") (v := b!"client_credentials") (by decide) (text _ (by decide)) (text _ (by decide)))
      (.inl rfl) (.field (p := b!"scope=") (t := b!"resource=a") (by decide +kernel)
        (.value (k := b!"scope") (v := []) (by decide) (text _ (by decide)) (text _ (by decide))) (.inl rfl)
        (.last (by decide +kernel)
          (.value (k := b!"resource") (v := b!"a") (by decide) (text _ (by decide)) (text _ (by decide)))))
  · exact .last (by decide +kernel)
      (.value (k := b!"grant_type") (v := b!"client_credentials") (by decide) (text _ (by decide)) (text _ (by decide)))

/-- **C80.** A confidential client gets nothing without its secret. -/
theorem C80_6749_authenticate : Upheld Rfc6749.authenticate := by
  intro x hx fields id secret res client h hc hcc hs hg
  obtain ⟨s₀, st, cx⟩ := context hx
  obtain ⟨rq, _, _, hr, hn⟩ := cx.granted h hg
  obtain ⟨e, h1, h2⟩ := (unrefused hn).2.1
  rw [hr.clientID, ← cx.clients, hc] at h1
  cases h1
  exact hs ((h2 hcc).trans hr.clientSecret)

/-- Non-vacuity: a confidential client with a wrong secret. -/
example : ∃ (x : Exchange) (fields : List (Str × Str)) (res : Response), x.Happens ∧
    x.Token fields b!"c1" b!"s2" res ∧ x.clients.get? b!"c1" = some Demo.client1 := by
  obtain ⟨fields, ht, _, hf⟩ := demo_token (s₀ := Demo.server) (s := Demo.server) (h := [])
    (auth := b!"c1:s2") (coins := [1, 2, 3, 4]) (time := 1000) (path := b!"/token")
    (form := b!"grant_type=client_credentials")
    b!"c1" b!"s2" (by decide +kernel) (by decide +kernel) (by decide +kernel) (by decide +kernel)
  exact ⟨_, _, _, demo_happens Demo.started .start .., ht, rfl⟩

/-- **C80.** Basic credentials identify a client by its identifier and secret as they are. -/
theorem C80_6749_basicPlain : Upheld Rfc6749.basicPlain := by
  intro x hx r res id secret e h hb hc hcc hs he
  obtain ⟨s₀, st, cx⟩ := context hx
  have hfresh := cx.fresh r h.1
  cases hq : parseTokenRequest r with
  | error err =>
    have hbad : Malformed x.call :=
      ⟨r, h.1, .inr (.inl ⟨h.2.1, fun rq h => by rw [hq] at h; cases h⟩)⟩
    obtain ⟨_, h2⟩ := refused_error h.2.2 (cx.answer ▸ (C66_malformed st hbad).1)
    exact absurd (error_unique (cx.conforms h) he.2 h2) (by decide)
  | ok rq =>
    obtain ⟨f, q, hp, _, _, hf, _⟩ := (C75_token_request hfresh rq).mp hq
    obtain ⟨e1, e2⟩ := from_unique hp hp hf (.header hb)
    have hid : Identified st rq.clientID rq.clientSecret :=
      ⟨e, by rw [e1, ← cx.clients, hc], fun _ => hs.trans e2.symm⟩
    have hr := (cx.refusal ⟨r, h.1, h.2.1, hq⟩ h.2.2 _).mp he
    generalize hn : b!"invalid_client" = n at hr
    cases hr with
    | unidentified _ h1 => exact h1 hid
    | publicClient _ h1 h2 =>
      rw [e1, ← cx.clients, hc] at h1
      cases h1
      rw [hcc] at h2
      cases h2
    | _ => exact absurd hn (by decide)

/-- Non-vacuity: a confidential client with its secret. -/
example : ∃ (x : Exchange) (r : Request) (res : Response), x.Happens ∧ x.At b!"token" r res ∧
    BasicCredentials (r.header.get b!"Authorization") b!"c1" b!"s1" ∧
    x.clients.get? b!"c1" = some Demo.client1 := by
  obtain ⟨fields, ht, _, hf⟩ := demo_token (s₀ := Demo.server) (s := Demo.server) (h := [])
    (auth := b!"c1:s1") (coins := [1, 2, 3, 4]) (time := 1000) (path := b!"/token")
    (form := b!"grant_type=client_credentials")
    b!"c1" b!"s1" (by decide +kernel) (by decide +kernel) (by decide +kernel) (by decide +kernel)
  obtain ⟨r, _, hat, _⟩ := ht
  refine ⟨_, r, _, demo_happens Demo.started .start .., hat, ?_, rfl⟩
  cases hat.1
  exact (C75_credentials (Demo.request _ _ _) _ _).mp (by decide +kernel)

/-! ### Codes -/

/-- **C80.** A code that was redeemed is not redeemed again. -/
theorem C80_6749_codeOnce : Upheld Rfc6749.codeOnce := by
  intro x hx fields id secret res c g h ht hsame hcode hg
  obtain ⟨s₀, st, cx⟩ := context hx
  obtain ⟨rq, _, _, hr, hn⟩ := cx.granted h hg
  obtain ⟨c', g', h1, h2, _⟩ := (unrefused hn).2.2.2.2.1 (hr.grantType.trans ht)
  rw [hr.code] at h2
  exact absurd (code_unique cx.exactly hcode h1 (same_same hsame h2)).2 (by decide)

/-- Non-vacuity: the fifth event of the session replays the code of the second. -/
example : ∃ (x : Exchange) (fields : List (Str × Str)) (res : Response) (g : CodeGrant), x.Happens ∧
    x.Token fields b!"c2" [] res ∧ field fields b!"grant_type" = b!"authorization_code" ∧
    SameToken x.config (field fields b!"code") Demo.x2 ∧ Code x.config x.past Demo.x2 g true := by
  obtain ⟨fields, ht, hf⟩ := demo_token_fields (s₀ := Demo.server) (s := Demo.s4) (h := [Demo.e4, Demo.e3, Demo.e2, Demo.e1])
    (auth := []) (coins := [15, 16, 17, 18]) (time := 1040) (path := b!"/token")
    (form := b!"grant_type=authorization_code&client_id=c2&redirect_uri=http%3A%2F%2Fexample.org%2Fcb%3Fx%3D1&" ++
      b!"code=" ++ Demo.x2.string)
    b!"c2" [] (by decide +kernel) (by decide +kernel) (by decide +kernel) (by decide +kernel) (by decide +kernel)
  exact ⟨_, _, _, _, demo_happens Demo.started Demo.history4 .., ht, (by rw [hf]; decide +kernel), (by rw [hf]; decide +kernel), Demo.code4⟩

/-- **C80.** A code that has expired is not redeemed. -/
theorem C80_6749_codeExpires : Upheld Rfc6749.codeExpires := by
  intro x hx fields id secret res c g used h ht hsame hcode hexp hg
  obtain ⟨s₀, st, cx⟩ := context hx
  obtain ⟨rq, _, _, hr, hn⟩ := cx.granted h hg
  obtain ⟨c', g', h1, h2, h3, _⟩ := (unrefused hn).2.2.2.2.1 (hr.grantType.trans ht)
  rw [hr.code] at h2
  have := (code_unique cx.exactly hcode h1 (same_same hsame h2)).1
  subst this
  unfold Time at *
  omega

/-- Non-vacuity: the code of the second event, too late. -/
example : ∃ (x : Exchange) (fields : List (Str × Str)) (res : Response) (g : CodeGrant), x.Happens ∧
    x.Token fields b!"c2" [] res ∧ field fields b!"grant_type" = b!"authorization_code" ∧
    SameToken x.config (field fields b!"code") Demo.x2 ∧ Code x.config x.past Demo.x2 g false ∧
    g.expires < x.now := by
  obtain ⟨fields, ht, hf⟩ := demo_token_fields (s₀ := Demo.server) (s := Demo.s2) (h := [Demo.e2, Demo.e1])
    (auth := []) (coins := [15, 16, 17, 18]) (time := 1611) (path := b!"/token")
    (form := b!"grant_type=authorization_code&client_id=c2&redirect_uri=http%3A%2F%2Fexample.org%2Fcb%3Fx%3D1&" ++
      b!"code=" ++ Demo.x2.string)
    b!"c2" [] (by decide +kernel) (by decide +kernel) (by decide +kernel) (by decide +kernel) (by decide +kernel)
  exact ⟨_, _, _, _, demo_happens Demo.started Demo.history2 .., ht, (by rw [hf]; decide +kernel), (by rw [hf]; decide +kernel), Demo.code2, by decide +kernel⟩

/-- **C80.** A code is redeemed only for the client that it was issued to, with the redirect URI that it
was issued for. -/
theorem C80_6749_codeBound : Upheld Rfc6749.codeBound := by
  intro x hx fields id secret res uri h ht hu hg
  obtain ⟨s₀, st, cx⟩ := context hx
  obtain ⟨rq, _, _, hr, hn⟩ := cx.granted h hg
  obtain ⟨_, hi, _, _, hcode, _⟩ := unrefused hn
  obtain ⟨c, g, h1, h2, _, h3, h4⟩ := hcode (hr.grantType.trans ht)
  refine ⟨?_, c, g, h1, hr.code ▸ h2, h3.trans hr.clientID, h4.trans (formText_unique hr.redirectURI hu)⟩
  rw [cx.authentic, ← hr.clientID, ← hr.clientSecret]
  exact hi

/-- Non-vacuity: the code of the second event is exchanged. -/
example : ∃ (x : Exchange) (fields : List (Str × Str)) (res : Response), x.Happens ∧
    x.Token fields b!"c2" [] res ∧ field fields b!"grant_type" = b!"authorization_code" ∧
    FormText (field fields b!"redirect_uri") b!"http://example.org/cb?x=1" ∧ Grants res := by
  obtain ⟨fields, ht, hf⟩ := demo_token_fields (s₀ := Demo.server) (s := Demo.s2) (h := [Demo.e2, Demo.e1])
    (auth := []) (coins := [7, 8, 9, 10]) (time := 1020) (path := b!"/token")
    (form := b!"grant_type=authorization_code&client_id=c2&redirect_uri=http%3A%2F%2Fexample.org%2Fcb%3Fx%3D1&" ++
      b!"code=" ++ Demo.x2.string)
    b!"c2" [] (by decide +kernel) (by decide +kernel) (by decide +kernel) (by decide +kernel) (by decide +kernel)
  refine ⟨_, _, _, demo_happens Demo.started Demo.history2 .., ht, (by rw [hf]; decide +kernel), by rw [hf, ← C75_escapes]; decide +kernel, Demo.a3.string, by decide +kernel⟩

/-- **C80.** A code that was redeemed takes the tokens with it that were issued for it when it is
presented again. -/
theorem C80_6749_codeRevokesDirect : Upheld Rfc6749.codeRevokesDirect := by
  intro x hx fields id secret res c g uri h ht hid hne hu hru hsame hcode k t g' hi ho
  obtain ⟨s₀, st, cx⟩ := context hx
  have hh := h
  obtain ⟨r, query, hat, _⟩ := hh
  rcases cx.token h with ⟨_, _, h3 | h3 | h3⟩ | ⟨rq, h1, h2, h3⟩
  · rw [ht] at h3; cases h3
  · exact hne h3
  · exact h3 ⟨uri, hu, .inr (redirectURI_target hru)⟩
  · rw [cx.authentic, ← h3.clientID, ← h3.clientSecret] at hid
    have ht' := h3.grantType.trans ht
    rw [← h3.code] at hsame
    have hun : ∀ g, ¬ Unused x.config x.past rq.code g := by
      rintro g1 ⟨c1, k1, k2⟩
      exact absurd (code_unique cx.exactly hcode k1 (same_same hsame k2)).2 (by decide)
    have hs : Signed x.config rq.code := ⟨_, hsame.choose_spec.1⟩
    have hsay := (C66_token_explained cx.started cx.history h1 400 (by omega) _ _).mpr
      ⟨.unknownCode ht' hid (cx.config ▸ hs) (cx.config ▸ hun), by decide⟩
    obtain ⟨res', k1, k2, k3, k4⟩ := hsay
    rw [← cx.answer, hat.2.2] at k1
    cases k1
    obtain ⟨t', k5, k6⟩ := hsame
    have hrep : Replays x.config x.event c.signatureString :=
      ⟨rq, res, t', h2, ht', k5, k6, k3, (k4 _).mpr ⟨by decide, rfl⟩⟩
    rcases inForce_cons.mp hi with hi | ⟨_, hi⟩
    · exact error_hands_nothing cx hat (by omega) _ _ hi.hands
    · refine hi (.inr (.inr (.inl ⟨?_, ho ▸ hrep⟩)))
      rw [ho, ← k6]
      exact parsed_signature_ne_nil k5

/-- Non-vacuity: the code of the second event is replayed, and until then a token issued for
it is in force. -/
example : ∃ (x : Exchange) (fields : List (Str × Str)) (res : Response) (g : CodeGrant) (g' : Grant), x.Happens ∧
    x.Token fields b!"c2" [] res ∧ field fields b!"grant_type" = b!"authorization_code" ∧
    x.Authentic b!"c2" [] ∧ FormText (field fields b!"redirect_uri") b!"http://example.org/cb?x=1" ∧
    (∃ u, RedirectURI b!"http://example.org/cb?x=1" u) ∧
    SameToken x.config (field fields b!"code") Demo.x2 ∧ Code x.config x.past Demo.x2 g true ∧
    InForce x.config x.past .access Demo.a3 g' ∧ g'.origin = Demo.x2.signatureString := by
  obtain ⟨fields, ht, hf⟩ := demo_token_fields (s₀ := Demo.server) (s := Demo.s4) (h := [Demo.e4, Demo.e3, Demo.e2, Demo.e1])
    (auth := []) (coins := [15, 16, 17, 18]) (time := 1040) (path := b!"/token")
    (form := b!"grant_type=authorization_code&client_id=c2&redirect_uri=http%3A%2F%2Fexample.org%2Fcb%3Fx%3D1&" ++
      b!"code=" ++ Demo.x2.string)
    b!"c2" [] (by decide +kernel) (by decide +kernel) (by decide +kernel) (by decide +kernel) (by decide +kernel)
  refine ⟨_, _, _, _, _, demo_happens Demo.started Demo.history4 .., ht, (by rw [hf]; decide +kernel), ⟨_, rfl, by decide⟩, by rw [hf, ← C75_escapes]; decide +kernel,
    ⟨{ scheme := b!"http", host := b!"example.org", path := b!"/cb", rawQuery := b!"x=1" },
      by decide +kernel, by decide, by decide, .inr (by decide)⟩,
    (by rw [hf]; decide +kernel), Demo.code4, .later Demo.access3 ?_, rfl⟩
  rintro (⟨t', h, h'⟩ | h | ⟨_, h⟩ | ⟨h, _⟩ | ⟨_, h⟩)
  · rw [hands_only (by decide +kernel : handed Demo.e4 .access = [Demo.a4.string]) h] at h'
    exact absurd h' (by decide +kernel)
  · exact absurd h (by decide +kernel)
  · exact absurd h (by decide +kernel)
  · cases h
  · exact absurd h (by decide +kernel)

/-! ### Grants -/

/-- **C80.** Tokens for a password are for users who gave theirs. -/
theorem C80_6749_password : Upheld Rfc6749.password := by
  intro x hx fields id secret res h ht hg
  obtain ⟨s₀, st, cx⟩ := context hx
  obtain ⟨rq, _, _, hr, hn⟩ := cx.granted h hg
  obtain ⟨_, hi, _, hp, _⟩ := unrefused hn
  rw [cx.authentic, cx.owner, ← hr.clientID, ← hr.clientSecret, ← hr.username, ← hr.password]
  exact ⟨hi, hp (hr.grantType.trans ht)⟩

/-- Non-vacuity: a password that is right. -/
example : ∃ (x : Exchange) (fields : List (Str × Str)) (res : Response), x.Happens ∧
    x.Token fields b!"c1" b!"s1" res ∧ field fields b!"grant_type" = b!"password" ∧ Grants res := by
  obtain ⟨fields, ht, _, hf⟩ := demo_token (s₀ := Demo.server) (s := Demo.server) (h := [])
    (auth := b!"c1:s1") (coins := [1, 2, 3, 4]) (time := 1000) (path := b!"/token")
    (form := b!"grant_type=password&username=u1&password=p1&scope=foo")
    b!"c1" b!"s1" (by decide +kernel) (by decide +kernel) (by decide +kernel) (by decide +kernel)
  exact ⟨_, _, _, demo_happens Demo.started .start .., ht, (by rw [hf]; decide +kernel), Demo.a1.string, by decide +kernel⟩

/-- **C80.** Only confidential clients get tokens for themselves. -/
theorem C80_6749_confidential : Upheld Rfc6749.confidential := by
  intro x hx fields id secret res h ht hg
  obtain ⟨s₀, st, cx⟩ := context hx
  obtain ⟨rq, _, _, hr, hn⟩ := cx.granted h hg
  obtain ⟨e, h1, h2, h3⟩ := (unrefused hn).2.2.1 (hr.grantType.trans ht)
  rw [cx.clients, ← hr.clientID, ← hr.clientSecret]
  exact ⟨e, h1, h2, h3⟩

/-- Non-vacuity: a confidential client gets tokens for itself. -/
example : ∃ (x : Exchange) (fields : List (Str × Str)) (res : Response), x.Happens ∧
    x.Token fields b!"c1" b!"s1" res ∧ field fields b!"grant_type" = b!"client_credentials" ∧ Grants res := by
  obtain ⟨fields, ht, _, hf⟩ := demo_token (s₀ := Demo.server) (s := Demo.server) (h := [])
    (auth := b!"c1:s1") (coins := [1, 2, 3, 4]) (time := 1000) (path := b!"/token")
    (form := b!"grant_type=client_credentials&scope=bar")
    b!"c1" b!"s1" (by decide +kernel) (by decide +kernel) (by decide +kernel) (by decide +kernel)
  exact ⟨_, _, _, demo_happens Demo.started .start .., ht, (by rw [hf]; decide +kernel), Demo.a1.string, by decide +kernel⟩

/-- **C80.** A refresh token is good for the client it was issued to, and for the scope it was issued
for. -/
theorem C80_6749_refresh : Upheld Rfc6749.refresh := by
  intro x hx fields id secret res requested h ht hsc hg
  obtain ⟨s₀, st, cx⟩ := context hx
  obtain ⟨rq, _, hcall, hr, hn⟩ := cx.granted h hg
  obtain ⟨_, hi, _, _, _, hf⟩ := unrefused hn
  have ht' := hr.grantType.trans ht
  obtain ⟨g, hf, hw⟩ := hf ht'
  refine ⟨?_, g, by rw [← hr.refreshToken, ← hr.clientID]; exact hf, ?_⟩
  · rw [cx.authentic, ← hr.clientID, ← hr.clientSecret]
    exact hi
  · intro a g' hh hif
    have hscope := scopeText_unique hr.scope hsc
    rcases inForce_cons.mp hif with hif | ⟨_, he⟩
    · obtain ⟨_, h1⟩ := (issued_token hcall).mp hif
      obtain ⟨u, g₁, h2, h3, h4⟩ : ∃ u g₁, InForce x.config x.past .refresh u g₁ ∧
          SameToken x.config rq.refreshToken u ∧ g' = {
            client := g₁.client, user := g₁.user,
            scope := if rq.scope.empty then g₁.scope else rq.scope,
            expires := expiry x.config x.event 1 .access } := by
        rcases h1 with ⟨h1, _⟩ | ⟨h1, _⟩ | ⟨h1, _⟩ | ⟨_, u, g₁, h2, h3, _, h4⟩
        · exact absurd (ht'.symm.trans h1) (by decide)
        · exact absurd (ht'.symm.trans h1) (by decide)
        · exact absurd (ht'.symm.trans h1) (by decide)
        · exact ⟨u, g₁, h2, h3, h4⟩
      obtain ⟨t, k1, k2, _⟩ := hf
      have := token_unique cx.exactly k1 h2 (same_same k2 h3)
      subst this
      subst h4
      refine ⟨rfl, rfl, ?_, ?_⟩
      · show Within (if rq.scope.empty then g.scope else rq.scope) g.scope
        split
        · exact fun i hi => hi
        · exact hw
      · rintro rfl
        show (if rq.scope.empty then g.scope else rq.scope) = g.scope
        rw [hscope]
        rfl
    · exact absurd (.inl ⟨a, hh, rfl⟩) he

/-- Non-vacuity: the refresh token of the third event is used for a narrower scope. -/
example : ∃ (x : Exchange) (fields : List (Str × Str)) (res : Response), x.Happens ∧
    x.Token fields b!"c2" [] res ∧ field fields b!"grant_type" = b!"refresh_token" ∧
    ScopeText (field fields b!"scope") (some [b!"foo"]) ∧ Grants res ∧ Hands x.event .access Demo.a4 := by
  obtain ⟨fields, ht, hf⟩ := demo_token_fields (s₀ := Demo.server) (s := Demo.s3) (h := [Demo.e3, Demo.e2, Demo.e1])
    (auth := []) (coins := [11, 12, 13, 14]) (time := 1030) (path := b!"/token")
    (form := b!"grant_type=refresh_token&client_id=c2&scope=foo&refresh_token=" ++ Demo.r3.string)
    b!"c2" [] (by decide +kernel) (by decide +kernel) (by decide +kernel) (by decide +kernel) (by decide +kernel)
  exact ⟨_, _, _, demo_happens Demo.started Demo.history3 .., ht, (by rw [hf]; decide +kernel), (scopeText_iff _ _).mp (by rw [hf]; decide +kernel), ⟨Demo.a4.string, by decide +kernel⟩, by decide +kernel⟩

/-- **C80.** If what is granted is not what was asked for, the response says so. -/
theorem C80_6749_scope : Upheld Rfc6749.scope := by
  intro x hx fields id secret res requested t g h hgt hall hsc hh hif
  obtain ⟨s₀, st, cx⟩ := context hx
  have h' := h
  obtain ⟨r, query, hat, _⟩ := h'
  have hlt : res.statusCode < 400 := by
    apply Classical.byContradiction
    intro hc
    exact error_hands_nothing cx hat (by omega) _ _ hh
  rcases cx.token h with ⟨h1, _⟩ | ⟨rq, _, hcall, hr⟩
  · omega
  have hscope := scopeText_unique hr.scope hsc
  subst hscope
  rcases inForce_cons.mp hif with hi | ⟨_, he⟩
  · rcases ((issued_token hcall).mp hi).2 with ⟨_, h1⟩ | ⟨_, h1⟩ | ⟨h1, _⟩ | ⟨ht, u, g₁, h2, h3, _, h4⟩
    · right; intro i; rw [h1]
    · right; intro i; rw [h1]
    · exact absurd (hr.grantType.symm.trans h1) hgt
    · by_cases hemp : rq.scope.empty = true
      · obtain ⟨rq', a, b, scope, k1, k2, k3⟩ := token_answer cx hat hlt
        obtain ⟨r', q1, _, q2, _⟩ := hcall
        have q1' : x.call.op = .serve r' := q1
        rw [hat.1] at q1'
        cases q1'
        rw [q2] at k1
        cases k1
        obtain ⟨t', stored, k4, k5, k6⟩ := k3 ht
        obtain ⟨t'', k7, k8⟩ := h3
        rw [k4] at k7
        cases k7
        obtain ⟨y, g₂, m1, m2, m3⟩ := (cx.exactly.refresh _ _).mp k5
        have := token_unique cx.exactly m2 h2 (m1.trans k8)
        subst this
        have hg : g.scope = scope := by
          rw [h4, k6, m3]
          rfl
        have hallowed : Within g₂.scope x.config.allowedScope := by
          have := C36_token_scope cx.started cx.history (cx.config ▸ m2)
          rw [cx.config]
          exact this
        have hg2 : g.scope = g₂.scope := by rw [h4]; simp [hemp]
        by_cases hne : g.scope.items = []
        · right
          rw [hne]
          have : Scope.items rq.scope = [] := by
            rw [List.eq_nil_iff_forall_not_mem]
            exact (C07_empty _).mp hemp
          rw [this]
          exact fun i => Iff.rfl
        · left
          refine ⟨_, token_scope k2 (by show scope.items ≠ []; rw [← hg]; exact hne), ?_⟩
          show ScopeItems (sanitize scope.string) g.scope.items
          rw [← hg]
          exact scope_string_items (l := g.scope.items) fun i hi => hall i (hallowed i (hg2 ▸ hi))
      · right
        intro i
        rw [h4]
        simp [hemp]
  · exact absurd (.inl ⟨t, hh, rfl⟩) he

/-- Non-vacuity: the first event of the session; the scope is what was requested, and the response says
so. -/
example : ∃ (x : Exchange) (fields : List (Str × Str)) (res : Response) (g : Grant), x.Happens ∧
    x.Token fields b!"c1" b!"s1" res ∧ field fields b!"grant_type" ≠ b!"authorization_code" ∧
    (∀ i ∈ x.config.allowedScope.items, ScopeToken i) ∧
    ScopeText (field fields b!"scope") (some [b!"foo"]) ∧ Hands x.event .access Demo.a1 ∧
    InForce x.config (x.event :: x.past) .access Demo.a1 g := by
  have he : (Demo.exchange Demo.server [] Demo.server Demo.c1).event = Demo.e1 := by
    unfold Demo.exchange Exchange.event
    rw [Demo.step1]
    rfl
  obtain ⟨fields, ht, hf⟩ := demo_token_fields (s₀ := Demo.server) (s := Demo.server) (h := [])
    (auth := []) (coins := [1, 2, 3, 4]) (time := 1000) (path := b!"/oauth2/token")
    (form := b!"grant_type=password&client_id=c1&client_secret=s1&username=u1&password" ++
      b!"=p1&scope=foo")
    b!"c1" b!"s1" (by decide +kernel) (by decide +kernel) (by decide +kernel) (by decide +kernel) (by decide +kernel)
  refine ⟨_, _, _, {
    client := b!"c1", user := b!"u1", scope := some [b!"foo"], expires := 4600 * second }, demo_happens Demo.started .start .., ht, (by rw [hf]; decide +kernel), by unfold ScopeToken; decide +kernel, (scopeText_iff _ _).mp (by rw [hf]; decide +kernel), ?_, ?_⟩
  · exact he ▸ (by decide +kernel : Hands Demo.e1 .access Demo.a1)
  · have := demo_access1
    rw [← he] at this
    exact this

/-! ### Responses -/

/-- **C80.** A successful response of the token endpoint has the members that are required. -/
theorem C80_6749_tokenResponse : Upheld Rfc6749.tokenResponse := by
  intro x hx r res h hs
  obtain ⟨s₀, st, cx⟩ := context hx
  have no : ∀ {ep}, LastSegment r.path ep → ep ≠ b!"token" → False := fun h1 h2 =>
    h2 (lastSegment_unique h1 h.2.1)
  cases cx.conforms h with
  | tokens ms a n _ h200 hh hp _ ht ha he =>
    obtain ⟨rq, a', b, scope, _, k2, _⟩ := token_answer cx h hs
    refine ⟨h200, ⟨a, ms, hp, ha⟩, ⟨ms, hp, ht⟩, token_expiresIn k2, ?_⟩
    rw [perm_all hh (by decide +kernel)]
    decide +kernel
  | description _ _ h1 => exact (no h1 (by decide)).elim
  | revoked h1 => exact (no h1 (by decide)).elim
  | failure _ name _ _ _ _ _ h1 =>
    have := statusOf_ge name
    omega
  | redirect _ h1 => exact (no h1 (by decide)).elim
  | page h1 => exact (no h1 (by decide)).elim
  | notFound h1 h2 => omega

/-- Non-vacuity: a password that is right. -/
example : ∃ (x : Exchange) (r : Request) (res : Response), x.Happens ∧ x.At b!"token" r res ∧
    res.statusCode < 400 := by
  obtain ⟨fields, ht, _, hf⟩ := demo_token (s₀ := Demo.server) (s := Demo.server) (h := [])
    (auth := b!"c1:s1") (coins := [1, 2, 3, 4]) (time := 1000) (path := b!"/token")
    (form := b!"grant_type=password&username=u1&password=p1&scope=foo")
    b!"c1" b!"s1" (by decide +kernel) (by decide +kernel) (by decide +kernel) (by decide +kernel)
  obtain ⟨r, _, hat, _⟩ := ht
  exact ⟨_, r, _, demo_happens Demo.started .start .., hat, by decide +kernel⟩

/-- **C80.** Responses with tokens or codes are not to be stored. -/
theorem C80_6749_noStore : Upheld Rfc6749.noStore := by
  intro x hx r endpoint res h hd
  obtain ⟨s₀, st, cx⟩ := context hx
  obtain ⟨h1, h2, _⟩ := C26_not_cached (cx.reply h) (hd.imp_left fun ⟨a, ha⟩ => ⟨a, .inl ha⟩)
  exact ⟨h1, h2⟩

/-- Non-vacuity: a password that is right, and a code for a client. -/
example : (∃ (x : Exchange) (r : Request) (res : Response), x.Happens ∧ x.At b!"token" r res ∧ Grants res) ∧
    ∃ (x : Exchange) (r : Request) (res : Response), x.Happens ∧ x.At b!"authorize" r res ∧
      res.header.all b!"Location" ≠ [] := by
  constructor
  · obtain ⟨fields, ht, _, hf⟩ := demo_token (s₀ := Demo.server) (s := Demo.server) (h := [])
      (auth := b!"c1:s1") (coins := [1, 2, 3, 4]) (time := 1000) (path := b!"/token")
      (form := b!"grant_type=password&username=u1&password=p1&scope=foo")
      b!"c1" b!"s1" (by decide +kernel) (by decide +kernel) (by decide +kernel) (by decide +kernel)
    obtain ⟨r, _, hat, _⟩ := ht
    exact ⟨_, r, _, demo_happens Demo.started .start .., hat, Demo.a1.string, by decide +kernel⟩
  · obtain ⟨fields, ht, hf⟩ := demo_authorization (s₀ := Demo.server) (s := Demo.server) (h := []) (auth := [])
      (coins := [1, 2]) (time := 1000) (path := b!"/authorize")
      (form := b!"response_type=code&client_id=c1&redirect_uri=http%3A%2F%2Fexample.com%2Fcb&username=u1&password=p1")
      (by decide +kernel) (by decide +kernel) (by decide +kernel)
    obtain ⟨r, hat, _⟩ := ht
    exact ⟨_, r, _, demo_happens Demo.started .start .., hat, by decide +kernel⟩

/-- **C80.** No member of a document is there twice. -/
theorem C80_6749_once : Upheld Rfc6749.once := by
  intro x hx r endpoint res members h hm
  obtain ⟨s₀, st, cx⟩ := context hx
  have key : ∀ {l : List Str} {ms : List (Str × JSON)}, parseJSON res.body = some (.obj ms) →
      (ms.map (·.1)).Sublist l → l.Nodup → (members.map (·.1)).Nodup := by
    intro l ms hp hs hn
    rw [hm] at hp
    cases hp
    exact hs.nodup hn
  have empty : res.body = [] → (members.map (·.1)).Nodup := by
    intro hb
    rw [hb, (by decide +kernel : parseJSON [] = none)] at hm
    cases hm
  cases cx.conforms h with
  | tokens _ _ _ _ _ _ hp hs => exact key hp hs (by decide)
  | description _ _ _ _ _ hp hs => exact key hp hs (by decide)
  | revoked _ _ _ hb => exact empty hb
  | failure _ _ _ _ _ _ _ _ _ hp hs => exact key hp hs (by decide)
  | redirect _ _ _ _ hb => exact empty hb
  | page _ _ _ hb =>
    rw [hb, (by decide +kernel : parseJSON Server.notice = none)] at hm
    cases hm
  | notFound _ _ _ hb =>
    rw [hb, (by decide +kernel : parseJSON b!"404 page not found\n" = none)] at hm
    cases hm

/-- Non-vacuity: an error document with two members. -/
example : ∃ (x : Exchange) (r : Request) (res : Response) (members : List (Str × JSON)), x.Happens ∧
    x.At b!"token" r res ∧ parseJSON res.body = some (.obj members) ∧ members.length = 2 := by
  obtain ⟨fields, ht, _, hf⟩ := demo_token (s₀ := Demo.server) (s := Demo.server) (h := [])
    (auth := b!"c1:s2") (coins := [1, 2, 3, 4]) (time := 1000) (path := b!"/token")
    (form := b!"grant_type=client_credentials")
    b!"c1" b!"s2" (by decide +kernel) (by decide +kernel) (by decide +kernel) (by decide +kernel)
  have hb : (Demo.response Demo.server (Demo.post b!"/token" b!"c1:s2" b!"grant_type=client_credentials"
      [1, 2, 3, 4] 1000)).body =
        b!"{\"error\":\"invalid_client\",\"error_description\":\"unknown client\"}\n" := by decide +kernel
  obtain ⟨r, _, hat, _⟩ := ht
  exact ⟨_, r, _, _, demo_happens Demo.started .start .., hat, by rw [hb]; rfl, rfl⟩

/-! ### Errors -/

/-- Requests without a password are not denied. -/
theorem not_denied {x : Exchange} {s₀ st : Server} (cx : Context x s₀ st) {r : Request}
    {res : Response} (h : x.At b!"token" r res)
    (hp : ∀ fields query, Posts r fields query → field fields b!"grant_type" ≠ b!"password") {name : Str}
    (he : Rfc.Error res name) :
    name ∈ [b!"invalid_request", b!"invalid_client", b!"invalid_grant", b!"invalid_scope"] ∧
      res.statusCode = statusOf name := by
  obtain ⟨ms, ep, eps, h1, h2, h3, h4, _⟩ := error_failure (cx.conforms h) he.2
  refine ⟨?_, h4⟩
  have := lastSegment_unique h3 h.2.1
  subst this
  have hne : name ≠ b!"access_denied" := by
    rintro rfl
    cases hq : parseTokenRequest r with
    | error e =>
      have hbad : Malformed x.call :=
        ⟨r, h.1, .inr (.inl ⟨h.2.1, fun rq h => by rw [hq] at h; cases h⟩)⟩
      obtain ⟨_, h2⟩ := refused_error h.2.2 (cx.answer ▸ (C66_malformed st hbad).1)
      exact absurd (error_unique (cx.conforms h) he.2 h2) (by decide)
    | ok rq =>
      obtain ⟨f, q, hpo, hgt, _⟩ := (C75_token_request (cx.fresh r h.1) rq).mp hq
      have hr := (cx.refusal ⟨r, h.1, h.2.1, hq⟩ h.2.2 _).mp he
      generalize hn : b!"access_denied" = n at hr
      cases hr with
      | password h1 => exact hp f q hpo (hgt.symm.trans h1)
      | _ => exact absurd hn (by decide)
  revert h1 h2
  unfold Spec.reported
  simp only [List.mem_cons, List.not_mem_nil, or_false, Prod.mk.injEq]
  rintro (⟨rfl, rfl⟩ | ⟨rfl, rfl⟩ | ⟨rfl, rfl⟩ | ⟨rfl, rfl⟩ | ⟨rfl, rfl⟩ | ⟨rfl, rfl⟩) hep
  · simp
  · simp
  · simp
  · simp
  · exact absurd rfl hne
  · exact absurd hep (by decide)

/-- **C80.** Errors have the status 400, or 401 if the client is not who it says. -/
theorem C80_6749_errorStatusOther : Upheld Rfc6749.errorStatusOther := by
  intro x hx r res name h hp he
  obtain ⟨s₀, st, cx⟩ := context hx
  obtain ⟨h1, h2⟩ := not_denied cx h hp he
  rw [h2]
  simp only [List.mem_cons, List.not_mem_nil, or_false] at h1
  rcases h1 with rfl | rfl | rfl | rfl <;> decide

/-- Non-vacuity: a client that is not recognized. -/
example : ∃ (x : Exchange) (r : Request) (res : Response), x.Happens ∧ x.At b!"token" r res ∧
    (∀ fields query, Posts r fields query → field fields b!"grant_type" ≠ b!"password") ∧
    Rfc.Error res b!"invalid_client" := by
  obtain ⟨fields, ht, _, hf⟩ := demo_token (s₀ := Demo.server) (s := Demo.server) (h := [])
    (auth := b!"c1:s2") (coins := [1, 2, 3, 4]) (time := 1000) (path := b!"/token")
    (form := b!"grant_type=client_credentials")
    b!"c1" b!"s2" (by decide +kernel) (by decide +kernel) (by decide +kernel) (by decide +kernel)
  obtain ⟨r, q, hat, hp, _⟩ := ht
  refine ⟨_, r, _, demo_happens Demo.started .start .., hat, fun f' q' hp' => ?_, by decide +kernel⟩
  rw [posts_field hp' hp, hf]
  decide +kernel

/-- **C80.** Errors have one of the names of the specification. -/
theorem C80_6749_errorCodeOther : Upheld Rfc6749.errorCodeOther := by
  intro x hx r res name h hp he
  obtain ⟨s₀, st, cx⟩ := context hx
  have h1 := (not_denied cx h hp he).1
  simp only [List.mem_cons, List.not_mem_nil, or_false] at h1
  rcases h1 with rfl | rfl | rfl | rfl <;> simp

/-- Non-vacuity: a scope that is not allowed. -/
example : ∃ (x : Exchange) (r : Request) (res : Response), x.Happens ∧ x.At b!"token" r res ∧
    (∀ fields query, Posts r fields query → field fields b!"grant_type" ≠ b!"password") ∧
    Rfc.Error res b!"invalid_scope" := by
  obtain ⟨fields, ht, _, hf⟩ := demo_token (s₀ := Demo.server) (s := Demo.server) (h := [])
    (auth := b!"c1:s1") (coins := [1, 2, 3, 4]) (time := 1000) (path := b!"/token")
    (form := b!"grant_type=client_credentials&scope=baz")
    b!"c1" b!"s1" (by decide +kernel) (by decide +kernel) (by decide +kernel) (by decide +kernel)
  obtain ⟨r, q, hat, hp, _⟩ := ht
  refine ⟨_, r, _, demo_happens Demo.started .start .., hat, fun f' q' hp' => ?_, by decide +kernel⟩
  rw [posts_field hp' hp, hf]
  decide +kernel

/-- **C80.** Errors and their descriptions are made of the characters of the specification. -/
theorem C80_6749_errorText : Upheld Rfc6749.errorText := by
  intro x hx r endpoint res text h hm
  obtain ⟨s₀, st, cx⟩ := context hx
  rcases hm with hm | hm
  · obtain ⟨ms, ep, eps, h1, _⟩ := error_failure (cx.conforms h) hm
    revert h1
    unfold Spec.reported
    simp only [List.mem_cons, List.not_mem_nil, or_false, Prod.mk.injEq]
    rintro (⟨rfl, _⟩ | ⟨rfl, _⟩ | ⟨rfl, _⟩ | ⟨rfl, _⟩ | ⟨rfl, _⟩ | ⟨rfl, _⟩) <;>
      exact errorText_of_dec (by decide +kernel)
  · exact error_text cx h hm

/-- Non-vacuity: an error with a description. -/
example : ∃ (x : Exchange) (r : Request) (res : Response), x.Happens ∧ x.At b!"token" r res ∧
    JsonMember res b!"error_description" b!"unknown client" := by
  obtain ⟨fields, ht, _, hf⟩ := demo_token (s₀ := Demo.server) (s := Demo.server) (h := [])
    (auth := b!"c1:s2") (coins := [1, 2, 3, 4]) (time := 1000) (path := b!"/token")
    (form := b!"grant_type=client_credentials")
    b!"c1" b!"s2" (by decide +kernel) (by decide +kernel) (by decide +kernel) (by decide +kernel)
  obtain ⟨r, _, hat, _⟩ := ht
  exact ⟨_, r, _, demo_happens Demo.started .start .., hat, by decide +kernel⟩

/-- **C80.** A client that is not who it says gets the status 401 and is asked for basic
authentication. -/
theorem C80_6749_challenge : Upheld Rfc6749.challenge := by
  intro x hx r endpoint res h he
  obtain ⟨s₀, st, cx⟩ := context hx
  obtain ⟨ms, ep, eps, _, _, _, h4, _⟩ := error_failure (cx.conforms h) he.2
  have h401 : res.statusCode = 401 := by rw [h4]; decide
  exact ⟨h401, b!"realm=\"OAuth2\"", (C68_challenge h.1 (cx.reply h)).2 h401⟩

/-- Non-vacuity: a client that is not recognized. -/
example : ∃ (x : Exchange) (r : Request) (res : Response), x.Happens ∧ x.At b!"token" r res ∧
    Rfc.Error res b!"invalid_client" := by
  obtain ⟨fields, ht, _, hf⟩ := demo_token (s₀ := Demo.server) (s := Demo.server) (h := [])
    (auth := b!"c1:s2") (coins := [1, 2, 3, 4]) (time := 1000) (path := b!"/token")
    (form := b!"grant_type=client_credentials")
    b!"c1" b!"s2" (by decide +kernel) (by decide +kernel) (by decide +kernel) (by decide +kernel)
  obtain ⟨r, _, hat, _⟩ := ht
  exact ⟨_, r, _, demo_happens Demo.started .start .., hat, by decide +kernel⟩

/-- **C80.** Unknown grant types are refused. -/
theorem C80_6749_unknownGrantType : Upheld Rfc6749.unknownGrantType := by
  intro x hx fields id secret res h ht
  obtain ⟨s₀, st, cx⟩ := context hx
  have hh := h
  obtain ⟨r, query, hat, _⟩ := hh
  rcases cx.token h with ⟨h1, h2, _⟩ | ⟨rq, h1, _, h3⟩
  · exact ⟨by omega, h2⟩
  · exact (cx.refusal h1 hat.2.2 _).mpr (.grantType fun h => ht (h3.grantType ▸ mem_grantTypes.mp h))

/-- Non-vacuity: a grant type of another specification. -/
example : ∃ (x : Exchange) (fields : List (Str × Str)) (res : Response), x.Happens ∧
    x.Token fields b!"c1" b!"s1" res ∧ field fields b!"grant_type" ∉ grantTypes := by
  obtain ⟨fields, ht, _, hf⟩ := demo_token (s₀ := Demo.server) (s := Demo.server) (h := [])
    (auth := b!"c1:s1") (coins := [1, 2, 3, 4]) (time := 1000) (path := b!"/token")
    (form := b!"grant_type=device_code")
    b!"c1" b!"s1" (by decide +kernel) (by decide +kernel) (by decide +kernel) (by decide +kernel)
  exact ⟨_, _, _, demo_happens Demo.started .start .., ht, (by rw [hf]; decide +kernel)⟩

/-- **C80.** A code of the server that is invalid, expired, used, for another client or for another
redirect URI is refused as such. -/
theorem C80_6749_badCodeSigned : Upheld Rfc6749.badCodeSigned := by
  intro x hx fields id secret res uri h hid hne ht hu hru hs hn
  obtain ⟨s₀, st, cx⟩ := context hx
  have hh := h
  obtain ⟨r, query, hat, _⟩ := hh
  rcases cx.token h with ⟨_, _, h3 | h3 | h3⟩ | ⟨rq, h1, h2, h3⟩
  · rw [ht] at h3; cases h3
  · exact absurd h3 hne
  · exact absurd ⟨uri, hu, .inr (redirectURI_target hru)⟩ h3
  · rw [cx.authentic, ← h3.clientID, ← h3.clientSecret] at hid
    refine (cx.refusal h1 hat.2.2 _).mpr (.code (h3.grantType.trans ht) hid (h3.code ▸ hs) ?_)
    rw [h3.code, h3.clientID, formText_unique h3.redirectURI hu]
    exact hn

/-- Non-vacuity: an access token in place of a code. -/
example : ∃ (x : Exchange) (fields : List (Str × Str)) (res : Response), x.Happens ∧
    x.Token fields b!"c1" b!"s1" res ∧ x.Authentic b!"c1" b!"s1" ∧
    field fields b!"grant_type" = b!"authorization_code" ∧
    FormText (field fields b!"redirect_uri") Demo.client1.redirectURI ∧
    (∃ u, RedirectURI Demo.client1.redirectURI u) ∧ Signed x.config (field fields b!"code") ∧
    ¬ Redeemable x.config x.past (field fields b!"code") b!"c1" Demo.client1.redirectURI x.now := by
  obtain ⟨fields, ht, _, hf⟩ := demo_token (s₀ := Demo.server) (s := Demo.server) (h := [])
    (auth := b!"c1:s1") (coins := [1, 2, 3, 4]) (time := 1000) (path := b!"/token")
    (form := b!"grant_type=authorization_code&redirect_uri=http%3A%2F%2Fexample.com%2Fcb&code=" ++ Demo.a1.string)
    b!"c1" b!"s1" (by decide +kernel) (by decide +kernel) (by decide +kernel) (by decide +kernel)
  refine ⟨_, _, _, demo_happens Demo.started .start .., ht, ⟨Demo.client1, rfl, fun _ => rfl⟩, (by rw [hf]; decide +kernel), by rw [hf, ← C75_escapes]; decide +kernel,
    ⟨_, Demo.client1_uri⟩, ⟨Demo.a1, (by rw [hf]; decide +kernel)⟩, ?_⟩
  rintro ⟨c, g, hc, _⟩
  cases hc

end OAuth2

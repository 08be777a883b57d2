import Verif.Spec.Parsed
import Verif.Props.Acceptance
import Verif.Props.Reads

/-!
C95: requests whose form the program has already looked at.
-/

namespace OAuth2

open Spec

set_option linter.unusedSimpArgs false

/-! ### Parsing twice -/

theorem parseForm_known {r : Request} {posted all : Values} (h : Known r posted all) :
    r.parseForm = (r, false) := by
  obtain ⟨h1, h2⟩ := h
  unfold Request.parseForm
  cases r
  simp only at h1 h2
  subst h1 h2
  rfl

theorem parseForm_knows (r : Request) : ∃ posted all, Known r.parseForm.1 posted all := by
  unfold Request.parseForm
  dsimp only
  split <;> exact ⟨_, _, rfl, rfl⟩

/-- **C95.** Parsing the form of a request for a second time never fails and changes nothing. -/
theorem C95_twice (r : Request) : r.parseForm.1.parseForm = (r.parseForm.1, false) := by
  obtain ⟨_, _, h⟩ := parseForm_knows r
  exact parseForm_known h

theorem parseForm_keeps (r : Request) : r.parseForm.1.path = r.path ∧
    r.parseForm.1.method = r.method ∧ r.parseForm.1.header = r.header ∧
    r.parseForm.1.body = r.body ∧ r.parseForm.1.bodyErr = r.bodyErr ∧
    r.parseForm.1.rawQuery = r.rawQuery := by
  unfold Request.parseForm
  dsimp only
  split <;> exact ⟨rfl, rfl, rfl, rfl, rfl, rfl⟩

theorem saysTheSame_parsed {r : Request} (h : r.parseForm.2 = false) :
    SaysTheSame r.parseForm.1 r := by
  obtain ⟨h1, h2, h3, _⟩ := parseForm_keeps r
  have e := C95_twice r
  have hb : ∀ name, inBody r.parseForm.1 name = inBody r name := by
    intro name; unfold inBody; rw [e]
  have hf : ∀ name, inForm r.parseForm.1 name = inForm r name := by
    intro name; unfold inForm; rw [e]
  refine ⟨fun seg => by rw [h1], h2, by rw [e, h], fun _ => ⟨?_, fun n _ => hb n⟩,
    fun _ => ⟨basicAuth_parseForm r, fun n _ => hb n⟩,
    fun _ => ⟨fun n _ => hf n, fun n _ => hb n⟩⟩
  unfold presented
  rw [basicAuth_parseForm, hb, hb]

/-- **C95.** If the form could be read when the program looked at it, the Parse functions make of
the request what they would have made of it untouched, and the server answers it in the same way and
with the same effect. -/
theorem C95_same {r : Request} (h : r.parseForm.2 = false) :
    parseTokenRequest r.parseForm.1 = parseTokenRequest r ∧
    parseAuthorizationRequest r.parseForm.1 = parseAuthorizationRequest r ∧
    parseIntrospectionRequest r.parseForm.1 = parseIntrospectionRequest r ∧
    parseRevocationRequest r.parseForm.1 = parseRevocationRequest r ∧
    ∀ (s : Server) (coins : Str) (clock : Nat → Time),
      step ⟨false, s⟩ { op := .serve r.parseForm.1, coins := coins, clock := clock } =
        step ⟨false, s⟩ { op := .serve r, coins := coins, clock := clock } := by
  have e := C95_twice r
  have hm := (parseForm_keeps r).2.1
  refine ⟨?_, ?_, ?_, ?_, fun s coins clock => C70_same (saysTheSame_parsed h) s coins clock⟩
  · unfold parseTokenRequest
    rw [e, hm, ← h]
  · unfold parseAuthorizationRequest
    rw [e, hm, ← h]
  · unfold parseIntrospectionRequest
    rw [e, hm, ← h]
  · unfold parseRevocationRequest
    rw [e, hm, ← h]

/-- **C95.** In particular a program may look into a request with the Parse function of its endpoint
and then leave it to the server: whatever was accepted by the one is what the other answers. -/
theorem C95_inspected {r : Request} (h : (∃ t, parseTokenRequest r = .ok t) ∨
    (∃ q, parseAuthorizationRequest r = .ok q) ∨ (∃ q, parseIntrospectionRequest r = .ok q) ∨
    (∃ q, parseRevocationRequest r = .ok q)) (s : Server) (coins : Str) (clock : Nat → Time) :
    step ⟨false, s⟩ { op := .serve r.parseForm.1, coins := coins, clock := clock } =
      step ⟨false, s⟩ { op := .serve r, coins := coins, clock := clock } := by
  refine (C95_same ?_).2.2.2.2 s coins clock
  cases hf : r.parseForm.2 with
  | false => rfl
  | true =>
    exfalso
    rcases h with ⟨t, h⟩ | ⟨q, h⟩ | ⟨q, h⟩ | ⟨q, h⟩
    · unfold parseTokenRequest at h
      simp only [hf, if_true] at h
      split at h <;> cases h
    · unfold parseAuthorizationRequest at h
      simp only [hf, if_true] at h
      split at h <;> cases h
    · unfold parseIntrospectionRequest at h
      simp only [hf, if_true] at h
      split at h <;> cases h
    · unfold parseRevocationRequest at h
      simp only [hf, if_true] at h
      split at h <;> cases h

/-! ### What is accepted -/

/-- **C95.** A token request with a known form is accepted exactly if it is a POST request and the
values of its body have what a token request needs; nothing is said of its body, content type and
query as they arrived. -/
theorem C95_token {r : Request} {posted all : Values} (hk : Known r posted all)
    (t : TokenRequest) :
    parseTokenRequest r = .ok t ↔ r.method = b!"POST" ∧
      t.grantType = posted.get b!"grant_type" ∧ t.grantType ≠ [] ∧
      Credentials r posted t.clientID t.clientSecret ∧ t.clientID ≠ [] ∧
      t.scope = Scope.parse (posted.get b!"scope") ∧
      t.username = posted.get b!"username" ∧ t.password = posted.get b!"password" ∧
      t.refreshToken = posted.get b!"refresh_token" ∧ t.code = posted.get b!"code" ∧
      queryUnescape (posted.get b!"redirect_uri") = some t.redirectURI ∧
      (t.redirectURI = [] ∨ Target t.redirectURI) := by
  rw [credentials_iff]
  unfold parseTokenRequest
  simp only [parseForm_known hk, hk.posted, Option.getD_some, Bool.false_eq_true, if_false]
  constructor
  · intro hp
    split at hp
    · cases hp
    rename_i hm
    split at hp
    · cases hp
    rename_i hg
    rcases hc : r.basicAuth with _ | ⟨u, p⟩
    all_goals
      simp only [hc, Option.getD_none, Option.getD_some] at hp ⊢
      split at hp
      · cases hp
      rename_i hid
      split at hp
      · cases hp
      rename_i uri hu
      by_cases he : uri = []
      · subst he
        simp only [ne_eq, not_true_eq_false, if_false, Bool.not_true, Bool.false_eq_true] at hp
        injection hp with hp
        subst hp
        exact ⟨by simpa using hm, rfl, hg, rfl, hid, rfl, rfl, rfl, rfl, rfl, hu, .inl rfl⟩
      · cases hq : parseRequestURI uri with
        | none => simp [he, hq] at hp
        | some v =>
          simp only [he, ne_eq, not_false_eq_true, if_true, hq, C17_fragment_never_seen hq,
            decide_true, Bool.not_true, Bool.false_eq_true, if_false] at hp
          injection hp with hp
          subst hp
          exact ⟨by simpa using hm, rfl, hg, rfl, hid, rfl, rfl, rfl, rfl, rfl, hu, .inr ⟨v, hq⟩⟩
  · rintro ⟨hm, h1, h1', hcred, h2', h3, h4, h5, h6, h7, h8, h9⟩
    rw [if_neg (by simp [hm]), if_neg (by rw [← h1]; exact h1')]
    rcases hc : r.basicAuth with _ | ⟨u, p⟩
    all_goals
      rw [hc] at hcred
      simp only [Option.getD_none, Option.getD_some, Prod.mk.injEq] at hcred
      simp only [← hcred.1, ← hcred.2]
      rw [if_neg h2']
      simp only [h8]
      rw [if_neg (by
        rcases h9 with h9 | ⟨u, hu⟩
        · simp [h9]
        · simp [hu, C17_fragment_never_seen hu]), ← h1, ← h3, ← h4, ← h5, ← h6, ← h7]

/-- **C95.** The same for introspection requests, … -/
theorem C95_introspection {r : Request} {posted all : Values} (hk : Known r posted all)
    (q : IntrospectionRequest) :
    parseIntrospectionRequest r = .ok q ↔ r.method = b!"POST" ∧
      q.token = posted.get b!"token" ∧ q.token ≠ [] ∧
      q.tokenTypeHint = posted.get b!"token_type_hint" ∧
      NamesUser (r.header.get b!"Authorization") q.clientID q.clientSecret := by
  rw [← basicAuth_iff]
  unfold parseIntrospectionRequest
  simp only [parseForm_known hk, hk.posted, Option.getD_some, Bool.false_eq_true, if_false]
  constructor
  · intro hp
    split at hp
    · cases hp
    rename_i hm
    split at hp
    · cases hp
    rename_i ht
    split at hp
    · cases hp
    rename_i u p hb
    injection hp with hp
    subst hp
    exact ⟨by simpa using hm, rfl, ht, rfl, hb⟩
  · rintro ⟨hm, h1, h1', h2, h3⟩
    rw [if_neg (by simp [hm]), if_neg (by rw [← h1]; exact h1'), h3]
    cases q
    simp_all

/-- **C95.** … revocation requests, … -/
theorem C95_revocation {r : Request} {posted all : Values} (hk : Known r posted all)
    (q : RevocationRequest) :
    parseRevocationRequest r = .ok q ↔ r.method = b!"POST" ∧
      q.token = posted.get b!"token" ∧ q.token ≠ [] ∧
      q.tokenTypeHint = posted.get b!"token_type_hint" ∧
      NamesUser (r.header.get b!"Authorization") q.clientID q.clientSecret := by
  rw [← basicAuth_iff]
  unfold parseRevocationRequest
  simp only [parseForm_known hk, hk.posted, Option.getD_some, Bool.false_eq_true, if_false]
  constructor
  · intro hp
    split at hp
    · cases hp
    rename_i hm
    split at hp
    · cases hp
    rename_i ht
    split at hp
    · cases hp
    rename_i u p hb
    injection hp with hp
    subst hp
    exact ⟨by simpa using hm, rfl, ht, rfl, hb⟩
  · rintro ⟨hm, h1, h1', h2, h3⟩
    rw [if_neg (by simp [hm]), if_neg (by rw [← h1]; exact h1'), h3]
    cases q
    simp_all

/-- **C95.** … and authorization requests, for which all values of the request count. -/
theorem C95_authorization {r : Request} {posted all : Values} (hk : Known r posted all)
    (q : AuthorizationRequest) :
    parseAuthorizationRequest r = .ok q ↔ (r.method = b!"GET" ∨ r.method = b!"POST") ∧
      q.responseType = all.get b!"response_type" ∧ q.responseType ≠ [] ∧
      q.clientID = all.get b!"client_id" ∧ q.clientID ≠ [] ∧
      queryUnescape (all.get b!"redirect_uri") = some q.redirectURI ∧
      q.redirectURI ≠ [] ∧ Target q.redirectURI ∧
      q.scope = Scope.parse (all.get b!"scope") ∧ q.state = all.get b!"state" := by
  unfold parseAuthorizationRequest
  simp only [parseForm_known hk, hk.all, Option.getD_some, Bool.false_eq_true, if_false]
  constructor
  · intro hp
    split at hp
    · cases hp
    rename_i hm
    split at hp
    · cases hp
    rename_i hr
    split at hp
    · cases hp
    rename_i hc
    split at hp
    · cases hp
    rename_i uri hu
    split at hp
    · cases hp
    rename_i he
    split at hp
    · cases hp
    rename_i u hq
    split at hp
    · cases hp
    injection hp with hp
    subst hp
    exact ⟨Decidable.or_iff_not_not_and_not.mpr hm, rfl, hr, rfl, hc, hu, he, ⟨u, hq⟩, rfl, rfl⟩
  · rintro ⟨hm, h1, h1', h2, h2', h3, h3', ⟨u, hu⟩, h4, h5⟩
    rw [if_neg (by rcases hm with hm | hm <;> simp [hm]), if_neg (by rw [← h1]; exact h1'),
      if_neg (by rw [← h2]; exact h2')]
    simp only [h3, if_neg h3', hu]
    rw [if_neg (by simp [C17_fragment_never_seen hu]), ← h1, ← h2, ← h4, ← h5]

/-! ### What the server reads -/

theorem saysTheSame_known {r r' : Request} {posted all posted' all' : Values}
    (hseg : ∀ seg, LastSegment r.path seg ↔ LastSegment r'.path seg)
    (hm : r.method = r'.method)
    (hauth : r.header.get b!"Authorization" = r'.header.get b!"Authorization")
    (h1 : r.parseForm.2 = false) (h1' : r'.parseForm.2 = false)
    (hk : Known r.parseForm.1 posted all) (hk' : Known r'.parseForm.1 posted' all')
    (hp : SameFields posted posted')
    (ha : LastSegment r.path b!"authorize" → SameFields all all') : SaysTheSame r r' := by
  have hb : ∀ name ∈ parameterNames, inBody r name = inBody r' name := by
    intro name hn
    unfold inBody
    rw [hk.posted, hk'.posted]
    exact hp name hn
  have hf : LastSegment r.path b!"authorize" →
      ∀ name ∈ parameterNames, inForm r name = inForm r' name := by
    intro h name hn
    unfold inForm
    rw [hk.all, hk'.all]
    exact ha h name hn
  have hba : r.basicAuth = r'.basicAuth := by
    unfold Request.basicAuth
    rw [hauth]
  refine ⟨hseg, hm, by rw [h1, h1'], fun _ => ⟨?_, fun n hn => hb n ?_⟩,
    fun _ => ⟨hba, fun n hn => hb n ?_⟩,
    fun h => ⟨fun n hn => hf h n ?_, fun n hn => hb n ?_⟩⟩
  · unfold presented
    rw [hba, hb b!"client_id" (by decide), hb b!"client_secret" (by decide)]
  all_goals
    revert n
    decide

/-- **C95.** Of a request whose form is known the server reads nothing but the endpoint, the method,
the Authorization header and the known values of the protocol's parameters: whatever its query, its
body and the rest of its header are, it is answered in the same way and with the same effect. -/
theorem C95_only {r r' : Request} {posted all posted' all' : Values}
    (hk : Known r posted all) (hk' : Known r' posted' all')
    (hseg : ∀ seg, LastSegment r.path seg ↔ LastSegment r'.path seg)
    (hm : r.method = r'.method)
    (hauth : r.header.get b!"Authorization" = r'.header.get b!"Authorization")
    (hp : SameFields posted posted') (ha : SameFields all all')
    (s : Server) (coins : Str) (clock : Nat → Time) :
    step ⟨false, s⟩ { op := .serve r, coins := coins, clock := clock } =
      step ⟨false, s⟩ { op := .serve r', coins := coins, clock := clock } := by
  have e := parseForm_known hk
  have e' := parseForm_known hk'
  refine C70_same (saysTheSame_known hseg hm hauth ?_ ?_ ?_ ?_ hp fun _ => ha) s coins clock
  · rw [e]
  · rw [e']
  · rw [e]; exact hk
  · rw [e']; exact hk'

/-! ### What looking at the form leaves behind -/

/-- **C95.** After a POST request as it arrives has been looked at, its form is known, whether or not
there was an error: the values of its body are those that could be made out, and its values
altogether are these followed by those of its query that could be made out. -/
theorem C95_looked {r : Request} (hfresh : r.postForm = none ∧ r.form = none)
    (hm : r.method = b!"POST") :
    ∃ posted all, Known r.parseForm.1 posted all ∧ Legible r posted ∧
      ∀ name, all.all name = posted.all name ++ (parseQuery r.rawQuery).1.all name := by
  have hpf : ∃ posted, r.parseForm.1.postForm = some posted ∧ Legible r posted := by
    have e : r.parseForm.1.postForm = some ((parsePostForm r).1.getD []) := by
      unfold Request.parseForm
      simp only [hfresh.1, hfresh.2, hm, true_or, if_true]
    refine ⟨_, e, ?_⟩
    unfold parsePostForm
    cases hb : r.body with
    | none =>
      refine .none ?_
      intro data h
      rw [hb] at h
      cases h
    | some data =>
      dsimp only
      have hct : (parseMediaType (if r.header.get b!"Content-Type" = [] then
          b!"application/octet-stream" else r.header.get b!"Content-Type")).1 =
            b!"application/x-www-form-urlencoded" ↔
          (parseMediaType (r.header.get b!"Content-Type")).1 =
            b!"application/x-www-form-urlencoded" := by
        split
        · rename_i h
          rw [h]
          exact ⟨fun h => absurd h (by decide +kernel), fun h => absurd h (by decide +kernel)⟩
        · exact Iff.rfl
      by_cases hmt : (parseMediaType (r.header.get b!"Content-Type")).1 =
          b!"application/x-www-form-urlencoded"
      · rw [if_pos (hct.mpr hmt)]
        by_cases hlen : maxFormSize < data.length
        · have hn : Legible r [] := .none fun d hd => by
            rw [hb] at hd
            injection hd with hd
            subst hd
            exact .inr (.inl hlen)
          split <;> exact hn
        · cases hbe : r.bodyErr with
          | true =>
            rw [if_pos (by simp; omega)]
            exact .none fun _ _ => .inl hbe
          | false =>
            rw [if_neg (by simp), if_neg hlen]
            exact .form hb hbe (Nat.le_of_not_lt hlen) hmt
      · rw [if_neg (fun h => hmt (hct.mp h))]
        exact .none fun _ _ => .inr (.inr hmt)
  obtain ⟨posted, h1, h2⟩ := hpf
  refine ⟨posted, _, ⟨h1, parseForm_form r hfresh.2⟩, h2, fun name => ?_⟩
  rw [copyValues_all _ (parseQuery_nodup _), h1]
  rfl

/-- **C95.** If only the values of the body are known beforehand they stay, those of the query are
put after them, and nothing but a malformed query is an error; if only the values altogether are
known they stay, and query and body are not added to them. -/
theorem C95_half {r : Request} :
    (∀ posted, r.postForm = some posted → r.form = none →
      r.parseForm.2 = (parseQuery r.rawQuery).2 ∧ ∃ all, Known r.parseForm.1 posted all ∧
        ∀ name, all.all name = posted.all name ++ (parseQuery r.rawQuery).1.all name) ∧
    (∀ all, r.form = some all → r.parseForm.1.form = some all) := by
  refine ⟨fun posted hp hf => ?_, fun all hf => ?_⟩
  · have e : r.parseForm.1.postForm = some posted := by
      unfold Request.parseForm
      simp only [hp, hf]
    refine ⟨?_, _, ⟨e, parseForm_form r hf⟩, fun name => ?_⟩
    · unfold Request.parseForm
      simp only [hp, hf, Bool.false_or]
    · rw [copyValues_all _ (parseQuery_nodup _), e]
      rfl
  · unfold Request.parseForm
    simp only [hf]

theorem legible_unique {r : Request} {a b : Values} (h : Legible r a) (h' : Legible r b) : a = b := by
  cases h with
  | form h1 h2 h3 h4 =>
    cases h' with
    | form g1 g2 g3 g4 =>
      rw [h1] at g1
      injection g1 with g1
      rw [g1]
    | none g =>
      rcases g _ h1 with h | h | h
      · rw [h2] at h; cases h
      · omega
      · exact absurd h4 h
  | none h =>
    cases h' with
    | form g1 g2 g3 g4 =>
      rcases h _ g1 with h | h | h
      · rw [g2] at h; cases h
      · omega
      · exact absurd g4 h
    | none g => rfl

/-- **C95.** If the program ignored the error, as `FormValue` does, a POST request is answered like
one in order that has the well-formed pairs of its form only: that its body, its content type or its
query is malformed is not noticed any more. At the authorization endpoint the well-formed pairs of
the query count as well. -/
theorem C95_ignored {r r' : Request} {posted form : Values}
    (hfresh : r.postForm = none ∧ r.form = none) (hm : r.method = b!"POST")
    (hp : Legible r posted) (hf : FormPost r' form)
    (endpoint : ∀ seg, LastSegment r.path seg ↔ LastSegment r'.path seg)
    (authorization : r.header.get b!"Authorization" = r'.header.get b!"Authorization")
    (body : ∀ name ∈ parameterNames, (posted.all name).head? = (form.all name).head?)
    (query : LastSegment r.path b!"authorize" → ∀ name ∈ parameterNames,
      ((parseQuery r.rawQuery).1.all name).head? = ((parseQuery r'.rawQuery).1.all name).head?)
    (s : Server) (coins : Str) (clock : Nat → Time) :
    step ⟨false, s⟩ { op := .serve r.parseForm.1, coins := coins, clock := clock } =
      step ⟨false, s⟩ { op := .serve r', coins := coins, clock := clock } := by
  obtain ⟨k1, k2, k3, _⟩ := parseForm_keeps r
  obtain ⟨posted', all, hk, hl, hall⟩ := C95_looked hfresh hm
  obtain rfl := legible_unique hl hp
  have e' := parseForm_formPost hf
  refine C70_same (saysTheSame_known (posted := posted') (all := all) (posted' := form)
    (all' := copyValues form (parseQuery r'.rawQuery).1) (by rw [k1]; exact endpoint)
    (by rw [k2, hm, hf.method]) (by rw [k3]; exact authorization)
    (by rw [C95_twice]) (by rw [e']) (by rw [C95_twice]; exact hk) (by rw [e']; exact ⟨rfl, rfl⟩)
    ?_ ?_) s coins clock
  · intro name hn
    rw [Values.get_eq, Values.get_eq, headD_head?, headD_head?, body name hn]
  · rw [k1]
    intro hend name hn
    rw [Values.get_eq, Values.get_eq, headD_head?, headD_head?, hall,
      copyValues_all _ (parseQuery_nodup _), List.head?_append, List.head?_append, body name hn,
      query hend name hn]

/-- **C95.** A body that breaks off, is too large or is no form at all is refused even then. -/
theorem C95_refused {r : Request} (hfresh : r.postForm = none ∧ r.form = none)
    (hm : r.method = b!"POST") (h : ∀ data, r.body = some data → r.bodyErr = true ∨
      maxFormSize < data.length ∨ (parseMediaType (r.header.get b!"Content-Type")).1 ≠
        b!"application/x-www-form-urlencoded") :
    parseTokenRequest r.parseForm.1 = .error (invalidRequest b!"missing grant type") ∧
    parseIntrospectionRequest r.parseForm.1 = .error (invalidRequest b!"missing token") ∧
    parseRevocationRequest r.parseForm.1 = .error (invalidRequest b!"missing token") := by
  obtain ⟨posted, all, hk, hl, _⟩ := C95_looked hfresh hm
  obtain rfl := legible_unique hl (.none h)
  have e := C95_twice r
  have hm' := (parseForm_keeps r).2.1
  refine ⟨?_, ?_, ?_⟩
  · unfold parseTokenRequest
    rw [e, hm', if_neg (by simp [hm])]
    dsimp only
    rw [hk.posted]
    rfl
  · unfold parseIntrospectionRequest
    rw [e, hm', if_neg (by simp [hm])]
    dsimp only
    rw [hk.posted]
    rfl
  · unfold parseRevocationRequest
    rw [e, hm', if_neg (by simp [hm])]
    dsimp only
    rw [hk.posted]
    rfl

/-! ### The hypotheses can be met -/

/-- The first request of the session of `Verif.Lemmas.Demo` with a broken percent escape in its body
and another in its query. -/
def brokenPost : Request where
  method := b!"POST"
  path := b!"/oauth2/token"
  rawQuery := b!"trace=%zz"
  body := some b!"grant_type=password&client_id=c1&note=100%&client_secret=s1&username=u1&password=p1&scope=foo"
  header := [(b!"Content-Type", [b!"application/x-www-form-urlencoded"])]

theorem brokenPost_legible : Legible brokenPost (parseQuery (brokenPost.body.getD [])).1 :=
  .form rfl rfl (by decide) (by decide +kernel)

/-- As it arrives it is refused. -/
example : parseTokenRequest brokenPost =
    .error (invalidRequest b!"malformed query parameters or body form") := by decide +kernel

/-- Once the program has looked at it, it gets tokens like the request without the broken pairs. -/
example : (step ⟨false, Demo.server⟩ { Demo.c1 with op := .serve brokenPost.parseForm.1 }).1 =
    Demo.e1.answer := by
  have h := C95_ignored (r := brokenPost) (r' := plainPost) ⟨rfl, rfl⟩ rfl brokenPost_legible
    plainPost_form (fun _ => Iff.rfl) rfl (by decide +kernel)
    (fun h => by rw [lastSegment_iff] at h; exact absurd h (by decide +kernel))
    Demo.server Demo.c1.coins Demo.c1.clock
  have h' := Demo.step1
  rw [show Demo.c1 = { op := .serve plainPost, coins := Demo.c1.coins, clock := Demo.c1.clock }
    from rfl] at h' ⊢
  rw [h, h']

/-- The request in order can be looked at without harm. -/
example : plainPost.parseForm.2 = false ∧ ∃ t, parseTokenRequest plainPost = .ok t :=
  ⟨by decide +kernel, _, rfl⟩

/-- A request whose values came from somewhere else, for instance from a form of another content
type that the program understands. -/
def elsewhere : Request where
  method := b!"POST"
  path := b!"/token"
  rawQuery := b!"%zz"
  header := [(b!"Content-Type", [b!"multipart/form-data; boundary=x"])]
  postForm := some [(b!"grant_type", [b!"password"]), (b!"client_id", [b!"c1"]),
    (b!"client_secret", [b!"s1"]), (b!"username", [b!"u1"]), (b!"password", [b!"p1"]),
    (b!"scope", [b!"foo"])]
  form := some []

example : Known elsewhere (elsewhere.postForm.getD []) [] := ⟨rfl, rfl⟩

example : (step ⟨false, Demo.server⟩ { Demo.c1 with op := .serve elsewhere }).1 =
    Demo.e1.answer := by decide +kernel

/-- A request of which only the values of the body are known, with a query. -/
example : ∃ r : Request, ∃ all, r.form = none ∧ r.postForm = elsewhere.postForm ∧
    r.parseForm.2 = false ∧ Known r.parseForm.1 (elsewhere.postForm.getD []) all ∧
    all.all b!"scope" = [b!"foo", b!"bar"] :=
  ⟨{ elsewhere with form := none, rawQuery := b!"scope=bar" }, _, rfl, rfl, by decide +kernel,
    ⟨rfl, rfl⟩, by decide +kernel⟩

/-- A body that broke off after the last byte of the form. -/
example : ∃ r : Request, (r.postForm = none ∧ r.form = none) ∧ r.method = b!"POST" ∧
    r.bodyErr = true ∧ r.body = plainPost.body ∧
    parseTokenRequest r.parseForm.1 = .error (invalidRequest b!"missing grant type") :=
  ⟨{ plainPost with bodyErr := true }, ⟨rfl, rfl⟩, rfl, rfl, rfl,
    (C95_refused ⟨rfl, rfl⟩ rfl fun _ _ => .inl rfl).1⟩

end OAuth2

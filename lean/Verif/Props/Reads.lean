import Verif.Spec.Reads
import Verif.Lemmas.Observe
import Verif.Lemmas.Demo
import Verif.Props.Requests

/-!
C70: what the server does depends only on what the protocol gives a meaning to.
-/

namespace OAuth2

open Spec

theorem basicAuth_parseForm (r : Request) : r.parseForm.1.basicAuth = r.basicAuth := by
  unfold Request.basicAuth
  have : r.parseForm.1.header = r.header := by
    unfold Request.parseForm
    dsimp only
    split <;> split <;> rfl
  rw [this]

theorem parseToken_same {r r' : Request} (h : SaysTheSame r r') (hp : LastSegment r.path b!"token") :
    parseTokenRequest r = parseTokenRequest r' := by
  obtain ⟨h1, h2⟩ := h.token hp
  unfold parseTokenRequest
  unfold presented inBody at h1
  simp only [h.method, h.readable, basicAuth_parseForm]
  have e := fun name hn => (h2 name hn : inBody r name = inBody r' name)
  unfold inBody at e
  rw [e b!"grant_type" (by simp), e b!"scope" (by simp), e b!"username" (by simp),
    e b!"password" (by simp), e b!"refresh_token" (by simp), e b!"redirect_uri" (by simp),
    e b!"code" (by simp)]
  cases hb : r.basicAuth <;> cases hb' : r'.basicAuth <;> rw [hb, hb'] at h1 <;> dsimp only at h1 ⊢ <;>
    first | (injection h1 with h3 h4; rw [h3, h4]) | (rw [h1]) | (rw [← h1])

theorem parseIntrospection_same {r r' : Request} (h : SaysTheSame r r')
    (hp : LastSegment r.path b!"introspect") :
    parseIntrospectionRequest r = parseIntrospectionRequest r' := by
  obtain ⟨h1, h2⟩ := h.aboutToken (.inl hp)
  unfold parseIntrospectionRequest
  have e := fun name hn => (h2 name hn : inBody r name = inBody r' name)
  unfold inBody at e
  simp only [h.method, h.readable, basicAuth_parseForm, h1]
  rw [e b!"token" (by simp), e b!"token_type_hint" (by simp)]

theorem parseRevocation_same {r r' : Request} (h : SaysTheSame r r')
    (hp : LastSegment r.path b!"revoke") :
    parseRevocationRequest r = parseRevocationRequest r' := by
  obtain ⟨h1, h2⟩ := h.aboutToken (.inr hp)
  unfold parseRevocationRequest
  have e := fun name hn => (h2 name hn : inBody r name = inBody r' name)
  unfold inBody at e
  simp only [h.method, h.readable, basicAuth_parseForm, h1]
  rw [e b!"token" (by simp), e b!"token_type_hint" (by simp)]

theorem parseAuthorization_same {r r' : Request} (h : SaysTheSame r r')
    (hp : LastSegment r.path b!"authorize") :
    parseAuthorizationRequest r = parseAuthorizationRequest r' := by
  obtain ⟨h1, _⟩ := h.authorization hp
  unfold parseAuthorizationRequest
  have e := fun name hn => (h1 name hn : inForm r name = inForm r' name)
  unfold inForm at e
  simp only [h.method, h.readable]
  rw [e b!"response_type" (by simp), e b!"scope" (by simp), e b!"client_id" (by simp),
    e b!"redirect_uri" (by simp), e b!"state" (by simp)]

theorem handle_same {r r' : Request} (h : SaysTheSame r r') (s : Server) (l : Local) :
    s.handle r l = s.handle r' l := by
  have hseg : Server.lastSegment r.path = Server.lastSegment r'.path := by
    have := (h.endpoint (Server.lastSegment r.path)).mp ((lastSegment_iff _ _).mpr rfl)
    exact ((lastSegment_iff _ _).mp this).symm
  unfold Server.handle
  rw [← hseg]
  dsimp only
  split
  · rename_i hp
    obtain ⟨_, h2⟩ := h.authorization ((lastSegment_iff _ _).mpr hp)
    have e := fun name hn => (h2 name hn : inBody r name = inBody r' name)
    unfold inBody at e
    unfold Server.authorizeReply
    rw [parseAuthorization_same h ((lastSegment_iff _ _).mpr hp), h.method]
    simp only [e b!"username" (by simp), e b!"password" (by simp)]
  · split
    · rename_i hp
      unfold Server.tokenReply
      rw [parseToken_same h ((lastSegment_iff _ _).mpr hp)]
    · split
      · rename_i hp
        unfold Server.introspectReply
        rw [parseIntrospection_same h ((lastSegment_iff _ _).mpr hp)]
      · split
        · rename_i hp
          unfold Server.revokeReply
          rw [parseRevocation_same h ((lastSegment_iff _ _).mpr hp)]
        · rfl

/-- **C70.** Two requests that say the same get the same answer and have the same effect. -/
theorem C70_same {r r' : Request} (h : SaysTheSame r r') (s : Server) (coins : Str)
    (clock : Nat → Time) :
    step ⟨false, s⟩ { op := .serve r, coins := coins, clock := clock } =
      step ⟨false, s⟩ { op := .serve r', coins := coins, clock := clock } := by
  rw [step_serve rfl, step_serve rfl]
  show ((s.handle r _).1.answer, _) = ((s.handle r' _).1.answer, _)
  rw [handle_same h]
  rfl

/-- **C70.** `Authorize` reads nothing but the Authorization header. -/
theorem C70_authorize {r r' : Request} (h : r.header.get b!"Authorization" = r'.header.get b!"Authorization")
    (required : Scope) (s : Shared Server) (coins : Str) (clock : Nat → Time) :
    step s { op := .authorize r required, coins := coins, clock := clock } =
      step s { op := .authorize r' required, coins := coins, clock := clock } := by
  have hp : parseBearerToken r = parseBearerToken r' := by
    unfold parseBearerToken
    rw [h]
  unfold step Server.authorize Server.authorizeLocked
  dsimp only
  rw [hp]
  rfl

/-! ### On the wire -/

theorem foldl_add_all (k : Str) (xs : List Str) (d : Values) (j : Str) :
    (xs.foldl (fun d x => d.add k x) d).all j = if j = k then d.all j ++ xs else d.all j := by
  induction xs generalizing d with
  | nil => simp
  | cons x xs ih =>
    rw [List.foldl_cons, ih, Values.all_add]
    by_cases h : j = k <;> simp [h]

theorem copyValues_all_of_nodup {q : Values} (hq : q.keys.Nodup) (d : Values) (j : Str) :
    (copyValues d q).all j = d.all j ++ q.all j := by
  unfold copyValues
  induction q generalizing d with
  | nil => simp [Values.all, GoMap.get?_nil]
  | cons e q ih =>
    obtain ⟨k, xs⟩ := e
    have hn := List.nodup_cons.mp (show (k :: GoMap.keys q).Nodup from hq)
    rw [List.foldl_cons, ih hn.2, foldl_add_all]
    by_cases h : j = k
    · subst h
      have h0 : GoMap.get? q j = none := (GoMap.get?_eq_none_iff q j).mpr hn.1
      simp [Values.all, GoMap.get?_cons, h0]
    · have h' : ¬ k = j := fun e => h e.symm
      simp [Values.all, GoMap.get?_cons, h, h']

theorem headD_head? (l : List Str) : l.headD [] = l.head?.getD [] := by cases l <;> rfl

theorem inBody_formPost {r : Request} {form : Values} (h : FormPost r form) (k : Str) :
    inBody r k = (form.all k).head?.getD [] := by
  unfold inBody
  rw [parseForm_formPost h]
  show form.get k = _
  rw [Values.get_eq, headD_head?]

theorem inForm_formPost {r : Request} {form : Values} (h : FormPost r form) (k : Str) :
    inForm r k = ((form.all k).head?.or ((parseQuery r.rawQuery).1.all k).head?).getD [] := by
  unfold inForm
  rw [parseForm_formPost h]
  show (copyValues form _).get k = _
  rw [Values.get_eq, headD_head?, copyValues_all_of_nodup (parseQuery_nodup _), List.head?_append]

/-- **C70.** Of a form that was posted, only the first value of each parameter of the protocol
matters: not the order of the parameters, their percent encoding, their further values, nor
parameters the protocol does not know, and neither do headers other than Authorization (the content
type stays that of a form). The query matters only at the authorization endpoint. -/
theorem C70_posted {r r' : Request} {form form' : Values} (h : FormPost r form)
    (h' : FormPost r' form')
    (endpoint : ∀ seg, LastSegment r.path seg ↔ LastSegment r'.path seg)
    (authorization : r.header.get b!"Authorization" = r'.header.get b!"Authorization")
    (body : ∀ name ∈ parameterNames, (form.all name).head? = (form'.all name).head?)
    (query : LastSegment r.path b!"authorize" → ∀ name ∈ parameterNames,
      ((parseQuery r.rawQuery).1.all name).head? = ((parseQuery r'.rawQuery).1.all name).head?) :
    SaysTheSame r r' := by
  have hb : r.basicAuth = r'.basicAuth := by unfold Request.basicAuth; rw [authorization]
  have e : ∀ name ∈ parameterNames, inBody r name = inBody r' name := fun name hn => by
    rw [inBody_formPost h, inBody_formPost h', body name hn]
  refine ⟨endpoint, h.method.trans h'.method.symm, ?_, ?_, ?_, ?_⟩
  · rw [parseForm_formPost h, parseForm_formPost h']
  · refine fun _ => ⟨?_, fun name hn => e name ?_⟩
    · unfold presented
      rw [hb, e b!"client_id" (by decide), e b!"client_secret" (by decide)]
    · revert hn; revert name; decide
  · refine fun _ => ⟨hb, fun name hn => e name ?_⟩
    revert hn; revert name; decide
  · refine fun hp => ⟨fun name hn => ?_, fun name hn => e name ?_⟩
    · have hn' : name ∈ parameterNames := by revert hn; revert name; decide
      rw [inForm_formPost h, inForm_formPost h', body name hn', query hp name hn']
    · revert hn; revert name; decide

/-- **C70.** At the token endpoint it makes no difference whether a client presents its identifier
and secret by basic authentication or in the body. -/
theorem C70_credentials {r r' : Request} {form form' : Values} (h : FormPost r form)
    (h' : FormPost r' form')
    (endpoint : LastSegment r.path b!"token") (endpoint' : LastSegment r'.path b!"token")
    {id secret : Str} (header : NamesUser (r.header.get b!"Authorization") id secret)
    (noHeader : r'.header.get b!"Authorization" = [])
    (inTheBody : (form'.all b!"client_id").head? = some id ∧
      (form'.all b!"client_secret").head? = some secret)
    (body : ∀ name ∈ parameterNames, name ≠ b!"client_id" → name ≠ b!"client_secret" →
      (form.all name).head? = (form'.all name).head?) :
    SaysTheSame r r' := by
  have hseg := fun seg => (lastSegment_iff r.path seg)
  have hseg' := fun seg => (lastSegment_iff r'.path seg)
  have p1 := (hseg _).mp endpoint
  have p2 := (hseg' _).mp endpoint'
  have no : ∀ seg, seg ≠ b!"token" → ¬ LastSegment r.path seg :=
    fun seg hs hl => hs ((((hseg _).mp hl).symm.trans p1))
  refine ⟨fun seg => ?_, h.method.trans h'.method.symm, ?_, ?_, ?_, ?_⟩
  · rw [hseg, hseg', p1, p2]
  · rw [parseForm_formPost h, parseForm_formPost h']
  · refine fun _ => ⟨?_, fun name hn => ?_⟩
    · have hb : r.basicAuth = some (id, secret) := (basicAuth_iff r id secret).mpr header
      have hb' : r'.basicAuth = none := by unfold Request.basicAuth; rw [noHeader]; rfl
      unfold presented
      rw [hb, hb', inBody_formPost h', inBody_formPost h', inTheBody.1, inTheBody.2]
      rfl
    · have hn' : name ∈ parameterNames ∧ name ≠ b!"client_id" ∧ name ≠ b!"client_secret" := by
        revert hn; revert name; decide
      rw [inBody_formPost h, inBody_formPost h', body name hn'.1 hn'.2.1 hn'.2.2]
  · rintro (hl | hl)
    · exact absurd hl (no _ (by decide))
    · exact absurd hl (no _ (by decide))
  · exact fun hl => absurd hl (no _ (by decide))

/-! ### The hypotheses can be met -/

/-- The first request of the session of `Verif.Lemmas.Demo`. -/
def plainPost : Request where
  method := b!"POST"
  path := b!"/oauth2/token"
  body := some b!"grant_type=password&client_id=c1&client_secret=s1&username=u1&password=p1&scope=foo"
  header := [(b!"Content-Type", [b!"application/x-www-form-urlencoded"])]

/-- The same in another order and spelling, with further parameters, values and headers. -/
def oddPost : Request where
  method := b!"POST"
  path := b!"/token"
  rawQuery := b!"grant_type=refresh_token&x=y"
  body := some b!"client_secret=s1&debug=1&%67rant_type=%70assword&username=u1&username=u2&password=p1&scope=foo&client_id=c1&"
  header := [(b!"User-Agent", [b!"curl"]),
    (b!"Content-Type", [b!"application/x-www-form-urlencoded; charset=utf-8"])]

/-- The same with the credentials of the client in the header; what the body says of them is
overruled. -/
def headerPost : Request where
  method := b!"POST"
  path := b!"/a/b/token"
  body := some b!"grant_type=password&username=u1&password=p1&scope=foo&client_secret=wrong"
  header := [(b!"Content-Type", [b!"application/x-www-form-urlencoded"]),
    (b!"Authorization", [b!"Basic " ++ b64StdEncode b!"c1:s1"])]

theorem plainPost_form : FormPost plainPost (parseQuery (plainPost.body.getD [])).1 :=
  ⟨rfl, ⟨rfl, rfl⟩, by decide +kernel, ⟨_, rfl, rfl, by decide, by decide +kernel⟩, by decide +kernel⟩

theorem oddPost_form : FormPost oddPost (parseQuery (oddPost.body.getD [])).1 :=
  ⟨rfl, ⟨rfl, rfl⟩, by decide +kernel, ⟨_, rfl, rfl, by decide, by decide +kernel⟩, by decide +kernel⟩

theorem headerPost_form : FormPost headerPost (parseQuery (headerPost.body.getD [])).1 :=
  ⟨rfl, ⟨rfl, rfl⟩, by decide +kernel, ⟨_, rfl, rfl, by decide, by decide +kernel⟩, by decide +kernel⟩

/-- The two first requests say the same. -/
example : SaysTheSame plainPost oddPost := by
  refine C70_posted plainPost_form oddPost_form (fun seg => ?_) (by decide +kernel)
    (by decide +kernel) (fun h => ?_)
  · rw [lastSegment_iff, lastSegment_iff, show Server.lastSegment plainPost.path = b!"token" by decide +kernel,
      show Server.lastSegment oddPost.path = b!"token" by decide +kernel]
  · rw [lastSegment_iff] at h
    exact absurd h (by decide +kernel)

/-- The third and the first say the same. -/
example : SaysTheSame headerPost plainPost :=
  C70_credentials headerPost_form plainPost_form ((lastSegment_iff _ _).mpr (by decide +kernel))
    ((lastSegment_iff _ _).mpr (by decide +kernel))
    ((basicAuth_iff headerPost b!"c1" b!"s1").mp (by decide +kernel)) (by decide +kernel)
    (by decide +kernel) (by decide +kernel)

/-- The request is one that succeeds in the session. -/
example : Demo.c1.op = .serve plainPost ∧
    (step ⟨false, Demo.server⟩ Demo.c1).1 = Demo.e1.answer :=
  ⟨rfl, by rw [Demo.step1]⟩

/-- Requests to `Authorize` that differ in everything but the header. -/
example : plainPost.header.get b!"Authorization" = oddPost.header.get b!"Authorization" := by
  decide +kernel

end OAuth2

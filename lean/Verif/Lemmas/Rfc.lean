import Verif.Spec.Rfc
import Verif.Props.Faults
import Verif.Props.Answers
import Verif.Props.Encoding
import Verif.Props.Fragment

/-! From the exchanges of Verif/Spec/Rfc.lean to the theorems about calls and histories. -/

namespace OAuth2

open Spec Rfc

/-- What is known of an exchange that takes place. -/
structure Context (x : Exchange) (s₀ st : Server) : Prop where
  started : Started s₀
  history : History s₀ x.past ⟨false, st⟩
  exactly : Exact x.config x.past st
  config : x.config = s₀.config
  clients : x.clients = st.clients
  users : x.users = st.users
  answer : x.answer = (step ⟨false, st⟩ x.call).1
  fresh : ∀ r, x.call.op = .serve r → r.postForm = none ∧ r.form = none

theorem context {x : Exchange} (hx : x.Happens) : ∃ s₀ st, Context x s₀ st := by
  cases hx with
  | intro c h0 hh hf =>
    obtain ⟨st, rfl, ex⟩ := history_state h0 hh
    exact ⟨_, st, h0, hh, ex, rfl, rfl, rfl, rfl, hf⟩

section
variable {x : Exchange} {s₀ st : Server} (cx : Context x s₀ st)
include cx

theorem Context.event : x.event = ⟨x.call, (step ⟨false, st⟩ x.call).1⟩ := by
  unfold Exchange.event
  rw [cx.answer]

theorem Context.conforms {ep : Str} {r : Request} {res : Response} (h : x.At ep r res) :
    Conforms r.path res :=
  C68_answers h.1 (cx.answer ▸ h.2.2)

theorem Context.authentic {id secret : Str} : x.Authentic id secret ↔ Identified st id secret := by
  unfold Exchange.Authentic Identified
  rw [cx.clients]

theorem Context.owner {u p : Str} : x.Owner u p ↔ Password st u p := by
  unfold Exchange.Owner Password
  rw [cx.users]

end

theorem lastSegment_unique {path a b : Str} (h1 : LastSegment path a) (h2 : LastSegment path b) :
    a = b := ((lastSegment_iff _ _).mp h1).symm.trans ((lastSegment_iff _ _).mp h2)

theorem member_unique {res : Response} {ms : List (Str × JSON)}
    (hp : parseJSON res.body = some (.obj ms)) {n v : Str} (h : JsonMember res n v) :
    (n, JSON.str v) ∈ ms := by
  obtain ⟨ms', h1, h2⟩ := h
  rw [hp] at h1
  cases h1
  exact h2

theorem no_member {res : Response} (hb : res.body = []) {n v : Str} (h : JsonMember res n v) :
    False := no_jsonMember hb n v h

/-- Only the token endpoint grants tokens in documents. -/
theorem grants_status {path : Str} {res : Response} (hc : Conforms path res) (hg : Grants res) :
    res.statusCode = 200 ∧ LastSegment path b!"token" := by
  obtain ⟨a, ha⟩ := hg
  have sub : ∀ {ms : List (Str × JSON)} {l : List Str}, parseJSON res.body = some (.obj ms) →
      (ms.map (·.1)).Sublist l → b!"access_token" ∉ l → False := fun hp hs hn =>
    hn (hs.subset (List.mem_map.mpr ⟨_, member_unique hp ha, rfl⟩))
  cases hc with
  | tokens _ _ _ hp hs => exact ⟨hs, hp⟩
  | description _ _ _ _ _ hp hs => exact (sub hp hs (by decide)).elim
  | revoked _ _ _ hb => exact (no_member hb ha).elim
  | failure _ _ _ _ _ _ _ _ _ hp hs => exact (sub hp hs (by decide)).elim
  | redirect _ _ _ _ hb => exact (no_member hb ha).elim
  | page _ _ _ hb =>
    obtain ⟨ms, h1, _⟩ := ha
    rw [hb, (by decide +kernel : parseJSON Server.notice = none)] at h1
    cases h1
  | notFound _ _ _ hb =>
    obtain ⟨ms, h1, _⟩ := ha
    rw [hb, (by decide +kernel : parseJSON b!"404 page not found\n" = none)] at h1
    cases h1

/-- An error document is nothing else. -/
theorem error_failure {path : Str} {res : Response} (hc : Conforms path res) {name : Str}
    (he : JsonMember res b!"error" name) :
    ∃ members endpoint endpoints, (name, endpoints) ∈ Spec.reported ∧ endpoint ∈ endpoints ∧
      LastSegment path endpoint ∧ res.statusCode = statusOf name ∧
      parseJSON res.body = some (.obj members) ∧
      (members.map (·.1)).Sublist [b!"error", b!"error_description"] := by
  have sub : ∀ {ms : List (Str × JSON)} {l : List Str}, parseJSON res.body = some (.obj ms) →
      (ms.map (·.1)).Sublist l → b!"error" ∉ l → False := fun hp hs hn =>
    hn (hs.subset (List.mem_map.mpr ⟨_, member_unique hp he, rfl⟩))
  cases hc with
  | tokens _ _ _ _ _ _ hp hs => exact (sub hp hs (by decide)).elim
  | description _ _ _ _ _ hp hs => exact (sub hp hs (by decide)).elim
  | revoked _ _ _ hb => exact (no_member hb he).elim
  | failure ms n ep eps h1 h2 h3 h4 _ hp hs hm =>
    have h5 := member_unique hp he
    have hn : n = name := by
      have hnd : (ms.map (·.1)).Nodup := hs.nodup (by decide)
      have := pairwise_fst hnd h5 hm
      cases this
      rfl
    subst hn
    exact ⟨ms, ep, eps, h1, h2, h3, h4, hp, hs⟩
  | redirect _ _ _ _ hb => exact (no_member hb he).elim
  | page _ _ _ hb =>
    obtain ⟨ms, h1, _⟩ := he
    rw [hb, (by decide +kernel : parseJSON Server.notice = none)] at h1
    cases h1
  | notFound _ _ _ hb =>
    obtain ⟨ms, h1, _⟩ := he
    rw [hb, (by decide +kernel : parseJSON b!"404 page not found\n" = none)] at h1
    cases h1
where
  pairwise_fst {ms : List (Str × JSON)} (hn : (ms.map (·.1)).Nodup) {k : Str} {v w : JSON}
      (h1 : (k, v) ∈ ms) (h2 : (k, w) ∈ ms) : v = w := by
    induction ms with
    | nil => cases h1
    | cons a ms ih =>
      rw [List.map_cons, List.nodup_cons] at hn
      rcases List.mem_cons.mp h1 with e1 | h1
      · rcases List.mem_cons.mp h2 with e2 | h2
        · exact (Prod.mk.inj (e1.trans e2.symm)).2
        · exact absurd (List.mem_map.mpr ⟨_, h2, by rw [← e1]⟩) hn.1
      · rcases List.mem_cons.mp h2 with e2 | h2
        · exact absurd (List.mem_map.mpr ⟨_, h1, by rw [← e2]⟩) hn.1
        · exact ih hn.2 h1 h2

theorem error_unique {path : Str} {res : Response} (hc : Conforms path res) {name name' : Str}
    (h : JsonMember res b!"error" name) (h' : JsonMember res b!"error" name') : name = name' := by
  obtain ⟨ms, _, _, _, _, _, _, hp, hs⟩ := error_failure hc h
  have := error_failure.pairwise_fst (hs.nodup (by decide)) (member_unique hp h) (member_unique hp h')
  cases this
  rfl

theorem statusOf_ge (name : Str) : 400 ≤ statusOf name := by
  unfold statusOf
  split
  · omega
  · split <;> omega

theorem error_not_grants {path : Str} {res : Response} (hc : Conforms path res) (hs : 400 ≤ res.statusCode) :
    ¬ Grants res := fun hg => by have := (grants_status hc hg).1; omega

theorem refused_error {x : Answer} {res : Response} (ha : x = .answered res) {status : Nat} {name : Str}
    (h : RefusedWith x status name) : res.statusCode = status ∧ JsonMember res b!"error" name := by
  obtain ⟨res', h1, h2, h3⟩ := h
  rw [ha] at h1
  cases h1
  exact ⟨h2, h3⟩

/-! ### What requests say -/

theorem posts_unique {r : Request} {f q f' q' : List (Str × Str)} (h : Posts r f q)
    (h' : Posts r f' q') (k : Str) : valuesOf f k = valuesOf f' k := by
  obtain ⟨d, h1, _, _, h2⟩ := h.body
  obtain ⟨d', h1', _, _, h2'⟩ := h'.body
  rw [h1] at h1'
  cases h1'
  rw [← (C75_form d).2 _ h2, ← (C75_form d).2 _ h2']

theorem posts_field {r : Request} {f q f' q' : List (Str × Str)} (h : Posts r f q)
    (h' : Posts r f' q') (k : Str) : field f k = field f' k := by
  unfold field
  rw [posts_unique h h']

theorem sends_field {r : Request} (hfresh : r.postForm = none ∧ r.form = none)
    {f f' : List (Str × Str)} (h : Sends r f) (h' : Sends r f') (k : Str) :
    field f k = field f' k := by
  have h1 := (submits_iff hfresh _).mp (C75_parameters.mpr ⟨f, h, fun _ => rfl⟩)
  have h2 := (submits_iff hfresh _).mp (C75_parameters.mpr ⟨f', h', fun _ => rfl⟩)
  unfold field
  exact congrArg (List.headD · []) ((h1.2.2 k).trans (h2.2.2 k).symm)

theorem formText_unique {t u u' : Str} (h : FormText t u) (h' : FormText t u') : u = u' := by
  rw [← C75_escapes] at h h'
  rw [h] at h'
  cases h'
  rfl

theorem scopeText_unique {t : Str} {a b : Scope} (h : ScopeText t a) (h' : ScopeText t b) : a = b := by
  rw [← scopeText_iff] at h h'
  rw [h, h']

theorem credentials_unique {h u p u' p' : Str} (h1 : BasicCredentials h u p)
    (h2 : BasicCredentials h u' p') : u = u' ∧ p = p' := by
  have e : Request.header { method := [], header := [(b!"Authorization", [h])] } = [(b!"Authorization", [h])] := rfl
  have e2 : Header.get [(b!"Authorization", [h])] b!"Authorization" = h := rfl
  have a := (C75_credentials { method := [], header := [(b!"Authorization", [h])] } u p).mpr (by rw [e, e2]; exact h1)
  have b := (C75_credentials { method := [], header := [(b!"Authorization", [h])] } u' p').mpr (by rw [e, e2]; exact h2)
  rw [a] at b
  cases b
  exact ⟨rfl, rfl⟩

theorem from_unique {r : Request} {f q f' q' : List (Str × Str)} (h : Posts r f q)
    (h' : Posts r f' q') {u p u' p' : Str} (h1 : From r f u p) (h2 : From r f' u' p') :
    u = u' ∧ p = p' := by
  cases h1 with
  | header a =>
    cases h2 with
    | header b => exact credentials_unique a b
    | fields b => exact absurd ⟨_, _, a⟩ b
  | fields a =>
    cases h2 with
    | header b => exact absurd ⟨_, _, b⟩ a
    | fields b => exact ⟨posts_field h h' _, posts_field h h' _⟩

/-- What a token request reads as. -/
structure ReadsToken (fields : List (Str × Str)) (id secret : Str) (rq : TokenRequest) : Prop where
  grantType : rq.grantType = field fields b!"grant_type"
  clientID : rq.clientID = id
  clientSecret : rq.clientSecret = secret
  scope : ScopeText (field fields b!"scope") rq.scope
  username : rq.username = field fields b!"username"
  password : rq.password = field fields b!"password"
  refreshToken : rq.refreshToken = field fields b!"refresh_token"
  code : rq.code = field fields b!"code"
  redirectURI : FormText (field fields b!"redirect_uri") rq.redirectURI

theorem parsed_reads {r : Request} (hfresh : r.postForm = none ∧ r.form = none)
    {fields query : List (Str × Str)} {id secret : Str} (hp : Posts r fields query)
    (hf : From r fields id secret) {rq : TokenRequest} (h : parseTokenRequest r = .ok rq) :
    ReadsToken fields id secret rq := by
  obtain ⟨f, q, hp', h1, _, h2, _, h3, h4, h5, h6, h7, h8, _⟩ := (C75_token_request hfresh rq).mp h
  have hk := posts_field hp' hp
  obtain ⟨e1, e2⟩ := from_unique hp' hp h2 hf
  simp only [hk] at h1 h3 h4 h5 h6 h7 h8
  exact ⟨h1, e1, e2, h3, h4, h5, h6, h7, h8⟩

section
variable {x : Exchange} {s₀ st : Server} (cx : Context x s₀ st)
include cx

/-- A token request that is not well formed is refused; otherwise it reads as its bytes say. -/
theorem Context.token {fields : List (Str × Str)} {id secret : Str} {res : Response}
    (h : x.Token fields id secret res) :
    (res.statusCode = 400 ∧ JsonMember res b!"error" b!"invalid_request" ∧
      (field fields b!"grant_type" = [] ∨ id = [] ∨
        ¬ ∃ uri, FormText (field fields b!"redirect_uri") uri ∧ (uri = [] ∨ Target uri))) ∨
    ∃ rq, AsksToken x.call rq ∧ TokenCall x.event rq res ∧ ReadsToken fields id secret rq := by
  obtain ⟨r, query, ⟨hop, hseg, ha⟩, hp, hf⟩ := h
  have hfresh := cx.fresh r hop
  cases hq : parseTokenRequest r with
  | ok rq => exact .inr ⟨rq, ⟨r, hop, hseg, hq⟩, ⟨r, hop, hseg, hq, ha⟩, parsed_reads hfresh hp hf hq⟩
  | error e =>
    left
    have hm : Malformed x.call := ⟨r, hop, .inr (.inl ⟨hseg, fun rq h => by rw [hq] at h; cases h⟩)⟩
    have := refused_error ha (cx.answer ▸ (C66_malformed st hm).1)
    refine ⟨this.1, this.2, ?_⟩
    apply Classical.byContradiction
    intro hn
    simp only [not_or, Classical.not_not] at hn
    obtain ⟨n1, n2, uri, n3, n4⟩ := hn
    have ok := (C75_token_request hfresh {
      grantType := field fields b!"grant_type", clientID := id, clientSecret := secret,
      scope := Scope.parse (field fields b!"scope"), username := field fields b!"username",
      password := field fields b!"password", refreshToken := field fields b!"refresh_token",
      code := field fields b!"code", redirectURI := uri }).mpr ⟨fields, query, hp, rfl, n1, hf, n2,
        (scopeText_iff _ _).mp rfl, rfl, rfl, rfl, rfl, n3, n4.imp_right (target_iff _).mp⟩
    rw [hq] at ok
    cases ok

theorem Context.reply {r : Request} {ep : Str} {res : Response} (h : x.At ep r res) :
    (step ⟨false, st⟩ x.call).1 = .answered res := by
  rw [← cx.answer]
  exact h.2.2

/-- An answered token request is refused for the reason that goes with the error. -/
theorem Context.refusal {rq : TokenRequest} (hc : AsksToken x.call rq) {res : Response}
    (ha : x.answer = .answered res) (name : Str) :
    (400 ≤ res.statusCode ∧ JsonMember res b!"error" name) ↔
      TokenRefusal x.config x.past st rq x.now name := by
  have h := (C66_token cx.started cx.history hc).1
  rw [cx.config]
  constructor
  · rintro ⟨h1, h2⟩
    exact ((h _ name h1).mp ⟨res, by rw [← cx.answer, ha], rfl, h2⟩).1
  · intro hr
    obtain ⟨h1, h2⟩ := refused_error ha (cx.answer ▸ (h _ name (statusOf_ge name)).mpr ⟨hr, rfl⟩)
    exact ⟨h1 ▸ statusOf_ge name, h2⟩

/-- A request that is granted was not refused. -/
theorem Context.granted {fields : List (Str × Str)} {id secret : Str} {res : Response}
    (h : x.Token fields id secret res) (hg : Grants res) :
    ∃ rq, AsksToken x.call rq ∧ TokenCall x.event rq res ∧ ReadsToken fields id secret rq ∧
      ∀ name, ¬ TokenRefusal x.config x.past st rq x.now name := by
  have h' := h
  obtain ⟨r, query, hat, _⟩ := h'
  have hs := (grants_status (cx.conforms hat) hg).1
  rcases cx.token h with ⟨h1, _⟩ | ⟨rq, h1, h2, h3⟩
  · omega
  · refine ⟨rq, h1, h2, h3, fun name hr => ?_⟩
    have := ((cx.refusal h1 hat.2.2 name).mpr hr).1
    omega

end

end OAuth2

namespace OAuth2

open Spec Rfc

theorem mem_grantTypes {t : Str} : t ∈ [b!"password", b!"client_credentials", b!"authorization_code",
    b!"refresh_token"] ↔ t ∈ grantTypes := by
  unfold grantTypes
  simp only [List.mem_cons, List.not_mem_nil, or_false]
  constructor <;> (rintro (h | h | h | h) <;> simp [h])

section
variable {cfg : ServerConfig} {h : List Event} {st : Server} {rq : TokenRequest} {now : Time}

/-- What must be so if nothing speaks against a token request. -/
theorem unrefused (hn : ∀ name, ¬ TokenRefusal cfg h st rq now name) :
    rq.grantType ∈ grantTypes ∧ Identified st rq.clientID rq.clientSecret ∧
    (rq.grantType = b!"client_credentials" → ∃ e, st.clients.get? rq.clientID = some e ∧
      e.confidential = true ∧ e.secret = rq.clientSecret) ∧
    (rq.grantType = b!"password" → Password st rq.username rq.password) ∧
    (rq.grantType = b!"authorization_code" →
      Redeemable cfg h rq.code rq.clientID rq.redirectURI now) ∧
    (rq.grantType = b!"refresh_token" → ∃ g, Refreshable cfg h rq.refreshToken rq.clientID now g ∧
      Within rq.scope g.scope) := by
  have hg : rq.grantType ∈ grantTypes := Classical.byContradiction fun hc =>
    hn _ (.grantType (fun h => hc (mem_grantTypes.mp h)))
  have hi : Identified st rq.clientID rq.clientSecret := Classical.byContradiction fun hc =>
    hn _ (.unidentified (mem_grantTypes.mpr hg) hc)
  refine ⟨hg, hi, fun ht => ?_, fun ht => Classical.byContradiction fun hc => hn _ (.password ht hi hc),
    fun ht => Classical.byContradiction fun hc => ?_, fun ht => Classical.byContradiction fun hc => ?_⟩
  · obtain ⟨e, h1, h2⟩ := hi
    cases hb : e.confidential with
    | false => exact absurd (.publicClient ht h1 hb) (hn _)
    | true => exact ⟨e, h1, hb, h2 hb⟩
  · by_cases hs : Signed cfg rq.code
    · exact hn _ (.code ht hi hs hc)
    · exact hn _ (.forgedCode ht hi hs)
  · by_cases hs : Signed cfg rq.refreshToken
    · by_cases hr : ∃ g, Refreshable cfg h rq.refreshToken rq.clientID now g
      · obtain ⟨g, hr⟩ := hr
        by_cases hw : Within rq.scope g.scope
        · exact hc ⟨g, hr, hw⟩
        · exact hn _ (.refreshScope ht hi hr hw)
      · exact hn _ (.refresh ht hi hs fun g hg => hr ⟨g, hg⟩)
    · exact hn _ (.forgedRefresh ht hi hs)

end

theorem same_same {cfg : ServerConfig} {text : Str} {t t' : HS256Token} (h : SameToken cfg text t)
    (h' : SameToken cfg text t') : t.signatureString = t'.signatureString := by
  obtain ⟨x, h1, h2⟩ := h
  obtain ⟨x', h1', h2'⟩ := h'
  rw [h1] at h1'
  cases h1'
  rw [← h2, ← h2']

/-- Errors hand out nothing. -/
theorem error_hands_nothing {x : Exchange} {s₀ st : Server} (cx : Context x s₀ st) {r : Request}
    {res : Response} (h : x.At b!"token" r res) (hs : 400 ≤ res.statusCode) (k : Kind)
    (t : HS256Token) : ¬ Hands x.event k t := by
  have hc := cx.conforms h
  rintro (⟨rq, res', ⟨r', h1, _, _, h2⟩, hm⟩ | ⟨_, rq, u, res', ⟨r', h1, h2, _⟩, _⟩)
  · have hr : res' = res := by
      have h2' : x.answer = .answered res' := h2
      rw [h.2.2] at h2'
      cases h2'
      rfl
    subst hr
    cases hc with
    | tokens _ _ _ _ h3 => omega
    | description _ _ _ h3 => omega
    | revoked _ h3 => omega
    | failure ms _ _ _ _ _ _ _ _ hp hs =>
      have hk : k.name ∈ _ := hs.subset (List.mem_map.mpr ⟨_, member_unique hp hm, rfl⟩)
      cases k <;> revert hk <;> decide
    | redirect _ _ h3 => omega
    | page _ h3 => omega
    | notFound h3 => exact h3 _ (by decide) h.2.1
  · have h1' : x.call.op = .serve r' := h1
    rw [h.1] at h1'
    cases h1'
    exact absurd (lastSegment_unique h.2.1 h2) (by decide)

end OAuth2

namespace OAuth2

open Spec Rfc

theorem token_scope {res : Response} {t : TokenResponse} (hb : res.body = t.json ++ [0x0A])
    (hs : t.scope.items ≠ []) : JsonMember res b!"scope" (sanitize t.scope.string) := by
  rw [TokenResponse.json_members] at hb
  rw [jsonMember_iff (by simp [TokenResponse.members]) t.members_encode hb]
  have e1 : sanitize b!"scope" = b!"scope" := by decide +kernel
  unfold TokenResponse.members
  simp only [ex_append]
  refine .inl (.inr ⟨⟨b!"scope", t.scope.marshalJSON, .str (sanitize t.scope.string)⟩, ?_, e1, rfl⟩)
  unfold scopeMember
  rw [if_neg (by simpa using hs)]
  exact List.mem_singleton.mpr rfl

/-- A successful answer of the token endpoint. -/
theorem token_answer {x : Exchange} {s₀ st : Server} (cx : Context x s₀ st) {r : Request}
    {res : Response} (h : x.At b!"token" r res) (hs : res.statusCode < 400) :
    ∃ rq a b scope, parseTokenRequest r = .ok rq ∧
      res.body = (Server.grantResponse x.config a (some b) scope).json ++ [0x0A] ∧
      (rq.grantType = b!"refresh_token" → ∃ t stored,
        HS256Token.parse x.config.secret rq.refreshToken = .ok t ∧
        st.refreshTokens.get? t.signatureString = some stored ∧
        scope = if rq.scope.empty then stored.scope else rq.scope) := by
  obtain ⟨reply, s', h1, h2, _⟩ := step_served h.1 st
  have hp := (lastSegment_iff _ _).mp h.2.1
  have hr := cx.reply h
  rw [h1] at hr
  have hcfg : x.config = st.config := cx.exactly.config.symm
  have ok : ∀ {a b : HS256Token} {scope : Scope},
      (Reply.token (Server.grantResponse st.config a (some b) scope)).answer = .answered res →
      res.body = (Server.grantResponse x.config a (some b) scope).json ++ [0x0A] := by
    intro a b scope h
    cases h
    rw [token_result rfl, hcfg]
  cases h2 with
  | notFound _ h4 => exact absurd hp h4
  | refused e he hre =>
    cases hr
    rw [error_result hre] at hs
    simp only at hs
    omega
  | refusedRedirect rq h => exact absurd (h.path.symm.trans hp) (by decide)
  | notice rq h => exact absurd (h.path.symm.trans hp) (by decide)
  | crash => cases hr
  | implicit rq h => exact absurd (h.path.symm.trans hp) (by decide)
  | code rq h => exact absurd (h.path.symm.trans hp) (by decide)
  | password rq h ht _ _ a b =>
    refine ⟨rq, a, b, _, h.parsed, ok hr, fun h => absurd (ht.symm.trans h) (by decide)⟩
  | client rq h ht _ _ a b =>
    refine ⟨rq, a, b, _, h.parsed, ok hr, fun h => absurd (ht.symm.trans h) (by decide)⟩
  | replay rq h =>
    cases hr
    rw [error_result rfl] at hs
    exact absurd hs (by decide)
  | exchange rq h ht c hc stored hst _ _ _ _ a b =>
    refine ⟨rq, a, b, _, h.parsed, ok hr, fun h => absurd (ht.symm.trans h) (by decide)⟩
  | refresh rq h ht t hc stored hst _ _ scope hsc _ a b =>
    exact ⟨rq, a, b, _, h.parsed, ok hr, fun _ => ⟨t, stored, hcfg ▸ hc, hst, hsc⟩⟩
  | introspect rq h => exact absurd (h.symm.trans hp) (by decide)
  | revoke rq h => exact absurd (h.symm.trans hp) (by decide)
  | revokeHalf rq h => exact absurd (h.symm.trans hp) (by decide)

theorem scopeToken_clean {i : Str} (h : ScopeToken i) : CleanItem i := by
  refine ⟨h.1, fun hm => ?_, trimmed_of_bytes fun c hc => ?_⟩
  · rcases h.2 _ hm with h | h | h <;> revert h <;> decide
  · have := h.2 c hc
    revert this
    apply forall_u8 (P := fun c => (c = 0x21 ∨ (0x23 ≤ c ∧ c ≤ 0x5B) ∨ (0x5D ≤ c ∧ c ≤ 0x7E)) →
      0x21 ≤ c ∧ c ≤ 0x7E)
    decide +kernel

theorem scope_string_items {l : List Str} (h : ∀ i ∈ l, ScopeToken i) :
    ScopeItems (sanitize (Scope.string (some l))) l := by
  have ha : sanitize (Scope.string (some l)) = Scope.string (some l) := by
    apply sanitize_ascii
    have : ∀ c ∈ joinStr [0x20] l, c = 0x20 ∨ ∃ i ∈ l, c ∈ i := by
      intro c hc
      clear h
      induction l with
      | nil => cases hc
      | cons a l ih =>
        cases l with
        | nil => exact .inr ⟨a, List.mem_cons_self, hc⟩
        | cons b l =>
          have e : joinStr [0x20] (a :: b :: l) = a ++ [0x20] ++ joinStr [0x20] (b :: l) := rfl
          rw [e, List.mem_append, List.mem_append] at hc
          rcases hc with (hc | hc) | hc
          · exact .inr ⟨a, List.mem_cons_self, hc⟩
          · exact .inl (List.mem_singleton.mp hc)
          · rcases ih hc with h | ⟨i, hi, h⟩
            · exact .inl h
            · exact .inr ⟨i, List.mem_cons_of_mem _ hi, h⟩
    intro c hc
    rcases this c hc with rfl | ⟨i, hi, hci⟩
    · decide
    · have h1 := (h i hi).2 c hci
      revert h1
      apply forall_u8 (P := fun c => (c = 0x21 ∨ (0x23 ≤ c ∧ c ≤ 0x5B) ∨ (0x5D ≤ c ∧ c ≤ 0x7E)) →
        c < 0x80)
      decide +kernel
  rw [ha, C06_parse_unique]
  exact C06_roundtrip l fun i hi => scopeToken_clean (h i hi)

end OAuth2

namespace OAuth2

open Spec Rfc

theorem redirectURI_target {uri : Str} (h : ∃ u, RedirectURI uri u) : Target uri := by
  obtain ⟨u, h⟩ := h
  exact ⟨u, h.parsed⟩

end OAuth2

namespace OAuth2

open Spec Rfc

theorem errorText_of_dec {t : Str} (h : (t.all fun c => decide ((0x20 ≤ c ∧ c ≤ 0x21) ∨
    (0x23 ≤ c ∧ c ≤ 0x5B) ∨ (0x5D ≤ c ∧ c ≤ 0x7E))) = true) : ErrorText t := by
  intro c hc
  exact of_decide_eq_true (List.all_eq_true.mp h c hc)

/-- What the endpoints say about errors is made of the characters that are allowed. -/
theorem error_text {x : Exchange} {s₀ st : Server} (cx : Context x s₀ st) {ep : Str} {r : Request}
    {res : Response} (h : x.At ep r res) {text : Str}
    (hd : JsonMember res b!"error_description" text) : ErrorText text := by
  have hc := cx.conforms h
  have hno : ∀ {l : List Str} {ms : List (Str × JSON)}, parseJSON res.body = some (.obj ms) →
      (ms.map (·.1)).Sublist l → b!"error_description" ∉ l → False := fun hp hs hn =>
    hn (hs.subset (List.mem_map.mpr ⟨_, member_unique hp hd, rfl⟩))
  obtain ⟨name, ms, endpoint, endpoints, h1, h2, h3, h4, hp, hs, hm⟩ : ∃ name ms endpoint endpoints,
      (name, endpoints) ∈ Spec.reported ∧ endpoint ∈ endpoints ∧ LastSegment r.path endpoint ∧
      res.statusCode = statusOf name ∧ parseJSON res.body = some (.obj ms) ∧
      (ms.map (·.1)).Sublist [b!"error", b!"error_description"] ∧ (b!"error", JSON.str name) ∈ ms := by
    cases hc with
    | tokens _ _ _ _ _ _ hp hs => exact (hno hp hs (by decide)).elim
    | description _ _ _ _ _ hp hs => exact (hno hp hs (by decide)).elim
    | revoked _ _ _ hb => exact (no_member hb hd).elim
    | failure ms n ep eps h1 h2 h3 h4 _ hp hs hm => exact ⟨n, ms, ep, eps, h1, h2, h3, h4, hp, hs, hm⟩
    | redirect _ _ _ _ hb => exact (no_member hb hd).elim
    | page _ _ _ hb =>
      obtain ⟨ms, h1, _⟩ := hd
      rw [hb, (by decide +kernel : parseJSON Server.notice = none)] at h1
      cases h1
    | notFound _ _ _ hb =>
      obtain ⟨ms, h1, _⟩ := hd
      rw [hb, (by decide +kernel : parseJSON b!"404 page not found\n" = none)] at h1
      cases h1
  by_cases hne : text = []
  · subst hne
    exact fun c hc => by cases hc
  have hsay : RefusedSaying x.answer (statusOf name) name text := by
    refine ⟨res, h.2.2, h4, ⟨ms, hp, hm⟩, fun t => ⟨fun ht => ⟨hne, ?_⟩, fun ⟨_, ht⟩ => ht ▸ hd⟩⟩
    have := error_failure.pairwise_fst (hs.nodup (by decide)) (member_unique hp ht) (member_unique hp hd)
    cases this
    rfl
  have hge := statusOf_ge name
  rw [cx.answer] at hsay
  have hep : endpoint ∈ [b!"authorize", b!"token", b!"introspect", b!"revoke"] := by
    revert h1 h2
    unfold Spec.reported
    simp only [List.mem_cons, List.not_mem_nil, or_false, Prod.mk.injEq]
    rintro (⟨_, rfl⟩ | ⟨_, rfl⟩ | ⟨_, rfl⟩ | ⟨_, rfl⟩ | ⟨_, rfl⟩ | ⟨_, rfl⟩) <;>
      simp only [List.mem_cons, List.not_mem_nil, or_false] <;> intro h <;>
      first | exact h | (subst h; simp) | (rcases h with rfl | rfl <;> simp)
  have flaw : ∀ {t d : Str}, Flaw s₀.config t d → ErrorText d := by
    intro t d h
    cases h <;> exact errorText_of_dec (by decide +kernel)
  by_cases hbad : ∃ d, Faulty r d
  · obtain ⟨d, hf⟩ := hbad
    obtain ⟨res', k1, _, _, k2⟩ := (C66_malformed_explained st h.1 (cx.fresh r h.1) hf).1
    rw [cx.reply h] at k1
    cases k1
    obtain ⟨_, rfl⟩ := (k2 text).mp hd
    rcases hf with ⟨_, h⟩ | ⟨_, h⟩ | ⟨_, h⟩ | ⟨_, h⟩ <;> cases h <;> exact errorText_of_dec (by decide +kernel)
  · have hwell : ¬ Malformed x.call := fun h' => hbad ((C66_malformed_iff h.1 (cx.fresh r h.1)).mp h')
    simp only [List.mem_cons, List.not_mem_nil, or_false] at hep
    rcases hep with rfl | rfl | rfl | rfl
    · cases hq : parseAuthorizationRequest r with
      | error e => exact absurd ⟨r, h.1, .inl ⟨h3, fun rq h => by rw [hq] at h; cases h⟩⟩ hwell
      | ok rq =>
        cases ((C66_visit_explained cx.started cx.history ⟨r, h.1, h3, hq⟩ _ _ _ hge).mp hsay).1 <;>
          exact errorText_of_dec (by decide +kernel)
    · cases hq : parseTokenRequest r with
      | error e => exact absurd ⟨r, h.1, .inr (.inl ⟨h3, fun rq h => by rw [hq] at h; cases h⟩)⟩ hwell
      | ok rq =>
        cases ((C66_token_explained cx.started cx.history ⟨r, h.1, h3, hq⟩ _ hge _ _).mp hsay).1 <;>
          first | exact flaw (by assumption) | exact errorText_of_dec (by decide +kernel)
    · cases hq : parseIntrospectionRequest r with
      | error e =>
        exact absurd ⟨r, h.1, .inr (.inr (.inl ⟨h3, fun rq h => by rw [hq] at h; cases h⟩))⟩ hwell
      | ok rq =>
        cases ((C66_introspection_explained cx.started cx.history ⟨r, h.1, h3, hq⟩ _ hge _ _).mp hsay).1 <;>
          first | exact flaw (by assumption) | exact errorText_of_dec (by decide +kernel)
    · cases hq : parseRevocationRequest r with
      | error e =>
        exact absurd ⟨r, h.1, .inr (.inr (.inr ⟨h3, fun rq h => by rw [hq] at h; cases h⟩))⟩ hwell
      | ok rq =>
        cases ((C66_revocation_explained cx.started cx.history ⟨r, h.1, h3, hq⟩ _ hge _ _).mp hsay).1 <;>
          first | exact flaw (by assumption) | exact errorText_of_dec (by decide +kernel)

end OAuth2

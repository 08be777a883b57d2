import Verif.Props.Endpoints
import Verif.Spec.Answers

/-!
C68: the server sends no other responses than those of the protocol.
-/

namespace OAuth2

open Spec

set_option linter.unusedSimpArgs false

variable {s : Server} {c : Call} {r : Request} {res : Response}

/-! ### The errors -/

/-- The errors of the endpoints, with the path they are used at. -/
inductive Listed (path : Str) : Error → Prop
  | request (d : Str) (h : path ∈ [b!"authorize", b!"token", b!"introspect", b!"revoke"]) :
      Listed path (invalidRequest d)
  | client (d : Str) (h : path ∈ [b!"authorize", b!"token", b!"introspect", b!"revoke"]) :
      Listed path (invalidClient d)
  | grant (d : Str) (h : path = b!"token") : Listed path (invalidGrant d)
  | scope (d : Str) (h : path = b!"token") : Listed path (invalidScope d)
  | denied (d : Str) (h : path = b!"token") : Listed path (accessDenied d)
  | type (d : Str) (h : path = b!"introspect" ∨ path = b!"revoke") :
      Listed path (unsupportedTokenType d)

theorem issue_not_error {l : Local} {tick : Nat} {b : Bool} {cred : ServerCredential}
    {f : TokenResponse → TokenResponse} {e : Error} (h : (s.issue l tick b cred f).1 = .error e) :
    False := by
  unfold Server.issue at h
  split at h <;> cases h

theorem listed_authorize {l : Local} {e : Error} (h : (s.authorizeReply r l).1 = .error e)
    (hr : e.redirectURI = []) : Listed b!"authorize" e := by
  unfold Server.authorizeReply at h
  split at h
  · next hp =>
    obtain ⟨d, rfl⟩ := Server.parseAuthorizationRequest_error hp
    cases h
    exact .request _ (by decide)
  · next rq hp =>
    have hne := (authorizationRequest_uri hp).1
    split at h
    · cases h; exact .request _ (by decide)
    · split at h
      · cases h; exact .client _ (by decide)
      · split at h
        · cases h; exact .request _ (by decide)
        · split at h
          · cases h
          · simp only at h
            split at h
            · cases h; exact absurd hr hne
            · split at h
              · cases h; exact absurd hr hne
              · split at h
                · exact (issue_not_error h).elim
                · split at h <;> cases h

theorem listed_code {rq : TokenRequest} {l : Local} {e : Error}
    (h : (s.codeReply rq l).1 = .error e) : Listed b!"token" e := by
  unfold Server.codeReply at h
  repeat' split at h
  all_goals first
    | (cases h; exact .request _ (by decide))
    | (cases h; exact .grant _ rfl)
    | (cases h; done)
    | exact (issue_not_error h).elim

theorem listed_refresh {rq : TokenRequest} {l : Local} {e : Error}
    (h : (s.refreshReply rq l).1 = .error e) : Listed b!"token" e := by
  unfold Server.refreshReply at h
  simp only at h
  generalize (fun stored : ServerCredential => if rq.scope.empty then stored.scope else rq.scope) = f at h
  repeat' split at h
  all_goals first
    | (cases h; exact .request _ (by decide))
    | (cases h; exact .grant _ rfl)
    | (cases h; exact .scope _ rfl)
    | (cases h; done)
    | exact (issue_not_error h).elim

theorem listed_token {l : Local} {e : Error} (h : (s.tokenReply r l).1 = .error e) :
    Listed b!"token" e := by
  unfold Server.tokenReply at h
  split at h
  · next hp =>
    obtain ⟨d, rfl⟩ := Server.parseTokenRequest_error hp
    cases h
    exact .request _ (by decide)
  · split at h
    · cases h; exact .request _ (by decide)
    · split at h
      · cases h; exact .client _ (by decide)
      · split at h
        · cases h; exact .client _ (by decide)
        · unfold Server.grantReply at h
          repeat' split at h
          all_goals first
            | (cases h; exact .denied _ rfl)
            | (cases h; exact .scope _ rfl)
            | (cases h; exact .client _ (by decide))
            | exact (issue_not_error h).elim
            | exact listed_code h
            | exact listed_refresh h

theorem listed_revoke {e : Error} (h : (s.revokeReply r).1 = .error e) : Listed b!"revoke" e := by
  unfold Server.revokeReply at h
  split at h
  · next hp =>
    obtain ⟨d, rfl⟩ := Server.parseRevocationRequest_error hp
    cases h
    exact .request _ (by decide)
  · simp only at h
    repeat' split at h
    all_goals first
      | (cases h; exact .type _ (.inr rfl))
      | (cases h; exact .client _ (by decide))
      | (cases h; exact .request _ (by decide))
      | cases h

theorem listed_introspect {e : Error} (h : (s.introspectReply r).1 = .error e) :
    Listed b!"introspect" e := by
  unfold Server.introspectReply at h
  split at h
  · next hp =>
    obtain ⟨d, rfl⟩ := Server.parseIntrospectionRequest_error hp
    cases h
    exact .request _ (by decide)
  · repeat' split at h
    all_goals first
      | (cases h; exact .type _ (.inl rfl))
      | (cases h; exact .client _ (by decide))
      | (cases h; exact .request _ (by decide))
      | cases h

theorem listed {l : Local} {e : Error} (h : (s.handle r l).1 = .error e) (hr : e.redirectURI = []) :
    Listed (Server.lastSegment r.path) e := by
  unfold Server.handle at h
  simp only at h
  split at h
  · next hp => rw [hp]; exact listed_authorize h hr
  · split at h
    · next hp => rw [hp]; exact listed_token h
    · split at h
      · next hp => rw [hp]; exact listed_introspect h
      · split at h
        · next hp => rw [hp]; exact listed_revoke h
        · cases h

/-! ### Documents -/

theorem json_document {res : Response} {ms : List Member} (hne : ms ≠ [])
    (henc : ∀ m ∈ ms, Encodes 9999 m.text m.doc)
    (hb : res.body = jsonObject (ms.map fun m => (m.key, m.text)) ++ [0x0A]) :
    parseJSON res.body = some (.obj (ms.map fun m => (sanitize m.key, m.doc))) := by
  rw [hb, parseJSON_object ms hne henc]

theorem strMember_sub (k v : Str) (hk : sanitize k = k) :
    ((strMember k v).map fun m : Member => sanitize m.key).Sublist [k] := by
  unfold strMember
  split
  · exact List.nil_sublist _
  · simp [hk]

theorem scopeMember_sub (x : Scope) :
    ((scopeMember x).map fun m : Member => sanitize m.key).Sublist [b!"scope"] := by
  unfold scopeMember
  split
  · exact List.nil_sublist _
  · simp [(by decide +kernel : sanitize b!"scope" = b!"scope")]

theorem intMember_sub (k : Str) (v : Int) (hk : sanitize k = k) :
    ((intMember k v).map fun m : Member => sanitize m.key).Sublist [k] := by
  unfold intMember
  split
  · exact List.nil_sublist _
  · simp [hk]

theorem keys_map (ms : List Member) :
    (ms.map fun m => (sanitize m.key, m.doc)).map (·.1) = ms.map fun m => sanitize m.key := by
  simp [Function.comp_def]

theorem listed_conforms {path : Str} {e : Error} (h : Listed (Server.lastSegment path) e) :
    Conforms path ((Reply.error e).render {}).result := by
  have hr : e.redirectURI = [] := by cases h <;> rfl
  have hdoc : parseJSON ((Reply.error e).render {}).result.body =
      some (.obj (e.members.map fun m => (sanitize m.key, m.doc))) := by
    apply json_document (by simp [Error.members]) e.members_encode
    rw [error_result hr, Error.json_members]
  have hn : (b!"error", JSON.str (sanitize e.name)) ∈
      e.members.map fun m => (sanitize m.key, m.doc) := by
    refine List.mem_map.mpr ⟨⟨b!"error", jsonString e.name, .str (sanitize e.name)⟩, ?_, ?_⟩
    · unfold Error.members
      simp
    · simp [(by decide +kernel : sanitize b!"error" = b!"error")]
  have hk : ((e.members.map fun m => (sanitize m.key, m.doc)).map (·.1)).Sublist
      [b!"error", b!"error_description"] := by
    rw [keys_map]
    have h1 : e.state = [] ∧ e.scope.items = [] ∧ e.realm = [] ∧ e.uri = [] := by
      cases h <;> exact ⟨rfl, rfl, rfl, rfl⟩
    unfold Error.members
    rw [h1.1, h1.2.2.1, h1.2.2.2]
    unfold scopeMember
    rw [h1.2.1]
    simp only [strMember, if_true, List.length_nil, List.append_nil, List.map_append]
    exact List.Sublist.append
      (by decide +kernel : List.Sublist [sanitize b!"error"] [b!"error"])
      (strMember_sub b!"error_description" e.description (by decide +kernel))
  have hseg : LastSegment path (Server.lastSegment path) := (lastSegment_iff _ _).mpr rfl
  have key : ∀ name endpoints, sanitize e.name = name → (name, endpoints) ∈ reported →
      Server.lastSegment path ∈ endpoints → e.status.toNat = statusOf name →
      (jsonHeader (e.addHeaders [])).Perm
        ((if e.status.toNat = 401 then basicChallenge else []) ++ documentHeaders) →
      Conforms path ((Reply.error e).render {}).result := by
    intro name endpoints h1 h2 h3 h4 h5
    rw [h1] at hn
    refine .failure _ name _ endpoints h2 h3 hseg ?_ ?_ hdoc hk hn
    · rw [error_result hr]; exact h4
    · rw [error_result hr]; exact h5
  have hA : (jsonHeader []).Perm documentHeaders := by decide +kernel
  have hB : (jsonHeader ((invalidClient []).addHeaders [])).Perm (basicChallenge ++ documentHeaders) := by
    decide +kernel
  cases h with
  | request d h =>
    exact key b!"invalid_request" _ (by decide +kernel : sanitize b!"invalid_request" = b!"invalid_request") (.head _) h rfl hA
  | client d h =>
    exact key b!"invalid_client" _ (by decide +kernel : sanitize b!"invalid_client" = b!"invalid_client") (.tail _ (.head _)) h rfl hB
  | grant d h =>
    exact key b!"invalid_grant" [b!"token"] (by decide +kernel : sanitize b!"invalid_grant" = b!"invalid_grant") (by decide) (by rw [h]; decide) rfl
      hA
  | scope d h =>
    exact key b!"invalid_scope" [b!"token"] (by decide +kernel : sanitize b!"invalid_scope" = b!"invalid_scope") (by decide) (by rw [h]; decide) rfl
      hA
  | denied d h =>
    exact key b!"access_denied" [b!"token"] (by decide +kernel : sanitize b!"access_denied" = b!"access_denied") (by decide) (by rw [h]; decide) rfl
      hA
  | type d h =>
    exact key b!"unsupported_token_type" [b!"introspect", b!"revoke"] (by decide +kernel : sanitize b!"unsupported_token_type" = b!"unsupported_token_type") (by decide)
      (by rcases h with h | h <;> rw [h] <;> decide) rfl hA

theorem tokens_conform {path : Str} (hp : LastSegment path b!"token") (cfg : ServerConfig)
    (a b : HS256Token) (scope : Scope) :
    Conforms path ((Reply.token (Server.grantResponse cfg a (some b) scope)).render {}).result := by
  obtain ⟨t, ht⟩ : ∃ t, t = Server.grantResponse cfg a (some b) scope := ⟨_, rfl⟩
  have hres := token_result (t := Server.grantResponse cfg a (some b) scope) rfl
  rw [← ht] at hres ⊢
  refine .tokens (t.members.map fun m => (sanitize m.key, m.doc)) (sanitize t.accessToken)
    t.expiresIn hp (by rw [hres]) ?_ ?_ ?_ ?_ ?_ ?_
  · rw [hres]; exact (by decide +kernel : (jsonHeader []).Perm documentHeaders)
  · apply json_document (by simp [TokenResponse.members]) t.members_encode
    rw [hres, TokenResponse.json_members]
  · rw [keys_map]
    have hst : t.state = [] := by rw [ht]; rfl
    unfold TokenResponse.members
    rw [hst]
    simp only [strMember, if_true, List.append_nil, List.map_append]
    exact (List.Sublist.append (by decide +kernel : List.Sublist
      [sanitize b!"token_type", sanitize b!"access_token", sanitize b!"expires_in"]
      [b!"token_type", b!"access_token", b!"expires_in"])
      (strMember_sub b!"refresh_token" t.refreshToken (by decide +kernel))).append (scopeMember_sub _)
  · refine List.mem_map.mpr ⟨_, List.mem_append_left _ (List.mem_append_left _
      (List.mem_append_left _ (.head _))), ?_⟩
    rw [ht]
    simp only [Server.grantResponse, Prod.mk.injEq, JSON.str.injEq]
    exact ⟨by decide +kernel, by decide +kernel⟩
  · refine List.mem_map.mpr ⟨_, List.mem_append_left _ (List.mem_append_left _
      (List.mem_append_left _ (.tail _ (.head _)))), ?_⟩
    simp only [Prod.mk.injEq, and_true]
    decide +kernel
  · refine List.mem_map.mpr ⟨_, List.mem_append_left _ (List.mem_append_left _
      (List.mem_append_left _ (.tail _ (.tail _ (.head _))))), ?_⟩
    simp only [Prod.mk.injEq, and_true]
    decide +kernel

theorem description_conforms {path : Str} (hp : LastSegment path b!"introspect")
    {i : IntrospectionResponse} (hi : i = {} ∨ ∃ kind cred, i = Server.describe kind cred) :
    Conforms path ((Reply.introspection i).render {}).result := by
  have hres := introspection_result i
  have hx : i.extra = none := by rcases hi with rfl | ⟨_, _, rfl⟩ <;> rfl
  refine .description (i.members.map fun m => (sanitize m.key, m.doc)) i.active hp (by rw [hres])
    ?_ ?_ ?_ ?_ ?_
  · rw [hres]; exact (by decide +kernel : (jsonHeader []).Perm documentHeaders)
  · apply json_document (by simp [IntrospectionResponse.members]) (i.members_encode (by
      rw [hx]; exact representable_nil _))
    rw [hres, IntrospectionResponse.json_members]
  · rw [keys_map]
    have h1 : i.issuedAt = 0 ∧ i.notBefore = 0 ∧ i.subject = [] ∧ i.audience = [] ∧ i.issuer = [] ∧
        i.identifier = [] := by
      rcases hi with rfl | ⟨_, _, rfl⟩ <;> exact ⟨rfl, rfl, rfl, rfl, rfl, rfl⟩
    obtain ⟨h1, h2, h3, h4, h5, h6⟩ := h1
    unfold IntrospectionResponse.members
    rw [h1, h2, h3, h4, h5, h6, hx]
    have e1 : ∀ k, intMember k 0 = [] := fun _ => rfl
    have e2 : ∀ k, strMember k [] = [] := fun _ => rfl
    have e3 : mapMember b!"extra" none = [] := rfl
    rw [e1, e1, e2, e2, e2, e2, e3]
    simp only [List.append_nil, List.map_append]
    exact ((((List.Sublist.append
      (by decide +kernel : List.Sublist [sanitize b!"active"] [b!"active"]) (scopeMember_sub _)).append
      (strMember_sub b!"client_id" _ (by decide +kernel))).append
      (strMember_sub b!"username" _ (by decide +kernel))).append
      (strMember_sub b!"token_type" _ (by decide +kernel))).append
      (intMember_sub b!"exp" _ (by decide +kernel))
  · refine List.mem_map.mpr ⟨⟨b!"active", if i.active then b!"true" else b!"false", .bool i.active⟩, ?_, ?_⟩
    · unfold IntrospectionResponse.members
      simp
    · simp only [Prod.mk.injEq, and_true]
      decide +kernel
  · intro ha
    rcases hi with rfl | ⟨_, _, rfl⟩
    · rfl
    · cases ha

theorem redirectHeader_nil (L : Str) : redirectHeader [] L = ([(b!"Location", [L]),
    (b!"Cache-Control", [b!"no-store"]), (b!"Pragma", [b!"no-cache"]),
    (b!"Referrer-Policy", [b!"origin"])] : Header).reverse := by
  have e1 : canonicalKey b!"Location" = b!"Location" := by decide +kernel
  have e2 : canonicalKey b!"Cache-Control" = b!"Cache-Control" := by decide +kernel
  have e3 : canonicalKey b!"Pragma" = b!"Pragma" := by decide +kernel
  have e4 : canonicalKey b!"Referrer-Policy" = b!"Referrer-Policy" := by decide +kernel
  unfold redirectHeader Header.add Header.set
  rw [e1, e2, e3, e4]
  rfl

/-- **C68.** Every response of `ServeHTTP`, whatever the request and the state of the server, is one
the protocol knows, and belongs to the endpoint that was addressed. -/
theorem C68_answers (hop : c.op = .serve r) (h : (step ⟨false, s⟩ c).1 = .answered res) :
    Conforms r.path res := by
  rw [step_serve hop] at h
  have hs := Server.served s r c.local
  have hl := fun e => listed (s := s) (r := r) (l := c.local) (e := e)
  generalize s.handle r c.local = x at h hs hl
  obtain ⟨reply, s'⟩ := x
  simp only at h hs hl
  have hred : ∀ {rq : AuthorizationRequest}, Server.AuthorizationFor s r rq → ∀ params f,
      Conforms r.path (redirectTo {} rq.redirectURI params f).result := by
    intro rq hf params f
    obtain ⟨_, u, hu⟩ := authorizationRequest_uri hf.parsed
    obtain ⟨L, hL⟩ := redirectLocation_isSome hu params f
    unfold redirectTo
    rw [hL]
    simp only
    rw [redirectRecorder_fresh ⟨rfl, rfl, rfl⟩]
    refine .redirect L ((lastSegment_iff _ _).mpr hf.path) rfl ?_ rfl
    show (redirectHeader [] L).Perm _
    rw [redirectHeader_nil]
    exact List.reverse_perm _
  cases hs with
  | notFound h1 h2 h3 h4 =>
    cases h
    refine .notFound ?_ rfl (by decide +kernel) rfl
    intro e he
    rw [lastSegment_iff]
    simp only [List.mem_cons, List.not_mem_nil, or_false] at he
    rcases he with rfl | rfl | rfl | rfl <;> assumption
  | refused e hs hr hp hh _ _ =>
    cases h
    exact listed_conforms (hl e rfl hr)
  | refusedRedirect rq hf hm e he =>
    have hne := (authorizationRequest_uri hf.parsed).1
    have hh : e.headers = [] := by rcases he with rfl | rfl <;> rfl
    cases h
    simp only [Reply.render, Error.setRedirect, Error.addHeaders, hh, List.foldl_nil, ne_eq, hne,
      not_false_eq_true, if_true]
    exact hred hf _ _
  | notice rq hf hm =>
    cases h
    exact .page ((lastSegment_iff _ _).mpr hf.path) rfl rfl rfl
  | crash _ _ => cases h
  | implicit rq hf hm ht hs hu a hg =>
    have hne := (authorizationRequest_uri hf.parsed).1
    cases h
    simp only [Reply.render, TokenResponse.setRedirect, ne_eq, hne, not_false_eq_true, if_true]
    exact hred hf _ _
  | code rq hf hm ht hs hu x rest hg =>
    cases h
    exact hred hf _ _
  | password rq hf ht hs hu a b hg =>
    cases h
    exact tokens_conform ((lastSegment_iff _ _).mpr hf.path) _ _ _ _
  | client rq hf ht hs hu a b hg =>
    cases h
    exact tokens_conform ((lastSegment_iff _ _).mpr hf.path) _ _ _ _
  | replay rq hf ht x hc stored hst hu =>
    cases h
    exact listed_conforms (hl _ rfl rfl)
  | exchange rq hf ht x hc stored hst hu hx ho hr a b hg =>
    cases h
    exact tokens_conform ((lastSegment_iff _ _).mpr hf.path) _ _ _ _
  | refresh rq hf ht x hc stored hst hx ho scope hsc hs a b hg =>
    cases h
    exact tokens_conform ((lastSegment_iff _ _).mpr hf.path) _ _ _ _
  | introspect rq hp hq hc t ht ha hr i hi =>
    cases h
    refine description_conforms ((lastSegment_iff _ _).mpr hp) ?_
    rw [hi]
    split
    · exact .inr ⟨_, _, rfl⟩
    · split
      · exact .inr ⟨_, _, rfl⟩
      · exact .inl rfl
  | revoke rq hp hq hc t ht ha hr =>
    cases h
    exact .revoked ((lastSegment_iff _ _).mpr hp) rfl rfl rfl
  | revokeHalf rq hp hq hc t ht ca ha hao cr hr hro =>
    cases h
    exact listed_conforms (hl _ rfl rfl)

theorem perm_all {h h' : Header} (hp : h.Perm h') (hn : (h'.map (·.1)).Nodup) (k : Str) :
    h.all k = h'.all k := by
  unfold Header.all
  rw [GoMap.get?_perm hp.symm hn]

/-- **C68.** A response demands authentication exactly if its status is 401, and then with exactly one
challenge. -/
theorem C68_challenge (hop : c.op = .serve r) (h : (step ⟨false, s⟩ c).1 = .answered res) :
    (res.statusCode = 401 ↔ res.header.all b!"WWW-Authenticate" ≠ []) ∧
    (res.statusCode = 401 →
      res.header.all b!"WWW-Authenticate" = [b!"Basic realm=\"OAuth2\""]) := by
  have hno : ∀ {hd : Header}, res.statusCode ≠ 401 → res.header.Perm hd → (hd.map (·.1)).Nodup →
      hd.all b!"WWW-Authenticate" = [] →
      (res.statusCode = 401 ↔ res.header.all b!"WWW-Authenticate" ≠ []) ∧
      (res.statusCode = 401 →
        res.header.all b!"WWW-Authenticate" = [b!"Basic realm=\"OAuth2\""]) := by
    intro hd h1 h2 h3 h4
    rw [perm_all h2 h3, h4]
    simp [h1]
  cases C68_answers hop h with
  | tokens _ _ _ _ hs hh => exact hno (by omega) hh (by decide +kernel) (by decide +kernel)
  | description _ _ _ hs hh => exact hno (by omega) hh (by decide +kernel) (by decide +kernel)
  | revoked _ hs hh => exact hno (hd := []) (by omega) (by rw [hh]) (by decide) (by decide +kernel)
  | page _ hs hh => exact hno (hd := []) (by omega) (by rw [hh]) (by decide) (by decide +kernel)
  | notFound _ hs hh => exact hno (by omega) hh (by decide +kernel) (by decide +kernel)
  | redirect L _ hs hh =>
    refine hno (by omega) hh (by simp) ?_
    have e : canonicalKey b!"WWW-Authenticate" = b!"Www-Authenticate" := by decide +kernel
    unfold Header.all
    rw [e]
    rfl
  | failure _ name _ _ _ _ _ hs hh =>
    by_cases h401 : res.statusCode = 401
    · rw [if_pos h401] at hh
      rw [perm_all hh (by decide +kernel)]
      simp only [h401, true_iff, forall_const]
      exact ⟨by decide +kernel, by decide +kernel⟩
    · rw [if_neg h401] at hh
      exact hno h401 hh (by decide +kernel) (by decide +kernel)

/-- Non-vacuity: the third call of the session is answered with tokens, and a request of an unknown
client with a demand for authentication. -/
example : (∃ r, Demo.c3.op = .serve r) ∧
    (∃ res, (step ⟨false, Demo.s2⟩ Demo.c3).1 = .answered res ∧ res.statusCode = 200) ∧
    ∃ res, (step ⟨false, { Demo.s2 with clients := [] }⟩ Demo.c3).1 = .answered res ∧
      res.statusCode = 401 := by
  refine ⟨⟨_, rfl⟩, ?_, ?_⟩
  · rw [Demo.step3]
    exact ⟨_, rfl, rfl⟩
  · have h : (match (step ⟨false, { Demo.s2 with clients := [] }⟩ Demo.c3).1 with
        | .answered res => decide (res.statusCode = 401)
        | _ => false) = true := by decide +kernel
    generalize (step ⟨false, { Demo.s2 with clients := [] }⟩ Demo.c3).1 = x at h
    cases x <;> simp at h
    exact ⟨_, rfl, h⟩

end OAuth2

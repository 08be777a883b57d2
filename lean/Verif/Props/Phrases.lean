import Verif.Spec.Phrases
import Verif.Props.Answers
import Verif.Props.EndToEnd

/-!
C98: nothing of a request comes back in a refusal.
-/

namespace OAuth2

open Spec

variable {s : Server} {c : Call} {r : Request} {res : Response}

/-! ### The errors -/

/-- The error is one of the phrases. -/
structure Said (endpoint : Str) (e : Error) : Prop where
  phrase : (endpoint, e.name, e.description) ∈ phrases
  bare : e.state = [] ∧ e.scope = none ∧ e.realm = [] ∧ e.uri = [] ∧ e.redirectURI = []
  status : e.status = statusOf e.name

theorem tokenPhrase {secret text err : Str} (h : HS256Token.parse secret text = .error err) :
    err ∈ tokenPhrases := by
  unfold HS256Token.parse at h
  simp only at h
  repeat' split at h
  all_goals first | (cases h; decide) | cases h

theorem said_parsed {secret text err endpoint : Str}
    (he : endpoint ∈ [b!"token", b!"introspect", b!"revoke"])
    (h : HS256Token.parse secret text = .error err) : Said endpoint (invalidRequest err) := by
  refine ⟨?_, ⟨rfl, rfl, rfl, rfl, rfl⟩, rfl⟩
  have hm := tokenPhrase h
  unfold tokenPhrases at hm
  simp only [List.mem_cons, List.not_mem_nil, or_false] at he hm
  rcases he with rfl | rfl | rfl <;> rcases hm with rfl | rfl | rfl | rfl <;> decide +kernel

macro "said" : tactic => `(tactic| exact ⟨by decide +kernel, ⟨rfl, rfl, rfl, rfl, rfl⟩, by decide⟩)

theorem said_parseAuthorization {e : Error} (h : parseAuthorizationRequest r = .error e) :
    Said b!"authorize" e := by
  unfold parseAuthorizationRequest at h
  repeat' split at h
  all_goals first | (cases h; said) | skip
  all_goals simp only at h
  all_goals repeat' split at h
  all_goals first | (cases h; said) | cases h

theorem said_parseToken {e : Error} (h : parseTokenRequest r = .error e) : Said b!"token" e := by
  unfold parseTokenRequest at h
  simp only at h
  by_cases hm : r.method ≠ b!"POST"
  · rw [if_pos hm] at h; cases h; said
  rw [if_neg hm] at h
  by_cases hf : r.parseForm.2 = true
  · rw [if_pos hf] at h; cases h; said
  rw [if_neg hf] at h
  by_cases hg : (r.parseForm.1.postForm.getD []).get b!"grant_type" = []
  · rw [if_pos hg] at h; cases h; said
  rw [if_neg hg] at h
  generalize (match r.parseForm.1.basicAuth with
    | some (u, p) => (u, p)
    | none => ((r.parseForm.1.postForm.getD []).get b!"client_id",
        (r.parseForm.1.postForm.getD []).get b!"client_secret")) = cred at h
  repeat' split at h
  all_goals first | (cases h; said) | cases h

theorem said_parseIntrospection {e : Error} (h : parseIntrospectionRequest r = .error e) :
    Said b!"introspect" e := by
  unfold parseIntrospectionRequest at h
  repeat' split at h
  all_goals first | (cases h; said) | skip
  all_goals simp only at h
  all_goals repeat' split at h
  all_goals first | (cases h; said) | cases h

theorem said_parseRevocation {e : Error} (h : parseRevocationRequest r = .error e) :
    Said b!"revoke" e := by
  unfold parseRevocationRequest at h
  repeat' split at h
  all_goals first | (cases h; said) | skip
  all_goals simp only at h
  all_goals repeat' split at h
  all_goals first | (cases h; said) | cases h

theorem said_authorize {l : Local} {e : Error} (h : (s.authorizeReply r l).1 = .error e)
    (hr : e.redirectURI = []) : Said b!"authorize" e := by
  unfold Server.authorizeReply at h
  split at h
  · next hp =>
    cases h
    exact said_parseAuthorization hp
  · next rq hp =>
    have hne := (authorizationRequest_uri hp).1
    split at h
    · cases h; said
    · split at h
      · cases h; said
      · split at h
        · cases h; said
        · split at h
          · cases h
          · simp only at h
            split at h
            · cases h; exact absurd hr hne
            · split at h
              · cases h; exact absurd hr hne
              · split at h
                · exact (issue_not_error h).elim
                · split at h <;> cases h

theorem said_code {rq : TokenRequest} {l : Local} {e : Error}
    (h : (s.codeReply rq l).1 = .error e) : Said b!"token" e := by
  unfold Server.codeReply at h
  repeat' split at h
  all_goals first
    | (cases h; said)
    | (cases h; exact said_parsed (by decide) ‹_›)
    | (cases h; done)
    | exact (issue_not_error h).elim

theorem said_refresh {rq : TokenRequest} {l : Local} {e : Error}
    (h : (s.refreshReply rq l).1 = .error e) : Said b!"token" e := by
  unfold Server.refreshReply at h
  simp only at h
  generalize (fun stored : ServerCredential => if rq.scope.empty then stored.scope else rq.scope) = f at h
  repeat' split at h
  all_goals first
    | (cases h; said)
    | (cases h; exact said_parsed (by decide) ‹_›)
    | (cases h; done)
    | exact (issue_not_error h).elim

theorem said_token {l : Local} {e : Error} (h : (s.tokenReply r l).1 = .error e) :
    Said b!"token" e := by
  unfold Server.tokenReply at h
  split at h
  · next hp =>
    cases h
    exact said_parseToken hp
  · split at h
    · cases h; said
    · split at h
      · cases h; said
      · split at h
        · cases h; said
        · unfold Server.grantReply at h
          repeat' split at h
          all_goals first
            | (cases h; said)
            | exact (issue_not_error h).elim
            | exact said_code h
            | exact said_refresh h

theorem said_revoke {e : Error} (h : (s.revokeReply r).1 = .error e) : Said b!"revoke" e := by
  unfold Server.revokeReply at h
  split at h
  · next hp =>
    cases h
    exact said_parseRevocation hp
  · simp only at h
    repeat' split at h
    all_goals first
      | (cases h; said)
      | (cases h; exact said_parsed (by decide) ‹_›)
      | cases h

theorem said_introspect {e : Error} (h : (s.introspectReply r).1 = .error e) :
    Said b!"introspect" e := by
  unfold Server.introspectReply at h
  split at h
  · next hp =>
    cases h
    exact said_parseIntrospection hp
  · repeat' split at h
    all_goals first
      | (cases h; said)
      | (cases h; exact said_parsed (by decide) ‹_›)
      | cases h

theorem said {l : Local} {e : Error} (h : (s.handle r l).1 = .error e) (hr : e.redirectURI = []) :
    Said (Server.lastSegment r.path) e := by
  unfold Server.handle at h
  simp only at h
  split at h
  · next hp => rw [hp]; exact said_authorize h hr
  · split at h
    · next hp => rw [hp]; exact said_token h
    · split at h
      · next hp => rw [hp]; exact said_introspect h
      · split at h
        · next hp => rw [hp]; exact said_revoke h
        · cases h

/-! ### The documents -/

theorem phrases_json : ∀ x ∈ phrases,
    ({ name := x.2.1, description := x.2.2 } : Error).json ++ [0x0A] = errorDocument x.2.1 x.2.2 := by
  decide +kernel

theorem said_document {endpoint : Str} {e : Error} (h : Said endpoint e) :
    e.json ++ [0x0A] = errorDocument e.name e.description := by
  have := phrases_json _ h.phrase
  simp only at this
  rw [← this]
  obtain ⟨h1, h2, h3, h4, _⟩ := h.bare
  unfold Error.json
  rw [h1, h2, h3, h4]

/-! ### The claims -/

/-- **C98.** A request that is neither served nor redirected and whose endpoint exists is answered with
one of the phrases, whatever the request says and whatever the server stores. -/
theorem C98_said (hop : c.op = .serve r) (h : (step ⟨false, s⟩ c).1 = .answered res)
    (hst : res.statusCode ∉ [200, 303, 404]) :
    ∃ endpoint name description, (endpoint, name, description) ∈ phrases ∧
      LastSegment r.path endpoint ∧ res.statusCode = statusOf name ∧
      res.header.Perm ((if name = b!"invalid_client" then basicChallenge else []) ++ documentHeaders) ∧
      res.body = errorDocument name description := by
  have hconf := C68_answers hop h
  rw [step_serve hop] at h
  have hs := fun e => said (s := s) (r := r) (l := c.local) (e := e)
  have hr : ∀ e, (s.handle r c.local).1 = .error e → e.redirectURI = [] → ∃ endpoint name description,
      (endpoint, name, description) ∈ phrases ∧ LastSegment r.path endpoint ∧
      ((Reply.error e).render {}).result.statusCode = statusOf name ∧
      ((Reply.error e).render {}).result.body = errorDocument name description := by
    intro e he hred
    have hsd := hs e he hred
    refine ⟨_, e.name, e.description, hsd.phrase, (lastSegment_iff _ _).mpr rfl, ?_, ?_⟩
    · rw [error_result hred]
      show e.status.toNat = _
      rw [hsd.status]; rfl
    · rw [error_result hred]
      exact said_document hsd
  have hd : res.header.Perm
      ((if res.statusCode = 401 then basicChallenge else []) ++ documentHeaders) := by
    cases hconf with
    | failure _ _ _ _ _ _ _ _ hh => exact hh
    | tokens _ _ _ _ h => rw [h] at hst; exact absurd (.head _) hst
    | description _ _ _ h => rw [h] at hst; exact absurd (.head _) hst
    | revoked _ h => rw [h] at hst; exact absurd (.head _) hst
    | page _ h => rw [h] at hst; exact absurd (.head _) hst
    | redirect _ _ h => rw [h] at hst; exact absurd (.tail _ (.head _)) hst
    | notFound _ h => rw [h] at hst; exact absurd (.tail _ (.tail _ (.head _))) hst
  suffices ∃ endpoint name description, (endpoint, name, description) ∈ phrases ∧
      LastSegment r.path endpoint ∧ res.statusCode = statusOf name ∧
      res.body = errorDocument name description by
    obtain ⟨endpoint, name, description, h1, h2, h3, h4⟩ := this
    refine ⟨endpoint, name, description, h1, h2, h3, ?_, h4⟩
    have : res.statusCode = 401 ↔ name = b!"invalid_client" := by
      rw [h3]
      unfold statusOf
      by_cases hn : name = b!"invalid_client"
      · simp [hn]
      · by_cases hn' : name = b!"access_denied" <;> simp [hn, hn']
    by_cases hn : name = b!"invalid_client"
    · rw [if_pos hn]
      rw [if_pos (this.mpr hn)] at hd
      exact hd
    · rw [if_neg hn]
      rw [if_neg fun h => hn (this.mp h)] at hd
      exact hd
  have hv := Server.served s r c.local
  have h303 : ∀ {rq : AuthorizationRequest}, Server.AuthorizationFor s r rq → ∀ params f,
      (redirectTo {} rq.redirectURI params f).result.statusCode = 303 := by
    intro rq hf params f
    obtain ⟨_, u, hu⟩ := authorizationRequest_uri hf.parsed
    obtain ⟨L, hL⟩ := redirectLocation_isSome hu params f
    exact (redirectTo_result (h := []) rfl hL).2.2
  generalize s.handle r c.local = x at h hv hr
  obtain ⟨reply, s'⟩ := x
  simp only at h hv hr
  cases hv with
  | refused e _ hu => cases h; exact hr e rfl hu
  | replay => cases h; exact hr _ rfl rfl
  | revokeHalf => cases h; exact hr _ rfl rfl
  | crash => cases h
  | refusedRedirect rq hf hm e he =>
    have hne := (authorizationRequest_uri hf.parsed).1
    have hh : e.headers = [] := by rcases he with rfl | rfl <;> rfl
    cases h
    simp only [Reply.render, Error.setRedirect, Error.addHeaders, hh, List.foldl_nil, ne_eq, hne,
      not_false_eq_true, if_true] at hst
    rw [h303 hf] at hst
    exact absurd (.tail _ (.head _)) hst
  | implicit rq hf =>
    have hne := (authorizationRequest_uri hf.parsed).1
    cases h
    simp only [Reply.render, TokenResponse.setRedirect, ne_eq, hne, not_false_eq_true, if_true] at hst
    rw [h303 hf] at hst
    exact absurd (.tail _ (.head _)) hst
  | code rq hf =>
    cases h
    exact absurd (List.mem_cons_of_mem _ (List.mem_cons.mpr (.inl (h303 hf _ _)))) hst
  | notFound => cases h; exact absurd (by decide +kernel) hst
  | notice => cases h; exact absurd (.head _) hst
  | revoke => cases h; exact absurd (.head _) hst
  | introspect => cases h; rw [introspection_result] at hst; exact absurd (.head _) hst
  | password => cases h; rw [token_result rfl] at hst; exact absurd (.head _) hst
  | client => cases h; rw [token_result rfl] at hst; exact absurd (.head _) hst
  | exchange => cases h; rw [token_result rfl] at hst; exact absurd (.head _) hst
  | refresh => cases h; rw [token_result rfl] at hst; exact absurd (.head _) hst

/-- **C98.** An answer other than success is short, however long the request is. -/
theorem C98_short (hop : c.op = .serve r) (h : (step ⟨false, s⟩ c).1 = .answered res)
    (hst : res.statusCode ≠ 200) : res.body.length ≤ 100 := by
  by_cases hn : res.statusCode ∈ [200, 303, 404]
  · cases C68_answers hop h with
    | tokens _ _ _ _ h => exact absurd h hst
    | description _ _ _ h => exact absurd h hst
    | revoked _ h => exact absurd h hst
    | page _ h => exact absurd h hst
    | redirect _ _ _ _ hb => rw [hb]; exact Nat.zero_le _
    | notFound _ _ _ hb => rw [hb]; decide
    | failure _ name _ _ _ _ _ hs =>
      rw [hs] at hn
      unfold statusOf at hn
      split at hn
      · simp at hn
      · split at hn <;> simp at hn
  · obtain ⟨endpoint, name, description, hm, _, _, _, hb⟩ := C98_said hop h hn
    rw [hb]
    have : ∀ x ∈ phrases, (errorDocument x.2.1 x.2.2).length ≤ 100 := by decide +kernel
    exact this _ hm

/-- **C98.** Somebody `Authorize` turns away gets one of five challenges, or is told which scope the
program requires, and nothing else: no other header and no body. -/
theorem C98_challenged {required : Scope} (hop : c.op = .authorize r required)
    (h : (step ⟨false, s⟩ c).1 = .rejected res) :
    res.body = [] ∧ ∃ challenge, res.header = [(b!"Www-Authenticate", [challenge])] ∧
      ((res.statusCode, challenge) ∈ challenges ∨
        res.statusCode = 403 ∧ challenge = b!"Bearer error=\"insufficient_scope\"" ++
          (if required.items = [] then [] else b!", scope=\"" ++ joinStr b!" " required.items ++ b!"\"")) := by
  rw [step_authorize hop] at h
  have hc : ∀ e, s.authorizes r required (c.clock 0) = some e →
      (e = protectedResource ∨ e = invalidRequest b!"malformed authorization header" ∨
        e = invalidToken b!"malformed token" ∨ e = invalidToken b!"unknown token" ∨
        e = invalidToken b!"expired token") ∨ e = insufficientScope required := by
    intro e he
    unfold Server.authorizes at he
    split at he
    · next hp =>
      cases he
      rcases Server.parseBearerToken_error hp with h | h
      · exact .inl (.inl h)
      · exact .inl (.inr (.inl h))
    · repeat' split at he
      all_goals first | (cases he; simp; done) | cases he
  cases ha : s.authorizes r required (c.clock 0) with
  | none => rw [ha] at h; cases h
  | some e =>
    rw [ha] at h
    cases h
    refine ⟨?_, ?_⟩
    · rcases hc e ha with (rfl | rfl | rfl | rfl | rfl) | rfl <;> rfl
    · rcases hc e ha with h | rfl
      · have : ∀ e ∈ [protectedResource, invalidRequest b!"malformed authorization header",
            invalidToken b!"malformed token", invalidToken b!"unknown token",
            invalidToken b!"expired token"],
            ∃ x ∈ challenges, (Server.challenge {} e).result.header = [(b!"Www-Authenticate", [x.2])] ∧
              (Server.challenge {} e).result.statusCode = x.1 := by decide +kernel
        obtain ⟨x, hx, h1, h2⟩ := this e (by rcases h with rfl | rfl | rfl | rfl | rfl <;> simp)
        exact ⟨x.2, h1, .inl (by rw [h2]; exact hx)⟩
      · refine ⟨_, rfl, .inr ⟨rfl, ?_⟩⟩
        have hp : (insufficientScope required).params = b!"error=\"insufficient_scope\"" ++
            (if required.items = [] then []
              else b!", scope=\"" ++ joinStr b!" " required.items ++ b!"\"") := by
          unfold Error.params Error.map insufficientScope
          by_cases h0 : required.items = []
          · simp only [h0, List.length_nil]
            rfl
          · have : 0 < required.items.length := List.length_pos_iff.mpr h0
            simp only [this, h0, if_false]
            rfl
        show b!"Bearer " ++ (if (insufficientScope required).params = [] then _ else _) = _
        rw [if_neg (by rw [hp]; simp), hp]
        rfl

/-! ### Every phrase is heard -/

/-- A request without a body. -/
def getting (path method : Str) (header : Header) : Call where
  op := .serve { method := method, path := path, body := some [], header := header }
  clock := fun n => (1020 + n) * second

/-- One request for each phrase. -/
def provocations : List Call := [
  getting b!"/oauth2/authorize" b!"DELETE" [],
  Demo.post b!"/oauth2/authorize" [] (b!"%zz") [] 1020,
  Demo.post b!"/oauth2/authorize" [] (b!"") [] 1020,
  Demo.post b!"/oauth2/authorize" [] (b!"response_type=code") [] 1020,
  Demo.post b!"/oauth2/authorize" [] (b!"response_type=code&client_id=c2") [] 1020,
  Demo.post b!"/oauth2/authorize" [] (b!"response_type=code&client_id=c2&redirect_uri=x") [] 1020,
  Demo.post b!"/oauth2/authorize" []
    (b!"response_type=x&client_id=c2&redirect_uri=http%3A%2F%2Fexample.org%2Fcb%3Fx%3D1") [] 1020,
  Demo.post b!"/oauth2/authorize" []
    (b!"response_type=code&client_id=c9&redirect_uri=http%3A%2F%2Fexample.org%2Fcb%3Fx%3D1") [] 1020,
  getting b!"/oauth2/token" b!"GET" [],
  Demo.post b!"/oauth2/token" [] (b!"%zz") [] 1020,
  Demo.post b!"/oauth2/token" [] (b!"") [] 1020,
  Demo.post b!"/oauth2/token" [] (b!"grant_type=password") [] 1020,
  Demo.post b!"/oauth2/token" [] (b!"grant_type=password&client_id=c2&redirect_uri=x") [] 1020,
  Demo.post b!"/oauth2/token" [] (b!"grant_type=x&client_id=c2") [] 1020,
  Demo.post b!"/oauth2/token" [] (b!"grant_type=password&client_id=c9") [] 1020,
  Demo.post b!"/oauth2/token" [] (b!"grant_type=password&client_id=c2&username=u1") [] 1020,
  Demo.post b!"/oauth2/token" []
    (b!"grant_type=password&client_id=c2&username=u1&password=p1&scope=x") [] 1020,
  Demo.post b!"/oauth2/token" []
    (b!"grant_type=refresh_token&client_id=c1&client_secret=s1&scope=bar&refresh_token=" ++ Demo.r1.string) [] 1020,
  Demo.post b!"/oauth2/token" []
    (b!"grant_type=authorization_code&client_id=c2&code=" ++ Demo.a1.string) [] 1020,
  Demo.post b!"/oauth2/token" []
    (b!"grant_type=authorization_code&client_id=c2&code=" ++ Demo.x2.string) [] 100000000,
  Demo.post b!"/oauth2/token" []
    (b!"grant_type=authorization_code&client_id=c1&client_secret=s1&code=" ++ Demo.x2.string) [] 1020,
  Demo.post b!"/oauth2/token" []
    (b!"grant_type=authorization_code&client_id=c2&code=" ++ Demo.x2.string) [] 1020,
  Demo.post b!"/oauth2/token" []
    (b!"grant_type=refresh_token&client_id=c2&refresh_token=" ++ Demo.a1.string) [] 1020,
  Demo.post b!"/oauth2/token" []
    (b!"grant_type=refresh_token&client_id=c1&client_secret=s1&refresh_token=" ++ Demo.r1.string) [] 100000000,
  Demo.post b!"/oauth2/token" []
    (b!"grant_type=refresh_token&client_id=c2&refresh_token=" ++ Demo.r1.string) [] 1020,
  Demo.post b!"/oauth2/token" []
    (b!"grant_type=refresh_token&client_id=c2&refresh_token=x") [] 1020,
  Demo.post b!"/oauth2/token" []
    (b!"grant_type=refresh_token&client_id=c2&refresh_token=%2A.x") [] 1020,
  Demo.post b!"/oauth2/token" []
    (b!"grant_type=refresh_token&client_id=c2&refresh_token=AQI.%2A") [] 1020,
  Demo.post b!"/oauth2/token" []
    (b!"grant_type=refresh_token&client_id=c2&refresh_token=AQI.AQI") [] 1020,
  getting b!"/oauth2/introspect" b!"GET" [],
  Demo.post b!"/oauth2/introspect" b!"c1:s1" (b!"%zz") [] 1020,
  Demo.post b!"/oauth2/introspect" b!"c1:s1" (b!"") [] 1020,
  Demo.post b!"/oauth2/introspect" [] (b!"token=x") [] 1020,
  Demo.post b!"/oauth2/introspect" b!"c1:s1" (b!"token=x&token_type_hint=x") [] 1020,
  Demo.post b!"/oauth2/introspect" b!"c9:s1" (b!"token=x") [] 1020,
  Demo.post b!"/oauth2/introspect" b!"c2:" (b!"token=" ++ Demo.a1.string) [] 1020,
  Demo.post b!"/oauth2/introspect" b!"c1:s1" (b!"token=x") [] 1020,
  Demo.post b!"/oauth2/introspect" b!"c1:s1" (b!"token=%2A.x") [] 1020,
  Demo.post b!"/oauth2/introspect" b!"c1:s1" (b!"token=AQI.%2A") [] 1020,
  Demo.post b!"/oauth2/introspect" b!"c1:s1" (b!"token=AQI.AQI") [] 1020,
  getting b!"/oauth2/revoke" b!"GET" [],
  Demo.post b!"/oauth2/revoke" b!"c1:s1" (b!"%zz") [] 1020,
  Demo.post b!"/oauth2/revoke" b!"c1:s1" (b!"") [] 1020,
  Demo.post b!"/oauth2/revoke" [] (b!"token=x") [] 1020,
  Demo.post b!"/oauth2/revoke" b!"c1:s1" (b!"token=x&token_type_hint=x") [] 1020,
  Demo.post b!"/oauth2/revoke" b!"c9:s1" (b!"token=x") [] 1020,
  Demo.post b!"/oauth2/revoke" b!"c2:" (b!"token=" ++ Demo.a1.string) [] 1020,
  Demo.post b!"/oauth2/revoke" b!"c1:s1" (b!"token=x") [] 1020,
  Demo.post b!"/oauth2/revoke" b!"c1:s1" (b!"token=%2A.x") [] 1020,
  Demo.post b!"/oauth2/revoke" b!"c1:s1" (b!"token=AQI.%2A") [] 1020,
  Demo.post b!"/oauth2/revoke" b!"c1:s1" (b!"token=AQI.AQI") [] 1020]

/-- The call is answered with this phrase. -/
def hears (s : Server) (x : Str × Str × Str) (c : Call) : Bool :=
  match c.op, (step ⟨false, s⟩ c).1 with
  | .serve r, .answered res => decide (Server.lastSegment r.path = x.1 ∧
      res.statusCode = statusOf x.2.1 ∧ res.body = errorDocument x.2.1 x.2.2)
  | _, _ => false

theorem provoked : ∀ x ∈ phrases, ∃ c ∈ provocations, hears Demo.s2 x c = true := by decide +kernel

/-- **C98.** None of the phrases is idle: after two requests of the session, each of them is the answer
to some request. -/
theorem C98_heard : ∀ x ∈ phrases, ∃ h s c r res, History Demo.server h ⟨false, s⟩ ∧ c.op = .serve r ∧
    (step ⟨false, s⟩ c).1 = .answered res ∧ LastSegment r.path x.1 ∧
    res.statusCode = statusOf x.2.1 ∧ res.body = errorDocument x.2.1 x.2.2 := by
  intro x hx
  obtain ⟨c, _, hc⟩ := provoked x hx
  unfold hears at hc
  split at hc
  · next r res hop hres =>
    obtain ⟨h1, h2, h3⟩ := of_decide_eq_true hc
    exact ⟨_, _, c, r, res, Demo.history2, hop, hres, (lastSegment_iff _ _).mpr h1, h2, h3⟩
  · cases hc

/-- Non-vacuity: a request with a very long value is refused in 69 bytes, and a request with an
unknown token is challenged. -/
example : (∃ r res, (Demo.post b!"/oauth2/token" [] (b!"grant_type=" ++ List.replicate 500 0x61 ++
      b!"&client_id=c2") [] 1020).op = .serve r ∧
      (step ⟨false, Demo.s2⟩ (Demo.post b!"/oauth2/token" [] (b!"grant_type=" ++
        List.replicate 500 0x61 ++ b!"&client_id=c2") [] 1020)).1 = .answered res ∧
      res.statusCode ∉ [200, 303, 404] ∧ res.body.length = 69) ∧
    ∃ res, (step ⟨false, Demo.s2⟩ (Demo.present Demo.r1.string none 1020)).1 = .rejected res ∧
      res.header = [(b!"Www-Authenticate",
        [b!"Bearer error=\"invalid_token\", error_description=\"unknown token\""])] := by
  refine ⟨?_, ?_⟩
  · have h : (match (step ⟨false, Demo.s2⟩ (Demo.post b!"/oauth2/token" [] (b!"grant_type=" ++
          List.replicate 500 0x61 ++ b!"&client_id=c2") [] 1020)).1 with
        | .answered res => decide (res.statusCode ∉ [200, 303, 404] ∧ res.body.length = 69)
        | _ => false) = true := by decide +kernel
    split at h
    · next res hres => exact ⟨_, res, rfl, hres, of_decide_eq_true h⟩
    · cases h
  · have h : (match (step ⟨false, Demo.s2⟩ (Demo.present Demo.r1.string none 1020)).1 with
        | .rejected res => decide (res.header = [(b!"Www-Authenticate",
          [b!"Bearer error=\"invalid_token\", error_description=\"unknown token\""])])
        | _ => false) = true := by decide +kernel
    split at h
    · next res hres => exact ⟨res, hres, of_decide_eq_true h⟩
    · cases h

/-! ### Grants -/

/-- Asking for the same scope many times. -/
def insistent (n : Nat) : TokenRequest where
  grantType := b!"password"
  scope := some (List.replicate n b!"foo")
  clientID := b!"c2"
  username := b!"u1"
  password := b!"p1"

theorem joined_length (n : Nat) : (joinStr [0x20] (List.replicate n b!"foo")).length = 4 * n - 1 := by
  induction n with
  | zero => rfl
  | succ n ih =>
    cases n with
    | zero => rfl
    | succ n =>
      show (b!"foo" ++ [0x20] ++ joinStr [0x20] (List.replicate (n + 1) b!"foo")).length = _
      rw [List.length_append, ih]
      simp
      omega

theorem joined_bytes (n : Nat) : ∀ c ∈ joinStr [0x20] (List.replicate n b!"foo"),
    c = 0x66 ∨ c = 0x6F ∨ c = 0x20 := by
  induction n with
  | zero => nofun
  | succ n ih =>
    cases n with
    | zero => decide
    | succ n =>
      intro c hc
      have : c ∈ b!"foo" ++ [0x20] ++ joinStr [0x20] (List.replicate (n + 1) b!"foo") := hc
      rcases List.mem_append.mp this with h | h
      · have : ∀ c ∈ b!"foo" ++ [0x20], c = 0x66 ∨ c = 0x6F ∨ c = 0x20 := by decide
        exact this c h
      · exact ih c h

theorem escape_length {x : Str} (h : ∀ c ∈ x, c = 0x66 ∨ c = 0x6F ∨ c = 0x20) :
    (queryEscape x).length = x.length := by
  unfold queryEscape
  induction x with
  | nil => rfl
  | cons c cs ih =>
    have := ih fun d hd => h d (.tail _ hd)
    unfold escape
    rcases h c (.head _) with rfl | rfl | rfl
    · rw [if_neg (by decide), if_neg (by decide)]; simp [this]
    · rw [if_neg (by decide), if_neg (by decide)]; simp [this]
    · rw [if_pos (by decide)]; simp [this]

theorem insistent_size (n : Nat) : (tokenRequestValues (insistent n)).encode.length ≤ 4 * n + 51 := by
  cases n with
  | zero => decide +kernel
  | succ n =>
    obtain ⟨x, hx⟩ : ∃ x, x = (insistent (n + 1)).scope.string := ⟨_, rfl⟩
    have e : (tokenRequestValues (insistent (n + 1))).encode =
        b!"grant_type=password&password=p1&scope=" ++ queryEscape x ++ b!"&username=u1" := by
      have : tokenRequestValues (insistent (n + 1)) = [(b!"grant_type", [b!"password"]),
          (b!"scope", [x]), (b!"username", [b!"u1"]), (b!"password", [b!"p1"])] := by
        rw [hx]; rfl
      rw [this]
      unfold Values.encode
      have hs : sortStrings (GoMap.keys [(b!"grant_type", [b!"password"]),
          (b!"scope", [x]), (b!"username", [b!"u1"]), (b!"password", [b!"p1"])]) =
          [b!"grant_type", b!"password", b!"scope", b!"username"] := by
        show sortStrings [b!"grant_type", b!"scope", b!"username", b!"password"] = _
        decide +kernel
      rw [hs]
      have hk : queryEscape b!"grant_type" = b!"grant_type" ∧ queryEscape b!"password" = b!"password" ∧
          queryEscape b!"scope" = b!"scope" ∧ queryEscape b!"username" = b!"username" ∧
          queryEscape b!"p1" = b!"p1" ∧ queryEscape b!"u1" = b!"u1" := by decide +kernel
      obtain ⟨k1, k2, k3, k4, k5, k6⟩ := hk
      simp [List.flatMap_cons, Values.encodeKey, Values.all, GoMap.get?, joinStr, k1, k2, k3, k4, k5, k6]
    have hl : x.length = 4 * (n + 1) - 1 := by rw [hx]; exact joined_length _
    rw [e, List.length_append, List.length_append,
      escape_length (by rw [hx]; exact joined_bytes _), hl]
    simp
    omega

/-- **C98.** That refusals are short does not go for grants: a client that may have tokens can make an
answer as long as a form may be, by asking for the same scope again and again. -/
theorem C98_long {n : Nat} (hn : 4 * n + 55 ≤ 10485760) : ∃ c r res, c.op = .serve r ∧
    (step ⟨false, Demo.server⟩ c).1 = .answered res ∧ res.statusCode = 200 ∧
    4 * n < res.body.length := by
  have hsend : Sendable (insistent (n + 1)) := by
    refine ⟨by show b!"password" ≠ []; decide, by show b!"c2" ≠ []; decide,
      by show 0x3A ∉ b!"c2"; decide, ?_, .inl rfl, ?_⟩
    · intro l hl
      cases hl
      refine ⟨by simp, fun i hi => ?_⟩
      rw [(List.mem_replicate.mp hi).2]
      exact (parse_clean b!"foo" _ rfl).2 _ (.head _)
    · have := insistent_size (n + 1)
      omega
  have hend : Endpoint (b!"http://example.com" ++ b!"/oauth2/token") b!"token" :=
    ⟨_, (by decide +kernel : parseURL b!"http://example.com/oauth2/token" = some {
      scheme := b!"http", host := b!"example.com", path := b!"/oauth2/token" }),
      by decide +kernel, (lastSegment_iff _ _).mpr (by decide +kernel)⟩
  obtain ⟨r, _, hc⟩ := sent_token (cfg := ⟨b!"http://example.com", b!"/oauth2/token", [], [], 0⟩)
    hend hsend [1, 2, 3, 4] fun _ => 0
  obtain ⟨client, _, h2⟩ := step_grant (s := Demo.server) hc
    (by show Identified Demo.server b!"c2" []; decide +kernel) (by show knownGrantType b!"password" = true; decide)
  obtain ⟨a, b, hm⟩ := mint_enough (cfg := Demo.server.config) (c := ⟨.serve r, [1, 2, 3, 4], fun _ => 0⟩)
    (by show (0 : Int) ≤ 2 ∧ 2 * 2 ≤ 4; decide)
  have hg : (Demo.server.grantReply (insistent (n + 1)) client
      (⟨.serve r, [1, 2, 3, 4], fun _ => 0⟩ : Call).local).1 =
      .token (Server.grantResponse Demo.server.config a (some b) (insistent (n + 1)).scope) := by
    have hw : Within (insistent (n + 1)).scope Demo.server.config.allowedScope := by
      intro i hi
      rw [(List.mem_replicate.mp hi).2]
      exact .head _
    have hu : Password Demo.server (insistent (n + 1)).username (insistent (n + 1)).password := by
      show Password Demo.server b!"u1" b!"p1"
      decide +kernel
    unfold Server.grantReply
    rw [if_pos (show (insistent (n + 1)).grantType = PasswordGrantType from rfl), (Server.userOK_iff _ _ _).mpr hu, (C07_includes _ _).mpr hw]
    unfold Server.issue
    rw [hm]
    rfl
  refine ⟨_, r, _, rfl, by rw [h2, hg]; rfl, ?_, ?_⟩
  · rw [token_result rfl]
  · rw [token_result rfl]
    obtain ⟨x, hx⟩ : ∃ x, x = (insistent (n + 1)).scope.string := ⟨_, rfl⟩
    have hl : x.length = 4 * (n + 1) - 1 := by rw [hx]; exact joined_length _
    have hj : jsonString x = [0x22] ++ x ++ [0x22] := by
      rw [jsonString, jsonEsc_eq_self fun c hc => ?_]
      · rfl
      · rcases joined_bytes (n + 1) c (by rw [hx] at hc; exact hc) with rfl | rfl | rfl <;> decide
    have hb : ∃ pre post, (Server.grantResponse Demo.server.config a (some b)
        (insistent (n + 1)).scope).json = pre ++ jsonString x ++ post := by
      refine ⟨[0x7B] ++ joinStr [0x2C] ([(b!"token_type", jsonString b!"bearer"),
        (b!"access_token", jsonString a.string), (b!"expires_in", itoa 3600),
        (b!"refresh_token", jsonString b.string)].map fun m => jsonString m.1 ++ [0x3A] ++ m.2) ++
        [0x2C] ++ jsonString b!"scope" ++ [0x3A], [0x7D], ?_⟩
      have ht : b.string ≠ [] := token_ne_nil b
      unfold TokenResponse.json jsonObject
      rw [hx]
      show [0x7B] ++ joinStr [0x2C] (([(b!"token_type", jsonString b!"bearer"),
        (b!"access_token", jsonString a.string), (b!"expires_in", itoa 3600)] ++
        omitEmpty b!"refresh_token" b.string ++ [(b!"scope", (insistent (n + 1)).scope.marshalJSON)] ++
        omitEmpty b!"state" []).map fun m => jsonString m.1 ++ [0x3A] ++ m.2) ++ [0x7D] = _
      unfold omitEmpty
      rw [if_neg ht, if_pos rfl]
      simp [joinStr, Scope.marshalJSON]
    obtain ⟨pre, post, hb⟩ := hb
    show 4 * n < (_ ++ [0x0A]).length
    rw [hb, hj]
    simp only [List.length_append, hl]
    simp
    omega

end OAuth2

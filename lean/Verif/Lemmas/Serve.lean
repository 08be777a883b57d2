import Verif.Model.Server
import Verif.Lemmas.Exec
import Verif.Lemmas.Http

/-!
What a request does, as a pure function: `handle` gives the reply and the new server for every
server, request, random bytes and clock, and `serveHTTP_exec` proves that running the program of
Verif/Model/Server.lean does exactly that.
-/

namespace OAuth2

set_option linter.unusedSimpArgs false

/-- The kinds of answers the server writes. -/
inductive Reply where
  /-- the random source failed -/
  | crash
  | error (e : Error)
  | token (t : TokenResponse)
  | code (c : CodeResponse)
  | introspection (i : IntrospectionResponse)
  | revoked
  | notice
  | notFound
  deriving DecidableEq

/-- The headers an error adds. -/
def Error.addHeaders (e : Error) (h : Header) : Header := e.headers.foldl (fun h p => h.set p.1 p.2) h

/-- What a redirect leaves in the response writer. -/
def redirectTo (w : Recorder) (uri : Str) (params : GoMap Str) (useFragment : Bool) : Recorder :=
  match redirectLocation uri params useFragment with
  | none => w
  | some location => redirectRecorder w location

/-- What a reply leaves in the response writer. -/
def Reply.render (w : Recorder) : Reply → Recorder
  | crash => w
  | error e =>
    let w := { w with header := e.addHeaders w.header }
    if e.redirectURI ≠ [] then redirectTo w e.redirectURI e.map e.useFragment
    else jsonRecorder w e.json e.status.toNat
  | token t =>
    if t.redirectURI ≠ [] then redirectTo w t.redirectURI t.map true else jsonRecorder w t.json 200
  | code c => redirectTo w c.redirectURI c.map false
  | introspection i => jsonRecorder w i.json 200
  | revoked => w.writeHeader 200
  | notice => w.write Server.notice
  | notFound =>
    let h := (w.header.set b!"Content-Type" b!"text/plain; charset=utf-8").set
      b!"X-Content-Type-Options" b!"nosniff"
    ({ w with header := h }.writeHeader 404).write b!"404 page not found\n"

/-- How the handler ends. -/
def Reply.outcome : Reply → Outcome Unit
  | crash => .panic
  | _ => .ret ()

/-- The program, run from this state, ends like this, leaving this state and response writer. -/
def Runs {σ α : Type} (p : Prog σ α) (s : Shared σ) (l : Local) (o : Outcome α) (s' : Shared σ)
    (w : Recorder) : Prop :=
  ∃ l', exec p s l = (o, s', l') ∧ l'.w = w

namespace Server

/-- One generated token and the remaining random bytes. -/
def gen (c : ServerConfig) (coins : Str) : Option (HS256Token × Str) :=
  if c.keyLength < 0 ∨ coins.length < c.keyLength.toNat then none
  else some (HS256Token.fromKey c.secret (coins.take c.keyLength.toNat),
    coins.drop c.keyLength.toNat)

/-- The tokens `issueTokens` generates. -/
def mint (c : ServerConfig) (withRefresh : Bool) (coins : Str) :
    Option (HS256Token × Option HS256Token) :=
  match gen c coins with
  | none => none
  | some (a, coins) =>
    if withRefresh then
      match gen c coins with
      | none => none
      | some (b, _) => some (a, some b)
    else some (a, none)

/-- The response `issueTokens` returns. -/
def grantResponse (c : ServerConfig) (a : HS256Token) (b : Option HS256Token) (scope : Scope) :
    TokenResponse :=
  { tokenType := BearerAccessTokenType, accessToken := a.string,
    expiresIn := c.accessTokenLifespan.tdiv second,
    refreshToken := match b with
      | some t => t.string
      | none => [],
    scope := scope }

/-- The state after `issueTokens`; `cred` without its expiry is what is stored. -/
def grant (s : Server) (a : HS256Token) (b : Option HS256Token) (t₁ t₂ : Time)
    (cred : ServerCredential) : Server :=
  { s with
    accessTokens := s.accessTokens.set a.signatureString
      { cred with expiresAt := t₁ + s.config.accessTokenLifespan },
    refreshTokens := match b with
      | some t => s.refreshTokens.set t.signatureString
          { cred with expiresAt := t₂ + s.config.refreshTokenLifespan }
      | none => s.refreshTokens }

/-- Running a generator. -/
theorem exec_mustGenerate {σ : Type} (c : ServerConfig) (s : Shared σ) (l : Local) :
    match gen c l.coins with
    | none => Runs c.mustGenerate s l .panic s l.w
    | some (t, rest) => exec c.mustGenerate s l = (.ret t, s, { l with coins := rest }) := by
  unfold gen ServerConfig.mustGenerate HS256Token.mustGenerate HS256Token.generate
  by_cases hn : c.keyLength < 0
  · simp only [hn, true_or, if_true]
    exact ⟨l, rfl, rfl⟩
  · by_cases hc : l.coins.length < c.keyLength.toNat
    · simp only [hn, hc, or_true, if_true, if_false]
      refine ⟨{ l with coins := [] }, ?_, rfl⟩
      show (if c.keyLength.toNat ≤ l.coins.length then _ else _) = _
      rw [if_neg (by omega)]
      rfl
    · simp only [hn, hc, or_self, if_false]
      show (if c.keyLength.toNat ≤ l.coins.length then _ else _) = _
      rw [if_pos (by omega)]
      rfl

theorem exec_issueTokens (withRefresh : Bool) (scope : Scope) (clientID username code : Str)
    (s : Shared Server) (l : Local) :
    match mint s.st.config withRefresh l.coins with
    | none => Runs (issueTokens withRefresh scope clientID username code) s l .panic s l.w
    | some (a, b) => ∃ l', exec (issueTokens withRefresh scope clientID username code) s l =
        (.ret (grantResponse s.st.config a b scope),
          ⟨s.locked, s.st.grant a b (l.clock l.tick) (l.clock (l.tick + 1))
            { clientID := clientID, username := username, scope := scope, code := code }⟩, l') ∧
        l'.w = l.w := by
  unfold issueTokens mint Runs
  simp only [exec_getS_bind]
  have h1 := exec_mustGenerate s.st.config s l
  unfold Runs at h1
  cases hg : gen s.st.config l.coins with
  | none =>
    rw [hg] at h1
    obtain ⟨l', h, hw⟩ := h1
    exact ⟨l', exec_bind_panic h, hw⟩
  | some ac =>
    obtain ⟨a, rest⟩ := ac
    rw [hg] at h1
    simp only at h1 ⊢
    cases withRefresh with
    | false =>
      simp only [Bool.false_eq_true, if_false]
      rw [exec_bind_ret h1]
      exact ⟨_, rfl, rfl⟩
    | true =>
      simp only [if_true]
      have h2 := exec_mustGenerate s.st.config s { l with coins := rest }
      simp only at h2
      cases hg2 : gen s.st.config rest with
      | none =>
        rw [hg2] at h2
        obtain ⟨l', h, hw⟩ := h2
        refine ⟨l', ?_, hw⟩
        rw [exec_bind_ret h1]
        apply exec_bind_panic
        simp only [exec_getS_bind]
        exact exec_bind_panic h
      | some bc =>
        obtain ⟨b, rest2⟩ := bc
        rw [hg2] at h2
        simp only at h2 ⊢
        rw [exec_bind_ret h1]
        have h3 : exec (do
            let s ← Prog.getS
            let t ← s.config.mustGenerate
            return some t : Handler (Option HS256Token)) s { l with coins := rest } =
            (.ret (some b), s, { l with coins := rest2 }) := by
          simp only [exec_getS_bind]
          rw [exec_bind_ret h2]
          rfl
        rw [exec_bind_ret h3]
        exact ⟨_, rfl, rfl⟩

/-! ### Writers -/

theorem exec_redirect {σ : Type} (uri : Str) (params : GoMap Str) (f : Bool) (s : Shared σ) (l : Local) :
    ∃ b, exec (writeRedirect uri params f) s l = (.ret b, s, { l with w := redirectTo l.w uri params f }) := by
  rw [exec_writeRedirect]
  unfold redirectTo
  cases redirectLocation uri params f with
  | none => exact ⟨false, rfl⟩
  | some loc => exact ⟨true, rfl⟩

theorem exec_ignore {p : Handler Bool} {s s' : Shared Server} {l l' : Local} {b : Bool}
    (h : exec p s l = (.ret b, s', l')) : exec (ignore p) s l = (.ret (), s', l') := by
  unfold ignore
  rw [exec_bind_ret h]
  rfl

theorem exec_fail {e : Error} (h1 : 100 ≤ e.status) (h2 : e.status ≤ 999) (s : Shared Server) (l : Local) :
    exec (fail e) s l = (.ret (), s, { l with w := (Reply.error e).render l.w }) := by
  unfold fail
  have : ∃ b, exec (writeError (.oauth e)) s l = (.ret b, s, { l with w := (Reply.error e).render l.w }) := by
    unfold writeError Reply.render
    simp only [GoErr.asError, Option.getD_some, exec_respond_bind]
    by_cases hr : e.redirectURI = []
    · simp only [hr, ne_eq, not_true, if_false]
      rw [exec_write _ h1 h2]
      exact ⟨true, rfl⟩
    · simp only [hr, ne_eq, not_false_eq_true, if_true]
      obtain ⟨b, hb⟩ := exec_redirect e.redirectURI e.map e.useFragment s
        { l with w := { l.w with header := e.addHeaders l.w.header } }
      exact ⟨b, hb⟩
  obtain ⟨b, hb⟩ := this
  exact exec_ignore hb

theorem exec_token (t : TokenResponse) (s : Shared Server) (l : Local) :
    exec (ignore (writeTokenResponse t)) s l =
      (.ret (), s, { l with w := (Reply.token t).render l.w }) := by
  have : ∃ b, exec (writeTokenResponse t) s l = (.ret b, s, { l with w := (Reply.token t).render l.w }) := by
    unfold writeTokenResponse Reply.render
    by_cases hr : t.redirectURI = []
    · simp only [hr, ne_eq, not_true, if_false]
      rw [exec_write _ (by decide) (by decide)]
      exact ⟨true, rfl⟩
    · simp only [hr, ne_eq, not_false_eq_true, if_true]
      exact exec_redirect _ _ _ _ _
  obtain ⟨b, hb⟩ := this
  exact exec_ignore hb

theorem exec_code (c : CodeResponse) (s : Shared Server) (l : Local) :
    exec (ignore (writeCodeResponse c)) s l =
      (.ret (), s, { l with w := (Reply.code c).render l.w }) := by
  obtain ⟨b, hb⟩ := exec_redirect (σ := Server) c.redirectURI c.map false s l
  exact exec_ignore hb

theorem exec_introspection {i : IntrospectionResponse}
    (h : i.active = true → knownTokenType i.tokenType = true) (he : i.extra = none)
    (s : Shared Server) (l : Local) :
    exec (ignore (writeIntrospectionResponse i)) s l =
      (.ret (), s, { l with w := (Reply.introspection i).render l.w }) := by
  have : exec (writeIntrospectionResponse i) s l =
      (.ret true, s, { l with w := (Reply.introspection i).render l.w }) := by
    unfold writeIntrospectionResponse
    rw [if_neg (by cases hi : i.active <;> simp [hi] at h ⊢; exact h), if_pos (by
      unfold IntrospectionResponse.encodable; rw [he]; rfl), exec_write _ (by decide) (by decide)]
    rfl
  exact exec_ignore this

/-! ### The endpoints as functions -/

/-- The user exists and this is the password. -/
def userOK (s : Server) (username password : Str) : Bool :=
  match s.users.get? username with
  | none => false
  | some owner => owner.secret = password

/-- Issuing tokens for `cred`. -/
def issue (s : Server) (l : Local) (tick : Nat) (withRefresh : Bool) (cred : ServerCredential)
    (finish : TokenResponse → TokenResponse) : Reply × Server :=
  match mint s.config withRefresh l.coins with
  | none => (.crash, s)
  | some (a, b) => (.token (finish (grantResponse s.config a b cred.scope)),
      s.grant a b (l.clock tick) (l.clock (tick + 1)) cred)

/-- The authorization endpoint. -/
def authorizeReply (s : Server) (r : Request) (l : Local) : Reply × Server :=
  match parseAuthorizationRequest r with
  | .error e => (.error e, s)
  | .ok rq =>
    if !knownResponseType rq.responseType then (.error (invalidRequest b!"unknown response type"), s)
    else match s.clients.get? rq.clientID with
    | none => (.error (invalidClient b!"unknown client"), s)
    | some client =>
      if client.redirectURI ≠ rq.redirectURI then
        (.error (invalidRequest b!"invalid redirect URI"), s)
      else if r.method = b!"GET" then (.notice, s)
      else
        let username := (r.parseForm.1.postForm.getD []).get b!"username"
        let password := (r.parseForm.1.postForm.getD []).get b!"password"
        let implicit : Bool := rq.responseType = TokenResponseType
        if !s.config.allowedScope.includes rq.scope then
          (.error ((invalidScope []).setRedirect rq.redirectURI rq.state implicit), s)
        else if !s.userOK username password then
          (.error ((accessDenied []).setRedirect rq.redirectURI rq.state implicit), s)
        else if implicit then
          s.issue l l.tick false
            { clientID := rq.clientID, username := username, scope := rq.scope }
            (·.setRedirect rq.redirectURI rq.state)
        else match gen s.config l.coins with
        | none => (.crash, s)
        | some (c, _) =>
          (.code { code := c.string, redirectURI := rq.redirectURI, state := rq.state },
            { s with authorizationCodes := s.authorizationCodes.set c.signatureString {
                clientID := rq.clientID, username := username, scope := rq.scope,
                expiresAt := l.clock l.tick + s.config.authorizationCodeLifespan,
                redirectURI := rq.redirectURI } })

/-- The authorization code grant. -/
def codeReply (s : Server) (rq : TokenRequest) (l : Local) : Reply × Server :=
  match HS256Token.parse s.config.secret rq.code with
  | .error err => (.error (invalidRequest err), s)
  | .ok c =>
    match s.authorizationCodes.get? c.signatureString with
    | none => (.error (invalidGrant b!"unknown authorization code"), s)
    | some stored =>
      if stored.used then
        (.error (invalidGrant b!"unknown authorization code"), { s with
          accessTokens := deleteByCode s.accessTokens c.signatureString,
          refreshTokens := deleteByCode s.refreshTokens c.signatureString })
      else if stored.expiresAt.before (l.clock l.tick) then
        (.error (invalidGrant b!"expired authorization code"), s)
      else if stored.clientID ≠ rq.clientID then
        (.error (invalidGrant b!"invalid authorization code ownership"), s)
      else if stored.redirectURI ≠ rq.redirectURI then
        (.error (invalidGrant b!"changed redirect uri"), s)
      else
        match s.issue l (l.tick + 1) true
          { clientID := rq.clientID, username := stored.username, scope := stored.scope,
            code := c.signatureString } id with
        | (.token t, s) => (.token t, { s with
            authorizationCodes := s.authorizationCodes.update c.signatureString
              fun c => { c with used := true } })
        | x => x

/-- The refresh token grant. -/
def refreshReply (s : Server) (rq : TokenRequest) (l : Local) : Reply × Server :=
  match HS256Token.parse s.config.secret rq.refreshToken with
  | .error err => (.error (invalidRequest err), s)
  | .ok t =>
    match s.refreshTokens.get? t.signatureString with
    | none => (.error (invalidGrant b!"unknown refresh token"), s)
    | some stored =>
      if stored.expiresAt.before (l.clock l.tick) then
        (.error (invalidGrant b!"expired refresh token"), s)
      else if stored.clientID ≠ rq.clientID then
        (.error (invalidGrant b!"invalid refresh token ownership"), s)
      else
        let scope := if rq.scope.empty then stored.scope else rq.scope
        if !stored.scope.includes scope then
          (.error (invalidScope b!"scope exceeds the originally granted scope"), s)
        else
          match s.issue l (l.tick + 1) true
            { clientID := rq.clientID, username := stored.username, scope := scope } id with
          | (.token r, s) => (.token r, { s with
              refreshTokens := s.refreshTokens.del t.signatureString })
          | x => x

/-- The token endpoint after the client was authenticated. -/
def grantReply (s : Server) (rq : TokenRequest) (client : ServerEntity) (l : Local) :
    Reply × Server :=
  if rq.grantType = PasswordGrantType then
    if !s.userOK rq.username rq.password then (.error (accessDenied []), s)
    else if !s.config.allowedScope.includes rq.scope then (.error (invalidScope []), s)
    else s.issue l l.tick true
      { clientID := rq.clientID, username := rq.username, scope := rq.scope } id
  else if rq.grantType = ClientCredentialsGrantType then
    if !client.confidential then (.error (invalidClient b!"unknown client"), s)
    else if !s.config.allowedScope.includes rq.scope then (.error (invalidScope []), s)
    else s.issue l l.tick true { clientID := rq.clientID, scope := rq.scope } id
  else if rq.grantType = AuthorizationCodeGrantType then s.codeReply rq l
  else s.refreshReply rq l

/-- The client's secret, if it is confidential, was presented. -/
def wrongSecret (client : ServerEntity) (secret : Str) : Bool :=
  client.confidential && client.secret ≠ secret

/-- The token endpoint. -/
def tokenReply (s : Server) (r : Request) (l : Local) : Reply × Server :=
  match parseTokenRequest r with
  | .error e => (.error e, s)
  | .ok rq =>
    if !knownGrantType rq.grantType then (.error (invalidRequest b!"unknown grant type"), s)
    else match s.clients.get? rq.clientID with
    | none => (.error (invalidClient b!"unknown client"), s)
    | some client =>
      if wrongSecret client rq.clientSecret then (.error (invalidClient b!"unknown client"), s)
      else s.grantReply rq client l

/-- The token exists and belongs to another client. -/
def foreign (m : GoMap ServerCredential) (sig clientID : Str) : Bool :=
  match m.get? sig with
  | none => false
  | some c => c.clientID ≠ clientID

/-- The revocation endpoint. -/
def revokeReply (s : Server) (r : Request) : Reply × Server :=
  match parseRevocationRequest r with
  | .error e => (.error e, s)
  | .ok rq =>
    if rq.tokenTypeHint ≠ [] ∧ !knownTokenType rq.tokenTypeHint then
      (.error (unsupportedTokenType []), s)
    else match s.clients.get? rq.clientID with
    | none => (.error (invalidClient b!"unknown client"), s)
    | some client =>
      if wrongSecret client rq.clientSecret then (.error (invalidClient b!"unknown client"), s)
      else match HS256Token.parse s.config.secret rq.token with
      | .error err => (.error (invalidRequest err), s)
      | .ok t =>
        if foreign s.accessTokens t.signatureString rq.clientID then
          (.error (invalidClient b!"wrong client"), s)
        else
          let s := match s.accessTokens.get? t.signatureString with
            | some _ => { s with accessTokens := s.accessTokens.del t.signatureString }
            | none => s
          if foreign s.refreshTokens t.signatureString rq.clientID then
            (.error (invalidClient b!"wrong client"), s)
          else
            let s := match s.refreshTokens.get? t.signatureString with
              | some _ => { s with refreshTokens := s.refreshTokens.del t.signatureString }
              | none => s
            (.revoked, s)

/-- The description of a stored token. -/
def describe (kind : Str) (c : ServerCredential) : IntrospectionResponse :=
  { active := true, scope := c.scope, clientID := c.clientID, username := c.username,
    tokenType := kind, expiresAt := c.expiresAt.unix }

/-- The introspection endpoint. -/
def introspectReply (s : Server) (r : Request) : Reply × Server :=
  match parseIntrospectionRequest r with
  | .error e => (.error e, s)
  | .ok rq =>
    if rq.tokenTypeHint ≠ [] ∧ !knownTokenType rq.tokenTypeHint then
      (.error (unsupportedTokenType []), s)
    else match s.clients.get? rq.clientID with
    | none => (.error (invalidClient b!"unknown client"), s)
    | some client =>
      if wrongSecret client rq.clientSecret then (.error (invalidClient b!"unknown client"), s)
      else match HS256Token.parse s.config.secret rq.token with
      | .error err => (.error (invalidRequest err), s)
      | .ok t =>
        if foreign s.accessTokens t.signatureString rq.clientID then
          (.error (invalidClient b!"wrong client"), s)
        else if foreign s.refreshTokens t.signatureString rq.clientID then
          (.error (invalidClient b!"wrong client"), s)
        else
          match s.refreshTokens.get? t.signatureString with
          | some c => (.introspection (describe RefreshToken c), s)
          | none =>
            match s.accessTokens.get? t.signatureString with
            | some c => (.introspection (describe AccessToken c), s)
            | none => (.introspection {}, s)

/-- What a request does. -/
def handle (s : Server) (r : Request) (l : Local) : Reply × Server :=
  let path := lastSegment r.path
  if path = b!"authorize" then s.authorizeReply r l
  else if path = b!"token" then s.tokenReply r l
  else if path = b!"introspect" then s.introspectReply r
  else if path = b!"revoke" then s.revokeReply r
  else (.notFound, s)

/-! ### Running the program -/

/-- The status of a predefined error is a valid one. -/
macro "status" : tactic => `(tactic| first
  | exact (by decide : (100 : Int) ≤ 400) | exact (by decide : (400 : Int) ≤ 999)
  | exact (by decide : (100 : Int) ≤ 401) | exact (by decide : (401 : Int) ≤ 999)
  | exact (by decide : (100 : Int) ≤ 403) | exact (by decide : (403 : Int) ≤ 999))

theorem runs_fail {e : Error} (h1 : 100 ≤ e.status) (h2 : e.status ≤ 999) (s : Shared Server) (l : Local) :
    Runs (fail e) s l (Reply.error e).outcome s ((Reply.error e).render l.w) :=
  ⟨_, exec_fail h1 h2 s l, rfl⟩

/-- A reply together with the state it leaves. -/
abbrev Does (p : Handler Unit) (s : Shared Server) (l : Local) (x : Reply × Server) : Prop :=
  Runs p s l x.1.outcome { s with st := x.2 } (x.1.render l.w)

theorem does_fail {e : Error} (h1 : 100 ≤ e.status) (h2 : e.status ≤ 999) (s : Shared Server) (l : Local) :
    Does (fail e) s l (.error e, s.st) := ⟨_, exec_fail h1 h2 s l, rfl⟩

theorem parseAuthorizationRequest_error {r : Request} {e : Error}
    (h : parseAuthorizationRequest r = .error e) : ∃ d, e = invalidRequest d := by
  unfold parseAuthorizationRequest at h
  repeat' split at h
  all_goals first | (cases h; exact ⟨_, rfl⟩) | skip
  all_goals simp only at h
  all_goals repeat' split at h
  all_goals first | (cases h; exact ⟨_, rfl⟩) | (cases h)

theorem parseTokenRequest_error {r : Request} {e : Error}
    (h : parseTokenRequest r = .error e) : ∃ d, e = invalidRequest d := by
  unfold parseTokenRequest at h
  simp only at h
  by_cases hm : r.method ≠ b!"POST"
  · rw [if_pos hm] at h; cases h; exact ⟨_, rfl⟩
  rw [if_neg hm] at h
  by_cases hf : r.parseForm.2 = true
  · rw [if_pos hf] at h; cases h; exact ⟨_, rfl⟩
  rw [if_neg hf] at h
  by_cases hg : (r.parseForm.1.postForm.getD []).get b!"grant_type" = []
  · rw [if_pos hg] at h; cases h; exact ⟨_, rfl⟩
  rw [if_neg hg] at h
  obtain ⟨cred, h⟩ : ∃ cred : Str × Str, (if cred.1 = [] then
      (.error (invalidRequest b!"missing client identification") : Except Error TokenRequest)
    else match queryUnescape ((r.parseForm.1.postForm.getD []).get b!"redirect_uri") with
      | none => .error (invalidRequest b!"invalid redirect URI")
      | some uri =>
        if !(if uri ≠ [] then match parseRequestURI uri with
            | none => false
            | some redirectURI => decide (redirectURI.fragment = []) else true) then
          .error (invalidRequest b!"invalid redirect URI")
        else .ok {
          grantType := (r.parseForm.1.postForm.getD []).get b!"grant_type",
          scope := Scope.parse ((r.parseForm.1.postForm.getD []).get b!"scope"),
          clientID := cred.1, clientSecret := cred.2,
          username := (r.parseForm.1.postForm.getD []).get b!"username",
          password := (r.parseForm.1.postForm.getD []).get b!"password",
          refreshToken := (r.parseForm.1.postForm.getD []).get b!"refresh_token",
          redirectURI := uri,
          code := (r.parseForm.1.postForm.getD []).get b!"code" }) = .error e := ⟨_, h⟩
  repeat' split at h
  all_goals first | (cases h; exact ⟨_, rfl⟩) | cases h

theorem parseRevocationRequest_error {r : Request} {e : Error}
    (h : parseRevocationRequest r = .error e) : ∃ d, e = invalidRequest d := by
  unfold parseRevocationRequest at h
  repeat' split at h
  all_goals first | (cases h; exact ⟨_, rfl⟩) | skip
  all_goals simp only at h
  all_goals repeat' split at h
  all_goals first | (cases h; exact ⟨_, rfl⟩) | (cases h)

theorem parseIntrospectionRequest_error {r : Request} {e : Error}
    (h : parseIntrospectionRequest r = .error e) : ∃ d, e = invalidRequest d := by
  unfold parseIntrospectionRequest at h
  repeat' split at h
  all_goals first | (cases h; exact ⟨_, rfl⟩) | skip
  all_goals simp only at h
  all_goals repeat' split at h
  all_goals first | (cases h; exact ⟨_, rfl⟩) | (cases h)

/-- Issuing tokens and going on with `k`. -/
theorem does_issue (withRefresh : Bool) (clientID username code : Str) (scope : Scope)
    (k : TokenResponse → Handler Unit) (finish : TokenResponse → TokenResponse) (g : Server → Server)
    (hk : ∀ t s l, exec (k t) s l =
      (.ret (), { s with st := g s.st }, { l with w := (Reply.token (finish t)).render l.w }))
    (s : Shared Server) (l : Local) :
    Does (do
        let t ← issueTokens withRefresh scope clientID username code
        k t) s l
      (match s.st.issue l l.tick withRefresh
          { clientID := clientID, username := username, scope := scope, code := code } finish with
        | (.token t, s) => (.token t, g s)
        | x => x) := by
  have h := exec_issueTokens withRefresh scope clientID username code s l
  unfold issue
  cases hm : mint s.st.config withRefresh l.coins with
  | none =>
    rw [hm] at h
    obtain ⟨l', h, hw⟩ := h
    exact ⟨l', exec_bind_panic h, hw⟩
  | some ab =>
    obtain ⟨a, b⟩ := ab
    rw [hm] at h
    obtain ⟨l', h, hw⟩ := h
    refine ⟨{ l' with w := (Reply.token (finish (grantResponse s.st.config a b scope))).render l'.w },
      ?_, ?_⟩
    · rw [exec_bind_ret h, hk]
      rfl
    · rw [hw]

theorem does_issue_token (withRefresh : Bool) (clientID username code : Str) (scope : Scope)
    (finish : TokenResponse → TokenResponse) (s : Shared Server) (l : Local) :
    Does (do
        let t ← issueTokens withRefresh scope clientID username code
        ignore (writeTokenResponse (finish t))) s l
      (s.st.issue l l.tick withRefresh
          { clientID := clientID, username := username, scope := scope, code := code } finish) := by
  have h := does_issue withRefresh clientID username code scope
    (fun t => ignore (writeTokenResponse (finish t))) finish id
    (fun t s l => exec_token (finish t) s l) s l
  have e : ∀ x : Reply × Server, (match x with
      | (.token t, s) => (Reply.token t, id s)
      | x => x) = x := by
    rintro ⟨x, s⟩
    cases x <;> rfl
  rw [e] at h
  exact h

theorem does_authorize (r : Request) (s : Shared Server) (l : Local) :
    Does (authorizationEndpoint r) s l (s.st.authorizeReply r l) := by
  unfold authorizationEndpoint authorizeReply
  cases hp : parseAuthorizationRequest r with
  | error e =>
    obtain ⟨d, rfl⟩ := parseAuthorizationRequest_error hp
    exact does_fail (by status) (by status) s l
  | ok rq =>
    simp only
    cases hk : knownResponseType rq.responseType with
    | false => exact does_fail (by status) (by status) s l
    | true =>
      simp only [Bool.not_true, Bool.false_eq_true, if_false]
      unfold Does Runs
      simp only [exec_getS_bind]
      cases hc : s.st.clients.get? rq.clientID with
      | none => exact does_fail (by status) (by status) s l
      | some client =>
        simp only
        by_cases hu : client.redirectURI = rq.redirectURI
        · have hu' : ¬ client.redirectURI ≠ rq.redirectURI := fun h => h hu
          rw [if_neg hu', if_neg hu']
          by_cases hg : r.method = b!"GET"
          · rw [if_pos hg, if_pos hg]
            exact ⟨_, rfl, rfl⟩
          · rw [if_neg hg, if_neg hg]
            by_cases ht : rq.responseType = TokenResponseType
            · rw [if_pos ht]
              unfold handleImplicitGrant
              simp only [exec_getS_bind, ht, decide_true, if_true]
              cases hi : s.st.config.allowedScope.includes rq.scope with
              | false => exact does_fail (by status) (by status) s l
              | true =>
                simp only [Bool.not_true, Bool.false_eq_true, if_false]
                simp only [exec_getS_bind]
                change ∃ l', exec (if !s.st.userOK _ _ then _ else _) s l = _ ∧ _
                cases ho : s.st.userOK ((r.parseForm.1.postForm.getD []).get b!"username")
                    ((r.parseForm.1.postForm.getD []).get b!"password") with
                | false =>
                  exact does_fail (by status) (by status) s l
                | true =>
                  simp only [Bool.not_true, Bool.false_eq_true, if_false]
                  exact does_issue_token false rq.clientID _ [] rq.scope
                    (·.setRedirect rq.redirectURI rq.state) s l
            · rw [if_neg ht]
              have ht2 : rq.responseType = CodeResponseType := by
                unfold knownResponseType at hk
                simpa [ht] using hk
              rw [if_pos ht2]
              unfold handleAuthorizationCodeGrantAuthorization
              simp only [exec_getS_bind, ht, decide_false, Bool.false_eq_true, if_false]
              cases hi : s.st.config.allowedScope.includes rq.scope with
              | false => exact does_fail (by status) (by status) s l
              | true =>
                simp only [Bool.not_true, Bool.false_eq_true, if_false]
                simp only [exec_getS_bind]
                change ∃ l', exec (if !s.st.userOK _ _ then _ else _) s l = _ ∧ _
                cases ho : s.st.userOK ((r.parseForm.1.postForm.getD []).get b!"username")
                    ((r.parseForm.1.postForm.getD []).get b!"password") with
                | false =>
                  exact does_fail (by status) (by status) s l
                | true =>
                  simp only [Bool.not_true, Bool.false_eq_true, if_false]
                  simp only [exec_getS_bind]
                  have h1 := exec_mustGenerate s.st.config s l
                  cases hgn : gen s.st.config l.coins with
                  | none =>
                    rw [hgn] at h1
                    obtain ⟨l', h, hw⟩ := h1
                    exact ⟨l', exec_bind_panic h, hw⟩
                  | some ac =>
                    obtain ⟨a, rest⟩ := ac
                    rw [hgn] at h1
                    simp only at h1 ⊢
                    rw [exec_bind_ret h1]
                    simp only [exec_timeNow_bind, exec_modifyS_bind]
                    rw [exec_code]
                    exact ⟨_, rfl, rfl⟩
        · rw [if_pos hu, if_pos hu]
          exact does_fail (by status) (by status) s l

theorem does_code (rq : TokenRequest) (s : Shared Server) (l : Local) :
    Does (handleAuthorizationCodeGrant rq) s l (s.st.codeReply rq l) := by
  unfold handleAuthorizationCodeGrant codeReply
  unfold Does Runs
  simp only [exec_getS_bind]
  cases hp : HS256Token.parse s.st.config.secret rq.code with
  | error e => exact does_fail (by status) (by status) s l
  | ok c =>
    simp only
    simp only [exec_getS_bind]
    cases hc : s.st.authorizationCodes.get? c.signatureString with
    | none => exact does_fail (by status) (by status) s l
    | some stored =>
      simp only
      cases hu : stored.used with
      | true =>
        simp only [if_true]
        simp only [exec_modifyS_bind]
        exact does_fail (e := invalidGrant b!"unknown authorization code") (by status) (by status)
          ⟨s.locked, { s.st with
            accessTokens := deleteByCode s.st.accessTokens c.signatureString,
            refreshTokens := deleteByCode s.st.refreshTokens c.signatureString }⟩ l
      | false =>
        simp only [Bool.false_eq_true, if_false]
        simp only [exec_timeNow_bind]
        split
        · exact does_fail (by status) (by status) s _
        · split
          · exact does_fail (by status) (by status) s _
          · split
            · exact does_fail (by status) (by status) s _
            · exact does_issue true rq.clientID stored.username c.signatureString stored.scope _ id
                (fun s => { s with
                  authorizationCodes := s.authorizationCodes.update c.signatureString
                    fun c => { c with used := true } })
                (fun t s l => by
                  simp only [exec_modifyS_bind]
                  exact exec_token t _ l) s { l with tick := l.tick + 1 }

theorem does_refresh (rq : TokenRequest) (s : Shared Server) (l : Local) :
    Does (handleRefreshTokenGrant rq) s l (s.st.refreshReply rq l) := by
  unfold handleRefreshTokenGrant refreshReply
  unfold Does Runs
  simp only [exec_getS_bind]
  cases hp : HS256Token.parse s.st.config.secret rq.refreshToken with
  | error e => exact does_fail (by status) (by status) s l
  | ok c =>
    simp only
    simp only [exec_getS_bind]
    cases hc : s.st.refreshTokens.get? c.signatureString with
    | none => exact does_fail (by status) (by status) s l
    | some stored =>
      simp only
      simp only [exec_timeNow_bind]
      split
      · exact does_fail (by status) (by status) s _
      · split
        · exact does_fail (by status) (by status) s _
        · generalize (if rq.scope.empty then stored.scope else rq.scope) = scope
          split
          · exact does_fail (by status) (by status) s _
          · exact does_issue true rq.clientID stored.username [] scope _ id
              (fun s => { s with refreshTokens := s.refreshTokens.del c.signatureString })
              (fun t s l => by
                simp only [exec_modifyS_bind]
                exact exec_token t _ l) s { l with tick := l.tick + 1 }

theorem does_token (r : Request) (s : Shared Server) (l : Local) :
    Does (tokenEndpoint r) s l (s.st.tokenReply r l) := by
  unfold tokenEndpoint tokenReply
  cases hp : parseTokenRequest r with
  | error e =>
    obtain ⟨d, rfl⟩ := parseTokenRequest_error hp
    exact does_fail (by status) (by status) s l
  | ok rq =>
    simp only
    cases hk : knownGrantType rq.grantType with
    | false => exact does_fail (by status) (by status) s l
    | true =>
      simp only [Bool.not_true, Bool.false_eq_true, if_false]
      unfold Does Runs
      simp only [exec_getS_bind]
      cases hc : s.st.clients.get? rq.clientID with
      | none => exact does_fail (by status) (by status) s l
      | some client =>
        simp only
        unfold wrongSecret
        split
        · exact does_fail (by status) (by status) s l
        · unfold grantReply
          by_cases h1 : rq.grantType = PasswordGrantType
          · rw [if_pos h1, if_pos h1]
            unfold handleResourceOwnerPasswordCredentialsGrant
            simp only [exec_getS_bind]
            change ∃ l', exec (if !s.st.userOK _ _ then _ else _) s l = _ ∧ _
            cases ho : s.st.userOK rq.username rq.password with
            | false =>
              exact does_fail (by status) (by status) s l
            | true =>
              simp only [Bool.not_true, Bool.false_eq_true, if_false]
              simp only [exec_getS_bind]
              split
              · exact does_fail (by status) (by status) s l
              · exact does_issue_token true rq.clientID rq.username [] rq.scope id s l
          · rw [if_neg h1, if_neg h1]
            by_cases h2 : rq.grantType = ClientCredentialsGrantType
            · rw [if_pos h2, if_pos h2]
              unfold handleClientCredentialsGrant
              simp only [exec_getS_bind, hc]
              split
              · exact does_fail (by status) (by status) s l
              · simp only [exec_getS_bind]
                split
                · exact does_fail (by status) (by status) s l
                · exact does_issue_token true rq.clientID [] [] rq.scope id s l
            · rw [if_neg h2, if_neg h2]
              by_cases h3 : rq.grantType = AuthorizationCodeGrantType
              · rw [if_pos h3, if_pos h3]
                exact does_code rq s l
              · rw [if_neg h3, if_neg h3]
                have h4 : rq.grantType = RefreshTokenGrantType := by
                  unfold knownGrantType at hk
                  simpa [h1, h2, h3] using hk
                rw [if_pos h4]
                exact does_refresh rq s l

/-- Revoking an own token. -/
theorem exec_revokeToken (clientID sig : Str) (access : Bool) (s : Shared Server) (l : Local)
    {c : ServerCredential}
    (h : (if access then s.st.accessTokens else s.st.refreshTokens).get? sig = some c)
    (hc : c.clientID = clientID) :
    exec (revokeToken clientID access sig) s l = (.ret (), { s with st :=
      if access then { s.st with accessTokens := s.st.accessTokens.del sig }
      else { s.st with refreshTokens := s.st.refreshTokens.del sig } }, l) := by
  unfold revokeToken
  simp only [exec_getS_bind, h]
  rw [if_neg (by simpa using hc)]
  cases access <;> rfl

theorem does_revoke (r : Request) (s : Shared Server) (l : Local) :
    Does (revocationEndpoint r) s l (s.st.revokeReply r) := by
  unfold revocationEndpoint revokeReply
  cases hp : parseRevocationRequest r with
  | error e =>
    obtain ⟨d, rfl⟩ := parseRevocationRequest_error hp
    exact does_fail (by status) (by status) s l
  | ok rq =>
    simp only
    split
    · exact does_fail (by status) (by status) s l
    unfold Does Runs
    simp only [exec_getS_bind]
    cases hc : s.st.clients.get? rq.clientID with
    | none => exact does_fail (by status) (by status) s l
    | some client =>
      simp only
      unfold wrongSecret
      split
      · exact does_fail (by status) (by status) s l
      simp only [exec_getS_bind]
      cases ht : HS256Token.parse s.st.config.secret rq.token with
      | error e => exact does_fail (by status) (by status) s l
      | ok t =>
        simp only
        have hr : ∀ s : Shared Server, Does (do
            let s ← .getS
            match s.refreshTokens.get? t.signatureString with
            | some refreshToken =>
              if refreshToken.clientID ≠ rq.clientID then fail (invalidClient b!"wrong client")
              else do
                revokeToken rq.clientID false t.signatureString
                .writeHeader 200
            | none => .writeHeader 200) s l
            (if foreign s.st.refreshTokens t.signatureString rq.clientID then
              (.error (invalidClient b!"wrong client"), s.st)
            else (.revoked, match s.st.refreshTokens.get? t.signatureString with
              | some _ => { s.st with refreshTokens := s.st.refreshTokens.del t.signatureString }
              | none => s.st)) := by
          intro s
          unfold Does Runs
          simp only [exec_getS_bind]
          unfold foreign
          cases hg : s.st.refreshTokens.get? t.signatureString with
          | none =>
            simp only [Bool.false_eq_true, if_false]
            rw [exec_writeHeader (by decide) (by decide)]
            exact ⟨_, rfl, rfl⟩
          | some c =>
            simp only
            by_cases ho : c.clientID = rq.clientID
            · rw [if_neg (by simpa using ho), if_neg (by simpa using ho)]
              rw [exec_bind_ret (exec_revokeToken rq.clientID t.signatureString false s l
                (by simpa using hg) ho), exec_writeHeader (by decide) (by decide)]
              exact ⟨_, rfl, rfl⟩
            · rw [if_pos (by simpa using ho), if_pos (by simpa using ho)]
              exact does_fail (by status) (by status) s l
        simp only [exec_getS_bind]
        cases hg : s.st.accessTokens.get? t.signatureString with
        | none =>
          simp only [foreign, hg, Bool.false_eq_true, if_false]
          exact hr s
        | some c =>
          by_cases ho : c.clientID = rq.clientID
          · simp only [foreign, hg, ho, ne_eq, not_true, decide_false, Bool.false_eq_true, if_false]
            rw [exec_bind_ret (exec_revokeToken rq.clientID t.signatureString true s l
                (by simpa using hg) ho)]
            exact hr ⟨s.locked, { s.st with accessTokens := s.st.accessTokens.del t.signatureString }⟩
          · simp only [foreign, hg, ho, ne_eq, not_false_eq_true, decide_true, if_true]
            exact does_fail (by status) (by status) s l

theorem does_introspect (r : Request) (s : Shared Server) (l : Local) :
    Does (introspectionEndpoint r) s l (s.st.introspectReply r) := by
  unfold introspectionEndpoint introspectReply
  cases hp : parseIntrospectionRequest r with
  | error e =>
    obtain ⟨d, rfl⟩ := parseIntrospectionRequest_error hp
    exact does_fail (by status) (by status) s l
  | ok rq =>
    simp only
    split
    · exact does_fail (by status) (by status) s l
    unfold Does Runs
    simp only [exec_getS_bind]
    cases hc : s.st.clients.get? rq.clientID with
    | none => exact does_fail (by status) (by status) s l
    | some client =>
      simp only
      unfold wrongSecret
      split
      · exact does_fail (by status) (by status) s l
      simp only [exec_getS_bind]
      cases ht : HS256Token.parse s.st.config.secret rq.token with
      | error e => exact does_fail (by status) (by status) s l
      | ok t =>
        simp only [exec_getS_bind]
        cases hg : s.st.accessTokens.get? t.signatureString with
        | none =>
          cases hr : s.st.refreshTokens.get? t.signatureString with
          | none =>
            simp only [foreign, hg, hr, Bool.false_eq_true, if_false, exec_getS_bind]
            rw [exec_introspection (by simp) rfl]
            exact ⟨_, rfl, rfl⟩
          | some c =>
            by_cases ho : c.clientID = rq.clientID
            · simp only [foreign, hg, hr, ho, ne_eq, not_true, decide_false, Bool.false_eq_true,
                if_false, exec_getS_bind]
              rw [exec_introspection (fun _ => rfl) rfl]
              simp only [describe, ho]
              exact ⟨_, rfl, rfl⟩
            · simp only [foreign, hg, hr, ho, ne_eq, not_false_eq_true, decide_true, if_true,
                Bool.false_eq_true, if_false, exec_getS_bind]
              exact does_fail (by status) (by status) s l
        | some a =>
          by_cases hoa : a.clientID = rq.clientID
          · cases hr : s.st.refreshTokens.get? t.signatureString with
            | none =>
              simp only [foreign, hg, hr, hoa, ne_eq, not_true, decide_false, Bool.false_eq_true,
                if_false, exec_getS_bind]
              rw [exec_introspection (fun _ => rfl) rfl]
              simp only [describe, hoa]
              exact ⟨_, rfl, rfl⟩
            | some c =>
              by_cases ho : c.clientID = rq.clientID
              · simp only [foreign, hg, hr, hoa, ho, ne_eq, not_true, decide_false,
                  Bool.false_eq_true, if_false, exec_getS_bind]
                rw [exec_introspection (fun _ => rfl) rfl]
                simp only [describe, ho]
                exact ⟨_, rfl, rfl⟩
              · simp only [foreign, hg, hr, hoa, ho, ne_eq, not_true, not_false_eq_true,
                  decide_true, decide_false, if_true, Bool.false_eq_true, if_false, exec_getS_bind]
                exact does_fail (by status) (by status) s l
          · simp only [foreign, hg, hoa, ne_eq, not_false_eq_true, decide_true, if_true]
            exact does_fail (by status) (by status) s l

theorem does_serve (r : Request) (s : Shared Server) (l : Local) :
    Does (serveLocked r) s l (s.st.handle r l) := by
  unfold serveLocked handle
  simp only
  repeat' split
  · exact does_authorize r s l
  · exact does_token r s l
  · exact does_introspect r s l
  · exact does_revoke r s l
  · unfold notFound Does Runs
    simp only [exec_respond_bind]
    rw [exec_writeHeader_bind (by decide) (by decide)]
    exact ⟨_, rfl, rfl⟩

/-- Serving a request does what `handle` says and leaves the mutex unlocked. -/
theorem serveHTTP_exec (r : Request) (s : Server) (l : Local) :
    ∃ l', exec (serveHTTP r) ⟨false, s⟩ l =
        ((s.handle r l).1.outcome, ⟨false, (s.handle r l).2⟩, l') ∧
      l'.w = (s.handle r l).1.render l.w := by
  obtain ⟨l', h, hw⟩ := does_serve r ⟨true, s⟩ l
  refine ⟨l', ?_, hw⟩
  show exec (Prog.deferUnlock (serveLocked r)) ⟨true, s⟩ l = _
  rw [exec_deferUnlock, h]
  cases (s.handle r l).1 <;> rfl

/-! ### Authorize -/

/-- What `Authorize` does: the error it answers with, if any. -/
def authorizes (s : Server) (r : Request) (required : Scope) (now : Time) : Option Error :=
  match parseBearerToken r with
  | .error e => some e
  | .ok tk =>
    match HS256Token.parse s.config.secret tk with
    | .error _ => some (invalidToken b!"malformed token")
    | .ok t =>
      match s.accessTokens.get? t.signatureString with
      | none => some (invalidToken b!"unknown token")
      | some c =>
        if c.expiresAt.before now then some (invalidToken b!"expired token")
        else if !c.scope.includes required then some (insufficientScope required)
        else none

/-- What a bearer challenge leaves in the response writer. -/
def challenge (w : Recorder) (e : Error) : Recorder :=
  (Recorder.writeHeader { w with
    header := w.header.set b!"WWW-Authenticate" (b!"Bearer " ++
      (if e.params = [] then b!"realm=\"OAuth2\"" else e.params)) } e.status.toNat).write []

theorem exec_failBearer {e : Error} (h500 : e.status ≠ 500) (h1 : 100 ≤ e.status)
    (h2 : e.status ≤ 999) (s : Shared Server) (l : Local) :
    exec (do
      failBearer e
      return false) s l = (.ret false, s, { l with w := challenge l.w e }) := by
  have : exec (writeBearerError (.oauth e)) s l = (.ret true, s, { l with w := challenge l.w e }) := by
    unfold writeBearerError
    simp only [GoErr.asError, h500, if_false, exec_respond_bind]
    rw [exec_writeHeader_bind h1 h2]
    rfl
  have h := exec_ignore this
  unfold failBearer
  rw [exec_bind_ret h]
  rfl

theorem parseBearerToken_error {r : Request} {e : Error} (h : parseBearerToken r = .error e) :
    e = protectedResource ∨ e = invalidRequest b!"malformed authorization header" := by
  unfold parseBearerToken at h
  simp only at h
  repeat' split at h
  all_goals first | (cases h; simp) | cases h

/-- `Authorize` does what `authorizes` says and leaves the mutex unlocked. -/
theorem authorize_exec (r : Request) (required : Scope) (s : Server) (l : Local) :
    ∃ l', exec (authorize r required) ⟨false, s⟩ l =
        (.ret (s.authorizes r required (l.clock l.tick)).isNone, ⟨false, s⟩, l') ∧
      l'.w = match s.authorizes r required (l.clock l.tick) with
        | none => l.w
        | some e => challenge l.w e := by
  suffices h : ∃ l', exec (authorizeLocked r required) ⟨true, s⟩ l =
        (.ret (s.authorizes r required (l.clock l.tick)).isNone, ⟨true, s⟩, l') ∧
      l'.w = match s.authorizes r required (l.clock l.tick) with
        | none => l.w
        | some e => challenge l.w e by
    obtain ⟨l', h, hw⟩ := h
    refine ⟨l', ?_, hw⟩
    show exec (Prog.deferUnlock (authorizeLocked r required)) ⟨true, s⟩ l = _
    rw [exec_deferUnlock, h]
  unfold authorizeLocked authorizes
  cases hp : parseBearerToken r with
  | error e =>
    rcases parseBearerToken_error hp with rfl | rfl
    · exact ⟨_, exec_failBearer (by decide) (by decide) (by decide) _ _, rfl⟩
    · exact ⟨_, exec_failBearer (by decide) (by decide) (by decide) _ _, rfl⟩
  | ok tk =>
    simp only [exec_getS_bind]
    cases ht : HS256Token.parse s.config.secret tk with
    | error e => exact ⟨_, exec_failBearer (by decide) (by decide) (by decide) _ _, rfl⟩
    | ok t =>
      simp only [exec_getS_bind]
      cases hg : s.accessTokens.get? t.signatureString with
      | none => exact ⟨_, exec_failBearer (by decide) (by decide) (by decide) _ _, rfl⟩
      | some c =>
        simp only [exec_timeNow_bind]
        by_cases h1 : c.expiresAt.before (l.clock l.tick) = true
        · simp only [h1, if_true]
          exact ⟨_, exec_failBearer (by decide) (by decide) (by decide) _ _, rfl⟩
        · simp only [h1, if_false]
          by_cases h2 : c.scope.includes required = true
          · simp only [h2, Bool.not_true, Bool.false_eq_true, if_false]
            exact ⟨_, rfl, rfl⟩
          · simp only [h2, Bool.not_false, if_true]
            refine ⟨_, exec_failBearer ?_ (by status) (by status) _ _, rfl⟩
            exact (by decide : (403 : Int) ≠ 500)

end Server

end OAuth2

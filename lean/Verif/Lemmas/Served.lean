import Verif.Lemmas.Serve
import Verif.Lemmas.Map
import Verif.Spec.Server

/-! Everything serving a request can come to, case by case. -/

namespace OAuth2

open Spec

namespace Server

/-- The random bytes do not suffice for two keys. -/
def ShortOfCoins (s : Server) (l : Local) : Prop :=
  s.config.keyLength < 0 ∨ l.coins.length < 2 * s.config.keyLength.toNat

/-- The user name and password in the form of a request. -/
def formUser (r : Request) : Str := (r.parseForm.1.postForm.getD []).get b!"username"
def formPassword (r : Request) : Str := (r.parseForm.1.postForm.getD []).get b!"password"

/-- The authorization request names a registered client and its redirect URI. -/
structure AuthorizationFor (s : Server) (r : Request) (rq : AuthorizationRequest) : Prop where
  path : lastSegment r.path = b!"authorize"
  parsed : parseAuthorizationRequest r = .ok rq
  known : rq.responseType = TokenResponseType ∨ rq.responseType = CodeResponseType
  client : ∃ c, s.clients.get? rq.clientID = some c ∧ c.redirectURI = rq.redirectURI

/-- The token request is well formed, its grant type known, and its client identified. -/
structure TokenRequestFor (s : Server) (r : Request) (rq : TokenRequest) : Prop where
  path : lastSegment r.path = b!"token"
  parsed : parseTokenRequest r = .ok rq
  client : Identified s rq.clientID rq.clientSecret

/-- What serving a request can come to. -/
inductive Served (s : Server) (r : Request) (l : Local) : Reply → Server → Prop
  | notFound (h1 : lastSegment r.path ≠ b!"authorize") (h2 : lastSegment r.path ≠ b!"token")
      (h3 : lastSegment r.path ≠ b!"introspect") (h4 : lastSegment r.path ≠ b!"revoke") :
      Served s r l .notFound s
  | refused (e : Error) (hs : 400 ≤ e.status ∧ e.status ≤ 403) (hr : e.redirectURI = [])
      (hp : lastSegment r.path ∈ [b!"authorize", b!"token", b!"introspect", b!"revoke"])
      (hh : e.headers = [] ∨ e.headers = [(b!"WWW-Authenticate", b!"Basic realm=\"OAuth2\"")])
      (hcode : lastSegment r.path = b!"token" → e.description = b!"unknown authorization code" →
        ∀ rq c, parseTokenRequest r = .ok rq → rq.grantType = AuthorizationCodeGrantType →
          HS256Token.parse s.config.secret rq.code = .ok c →
          s.authorizationCodes.get? c.signatureString = none)
      (hrev : lastSegment r.path = b!"revoke" → e.description = b!"wrong client" →
        ∀ rq t, parseRevocationRequest r = .ok rq →
          HS256Token.parse s.config.secret rq.token = .ok t →
          ∀ c, s.accessTokens.get? t.signatureString = some c → c.clientID ≠ rq.clientID) :
      Served s r l (.error e) s
  | refusedRedirect (rq : AuthorizationRequest) (h : AuthorizationFor s r rq)
      (hm : r.method ≠ b!"GET") (e : Error) (he : e = invalidScope [] ∨ e = accessDenied []) :
      Served s r l (.error (e.setRedirect rq.redirectURI rq.state
        (rq.responseType = TokenResponseType))) s
  | notice (rq : AuthorizationRequest) (h : AuthorizationFor s r rq) (hm : r.method = b!"GET") :
      Served s r l .notice s
  | crash (h : s.ShortOfCoins l)
      (hp : lastSegment r.path = b!"authorize" ∨ lastSegment r.path = b!"token") :
      Served s r l .crash s
  | implicit (rq : AuthorizationRequest) (h : AuthorizationFor s r rq) (hm : r.method ≠ b!"GET")
      (ht : rq.responseType = TokenResponseType)
      (hs : s.config.allowedScope.includes rq.scope = true)
      (hu : Password s (formUser r) (formPassword r))
      (a : HS256Token) (hg : mint s.config false l.coins = some (a, none)) :
      Served s r l
        (.token ((grantResponse s.config a none rq.scope).setRedirect rq.redirectURI rq.state))
        (s.grant a none (l.clock l.tick) (l.clock (l.tick + 1))
          { clientID := rq.clientID, username := formUser r, scope := rq.scope })
  | code (rq : AuthorizationRequest) (h : AuthorizationFor s r rq) (hm : r.method ≠ b!"GET")
      (ht : rq.responseType = CodeResponseType)
      (hs : s.config.allowedScope.includes rq.scope = true)
      (hu : Password s (formUser r) (formPassword r))
      (c : HS256Token) (rest : Str) (hg : gen s.config l.coins = some (c, rest)) :
      Served s r l
        (.code { code := c.string, redirectURI := rq.redirectURI, state := rq.state })
        { s with authorizationCodes := s.authorizationCodes.set c.signatureString {
                clientID := rq.clientID, username := formUser r, scope := rq.scope,
                expiresAt := l.clock l.tick + s.config.authorizationCodeLifespan,
                redirectURI := rq.redirectURI } }
  | password (rq : TokenRequest) (h : TokenRequestFor s r rq)
      (ht : rq.grantType = PasswordGrantType)
      (hs : s.config.allowedScope.includes rq.scope = true)
      (hu : Password s rq.username rq.password)
      (a b : HS256Token) (hg : mint s.config true l.coins = some (a, some b)) :
      Served s r l (.token (grantResponse s.config a (some b) rq.scope))
        (s.grant a (some b) (l.clock l.tick) (l.clock (l.tick + 1))
          { clientID := rq.clientID, username := rq.username, scope := rq.scope })
  | client (rq : TokenRequest) (h : TokenRequestFor s r rq)
      (ht : rq.grantType = ClientCredentialsGrantType)
      (hc : ∃ c, s.clients.get? rq.clientID = some c ∧ c.confidential = true)
      (hs : s.config.allowedScope.includes rq.scope = true)
      (a b : HS256Token) (hg : mint s.config true l.coins = some (a, some b)) :
      Served s r l (.token (grantResponse s.config a (some b) rq.scope))
        (s.grant a (some b) (l.clock l.tick) (l.clock (l.tick + 1))
          { clientID := rq.clientID, scope := rq.scope })
  | replay (rq : TokenRequest) (h : TokenRequestFor s r rq)
      (ht : rq.grantType = AuthorizationCodeGrantType)
      (c : HS256Token) (hc : HS256Token.parse s.config.secret rq.code = .ok c)
      (stored : ServerCredential)
      (hst : s.authorizationCodes.get? c.signatureString = some stored)
      (hu : stored.used = true) :
      Served s r l (.error (invalidGrant b!"unknown authorization code"))
        { s with
          accessTokens := deleteByCode s.accessTokens c.signatureString,
          refreshTokens := deleteByCode s.refreshTokens c.signatureString }
  | exchange (rq : TokenRequest) (h : TokenRequestFor s r rq)
      (ht : rq.grantType = AuthorizationCodeGrantType)
      (c : HS256Token) (hc : HS256Token.parse s.config.secret rq.code = .ok c)
      (stored : ServerCredential)
      (hst : s.authorizationCodes.get? c.signatureString = some stored)
      (hu : stored.used = false) (hx : l.clock l.tick ≤ stored.expiresAt)
      (ho : stored.clientID = rq.clientID) (hr : stored.redirectURI = rq.redirectURI)
      (a b : HS256Token) (hg : mint s.config true l.coins = some (a, some b)) :
      Served s r l (.token (grantResponse s.config a (some b) stored.scope))
        { s.grant a (some b) (l.clock (l.tick + 1)) (l.clock (l.tick + 2))
          { clientID := rq.clientID, username := stored.username, scope := stored.scope,
            code := c.signatureString } with
          authorizationCodes := s.authorizationCodes.update c.signatureString
            fun c => { c with used := true } }
  | refresh (rq : TokenRequest) (h : TokenRequestFor s r rq)
      (ht : rq.grantType = RefreshTokenGrantType)
      (t : HS256Token) (hc : HS256Token.parse s.config.secret rq.refreshToken = .ok t)
      (stored : ServerCredential)
      (hst : s.refreshTokens.get? t.signatureString = some stored)
      (hx : l.clock l.tick ≤ stored.expiresAt)
      (ho : stored.clientID = rq.clientID)
      (scope : Scope) (hsc : scope = if rq.scope.empty then stored.scope else rq.scope)
      (hs : stored.scope.includes scope = true)
      (a b : HS256Token) (hg : mint s.config true l.coins = some (a, some b)) :
      Served s r l (.token (grantResponse s.config a (some b) scope))
        { s.grant a (some b) (l.clock (l.tick + 1)) (l.clock (l.tick + 2))
          { clientID := rq.clientID, username := stored.username, scope := scope } with
          refreshTokens := (s.refreshTokens.set b.signatureString
            { clientID := rq.clientID, username := stored.username, scope := scope,
              expiresAt := l.clock (l.tick + 2) + s.config.refreshTokenLifespan }).del
              t.signatureString }
  | introspect (rq : IntrospectionRequest) (hp : lastSegment r.path = b!"introspect")
      (hq : parseIntrospectionRequest r = .ok rq)
      (hc : Identified s rq.clientID rq.clientSecret)
      (t : HS256Token) (ht : HS256Token.parse s.config.secret rq.token = .ok t)
      (ha : ∀ c, s.accessTokens.get? t.signatureString = some c → c.clientID = rq.clientID)
      (hr : ∀ c, s.refreshTokens.get? t.signatureString = some c → c.clientID = rq.clientID)
      (i : IntrospectionResponse)
      (hi : i = match s.refreshTokens.get? t.signatureString with
        | some c => describe RefreshToken c
        | none =>
          match s.accessTokens.get? t.signatureString with
          | some c => describe AccessToken c
          | none => {}) :
      Served s r l (.introspection i) s
  | revoke (rq : RevocationRequest) (hp : lastSegment r.path = b!"revoke")
      (hq : parseRevocationRequest r = .ok rq)
      (hc : Identified s rq.clientID rq.clientSecret)
      (t : HS256Token) (ht : HS256Token.parse s.config.secret rq.token = .ok t)
      (ha : ∀ c, s.accessTokens.get? t.signatureString = some c → c.clientID = rq.clientID)
      (hr : ∀ c, s.refreshTokens.get? t.signatureString = some c → c.clientID = rq.clientID) :
      Served s r l .revoked { s with
        accessTokens := s.accessTokens.del t.signatureString,
        refreshTokens := s.refreshTokens.del t.signatureString }
  | revokeHalf (rq : RevocationRequest) (hp : lastSegment r.path = b!"revoke")
      (hq : parseRevocationRequest r = .ok rq)
      (hc : Identified s rq.clientID rq.clientSecret)
      (t : HS256Token) (ht : HS256Token.parse s.config.secret rq.token = .ok t)
      (ca : ServerCredential) (ha : s.accessTokens.get? t.signatureString = some ca)
      (hao : ca.clientID = rq.clientID)
      (cr : ServerCredential) (hr : s.refreshTokens.get? t.signatureString = some cr)
      (hro : cr.clientID ≠ rq.clientID) :
      Served s r l (.error (invalidClient b!"wrong client")) { s with
        accessTokens := s.accessTokens.del t.signatureString }

theorem userOK_iff (s : Server) (u p : Str) : s.userOK u p = true ↔ Password s u p := by
  unfold userOK Password
  cases s.users.get? u with
  | none => simp
  | some x => simp

theorem wrongSecret_iff {s : Server} {id secret : Str} {c : ServerEntity}
    (h : s.clients.get? id = some c) :
    wrongSecret c secret = false ↔ Identified s id secret := by
  unfold wrongSecret Identified
  simp only [h, Option.some.injEq]
  constructor
  · intro hw
    refine ⟨c, rfl, fun hc => ?_⟩
    simpa [hc] using hw
  · rintro ⟨_, rfl, hc⟩
    cases hc' : c.confidential
    · rfl
    · simp [hc hc']

theorem foreign_false {m : GoMap ServerCredential} {sig id : Str} (h : foreign m sig id = false) :
    ∀ c, m.get? sig = some c → c.clientID = id := by
  intro c hc
  unfold foreign at h
  rw [hc] at h
  simpa using h

theorem foreign_true {m : GoMap ServerCredential} {sig id : Str} (h : foreign m sig id = true) :
    ∃ c, m.get? sig = some c ∧ c.clientID ≠ id := by
  unfold foreign at h
  cases hc : m.get? sig with
  | none => rw [hc] at h; cases h
  | some c => rw [hc] at h; exact ⟨c, rfl, by simpa using h⟩

theorem before_false {t u : Time} (h : ¬ t.before u = true) : u ≤ t := by
  unfold Time.before at h
  simpa using h

theorem before_of_lt {t u : Time} (h : t < u) : t.before u = true := by
  unfold Time.before
  exact decide_eq_true h

theorem not_before {t u : Time} (h : ¬ t < u) : ¬ t.before u = true := by
  unfold Time.before
  exact fun h' => h (of_decide_eq_true h')

theorem gen_none {c : ServerConfig} {coins : Str} (h : gen c coins = none) :
    c.keyLength < 0 ∨ coins.length < c.keyLength.toNat := by
  unfold gen at h
  split at h
  · assumption
  · cases h

theorem gen_some {c : ServerConfig} {coins rest : Str} {t : HS256Token}
    (h : gen c coins = some (t, rest)) :
    0 ≤ c.keyLength ∧ c.keyLength.toNat ≤ coins.length ∧
      t = HS256Token.fromKey c.secret (coins.take c.keyLength.toNat) ∧
      rest = coins.drop c.keyLength.toNat := by
  unfold gen at h
  split at h
  · cases h
  · cases h
    exact ⟨by omega, by omega, rfl, rfl⟩

theorem mint_none {c : ServerConfig} {w : Bool} {coins : Str} (h : mint c w coins = none) :
    c.keyLength < 0 ∨ coins.length < 2 * c.keyLength.toNat := by
  unfold mint at h
  cases hg : gen c coins with
  | none => have := gen_none hg; omega
  | some x =>
    obtain ⟨a, rest⟩ := x
    rw [hg] at h
    simp only at h
    obtain ⟨_, h2, _, rfl⟩ := gen_some hg
    cases w with
    | false => cases h
    | true =>
      simp only [if_true] at h
      cases hg2 : gen c (coins.drop c.keyLength.toNat) with
      | none =>
        have := gen_none hg2
        rw [List.length_drop] at this
        omega
      | some y => obtain ⟨b, r⟩ := y; rw [hg2] at h; cases h

theorem mint_false {c : ServerConfig} {coins : Str} {a : HS256Token} {b : Option HS256Token}
    (h : mint c false coins = some (a, b)) : b = none := by
  unfold mint at h
  cases hg : gen c coins with
  | none => rw [hg] at h; cases h
  | some x => rw [hg] at h; cases h; rfl

theorem mint_true {c : ServerConfig} {coins : Str} {a : HS256Token} {b : Option HS256Token}
    (h : mint c true coins = some (a, b)) : ∃ b', b = some b' := by
  unfold mint at h
  cases hg : gen c coins with
  | none => rw [hg] at h; cases h
  | some x =>
    obtain ⟨a', rest⟩ := x
    rw [hg] at h
    simp only [if_true] at h
    cases hg2 : gen c rest with
    | none => rw [hg2] at h; cases h
    | some y => rw [hg2] at h; cases h; exact ⟨_, rfl⟩

theorem invalidRequest_status {d : Str} :
    400 ≤ (invalidRequest d).status ∧ (invalidRequest d).status ≤ 403 :=
  (by decide : (400 : Int) ≤ 400 ∧ (400 : Int) ≤ 403)

set_option hygiene false in
/-- Discharges the last two hypotheses of `Served.refused`. -/
macro "cause" : tactic => `(tactic| first
  | (intro h; exact absurd (hpath.symm.trans h) (by decide))
  | (intro _ h; exact absurd h (by decide))
  | (intro _ _ rq' c' h; rw [hp] at h; cases h; done)
  | (intro _ _ rq' c' h hg h3; rw [hp] at h; cases h; exact absurd (h4.symm.trans hg) (by decide))
  | (intro _ _ rq' c' h hg h3; rw [hp] at h; cases h; rw [ht] at h3; cases h3; exact hst)
  | (intro _ _ rq' c' h hg h3; rw [hp] at h; cases h; rw [ht] at h3; cases h3; done)
  | (intro _ _ rq' t' h h3; rw [hp] at h; cases h; rw [ht] at h3; cases h3; done)
  | (intro _ _ rq' t' h h3 ca h4; rw [hp] at h; cases h; rw [ht] at h3; cases h3
     rw [ha] at h4; cases h4; done)
  | (intro _ _ rq' t' h h3 ca h4; rw [hp] at h; cases h; rw [ht] at h3; cases h3
     obtain ⟨c, h1, h2⟩ := foreign_true hfa; rw [h1] at h4; cases h4; exact h2))

theorem served_authorize (s : Server) (r : Request) (l : Local)
    (hpath : lastSegment r.path = b!"authorize") :
    Served s r l (s.authorizeReply r l).1 (s.authorizeReply r l).2 := by
  have hmem : lastSegment r.path ∈ [b!"authorize", b!"token", b!"introspect", b!"revoke"] := by
    rw [hpath]; decide
  unfold authorizeReply
  cases hp : parseAuthorizationRequest r with
  | error e =>
    obtain ⟨d, rfl⟩ := parseAuthorizationRequest_error hp
    exact .refused _ invalidRequest_status rfl hmem (.inl rfl) (by cause) (by cause)
  | ok rq =>
    simp only
    cases hk : knownResponseType rq.responseType with
    | false => exact .refused _ (by decide) rfl hmem (.inl rfl) (by cause) (by cause)
    | true =>
      simp only [Bool.not_true, Bool.false_eq_true, if_false]
      cases hc : s.clients.get? rq.clientID with
      | none => exact .refused _ (by decide) rfl hmem (.inr rfl) (by cause) (by cause)
      | some client =>
        simp only
        by_cases hu : client.redirectURI = rq.redirectURI
        · rw [if_neg (fun h => h hu)]
          have hk' : rq.responseType = TokenResponseType ∨ rq.responseType = CodeResponseType := by
            unfold knownResponseType at hk
            simpa [or_comm] using hk
          have hfor : AuthorizationFor s r rq := ⟨hpath, hp, hk', client, hc, hu⟩
          by_cases hg : r.method = b!"GET"
          · rw [if_pos hg]
            exact .notice rq hfor hg
          · rw [if_neg hg]
            cases hi : s.config.allowedScope.includes rq.scope with
            | false => exact .refusedRedirect rq hfor hg _ (.inl rfl)
            | true =>
              simp only [Bool.not_true, Bool.false_eq_true, if_false]
              cases ho : s.userOK ((r.parseForm.1.postForm.getD []).get b!"username")
                    ((r.parseForm.1.postForm.getD []).get b!"password") with
              | false => exact .refusedRedirect rq hfor hg _ (.inr rfl)
              | true =>
                simp only [Bool.not_true, Bool.false_eq_true, if_false]
                rw [userOK_iff] at ho
                by_cases ht : rq.responseType = TokenResponseType
                · simp only [ht, decide_true, if_true]
                  unfold issue
                  cases hm : mint s.config false l.coins with
                  | none => exact .crash (mint_none hm) (.inl hpath)
                  | some x =>
                    obtain ⟨a, b⟩ := x
                    obtain rfl := mint_false hm
                    exact .implicit rq hfor hg ht hi ho a hm
                · simp only [ht, decide_false, Bool.false_eq_true, if_false]
                  have ht2 := hk'.resolve_left ht
                  cases hm : gen s.config l.coins with
                  | none =>
                    refine .crash ?_ (.inl hpath)
                    have := gen_none hm
                    unfold ShortOfCoins
                    omega
                  | some x =>
                    obtain ⟨c, rest⟩ := x
                    exact .code rq hfor hg ht2 hi ho c rest hm
        · rw [if_pos hu]
          exact .refused _ (by decide) rfl hmem (.inl rfl) (by cause) (by cause)

theorem served_token (s : Server) (r : Request) (l : Local)
    (hpath : lastSegment r.path = b!"token") :
    Served s r l (s.tokenReply r l).1 (s.tokenReply r l).2 := by
  have hmem : lastSegment r.path ∈ [b!"authorize", b!"token", b!"introspect", b!"revoke"] := by
    rw [hpath]; decide
  unfold tokenReply
  cases hp : parseTokenRequest r with
  | error e =>
    obtain ⟨d, rfl⟩ := parseTokenRequest_error hp
    exact .refused _ invalidRequest_status rfl hmem (.inl rfl) (by cause) (by cause)
  | ok rq =>
    simp only
    cases hk : knownGrantType rq.grantType with
    | false => exact .refused _ (by decide) rfl hmem (.inl rfl) (by cause) (by cause)
    | true =>
      simp only [Bool.not_true, Bool.false_eq_true, if_false]
      cases hc : s.clients.get? rq.clientID with
      | none => exact .refused _ (by decide) rfl hmem (.inr rfl) (by cause) (by cause)
      | some client =>
        simp only
        cases hw : wrongSecret client rq.clientSecret with
        | true => exact .refused _ (by decide) rfl hmem (.inr rfl) (by cause) (by cause)
        | false =>
          simp only [Bool.false_eq_true, if_false]
          rw [wrongSecret_iff hc] at hw
          have hfor : TokenRequestFor s r rq := ⟨hpath, hp, hw⟩
          unfold grantReply
          by_cases h1 : rq.grantType = PasswordGrantType
          · rw [if_pos h1]
            cases ho : s.userOK rq.username rq.password with
            | false => exact .refused _ (by decide) rfl hmem (.inl rfl) (by cause) (by cause)
            | true =>
              rw [userOK_iff] at ho
              simp only [Bool.not_true, Bool.false_eq_true, if_false]
              cases hi : s.config.allowedScope.includes rq.scope with
              | false => exact .refused _ (by decide) rfl hmem (.inl rfl) (by cause) (by cause)
              | true =>
                simp only [Bool.not_true, Bool.false_eq_true, if_false]
                unfold issue
                cases hm : mint s.config true l.coins with
                | none => exact .crash (mint_none hm) (.inr hpath)
                | some x =>
                  obtain ⟨a, b⟩ := x
                  obtain ⟨b, rfl⟩ := mint_true hm
                  exact .password rq hfor h1 hi ho a b hm
          · rw [if_neg h1]
            by_cases h2 : rq.grantType = ClientCredentialsGrantType
            · rw [if_pos h2]
              cases hcf : client.confidential with
              | false => exact .refused _ (by decide) rfl hmem (.inr rfl) (by cause) (by cause)
              | true =>
                simp only [Bool.not_true, Bool.false_eq_true, if_false]
                cases hi : s.config.allowedScope.includes rq.scope with
                | false => exact .refused _ (by decide) rfl hmem (.inl rfl) (by cause) (by cause)
                | true =>
                  simp only [Bool.not_true, Bool.false_eq_true, if_false]
                  unfold issue
                  cases hm : mint s.config true l.coins with
                  | none => exact .crash (mint_none hm) (.inr hpath)
                  | some x =>
                    obtain ⟨a, b⟩ := x
                    obtain ⟨b, rfl⟩ := mint_true hm
                    exact .client rq hfor h2 ⟨client, hc, hcf⟩ hi a b hm
            · rw [if_neg h2]
              by_cases h3 : rq.grantType = AuthorizationCodeGrantType
              · rw [if_pos h3]
                unfold codeReply
                cases ht : HS256Token.parse s.config.secret rq.code with
                | error e => exact .refused _ invalidRequest_status rfl hmem (.inl rfl) (by cause) (by cause)
                | ok c =>
                  simp only
                  cases hst : s.authorizationCodes.get? c.signatureString with
                  | none => exact .refused _ (by decide) rfl hmem (.inl rfl) (by cause) (by cause)
                  | some stored =>
                    simp only
                    cases hu : stored.used with
                    | true => exact .replay rq hfor h3 c ht stored hst hu
                    | false =>
                      simp only [Bool.false_eq_true, if_false]
                      by_cases hx : stored.expiresAt.before (l.clock l.tick) = true
                      · rw [if_pos hx]
                        exact .refused _ (by decide) rfl hmem (.inl rfl) (by cause) (by cause)
                      · rw [if_neg hx]
                        by_cases ho : stored.clientID = rq.clientID
                        · rw [if_neg (fun h => h ho)]
                          by_cases hr : stored.redirectURI = rq.redirectURI
                          · rw [if_neg (fun h => h hr)]
                            unfold issue
                            cases hm : mint s.config true l.coins with
                            | none => exact .crash (mint_none hm) (.inr hpath)
                            | some x =>
                              obtain ⟨a, b⟩ := x
                              obtain ⟨b, rfl⟩ := mint_true hm
                              exact .exchange rq hfor h3 c ht stored hst hu (before_false hx) ho hr
                                a b hm
                          · rw [if_pos hr]
                            exact .refused _ (by decide) rfl hmem (.inl rfl) (by cause) (by cause)
                        · rw [if_pos ho]
                          exact .refused _ (by decide) rfl hmem (.inl rfl) (by cause) (by cause)
              · rw [if_neg h3]
                have h4 : rq.grantType = RefreshTokenGrantType := by
                  unfold knownGrantType at hk
                  simpa [h1, h2, h3] using hk
                unfold refreshReply
                cases ht : HS256Token.parse s.config.secret rq.refreshToken with
                | error e => exact .refused _ invalidRequest_status rfl hmem (.inl rfl) (by cause) (by cause)
                | ok t =>
                  simp only
                  cases hst : s.refreshTokens.get? t.signatureString with
                  | none => exact .refused _ (by decide) rfl hmem (.inl rfl) (by cause) (by cause)
                  | some stored =>
                    simp only
                    by_cases hx : stored.expiresAt.before (l.clock l.tick) = true
                    · rw [if_pos hx]
                      exact .refused _ (by decide) rfl hmem (.inl rfl) (by cause) (by cause)
                    · rw [if_neg hx]
                      by_cases ho : stored.clientID = rq.clientID
                      · rw [if_neg (fun h => h ho)]
                        generalize hsc : (if rq.scope.empty then stored.scope else rq.scope) = scope
                        cases hi : stored.scope.includes scope with
                        | false => exact .refused _ (by decide) rfl hmem (.inl rfl) (by cause) (by cause)
                        | true =>
                          simp only [Bool.not_true, Bool.false_eq_true, if_false]
                          unfold issue
                          cases hm : mint s.config true l.coins with
                          | none => exact .crash (mint_none hm) (.inr hpath)
                          | some x =>
                            obtain ⟨a, b⟩ := x
                            obtain ⟨b, rfl⟩ := mint_true hm
                            exact .refresh rq hfor h4 t ht stored hst (before_false hx) ho scope
                              hsc.symm hi a b hm
                      · rw [if_pos ho]
                        exact .refused _ (by decide) rfl hmem (.inl rfl) (by cause) (by cause)

theorem del_of_none {α : Type} {m : GoMap α} {k : Str} (h : m.get? k = none) : m.del k = m := by
  rw [GoMap.get?_eq_none_iff] at h
  unfold GoMap.del
  rw [List.filter_eq_self]
  intro e he
  have : e.1 ≠ k := fun hk => h (hk ▸ List.mem_map_of_mem he)
  simpa using this

theorem served_revoke (s : Server) (r : Request) (l : Local)
    (hpath : lastSegment r.path = b!"revoke") :
    Served s r l (s.revokeReply r).1 (s.revokeReply r).2 := by
  have hmem : lastSegment r.path ∈ [b!"authorize", b!"token", b!"introspect", b!"revoke"] := by
    rw [hpath]; decide
  unfold revokeReply
  cases hp : parseRevocationRequest r with
  | error e =>
    obtain ⟨d, rfl⟩ := parseRevocationRequest_error hp
    exact .refused _ invalidRequest_status rfl hmem (.inl rfl) (by cause) (by cause)
  | ok rq =>
    simp only
    split
    · exact .refused _ (by decide) rfl hmem (.inl rfl) (by cause) (by cause)
    cases hc : s.clients.get? rq.clientID with
    | none => exact .refused _ (by decide) rfl hmem (.inr rfl) (by cause) (by cause)
    | some client =>
      simp only
      cases hw : wrongSecret client rq.clientSecret with
      | true => exact .refused _ (by decide) rfl hmem (.inr rfl) (by cause) (by cause)
      | false =>
        simp only [Bool.false_eq_true, if_false]
        rw [wrongSecret_iff hc] at hw
        cases ht : HS256Token.parse s.config.secret rq.token with
        | error e => exact .refused _ invalidRequest_status rfl hmem (.inl rfl) (by cause) (by cause)
        | ok t =>
          simp only
          cases hfa : foreign s.accessTokens t.signatureString rq.clientID with
          | true => exact .refused _ (by decide) rfl hmem (.inr rfl) (by cause) (by cause)
          | false =>
            simp only [Bool.false_eq_true, if_false]
            have h1 := foreign_false hfa
            cases ha : s.accessTokens.get? t.signatureString with
            | none =>
              simp only
              cases hfr : foreign s.refreshTokens t.signatureString rq.clientID with
              | true => exact .refused _ (by decide) rfl hmem (.inr rfl) (by cause) (by cause)
              | false =>
                simp only [Bool.false_eq_true, if_false]
                have := Served.revoke (l := l) rq hpath hp hw t ht h1 (foreign_false hfr)
                rw [del_of_none ha] at this
                cases hr : s.refreshTokens.get? t.signatureString with
                | none => rw [del_of_none hr] at this; exact this
                | some cr => exact this
            | some ca =>
              simp only
              cases hfr : foreign s.refreshTokens t.signatureString rq.clientID with
              | true =>
                obtain ⟨cr, hr, hro⟩ := foreign_true hfr
                exact .revokeHalf rq hpath hp hw t ht ca ha (h1 _ ha) cr hr hro
              | false =>
                simp only [Bool.false_eq_true, if_false]
                have := Served.revoke (l := l) rq hpath hp hw t ht h1 (foreign_false hfr)
                cases hr : s.refreshTokens.get? t.signatureString with
                | none => rw [del_of_none hr] at this; exact this
                | some cr => exact this

theorem served_introspect (s : Server) (r : Request) (l : Local)
    (hpath : lastSegment r.path = b!"introspect") :
    Served s r l (s.introspectReply r).1 (s.introspectReply r).2 := by
  have hmem : lastSegment r.path ∈ [b!"authorize", b!"token", b!"introspect", b!"revoke"] := by
    rw [hpath]; decide
  unfold introspectReply
  cases hp : parseIntrospectionRequest r with
  | error e =>
    obtain ⟨d, rfl⟩ := parseIntrospectionRequest_error hp
    exact .refused _ invalidRequest_status rfl hmem (.inl rfl) (by cause) (by cause)
  | ok rq =>
    simp only
    split
    · exact .refused _ (by decide) rfl hmem (.inl rfl) (by cause) (by cause)
    cases hc : s.clients.get? rq.clientID with
    | none => exact .refused _ (by decide) rfl hmem (.inr rfl) (by cause) (by cause)
    | some client =>
      simp only
      cases hw : wrongSecret client rq.clientSecret with
      | true => exact .refused _ (by decide) rfl hmem (.inr rfl) (by cause) (by cause)
      | false =>
        simp only [Bool.false_eq_true, if_false]
        rw [wrongSecret_iff hc] at hw
        cases ht : HS256Token.parse s.config.secret rq.token with
        | error e => exact .refused _ invalidRequest_status rfl hmem (.inl rfl) (by cause) (by cause)
        | ok t =>
          simp only
          cases hfa : foreign s.accessTokens t.signatureString rq.clientID with
          | true => exact .refused _ (by decide) rfl hmem (.inr rfl) (by cause) (by cause)
          | false =>
            cases hfr : foreign s.refreshTokens t.signatureString rq.clientID with
            | true => exact .refused _ (by decide) rfl hmem (.inr rfl) (by cause) (by cause)
            | false =>
              simp only [Bool.false_eq_true, if_false]
              have := fun i hi => Served.introspect (l := l) rq hpath hp hw t ht (foreign_false hfa)
                (foreign_false hfr) i hi
              cases hr : s.refreshTokens.get? t.signatureString with
              | some c =>
                refine this _ ?_
                rw [hr]
              | none =>
                cases ha : s.accessTokens.get? t.signatureString with
                | some c =>
                  refine this _ ?_
                  rw [hr, ha]
                | none =>
                  refine this _ ?_
                  rw [hr, ha]

/-- The summary covers every request. -/
theorem served (s : Server) (r : Request) (l : Local) :
    Served s r l (s.handle r l).1 (s.handle r l).2 := by
  unfold handle
  simp only
  by_cases h1 : lastSegment r.path = b!"authorize"
  · rw [if_pos h1]; exact served_authorize s r l h1
  rw [if_neg h1]
  by_cases h2 : lastSegment r.path = b!"token"
  · rw [if_pos h2]; exact served_token s r l h2
  rw [if_neg h2]
  by_cases h3 : lastSegment r.path = b!"introspect"
  · rw [if_pos h3]; exact served_introspect s r l h3
  rw [if_neg h3]
  by_cases h4 : lastSegment r.path = b!"revoke"
  · rw [if_pos h4]; exact served_revoke s r l h4
  rw [if_neg h4]
  exact .notFound h1 h2 h3 h4

end Server

end OAuth2

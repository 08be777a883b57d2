import Verif.Lemmas.SuiteState
import Verif.Props.Scopes

/-!
How the server answers the requests of the integration tests.
-/

namespace OAuth2.Suite

open _root_.OAuth2.Spec

set_option linter.unusedSimpArgs false

/-- The server has the configuration, the clients and the users of the one at the start. -/
structure Same (σ s : Server) : Prop where
  config : s.config = σ.config
  clients : s.clients = σ.clients
  users : s.users = σ.users

theorem Agree.same {X : Str → Prop} {σ s : Server} (h : Agree X σ s) : Same σ s :=
  ⟨h.config, h.clients, h.users⟩

theorem Same.trans {σ s s' : Server} (h : Same σ s) (h' : Same s s') : Same σ s' :=
  ⟨h'.config.trans h.config, h'.clients.trans h.clients, h'.users.trans h.users⟩

theorem Same.agree {X : Str → Prop} {σ s s' : Server} (h : Same σ s) (h' : Agree X s s') :
    Same σ s' := h.trans h'.same

/-- A text that is a token with the secret of the server. -/
def Is (s : Server) (text : Str) (t : HS256Token) : Prop :=
  HS256Token.parse s.config.secret text = .ok t

theorem Same.is {σ s : Server} (h : Same σ s) {text : Str} {t : HS256Token} :
    Is s text t ↔ Is σ text t := by unfold Is; rw [h.config]

theorem Is.ne_nil {s : Server} {text : Str} {t : HS256Token} (h : Is s text t) : text ≠ [] := by
  rintro rfl
  unfold Is HS256Token.parse at h
  rw [show splitByte 0x2E [] = [[]] from rfl] at h
  cases h

theorem Genuine.is {s : Server} {text sig : Str} (h : Genuine s text sig) :
    ∃ t, Is s text t ∧ t.signatureString = sig := h

theorem Forged.error {s : Server} {text : Str} (h : Forged s text) :
    ∃ err, HS256Token.parse s.config.secret text = .error err := by
  cases hp : HS256Token.parse s.config.secret text with
  | error err => exact ⟨err, rfl⟩
  | ok t => exact absurd ⟨_, t, hp, rfl⟩ h

section

variable {handler : Request → Handler Unit} {draws : Nat → Draw} {spec : Spec} {σ : Server}
  {required : Scope} {T₀ T₁ : Time} {n : Nat} {s s' : Server} {reply : Reply}
  {Q : Recorder → Server → Nat → Prop}

/-! ### Endpoints -/

theorem wp_endpoint {uri endpoint : Str} (hs : Serves handler uri endpoint) {r : Req}
    (hp : r.path = uri)
    (h : ∀ path, Server.lastSegment path = endpoint →
      s.handle (r.sent path) (draws n).local = (reply, s'))
    (hc : reply ≠ .crash) (hq : Q (reply.render {}) s' (n + 1)) :
    wp handler draws (Test.Do r) s n Q := by
  obtain ⟨u, h1, h2, h3, h4⟩ := hs
  exact wp_serve handler draws (request_sent (by rw [hp]; exact h1) h2) (h4 _ rfl)
    (h u.path ((lastSegment_iff _ _).mp h3)) hc hq

theorem wp_token (S : Setting handler draws spec σ required T₀ T₁) {r : Req}
    (hp : r.path = spec.tokenEndpoint)
    (h : ∀ path, s.tokenReply (r.sent path) (draws n).local = (reply, s'))
    (hc : reply ≠ .crash) (hq : Q (reply.render {}) s' (n + 1)) :
    wp handler draws (Test.Do r) s n Q := by
  refine wp_endpoint S.routes.token hp (fun path hl => ?_) hc hq
  unfold Server.handle
  rw [show (r.sent path).path = path from rfl, hl]
  exact h path

theorem wp_authorize (S : Setting handler draws spec σ required T₀ T₁) {r : Req}
    (hp : r.path = spec.authorizeEndpoint)
    (h : ∀ path, s.authorizeReply (r.sent path) (draws n).local = (reply, s'))
    (hc : reply ≠ .crash) (hq : Q (reply.render {}) s' (n + 1)) :
    wp handler draws (Test.Do r) s n Q := by
  refine wp_endpoint S.routes.authorize hp (fun path hl => ?_) hc hq
  unfold Server.handle
  rw [show (r.sent path).path = path from rfl, hl]
  exact h path

theorem wp_introspect (S : Setting handler draws spec σ required T₀ T₁) {r : Req}
    (he : spec.introspectionEndpoint ≠ []) (hp : r.path = spec.introspectionEndpoint)
    (h : ∀ path, s.introspectReply (r.sent path) = (reply, s'))
    (hc : reply ≠ .crash) (hq : Q (reply.render {}) s' (n + 1)) :
    wp handler draws (Test.Do r) s n Q := by
  refine wp_endpoint (S.routes.introspect he) hp (fun path hl => ?_) hc hq
  unfold Server.handle
  rw [show (r.sent path).path = path from rfl, hl]
  exact h path

theorem wp_revoke (S : Setting handler draws spec σ required T₀ T₁) {r : Req}
    (he : spec.revocationEndpoint ≠ []) (hp : r.path = spec.revocationEndpoint)
    (h : ∀ path, s.revokeReply (r.sent path) = (reply, s'))
    (hc : reply ≠ .crash) (hq : Q (reply.render {}) s' (n + 1)) :
    wp handler draws (Test.Do r) s n Q := by
  refine wp_endpoint (S.routes.revoke he) hp (fun path hl => ?_) hc hq
  unfold Server.handle
  rw [show (r.sent path).path = path from rfl, hl]
  exact h path

/-! ### The protected resource -/

/-- What a request for the resource leaves in the recorder. -/
def admit : Option Error → Recorder
  | none => Recorder.write {} b!"OK"
  | some e => Server.challenge {} e

theorem wp_resource (S : Setting handler draws spec σ required T₀ T₁) {r : Req}
    (hp : r.path = spec.protectedResource) {e : Option Error}
    (h : ∀ req : Request, req.header = r.head →
      s.authorizes req required ((draws n).clock 0) = e)
    (hq : Q (admit e) s (n + 1)) :
    wp handler draws (Test.Do r) s n Q := by
  obtain ⟨u, h1, h2⟩ := S.routes.resource
  have hreq : ∃ req, r.request = some req ∧ req.path = u.path ∧ req.header = r.head := by
    unfold Req.request
    rw [hp, h1]
    exact ⟨_, rfl, rfl, rfl⟩
  obtain ⟨req, h3, h4, h5⟩ := hreq
  refine wp_guarded handler draws h3 (h2 req h4) rfl ?_
  rw [h req h5]
  cases e <;> exact hq

/-- What the resource answers to a bearer token. -/
def resourceReply (s : Server) (required : Scope) (now : Time) (tok : Str) : Option Error :=
  match HS256Token.parse s.config.secret tok with
  | .error _ => some (invalidToken b!"malformed token")
  | .ok t =>
    match s.accessTokens.get? t.signatureString with
    | none => some (invalidToken b!"unknown token")
    | some c =>
      if c.expiresAt.before now then some (invalidToken b!"expired token")
      else if !c.scope.includes required then some (insufficientScope required)
      else none

theorem wp_protected (S : Setting handler draws spec σ required T₀ T₁) {tok : Str} (ht : tok ≠ [])
    {e : Option Error} (h : resourceReply s required ((draws n).clock 0) tok = e)
    (hq : Q (admit e) s (n + 1)) :
    wp handler draws (Test.Do (protectedReq spec tok)) s n Q := by
  refine wp_resource S rfl (fun req hh => ?_) hq
  unfold Server.authorizes
  rw [parse_bearer hh ht]
  exact h

/-! ### Clients -/

theorem confidential_client (S : Setting handler draws spec σ required T₀ T₁) (hs : Same σ s) :
    ∃ client, s.clients.get? spec.confidentialClientID = some client ∧
      client.confidential = true ∧ client.secret = spec.confidentialClientSecret ∧
      client.redirectURI = spec.primaryRedirectURI := by
  rw [hs.clients]
  exact S.fits.clients.confidential

theorem public_client (S : Setting handler draws spec σ required T₀ T₁) (hs : Same σ s) :
    ∃ client, s.clients.get? spec.publicClientID = some client ∧ client.confidential = false := by
  rw [hs.clients]
  exact S.fits.clients.nonconfidential

/-! ### The token endpoint -/

/-- The redirect URI given to the token endpoint, if any, is one it understands. -/
def Understood (form : GoMap Str) (uri : Str) : Prop :=
  queryUnescape ((setValues form).get b!"redirect_uri") = some uri ∧
    (uri = [] ∨ ∃ u, parseRequestURI uri = some u ∧ u.fragment = [])

/-- The token request with this form. -/
def tokenRequest (form : GoMap Str) (id secret uri : Str) : TokenRequest where
  grantType := (setValues form).get b!"grant_type"
  scope := Scope.parse ((setValues form).get b!"scope")
  clientID := id
  clientSecret := secret
  username := (setValues form).get b!"username"
  password := (setValues form).get b!"password"
  refreshToken := (setValues form).get b!"refresh_token"
  redirectURI := uri
  code := (setValues form).get b!"code"

theorem known_ne_nil {gt : Str} (h : knownGrantType gt = true) : gt ≠ [] := by
  rintro rfl
  revert h
  decide

/-- A token request of the confidential client. -/
theorem wp_confidential (S : Setting handler draws spec σ required T₀ T₁) (hs : Same σ s)
    {form : GoMap Str} {uri : Str} (hg : knownGrantType ((setValues form).get b!"grant_type") = true)
    (hu : Understood form uri)
    (h : ∀ client, client.confidential = true →
      s.grantReply (tokenRequest form spec.confidentialClientID spec.confidentialClientSecret uri)
        client (draws n).local = (reply, s'))
    (hc : reply ≠ .crash) (hq : Q (reply.render {}) s' (n + 1)) :
    wp handler draws (Test.Do (confidentialReq spec spec.tokenEndpoint form)) s n Q := by
  refine wp_token S rfl (fun path => ?_) hc hq
  have hp := parse_token (r := confidentialReq spec spec.tokenEndpoint form) path rfl
    (known_ne_nil hg) S.fits.clients.given.1 S.fits.clients.colon.1 hu.1 hu.2
  obtain ⟨client, h1, h2, h3, _⟩ := confidential_client S hs
  unfold Server.tokenReply
  rw [hp]
  simp only
  rw [show (confidentialReq spec spec.tokenEndpoint form).form = form from rfl,
    show (confidentialReq spec spec.tokenEndpoint form).username = spec.confidentialClientID from rfl,
    show (confidentialReq spec spec.tokenEndpoint form).password = spec.confidentialClientSecret
      from rfl, hg, h1]
  simp only [Bool.not_true, Bool.false_eq_true, if_false]
  rw [if_neg (by unfold Server.wrongSecret; simp [h3])]
  exact h client h2

/-- A token request of the public client. -/
theorem wp_public (S : Setting handler draws spec σ required T₀ T₁) (hs : Same σ s)
    {form : GoMap Str} {uri : Str} (hg : knownGrantType ((setValues form).get b!"grant_type") = true)
    (hu : Understood form uri)
    (h : ∀ client, client.confidential = false →
      s.grantReply (tokenRequest form spec.publicClientID [] uri) client (draws n).local = (reply, s'))
    (hc : reply ≠ .crash) (hq : Q (reply.render {}) s' (n + 1)) :
    wp handler draws (Test.Do (publicReq spec spec.tokenEndpoint form)) s n Q := by
  refine wp_token S rfl (fun path => ?_) hc hq
  have hp := parse_token (r := publicReq spec spec.tokenEndpoint form) path rfl
    (known_ne_nil hg) S.fits.clients.given.2 S.fits.clients.colon.2 hu.1 hu.2
  obtain ⟨client, h1, h2⟩ := public_client S hs
  unfold Server.tokenReply
  rw [hp]
  simp only
  rw [show (publicReq spec spec.tokenEndpoint form).form = form from rfl,
    show (publicReq spec spec.tokenEndpoint form).username = spec.publicClientID from rfl,
    show (publicReq spec spec.tokenEndpoint form).password = [] from rfl, hg, h1]
  simp only [Bool.not_true, Bool.false_eq_true, if_false]
  rw [if_neg (by unfold Server.wrongSecret; simp [h2])]
  exact h client h2

/-- A token request of the confidential client with a wrong secret. -/
theorem wp_badSecret (S : Setting handler draws spec σ required T₀ T₁) (hs : Same σ s)
    {form : GoMap Str} {uri : Str} (hg : knownGrantType ((setValues form).get b!"grant_type") = true)
    (hu : Understood form uri)
    (hq : Q ((Reply.error (invalidClient b!"unknown client")).render {}) s (n + 1)) :
    wp handler draws (Test.Do { confidentialReq spec spec.tokenEndpoint form with
      password := b!"invalid" }) s n Q := by
  refine wp_token S rfl (fun path => ?_) (by simp) hq
  have hp := parse_token (r := { confidentialReq spec spec.tokenEndpoint form with
      password := b!"invalid" }) path rfl
    (known_ne_nil hg) S.fits.clients.given.1 S.fits.clients.colon.1 hu.1 hu.2
  obtain ⟨client, h1, h2, h3, _⟩ := confidential_client S hs
  unfold Server.tokenReply
  rw [hp]
  simp only
  rw [show (confidentialReq spec spec.tokenEndpoint form).form = form from rfl,
    show (confidentialReq spec spec.tokenEndpoint form).username = spec.confidentialClientID from rfl,
    hg, h1]
  simp only [Bool.not_true, Bool.false_eq_true, if_false]
  rw [if_pos]
  unfold Server.wrongSecret
  simp [h2, h3, S.fits.clients.secret.2]

/-! ### Introspection -/

/-- What introspection answers to a client that is known. -/
def introspected (s : Server) (tok id : Str) : Reply × Server :=
  match HS256Token.parse s.config.secret tok with
  | .error err => (.error (invalidRequest err), s)
  | .ok t =>
    if Server.foreign s.accessTokens t.signatureString id then
      (.error (invalidClient b!"wrong client"), s)
    else if Server.foreign s.refreshTokens t.signatureString id then
      (.error (invalidClient b!"wrong client"), s)
    else
      match s.refreshTokens.get? t.signatureString with
      | some c => (.introspection (Server.describe RefreshToken c), s)
      | none =>
        match s.accessTokens.get? t.signatureString with
        | some c => (.introspection (Server.describe AccessToken c), s)
        | none => (.introspection {}, s)

/-- What revocation answers to a client that is known. -/
def revoked (s : Server) (tok id : Str) : Reply × Server :=
  match HS256Token.parse s.config.secret tok with
  | .error err => (.error (invalidRequest err), s)
  | .ok t =>
    if Server.foreign s.accessTokens t.signatureString id then
      (.error (invalidClient b!"wrong client"), s)
    else
      let s := match s.accessTokens.get? t.signatureString with
        | some _ => { s with accessTokens := s.accessTokens.del t.signatureString }
        | none => s
      if Server.foreign s.refreshTokens t.signatureString id then
        (.error (invalidClient b!"wrong client"), s)
      else
        let s := match s.refreshTokens.get? t.signatureString with
          | some _ => { s with refreshTokens := s.refreshTokens.del t.signatureString }
          | none => s
        (.revoked, s)

/-- The hint is none or one the server knows. -/
def GoodHint (form : GoMap Str) : Prop :=
  (setValues form).get b!"token_type_hint" = [] ∨
    knownTokenType ((setValues form).get b!"token_type_hint") = true

theorem introspect_known {r : Req} {path : Str} (hm : r.method = b!"POST")
    (ht : (setValues r.form).get b!"token" ≠ []) (hu : r.username ≠ [])
    (hc : (0x3A : UInt8) ∉ r.username) (hh : GoodHint r.form) {client : ServerEntity}
    (h1 : s.clients.get? r.username = some client)
    (h2 : Server.wrongSecret client r.password = false) :
    s.introspectReply (r.sent path) = introspected s ((setValues r.form).get b!"token") r.username := by
  unfold Server.introspectReply
  rw [parse_introspection path hm ht hu hc]
  simp only
  rw [if_neg (by rcases hh with h | h <;> simp [h]), h1]
  simp only [h2, Bool.false_eq_true, if_false]
  rfl

theorem revoke_known {r : Req} {path : Str} (hm : r.method = b!"POST")
    (ht : (setValues r.form).get b!"token" ≠ []) (hu : r.username ≠ [])
    (hc : (0x3A : UInt8) ∉ r.username) (hh : GoodHint r.form) {client : ServerEntity}
    (h1 : s.clients.get? r.username = some client)
    (h2 : Server.wrongSecret client r.password = false) :
    s.revokeReply (r.sent path) = revoked s ((setValues r.form).get b!"token") r.username := by
  unfold Server.revokeReply
  rw [parse_revocation path hm ht hu hc]
  simp only
  rw [if_neg (by rcases hh with h | h <;> simp [h]), h1]
  simp only [h2, Bool.false_eq_true, if_false]
  rfl

theorem wp_introspection (S : Setting handler draws spec σ required T₀ T₁) (hs : Same σ s)
    (he : spec.introspectionEndpoint ≠ []) {form : GoMap Str} {tok : Str}
    (ht : (setValues form).get b!"token" = tok) (hn : tok ≠ []) (hh : GoodHint form)
    (h : introspected s tok spec.confidentialClientID = (reply, s'))
    (hc : reply ≠ .crash) (hq : Q (reply.render {}) s' (n + 1)) :
    wp handler draws (Test.Do (confidentialReq spec spec.introspectionEndpoint form)) s n Q := by
  refine wp_introspect S he rfl (fun path => ?_) hc hq
  obtain ⟨client, h1, h2, h3, _⟩ := confidential_client S hs
  rw [introspect_known (r := confidentialReq spec spec.introspectionEndpoint form) rfl
    (by show (setValues form).get _ ≠ _; rw [ht]; exact hn) S.fits.clients.given.1
    S.fits.clients.colon.1 hh h1 (by
      unfold Server.wrongSecret confidentialReq
      simp [h3])]
  show introspected s ((setValues form).get _) spec.confidentialClientID = _
  rw [ht]
  exact h

theorem wp_revocation (S : Setting handler draws spec σ required T₀ T₁) (hs : Same σ s)
    (he : spec.revocationEndpoint ≠ []) {form : GoMap Str} {tok : Str}
    (ht : (setValues form).get b!"token" = tok) (hn : tok ≠ []) (hh : GoodHint form)
    (h : revoked s tok spec.confidentialClientID = (reply, s'))
    (hc : reply ≠ .crash) (hq : Q (reply.render {}) s' (n + 1)) :
    wp handler draws (Test.Do (confidentialReq spec spec.revocationEndpoint form)) s n Q := by
  refine wp_revoke S he rfl (fun path => ?_) hc hq
  obtain ⟨client, h1, h2, h3, _⟩ := confidential_client S hs
  rw [revoke_known (r := confidentialReq spec spec.revocationEndpoint form) rfl
    (by show (setValues form).get _ ≠ _; rw [ht]; exact hn) S.fits.clients.given.1
    S.fits.clients.colon.1 hh h1 (by
      unfold Server.wrongSecret confidentialReq
      simp [h3])]
  show revoked s ((setValues form).get _) spec.confidentialClientID = _
  rw [ht]
  exact h

end

end OAuth2.Suite

import Verif.Spec.Accept
import Verif.Spec.History
import Verif.Spec.Base64
/-
What a refusal should say, in the terms of an observer of the history: the reasons for which the
server may refuse a request, and the error each of them is reported as (RFC 6749, section 5.2 and
4.1.2.1; RFC 7009, section 2.2.1; RFC 6750, section 3.1).
-/

namespace OAuth2.Spec

/-- The text is a token or code that carries the server's signature. -/
def Signed (cfg : ServerConfig) (text : Str) : Prop := ∃ t, HS256Token.parse cfg.secret text = .ok t

/-- The status that goes with an error name. -/
def statusOf (name : Str) : Nat :=
  if name = b!"invalid_client" then 401 else if name = b!"access_denied" then 403 else 400

/-- The code entitles this client with this redirect URI to tokens, now. -/
def Redeemable (cfg : ServerConfig) (h : List Event) (code clientID redirectURI : Str) (now : Time) :
    Prop :=
  ∃ c g, Code cfg h c g false ∧ SameToken cfg code c ∧ now ≤ g.expires ∧ g.client = clientID ∧
    g.redirectURI = redirectURI

/-- The refresh token entitles this client to further tokens, now, for what `g` says. -/
def Refreshable (cfg : ServerConfig) (h : List Event) (token clientID : Str) (now : Time) (g : Grant) :
    Prop :=
  ∃ t, InForce cfg h .refresh t g ∧ SameToken cfg token t ∧ now ≤ g.expires ∧ g.client = clientID

/-- The reasons to refuse a well-formed token request. -/
inductive TokenRefusal (cfg : ServerConfig) (h : List Event) (s : Server) (rq : TokenRequest)
    (now : Time) : (name : Str) → Prop
  | grantType : rq.grantType ∉ [b!"password", b!"client_credentials", b!"authorization_code",
        b!"refresh_token"] →
      TokenRefusal cfg h s rq now b!"invalid_request"
  | unidentified : rq.grantType ∈ [b!"password", b!"client_credentials", b!"authorization_code",
        b!"refresh_token"] → ¬ Identified s rq.clientID rq.clientSecret →
      TokenRefusal cfg h s rq now b!"invalid_client"
  | publicClient {client} : rq.grantType = b!"client_credentials" →
      s.clients.get? rq.clientID = some client → client.confidential = false →
      TokenRefusal cfg h s rq now b!"invalid_client"
  | password : rq.grantType = b!"password" → Identified s rq.clientID rq.clientSecret →
      ¬ Password s rq.username rq.password →
      TokenRefusal cfg h s rq now b!"access_denied"
  | passwordScope : rq.grantType = b!"password" → Identified s rq.clientID rq.clientSecret →
      Password s rq.username rq.password → ¬ Within rq.scope cfg.allowedScope →
      TokenRefusal cfg h s rq now b!"invalid_scope"
  | clientScope {client} : rq.grantType = b!"client_credentials" →
      s.clients.get? rq.clientID = some client → client.confidential = true →
      client.secret = rq.clientSecret → ¬ Within rq.scope cfg.allowedScope →
      TokenRefusal cfg h s rq now b!"invalid_scope"
  | forgedCode : rq.grantType = b!"authorization_code" →
      Identified s rq.clientID rq.clientSecret → ¬ Signed cfg rq.code →
      TokenRefusal cfg h s rq now b!"invalid_request"
  | code : rq.grantType = b!"authorization_code" → Identified s rq.clientID rq.clientSecret →
      Signed cfg rq.code → ¬ Redeemable cfg h rq.code rq.clientID rq.redirectURI now →
      TokenRefusal cfg h s rq now b!"invalid_grant"
  | forgedRefresh : rq.grantType = b!"refresh_token" →
      Identified s rq.clientID rq.clientSecret → ¬ Signed cfg rq.refreshToken →
      TokenRefusal cfg h s rq now b!"invalid_request"
  | refresh : rq.grantType = b!"refresh_token" → Identified s rq.clientID rq.clientSecret →
      Signed cfg rq.refreshToken → (∀ g, ¬ Refreshable cfg h rq.refreshToken rq.clientID now g) →
      TokenRefusal cfg h s rq now b!"invalid_grant"
  | refreshScope {g} : rq.grantType = b!"refresh_token" → Identified s rq.clientID rq.clientSecret →
      Refreshable cfg h rq.refreshToken rq.clientID now g → ¬ Within rq.scope g.scope →
      TokenRefusal cfg h s rq now b!"invalid_scope"

/-- The call is a well-formed authorization request to the authorization endpoint, with any
method. -/
def VisitsAuthorization (c : Call) (rq : AuthorizationRequest) : Prop :=
  ∃ r, c.op = .serve r ∧ LastSegment r.path b!"authorize" ∧ parseAuthorizationRequest r = .ok rq

/-- The call is a request to one of the four endpoints that is not well-formed. -/
def Malformed (c : Call) : Prop :=
  ∃ r, c.op = .serve r ∧
    ((LastSegment r.path b!"authorize" ∧ ∀ rq, parseAuthorizationRequest r ≠ .ok rq) ∨
     (LastSegment r.path b!"token" ∧ ∀ rq, parseTokenRequest r ≠ .ok rq) ∨
     (LastSegment r.path b!"introspect" ∧ ∀ rq, parseIntrospectionRequest r ≠ .ok rq) ∨
     (LastSegment r.path b!"revoke" ∧ ∀ rq, parseRevocationRequest r ≠ .ok rq))

/-- The call is answered with a redirect to the client that reports an error of this name. -/
def RedirectedWith (x : Answer) (rq : AuthorizationRequest) (name : Str) : Prop :=
  ∃ res, x = .answered res ∧ res.statusCode = 303 ∧
    ((rq.responseType = b!"token" ∧ FragmentParameter res b!"error" name) ∨
     (rq.responseType = b!"code" ∧ AddedParameter rq.redirectURI res b!"error" name))

/-- The reasons to refuse a well-formed authorization request without a redirect: the user must not
be sent to a URI that nobody registered. -/
inductive DirectRefusal (s : Server) (rq : AuthorizationRequest) : (name : Str) → Prop
  | responseType : rq.responseType ∉ [b!"token", b!"code"] → DirectRefusal s rq b!"invalid_request"
  | client : rq.responseType ∈ [b!"token", b!"code"] → s.clients.get? rq.clientID = none →
      DirectRefusal s rq b!"invalid_client"
  | redirectURI {client} : rq.responseType ∈ [b!"token", b!"code"] →
      s.clients.get? rq.clientID = some client → client.redirectURI ≠ rq.redirectURI →
      DirectRefusal s rq b!"invalid_request"

/-- The reasons to refuse a submitted authorization request by a redirect to the client. -/
inductive RedirectedRefusal (cfg : ServerConfig) (s : Server) (rq : AuthorizationRequest)
    (username password : Str) : (name : Str) → Prop
  | scope : (∀ name, ¬ DirectRefusal s rq name) → ¬ Within rq.scope cfg.allowedScope →
      RedirectedRefusal cfg s rq username password b!"invalid_scope"
  | denied : (∀ name, ¬ DirectRefusal s rq name) → Within rq.scope cfg.allowedScope →
      ¬ Password s username password →
      RedirectedRefusal cfg s rq username password b!"access_denied"

/-- The token, or another with its signature, is in force and belongs to another client. -/
def Foreign (cfg : ServerConfig) (h : List Event) (text clientID : Str) : Prop :=
  ∃ k t g, InForce cfg h k t g ∧ SameToken cfg text t ∧ g.client ≠ clientID

/-- The reasons to refuse a well-formed introspection or revocation request with this hint. -/
inductive ManagementRefusal (cfg : ServerConfig) (h : List Event) (s : Server)
    (hint clientID clientSecret token : Str) : (name : Str) → Prop
  | hint : hint ∉ [[], b!"access_token", b!"refresh_token"] →
      ManagementRefusal cfg h s hint clientID clientSecret token b!"unsupported_token_type"
  | unidentified : hint ∈ [[], b!"access_token", b!"refresh_token"] →
      ¬ Identified s clientID clientSecret →
      ManagementRefusal cfg h s hint clientID clientSecret token b!"invalid_client"
  | forged : hint ∈ [[], b!"access_token", b!"refresh_token"] →
      Identified s clientID clientSecret → ¬ Signed cfg token →
      ManagementRefusal cfg h s hint clientID clientSecret token b!"invalid_request"
  | foreign : hint ∈ [[], b!"access_token", b!"refresh_token"] →
      Identified s clientID clientSecret → Foreign cfg h token clientID →
      ManagementRefusal cfg h s hint clientID clientSecret token b!"invalid_client"

/-- The access token opens the resource, now, for what `g` says. -/
def Opens (cfg : ServerConfig) (h : List Event) (text : Str) (now : Time) (g : Grant) : Prop :=
  ∃ t, InForce cfg h .access t g ∧ SameToken cfg text t ∧ now ≤ g.expires

/-- The reasons for which `Authorize` refuses a request, with the status and the challenge. -/
inductive AccessRefusal (cfg : ServerConfig) (h : List Event) (header : Str) (required : Scope)
    (now : Time) : (status : Nat) → (challenge : Str) → Prop
  | missing : header = [] →
      AccessRefusal cfg h header required now 401 b!"Bearer realm=\"OAuth2\""
  | malformed : header ≠ [] → (∀ text, ¬ CarriesBearer header text) →
      AccessRefusal cfg h header required now 400
        b!"Bearer error=\"invalid_request\", error_description=\"malformed authorization header\""
  | forged {text} : CarriesBearer header text → ¬ Signed cfg text →
      AccessRefusal cfg h header required now 401
        b!"Bearer error=\"invalid_token\", error_description=\"malformed token\""
  | unknown {text} : CarriesBearer header text → Signed cfg text →
      (∀ t g, InForce cfg h .access t g → ¬ SameToken cfg text t) →
      AccessRefusal cfg h header required now 401
        b!"Bearer error=\"invalid_token\", error_description=\"unknown token\""
  | expired {text t g} : CarriesBearer header text → InForce cfg h .access t g →
      SameToken cfg text t → g.expires < now →
      AccessRefusal cfg h header required now 401
        b!"Bearer error=\"invalid_token\", error_description=\"expired token\""
  | scope {text g} : CarriesBearer header text → Opens cfg h text now g → ¬ Within required g.scope →
      AccessRefusal cfg h header required now 403
        (b!"Bearer error=\"insufficient_scope\", scope=\"" ++ required.string ++ b!"\"")

/-! ### The description of an error -/

/-- The call is answered with this status, an error of this name and this description; an empty
description is left out. -/
def RefusedSaying (x : Answer) (status : Nat) (name description : Str) : Prop :=
  ∃ res, x = .answered res ∧ res.statusCode = status ∧ JsonMember res b!"error" name ∧
    ∀ text, JsonMember res b!"error_description" text ↔ description ≠ [] ∧ text = description

/-- Why a text is no token of this server. -/
inductive Flaw (cfg : ServerConfig) (text : Str) : (description : Str) → Prop
  | segments : (¬ ∃ a b, text = a ++ [0x2E] ++ b ∧ 0x2E ∉ a ∧ 0x2E ∉ b) →
      Flaw cfg text b!"a token must have two segments separated by a dot"
  | key {a b} : text = a ++ [0x2E] ++ b → 0x2E ∉ a → 0x2E ∉ b → (∀ data, ¬ IsBase64Url a data) →
      Flaw cfg text b!"token key is not base64 encoded"
  | signature {a b data} : text = a ++ [0x2E] ++ b → 0x2E ∉ a → 0x2E ∉ b → IsBase64Url a data →
      (∀ data, ¬ IsBase64Url b data) →
      Flaw cfg text b!"token signature is not base64 encoded"
  | forged {a b data signature} : text = a ++ [0x2E] ++ b → 0x2E ∉ a → 0x2E ∉ b →
      IsBase64Url a data → IsBase64Url b signature → signature ≠ hmacSHA256 cfg.secret data →
      Flaw cfg text b!"invalid token supplied"

/-- The code was handed out as `g` says and has not been used. -/
def Unused (cfg : ServerConfig) (h : List Event) (code : Str) (g : CodeGrant) : Prop :=
  ∃ c, Code cfg h c g false ∧ SameToken cfg code c

/-- The refresh token is in force with what `g` says. -/
def Refreshes (cfg : ServerConfig) (h : List Event) (token : Str) (g : Grant) : Prop :=
  ∃ t, InForce cfg h .refresh t g ∧ SameToken cfg token t

/-- The reasons to refuse a well-formed token request, with what is said about them. -/
inductive TokenReason (cfg : ServerConfig) (h : List Event) (s : Server) (rq : TokenRequest)
    (now : Time) : (name description : Str) → Prop
  | grantType : rq.grantType ∉ [b!"password", b!"client_credentials", b!"authorization_code",
        b!"refresh_token"] →
      TokenReason cfg h s rq now b!"invalid_request" b!"unknown grant type"
  | unidentified : rq.grantType ∈ [b!"password", b!"client_credentials", b!"authorization_code",
        b!"refresh_token"] → ¬ Identified s rq.clientID rq.clientSecret →
      TokenReason cfg h s rq now b!"invalid_client" b!"unknown client"
  | publicClient {client} : rq.grantType = b!"client_credentials" →
      s.clients.get? rq.clientID = some client → client.confidential = false →
      TokenReason cfg h s rq now b!"invalid_client" b!"unknown client"
  | password : rq.grantType = b!"password" → Identified s rq.clientID rq.clientSecret →
      ¬ Password s rq.username rq.password →
      TokenReason cfg h s rq now b!"access_denied" []
  | passwordScope : rq.grantType = b!"password" → Identified s rq.clientID rq.clientSecret →
      Password s rq.username rq.password → ¬ Within rq.scope cfg.allowedScope →
      TokenReason cfg h s rq now b!"invalid_scope" []
  | clientScope {client} : rq.grantType = b!"client_credentials" →
      s.clients.get? rq.clientID = some client → client.confidential = true →
      client.secret = rq.clientSecret → ¬ Within rq.scope cfg.allowedScope →
      TokenReason cfg h s rq now b!"invalid_scope" []
  | forgedCode {flaw} : rq.grantType = b!"authorization_code" →
      Identified s rq.clientID rq.clientSecret → Flaw cfg rq.code flaw →
      TokenReason cfg h s rq now b!"invalid_request" flaw
  | unknownCode : rq.grantType = b!"authorization_code" → Identified s rq.clientID rq.clientSecret →
      Signed cfg rq.code → (∀ g, ¬ Unused cfg h rq.code g) →
      TokenReason cfg h s rq now b!"invalid_grant" b!"unknown authorization code"
  | expiredCode {g} : rq.grantType = b!"authorization_code" →
      Identified s rq.clientID rq.clientSecret → Unused cfg h rq.code g → g.expires < now →
      TokenReason cfg h s rq now b!"invalid_grant" b!"expired authorization code"
  | codeOwner {g} : rq.grantType = b!"authorization_code" →
      Identified s rq.clientID rq.clientSecret → Unused cfg h rq.code g → now ≤ g.expires →
      g.client ≠ rq.clientID →
      TokenReason cfg h s rq now b!"invalid_grant" b!"invalid authorization code ownership"
  | codeRedirect {g} : rq.grantType = b!"authorization_code" →
      Identified s rq.clientID rq.clientSecret → Unused cfg h rq.code g → now ≤ g.expires →
      g.client = rq.clientID → g.redirectURI ≠ rq.redirectURI →
      TokenReason cfg h s rq now b!"invalid_grant" b!"changed redirect uri"
  | forgedRefresh {flaw} : rq.grantType = b!"refresh_token" →
      Identified s rq.clientID rq.clientSecret → Flaw cfg rq.refreshToken flaw →
      TokenReason cfg h s rq now b!"invalid_request" flaw
  | unknownRefresh : rq.grantType = b!"refresh_token" → Identified s rq.clientID rq.clientSecret →
      Signed cfg rq.refreshToken → (∀ g, ¬ Refreshes cfg h rq.refreshToken g) →
      TokenReason cfg h s rq now b!"invalid_grant" b!"unknown refresh token"
  | expiredRefresh {g} : rq.grantType = b!"refresh_token" →
      Identified s rq.clientID rq.clientSecret → Refreshes cfg h rq.refreshToken g →
      g.expires < now →
      TokenReason cfg h s rq now b!"invalid_grant" b!"expired refresh token"
  | refreshOwner {g} : rq.grantType = b!"refresh_token" →
      Identified s rq.clientID rq.clientSecret → Refreshes cfg h rq.refreshToken g →
      now ≤ g.expires → g.client ≠ rq.clientID →
      TokenReason cfg h s rq now b!"invalid_grant" b!"invalid refresh token ownership"
  | refreshScope {g} : rq.grantType = b!"refresh_token" → Identified s rq.clientID rq.clientSecret →
      Refreshes cfg h rq.refreshToken g → now ≤ g.expires → g.client = rq.clientID →
      ¬ Within rq.scope g.scope →
      TokenReason cfg h s rq now b!"invalid_scope" b!"scope exceeds the originally granted scope"

/-- The reasons to refuse a well-formed introspection or revocation request, with what is said
about them. -/
inductive ManagementReason (cfg : ServerConfig) (h : List Event) (s : Server)
    (hint clientID clientSecret token : Str) : (name description : Str) → Prop
  | hint : hint ∉ [[], b!"access_token", b!"refresh_token"] →
      ManagementReason cfg h s hint clientID clientSecret token b!"unsupported_token_type" []
  | unidentified : hint ∈ [[], b!"access_token", b!"refresh_token"] →
      ¬ Identified s clientID clientSecret →
      ManagementReason cfg h s hint clientID clientSecret token b!"invalid_client" b!"unknown client"
  | forged {flaw} : hint ∈ [[], b!"access_token", b!"refresh_token"] →
      Identified s clientID clientSecret → Flaw cfg token flaw →
      ManagementReason cfg h s hint clientID clientSecret token b!"invalid_request" flaw
  | foreign : hint ∈ [[], b!"access_token", b!"refresh_token"] →
      Identified s clientID clientSecret → Foreign cfg h token clientID →
      ManagementReason cfg h s hint clientID clientSecret token b!"invalid_client" b!"wrong client"

/-- The reasons to refuse a well-formed authorization request without a redirect, with what is said
about them. -/
inductive DirectReason (s : Server) (rq : AuthorizationRequest) : (name description : Str) → Prop
  | responseType : rq.responseType ∉ [b!"token", b!"code"] →
      DirectReason s rq b!"invalid_request" b!"unknown response type"
  | client : rq.responseType ∈ [b!"token", b!"code"] → s.clients.get? rq.clientID = none →
      DirectReason s rq b!"invalid_client" b!"unknown client"
  | redirectURI {client} : rq.responseType ∈ [b!"token", b!"code"] →
      s.clients.get? rq.clientID = some client → client.redirectURI ≠ rq.redirectURI →
      DirectReason s rq b!"invalid_request" b!"invalid redirect URI"

/-- This is wrong with a request to one of the four endpoints. -/
def Faulty (r : Request) (description : Str) : Prop :=
  (LastSegment r.path b!"authorize" ∧ AuthorizationFault r description) ∨
  (LastSegment r.path b!"token" ∧ TokenFault r description) ∨
  (LastSegment r.path b!"introspect" ∧ ManagementFault r description) ∨
  (LastSegment r.path b!"revoke" ∧ ManagementFault r description)

end OAuth2.Spec

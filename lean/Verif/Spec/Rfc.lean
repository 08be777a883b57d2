import Verif.Spec.Encoding
import Verif.Spec.Reads
import Verif.Spec.Redirect
import Verif.Spec.Refusal
/-
What the specifications named in README.md (RFC 6749, RFC 6750, RFC 7009, RFC 7662) demand of a
server, as statements about single exchanges. Each statement is one sentence of a specification,
which is quoted; whether the server meets it is for the theorems of C80 to say. Requests are read as
the bytes that arrive (Verif/Spec/Encoding.lean), and what went before as an outside observer saw it
(Verif/Spec/History.lean).
-/

namespace OAuth2.Rfc

open Spec

/-- A call on a server and its answer, and what is known when it is made: how the server is
configured, everything that was asked and answered before, and which clients and users are
registered. -/
structure Exchange where
  config : ServerConfig
  past : List Event
  clients : GoMap ServerEntity
  users : GoMap ServerEntity
  call : Call
  answer : Answer

/-- The exchanges that take place: any call after any history of calls on a server that started
without tokens. Requests come from the network and have not been looked at before. -/
inductive Exchange.Happens : Exchange → Prop
  | intro {s₀ : Server} {h : List Event} {s : Shared Server} (c : Call) : Started s₀ →
      History s₀ h s → (∀ r, c.op = .serve r → r.postForm = none ∧ r.form = none) →
      Happens {
        config := s₀.config, past := h, clients := s.st.clients, users := s.st.users, call := c,
        answer := (step s c).1 }

/-- The server meets the requirement in every exchange. -/
def Upheld (requirement : Exchange → Prop) : Prop := ∀ x, x.Happens → requirement x

namespace Exchange

variable (x : Exchange)

/-- The exchange as one of the past. -/
def event : Event := ⟨x.call, x.answer⟩

/-- The time at which the request is looked at. -/
def now : Time := x.call.clock 0

/-- A request to this endpoint and its response. -/
def At (endpoint : Str) (r : Request) (res : Response) : Prop :=
  x.call.op = .serve r ∧ LastSegment r.path endpoint ∧ x.answer = .answered res

/-- A request to the token endpoint with these parameters, made by this client with this secret, and
its response. -/
def Token (fields : List (Str × Str)) (id secret : Str) (res : Response) : Prop :=
  ∃ r query, x.At b!"token" r res ∧ Posts r fields query ∧ From r fields id secret

/-- A request to the authorization endpoint with these parameters, and its response. -/
def Authorization (fields : List (Str × Str)) (res : Response) : Prop :=
  ∃ r, x.At b!"authorize" r res ∧ Sends r fields

/-- A request to the introspection or revocation endpoint with these parameters, made by this client
with this secret, and its response. -/
def About (endpoint : Str) (fields : List (Str × Str)) (id secret : Str) (res : Response) : Prop :=
  ∃ r query, x.At endpoint r res ∧ Posts r fields query ∧
    BasicCredentials (r.header.get b!"Authorization") id secret

/-- A request for a resource with this authorization header and the scope that it takes, and the
response if it is not granted. -/
def Resource (header : Str) (required : Scope) (res : Response) : Prop :=
  ∃ r, x.call.op = .authorize r required ∧ header = r.header.get b!"Authorization" ∧
    x.answer = .rejected res

/-- A client is registered under this id, and if it is confidential then this is its secret. -/
def Authentic (id secret : Str) : Prop :=
  ∃ e, x.clients.get? id = some e ∧ (e.confidential = true → e.secret = secret)

/-- A user is registered under this name with this password. -/
def Owner (username password : Str) : Prop :=
  ∃ e, x.users.get? username = some e ∧ e.secret = password

/-- No token in force has the signature of this text. -/
def Unknown (text : Str) : Prop :=
  ∀ k t g, InForce x.config x.past k t g → ¬ SameToken x.config text t

end Exchange

/-- The response has an access token in its body. -/
def Grants (res : Response) : Prop := ∃ a, JsonMember res b!"access_token" a

/-- The response is an error document with this error code. -/
def Error (res : Response) (name : Str) : Prop :=
  400 ≤ res.statusCode ∧ JsonMember res b!"error" name

/-- The response redirects to a URI whose fragment is a form with this parameter, once. -/
def FragmentForm (res : Response) (name value : Str) : Prop :=
  ∃ front fragment fields, res.header.all b!"Location" = [front ++ [0x23] ++ fragment] ∧
    0x23 ∉ front ∧ FormData fragment fields ∧ valuesOf fields name = [value]

/-- The characters of a scope: `%x21 / %x23-5B / %x5D-7E`. (RFC 6749, section 3.3) -/
def ScopeToken (item : Str) : Prop :=
  item ≠ [] ∧ ∀ c ∈ item, c = 0x21 ∨ (0x23 ≤ c ∧ c ≤ 0x5B) ∨ (0x5D ≤ c ∧ c ≤ 0x7E)

/-- The characters of an error code or description: `%x20-21 / %x23-5B / %x5D-7E`. (RFC 6749,
section 5.2) -/
def ErrorText (text : Str) : Prop :=
  ∀ c ∈ text, (0x20 ≤ c ∧ c ≤ 0x21) ∨ (0x23 ≤ c ∧ c ≤ 0x5B) ∨ (0x5D ≤ c ∧ c ≤ 0x7E)

/-- The grant types of RFC 6749. -/
def grantTypes : List Str :=
  [b!"authorization_code", b!"password", b!"client_credentials", b!"refresh_token"]

/-- The parameters of the token endpoint. (RFC 6749, section 11.2.2) -/
def tokenParameters : List Str :=
  [b!"grant_type", b!"client_id", b!"client_secret", b!"code", b!"redirect_uri", b!"username",
   b!"password", b!"scope", b!"refresh_token"]

/-! ### RFC 6749: The OAuth 2.0 Authorization Framework -/

namespace Rfc6749

/-- "The client identifier is encoded using the "application/x-www-form-urlencoded" encoding algorithm
per Appendix B, and the encoded value is used as the username; the client password is encoded using
the same algorithm and used as the password. The authorization server MUST support the HTTP Basic
authentication scheme for authenticating clients that were issued a client password."
(section 2.3.1) -/
def basic (x : Exchange) : Prop :=
  ∀ r res user password id secret e, x.At b!"token" r res →
    BasicCredentials (r.header.get b!"Authorization") user password →
    FormText user id → FormText password secret →
    x.clients.get? id = some e → e.confidential = true → e.secret = secret →
    ¬ Error res b!"invalid_client"

/-- Instead, the user name and password are the identifier and the secret as they are. For identifiers
and secrets that encode to themselves this is the same. -/
def basicPlain (x : Exchange) : Prop :=
  ∀ r res id secret e, x.At b!"token" r res →
    BasicCredentials (r.header.get b!"Authorization") id secret →
    x.clients.get? id = some e → e.confidential = true → e.secret = secret →
    ¬ Error res b!"invalid_client"

/-- "When a redirection URI is included in an authorization request, the authorization server MUST
compare and match the value received against at least one of the registered redirection URIs [...]
using simple string comparison." (section 3.1.2.3) -/
def redirectMatch (x : Exchange) : Prop :=
  ∀ fields res client, x.Authorization fields res →
    field fields b!"response_type" ∈ [b!"code", b!"token"] → field fields b!"client_id" ≠ [] →
    x.clients.get? (field fields b!"client_id") = some client →
    (∃ u, RedirectURI client.redirectURI u) →
    (client.redirectURI = field fields b!"redirect_uri" ↔ ∀ name, ¬ Error res name)

/-- The same for URIs in which a form has nothing to decode. -/
def redirectMatchPlain (x : Exchange) : Prop :=
  ∀ fields res client, x.Authorization fields res →
    field fields b!"response_type" ∈ [b!"code", b!"token"] → field fields b!"client_id" ≠ [] →
    x.clients.get? (field fields b!"client_id") = some client →
    (∃ u, RedirectURI client.redirectURI u) →
    0x25 ∉ field fields b!"redirect_uri" → 0x2B ∉ field fields b!"redirect_uri" →
    (client.redirectURI = field fields b!"redirect_uri" ↔ ∀ name, ¬ Error res name)

/-- "If an authorization request fails validation due to a missing, invalid, or mismatching
redirection URI, the authorization server SHOULD inform the resource owner of the error and MUST NOT
automatically redirect the user-agent to the invalid redirection URI." (section 3.1.2.4) -/
def noRedirect (x : Exchange) : Prop :=
  ∀ fields res uri, x.Authorization fields res → FormText (field fields b!"redirect_uri") uri →
    (∀ client, x.clients.get? (field fields b!"client_id") = some client →
      client.redirectURI ≠ uri) →
    res.header.all b!"Location" = []

/-- "The client MUST use the HTTP "POST" method when making access token requests."
(section 3.2) -/
def post (x : Exchange) : Prop :=
  ∀ r res, x.At b!"token" r res → r.method ≠ b!"POST" → Error res b!"invalid_request" ∧ ¬ Grants res

/-- "Confidential clients or other clients issued client credentials MUST authenticate with the
authorization server [...] when making requests to the token endpoint." (section 3.2.1) -/
def authenticate (x : Exchange) : Prop :=
  ∀ fields id secret res client, x.Token fields id secret res →
    x.clients.get? id = some client → client.confidential = true → client.secret ≠ secret →
    ¬ Grants res

/-- "Parameters sent without a value MUST be treated as if they were omitted from the request. The
authorization server MUST ignore unrecognized request parameters. Request and response parameters MUST
NOT be included more than once." (sections 3.1 and 3.2) Whatever the state of the server, the answer and
the effect are those of the request without these parameters. -/
def omitted : Prop :=
  ∀ (s : Server) (r r' : Request) (fields : List (Str × Str)) (coins : Str) (clock : Nat → Time),
    Posts r fields [] →
    Posts r' (fields.filter fun p => p.1 ∈ parameterNames ∧ p.2 ≠ []) [] →
    r.path = r'.path → r.header.get b!"Authorization" = r'.header.get b!"Authorization" →
    (fields.map (·.1)).Nodup →
    step ⟨false, s⟩ { op := .serve r, coins := coins, clock := clock } =
      step ⟨false, s⟩ { op := .serve r', coins := coins, clock := clock }

/-- "If the issued access token scope is different from the one requested by the client, the
authorization server MUST include the "scope" response parameter to inform the client of the actual
scope granted." (section 3.3) For servers whose scopes are made of the characters of a scope; requests
with a code do not have a scope. -/
def scope (x : Exchange) : Prop :=
  ∀ fields id secret res requested t g, x.Token fields id secret res →
    field fields b!"grant_type" ≠ b!"authorization_code" →
    (∀ i ∈ x.config.allowedScope.items, ScopeToken i) →
    ScopeText (field fields b!"scope") requested →
    Hands x.event .access t → InForce x.config (x.event :: x.past) .access t g →
    (∃ text, JsonMember res b!"scope" text ∧ ScopeItems text g.scope.items) ∨
      ∀ i, i ∈ g.scope.items ↔ i ∈ Scope.items requested

/-- "state: REQUIRED if the "state" parameter was present in the client authorization request. The
exact value received from the client." (sections 4.1.2 and 4.1.2.1) -/
def state (x : Exchange) : Prop :=
  ∀ fields res client u, x.Authorization fields res →
    field fields b!"response_type" = b!"code" →
    x.clients.get? (field fields b!"client_id") = some client → RedirectURI client.redirectURI u →
    res.header.all b!"Location" ≠ [] → field fields b!"state" ≠ [] →
    AddedParameter client.redirectURI res b!"state" (field fields b!"state")

/-- The same of the implicit grant, where the parameters are added "to the fragment component of the
redirection URI using the "application/x-www-form-urlencoded" format". (sections 4.2.2 and
4.2.2.1) -/
def stateImplicit (x : Exchange) : Prop :=
  ∀ fields res client u, x.Authorization fields res →
    field fields b!"response_type" = b!"token" →
    x.clients.get? (field fields b!"client_id") = some client → RedirectURI client.redirectURI u →
    res.header.all b!"Location" ≠ [] → field fields b!"state" ≠ [] →
    FragmentForm res b!"state" (field fields b!"state")

/-- The same for values of letters, digits, `-`, `_`, `.`, `~` and spaces. -/
def stateImplicitPlain (x : Exchange) : Prop :=
  ∀ fields res client u, x.Authorization fields res →
    field fields b!"response_type" = b!"token" →
    x.clients.get? (field fields b!"client_id") = some client → RedirectURI client.redirectURI u →
    res.header.all b!"Location" ≠ [] → field fields b!"state" ≠ [] →
    (∀ c ∈ field fields b!"state", Plain c) →
    FragmentForm res b!"state" (field fields b!"state")

/-- "If an authorization code is used more than once, the authorization server MUST deny the request."
(section 4.1.2) -/
def codeOnce (x : Exchange) : Prop :=
  ∀ fields id secret res c g, x.Token fields id secret res →
    field fields b!"grant_type" = b!"authorization_code" →
    SameToken x.config (field fields b!"code") c → Code x.config x.past c g true → ¬ Grants res

/-- "[...] and SHOULD revoke (when possible) all tokens previously issued based on that authorization
code." (section 4.1.2) The code was redeemed for a refresh token, and this was exchanged for an access
token. -/
def codeRevokes (x : Exchange) : Prop :=
  ∀ fields id secret res c g uri, x.Token fields id secret res →
    field fields b!"grant_type" = b!"authorization_code" → x.Authentic id secret → id ≠ [] →
    FormText (field fields b!"redirect_uri") uri → (∃ u, RedirectURI uri u) →
    SameToken x.config (field fields b!"code") c → Code x.config x.past c g true →
    ∀ use redeem r a g', use ∈ x.past → redeem ∈ x.past → Redeems x.config redeem c →
      Hands redeem .refresh r → UsesUp x.config use r → Hands use .access a →
      ¬ InForce x.config (x.event :: x.past) .access a g'

/-- The same of the tokens that were issued for the code itself. -/
def codeRevokesDirect (x : Exchange) : Prop :=
  ∀ fields id secret res c g uri, x.Token fields id secret res →
    field fields b!"grant_type" = b!"authorization_code" → x.Authentic id secret → id ≠ [] →
    FormText (field fields b!"redirect_uri") uri → (∃ u, RedirectURI uri u) →
    SameToken x.config (field fields b!"code") c → Code x.config x.past c g true →
    ∀ k t g', InForce x.config (x.event :: x.past) k t g' → g'.origin ≠ c.signatureString

/-- "The authorization code MUST expire shortly after it is issued to mitigate the risk of leaks."
(section 4.1.2) -/
def codeExpires (x : Exchange) : Prop :=
  ∀ fields id secret res c g used, x.Token fields id secret res →
    field fields b!"grant_type" = b!"authorization_code" →
    SameToken x.config (field fields b!"code") c → Code x.config x.past c g used →
    g.expires < x.now → ¬ Grants res

/-- "The authorization server MUST: [...] ensure that the authorization code was issued to the
authenticated confidential client, or if the client is public, ensure that the code was issued to
"client_id" in the request, verify that the authorization code is valid, and ensure that the
"redirect_uri" parameter is present if the "redirect_uri" parameter was included in the initial
authorization request [...], and if included ensure that their values are identical."
(section 4.1.3) -/
def codeBound (x : Exchange) : Prop :=
  ∀ fields id secret res uri, x.Token fields id secret res →
    field fields b!"grant_type" = b!"authorization_code" →
    FormText (field fields b!"redirect_uri") uri → Grants res →
    x.Authentic id secret ∧ ∃ c g, Code x.config x.past c g false ∧
      SameToken x.config (field fields b!"code") c ∧ g.client = id ∧ g.redirectURI = uri

/-- "If the resource owner denies the access request or if the request fails for reasons other than a
missing or invalid redirection URI, the authorization server informs the client by adding the
following parameters to the query component of the redirection URI." (section 4.1.2.1; 4.2.2.1 for
the fragment) -/
def errorRedirect (x : Exchange) : Prop :=
  ∀ fields res client, x.Authorization fields res → field fields b!"client_id" ≠ [] →
    x.clients.get? (field fields b!"client_id") = some client →
    FormText (field fields b!"redirect_uri") client.redirectURI →
    (∃ u, RedirectURI client.redirectURI u) → ∀ name, ¬ Error res name

/-- The same for the response types `code` and `token`. -/
def errorRedirectKnown (x : Exchange) : Prop :=
  ∀ fields res client, x.Authorization fields res →
    field fields b!"response_type" ∈ [b!"code", b!"token"] → field fields b!"client_id" ≠ [] →
    x.clients.get? (field fields b!"client_id") = some client →
    FormText (field fields b!"redirect_uri") client.redirectURI →
    (∃ u, RedirectURI client.redirectURI u) → ∀ name, ¬ Error res name

/-- "The authorization server MUST NOT issue a refresh token." (section 4.2.2) None is in the response,
and none comes into force. -/
def implicitNoRefresh (x : Exchange) : Prop :=
  ∀ r res, x.At b!"authorize" r res →
    (∀ fields, Sends r fields → field fields b!"response_type" = b!"token" →
      ∀ v, ¬ FragmentParameter res b!"refresh_token" v) ∧
    (∀ v, ¬ JsonMember res b!"refresh_token" v) ∧
    ∀ t g, InForce x.config (x.event :: x.past) .refresh t g → InForce x.config x.past .refresh t g

/-- "The authorization server MUST: [...] validate the resource owner password credentials using its
existing password validation algorithm." (section 4.3.2) -/
def password (x : Exchange) : Prop :=
  ∀ fields id secret res, x.Token fields id secret res →
    field fields b!"grant_type" = b!"password" → Grants res →
    x.Authentic id secret ∧ x.Owner (field fields b!"username") (field fields b!"password")

/-- "The client credentials grant type MUST only be used by confidential clients." (section 4.4) -/
def confidential (x : Exchange) : Prop :=
  ∀ fields id secret res, x.Token fields id secret res →
    field fields b!"grant_type" = b!"client_credentials" → Grants res →
    ∃ e, x.clients.get? id = some e ∧ e.confidential = true ∧ e.secret = secret

/-- "A refresh token SHOULD NOT be included." (section 4.4.3) -/
def clientNoRefresh (x : Exchange) : Prop :=
  ∀ fields id secret res, x.Token fields id secret res →
    field fields b!"grant_type" = b!"client_credentials" → ∀ v, ¬ JsonMember res b!"refresh_token" v

/-- "access_token: REQUIRED. token_type: REQUIRED. [...] expires_in: RECOMMENDED." (section 5.1; with
"200 (OK)" and the media type "application/json") -/
def tokenResponse (x : Exchange) : Prop :=
  ∀ r res, x.At b!"token" r res → res.statusCode < 400 →
    res.statusCode = 200 ∧ Grants res ∧ JsonMember res b!"token_type" b!"bearer" ∧
    JsonNumber res b!"expires_in" (x.config.accessTokenLifespan.tdiv second) ∧
    res.header.all b!"Content-Type" = [b!"application/json;charset=UTF-8"]

/-- "The authorization server MUST include the HTTP "Cache-Control" response header field with a value
of "no-store" in any response containing tokens, credentials, or other sensitive information, as well
as the "Pragma" response header field with a value of "no-cache"." (section 5.1) -/
def noStore (x : Exchange) : Prop :=
  ∀ r endpoint res, x.At endpoint r res → Grants res ∨ res.header.all b!"Location" ≠ [] →
    res.header.all b!"Cache-Control" = [b!"no-store"] ∧ res.header.all b!"Pragma" = [b!"no-cache"]

/-- "Request and response parameters MUST NOT be included more than once." (sections 3.1 and 3.2) Here:
in documents. -/
def once (x : Exchange) : Prop :=
  ∀ r endpoint res members, x.At endpoint r res → parseJSON res.body = some (.obj members) →
    (members.map (·.1)).Nodup

/-- "The authorization server responds with an HTTP 400 (Bad Request) status code (unless specified
otherwise)"; "invalid_client: [...] The authorization server MAY return an HTTP 401 (Unauthorized)
status code". (section 5.2) -/
def errorStatus (x : Exchange) : Prop :=
  ∀ r res name, x.At b!"token" r res → Error res name →
    res.statusCode = 400 ∨ res.statusCode = 401 ∧ name = b!"invalid_client"

/-- The same of requests other than those with a password. -/
def errorStatusOther (x : Exchange) : Prop :=
  ∀ r res name, x.At b!"token" r res →
    (∀ fields query, Posts r fields query → field fields b!"grant_type" ≠ b!"password") →
    Error res name → res.statusCode = 400 ∨ res.statusCode = 401 ∧ name = b!"invalid_client"

/-- "error: REQUIRED. A single ASCII error code from the following: invalid_request, invalid_client,
invalid_grant, unauthorized_client, unsupported_grant_type, invalid_scope." (section 5.2) -/
def errorCode (x : Exchange) : Prop :=
  ∀ r res name, x.At b!"token" r res → Error res name →
    name ∈ [b!"invalid_request", b!"invalid_client", b!"invalid_grant", b!"unauthorized_client",
      b!"unsupported_grant_type", b!"invalid_scope"]

/-- The same of requests other than those with a password. -/
def errorCodeOther (x : Exchange) : Prop :=
  ∀ r res name, x.At b!"token" r res →
    (∀ fields query, Posts r fields query → field fields b!"grant_type" ≠ b!"password") →
    Error res name →
    name ∈ [b!"invalid_request", b!"invalid_client", b!"invalid_grant", b!"unauthorized_client",
      b!"unsupported_grant_type", b!"invalid_scope"]

/-- "Values for the "error" parameter MUST NOT include characters outside the set %x20-21 / %x23-5B /
%x5D-7E", and the same for "error_description". (sections 4.1.2.1 and 5.2) -/
def errorText (x : Exchange) : Prop :=
  ∀ r endpoint res text, x.At endpoint r res →
    JsonMember res b!"error" text ∨ JsonMember res b!"error_description" text → ErrorText text

/-- "invalid_request: The request [...] repeats a parameter." (section 5.2) -/
def repeated (x : Exchange) : Prop :=
  ∀ fields id secret res name, x.Token fields id secret res → name ∈ tokenParameters →
    1 < (valuesOf fields name).length → Error res b!"invalid_request"

/-- "invalid_request: The request [...] includes multiple credentials, utilizes more than one
mechanism for authenticating the client." (section 5.2) -/
def oneMechanism (x : Exchange) : Prop :=
  ∀ r fields query res id secret, x.At b!"token" r res → Posts r fields query →
    BasicCredentials (r.header.get b!"Authorization") id secret →
    field fields b!"client_secret" ≠ [] → Error res b!"invalid_request"

/-- "If the client attempted to authenticate via the "Authorization" request header field, the
authorization server MUST respond with an HTTP 401 (Unauthorized) status code and include the
"WWW-Authenticate" response header field matching the authentication scheme used by the client."
(section 5.2) -/
def challenge (x : Exchange) : Prop :=
  ∀ r endpoint res, x.At endpoint r res → Error res b!"invalid_client" →
    res.statusCode = 401 ∧ ∃ rest, res.header.all b!"WWW-Authenticate" = [b!"Basic " ++ rest]

/-- "unsupported_grant_type: The authorization grant type is not supported by the authorization
server." (section 5.2) -/
def unsupportedGrantType (x : Exchange) : Prop :=
  ∀ fields id secret res, x.Token fields id secret res → x.Authentic id secret →
    field fields b!"grant_type" ≠ [] → field fields b!"grant_type" ∉ grantTypes →
    field fields b!"redirect_uri" = [] → Error res b!"unsupported_grant_type"

/-- The grant type is refused all the same. -/
def unknownGrantType (x : Exchange) : Prop :=
  ∀ fields id secret res, x.Token fields id secret res →
    field fields b!"grant_type" ∉ grantTypes → Error res b!"invalid_request"

/-- "invalid_grant: The provided authorization grant (e.g., authorization code, resource owner
credentials) or refresh token is invalid, expired, revoked, does not match the redirection URI used in
the authorization request, or was issued to another client." (section 5.2) Here: the resource owner
credentials. -/
def badPassword (x : Exchange) : Prop :=
  ∀ fields id secret res, x.Token fields id secret res → x.Authentic id secret →
    field fields b!"grant_type" = b!"password" → field fields b!"redirect_uri" = [] →
    ¬ x.Owner (field fields b!"username") (field fields b!"password") →
    Error res b!"invalid_grant"

/-- The same of an authorization code. -/
def badCode (x : Exchange) : Prop :=
  ∀ fields id secret res uri, x.Token fields id secret res → x.Authentic id secret → id ≠ [] →
    field fields b!"grant_type" = b!"authorization_code" →
    FormText (field fields b!"redirect_uri") uri → (∃ u, RedirectURI uri u) →
    ¬ Redeemable x.config x.past (field fields b!"code") id uri x.now → Error res b!"invalid_grant"

/-- The same of a code that carries the signature of the server. -/
def badCodeSigned (x : Exchange) : Prop :=
  ∀ fields id secret res uri, x.Token fields id secret res → x.Authentic id secret → id ≠ [] →
    field fields b!"grant_type" = b!"authorization_code" →
    FormText (field fields b!"redirect_uri") uri → (∃ u, RedirectURI uri u) →
    Signed x.config (field fields b!"code") →
    ¬ Redeemable x.config x.past (field fields b!"code") id uri x.now → Error res b!"invalid_grant"

/-- "The requested scope MUST NOT include any scope not originally granted by the resource owner, and
if omitted is treated as equal to the scope originally granted by the resource owner." "The
authorization server MUST: [...] ensure that the refresh token was issued to the authenticated client,
and validate the refresh token." (section 6) -/
def refresh (x : Exchange) : Prop :=
  ∀ fields id secret res requested, x.Token fields id secret res →
    field fields b!"grant_type" = b!"refresh_token" →
    ScopeText (field fields b!"scope") requested → Grants res →
    x.Authentic id secret ∧ ∃ g, Refreshable x.config x.past (field fields b!"refresh_token") id x.now g ∧
      ∀ a g', Hands x.event .access a → InForce x.config (x.event :: x.past) .access a g' →
        g'.client = g.client ∧ g'.user = g.user ∧ Within g'.scope g.scope ∧
        (requested = none → g'.scope = g.scope)

/-- "If a new refresh token is issued, the refresh token scope MUST be identical to that of the
refresh token included by the client in the request." (section 6) -/
def refreshScope (x : Exchange) : Prop :=
  ∀ fields id secret res g, x.Token fields id secret res →
    field fields b!"grant_type" = b!"refresh_token" →
    Refreshable x.config x.past (field fields b!"refresh_token") id x.now g →
    ∀ b g', Hands x.event .refresh b → InForce x.config (x.event :: x.past) .refresh b g' →
      g'.scope = g.scope

end Rfc6749

/-! ### RFC 6750: Bearer Token Usage -/

namespace Rfc6750

/-- "Resource servers MUST support this method." (section 2.1: the token in the `Authorization`
header) -/
def header (x : Exchange) : Prop :=
  ∀ r required text g, x.call.op = .authorize r required →
    CarriesBearer (r.header.get b!"Authorization") text → Opens x.config x.past text x.now g →
    Within required g.scope → x.answer = .admitted

/-- "If the protected resource request does not include authentication credentials or does not contain
an access token that enables access to the protected resource, the resource server MUST include the
HTTP "WWW-Authenticate" response header field"; "All challenges defined by this specification MUST use
the auth-scheme value "Bearer". This scheme MUST be followed by one or more auth-param values."
(section 3) None of them "MUST appear more than once". -/
def challenge (x : Exchange) : Prop :=
  ∀ given required res, x.Resource given required res →
    ∃ params : List (Str × Str), params ≠ [] ∧ (params.map (·.1)).Nodup ∧
      res.header.all b!"WWW-Authenticate" =
        [b!"Bearer " ++ joinStr b!", " (params.map fun p => param p.1 p.2)]

/-- "If the request lacks any authentication information [...], the resource server SHOULD NOT include
an error code or other error information." (section 3.1) -/
def noErrorCode (x : Exchange) : Prop :=
  ∀ required res, x.Resource [] required res →
    res.statusCode = 401 ∧ res.header.all b!"WWW-Authenticate" = [b!"Bearer realm=\"OAuth2\""]

/-- "invalid_request: The request is [...] malformed. The resource server SHOULD respond with the HTTP
400 (Bad Request) status code." (section 3.1) -/
def invalidRequest (x : Exchange) : Prop :=
  ∀ given required res, x.Resource given required res → given ≠ [] →
    (∀ text, ¬ CarriesBearer given text) →
    res.statusCode = 400 ∧ ∃ rest, res.header.all b!"WWW-Authenticate" =
      [b!"Bearer error=\"invalid_request\"" ++ rest]

/-- "invalid_token: The access token provided is expired, revoked, malformed, or invalid for other
reasons. The resource SHOULD respond with the HTTP 401 (Unauthorized) status code." (section 3.1) -/
def invalidToken (x : Exchange) : Prop :=
  ∀ given required res text, x.Resource given required res → CarriesBearer given text →
    (∀ g, ¬ Opens x.config x.past text x.now g) →
    res.statusCode = 401 ∧ ∃ rest, res.header.all b!"WWW-Authenticate" =
      [b!"Bearer error=\"invalid_token\"" ++ rest]

/-- "insufficient_scope: The request requires higher privileges than provided by the access token. The
resource server SHOULD respond with the HTTP 403 (Forbidden) status code and MAY include the "scope"
attribute with the scope necessary to access the protected resource." (section 3.1) -/
def insufficientScope (x : Exchange) : Prop :=
  ∀ given required res text g, x.Resource given required res → CarriesBearer given text →
    Opens x.config x.past text x.now g →
    res.statusCode = 403 ∧ ¬ Within required g.scope ∧ res.header.all b!"WWW-Authenticate" =
      [b!"Bearer error=\"insufficient_scope\", scope=\"" ++ required.string ++ b!"\""]

end Rfc6750

/-! ### RFC 7009: Token Revocation -/

namespace Rfc7009

/-- "The authorization server first validates the client credentials (in case of a confidential
client) and then verifies whether the token was issued to the client making the revocation request. If
this validation fails, the request is refused and the client is informed of the error by the
authorization server." (section 2.1) -/
def validates (x : Exchange) : Prop :=
  ∀ fields id secret res, x.About b!"revoke" fields id secret res →
    ¬ x.Authentic id secret ∨ Foreign x.config x.past (field fields b!"token") id →
    400 ≤ res.statusCode

/-- "In the next step, the authorization server invalidates the token. The invalidation takes place
immediately, and the token cannot be used again after the revocation." "If the server is unable to
locate the token using the given hint, it MUST extend its search across all of its supported token
types." (section 2.1) -/
def invalidates (x : Exchange) : Prop :=
  ∀ fields id secret res, x.About b!"revoke" fields id secret res → res.statusCode = 200 →
    ∀ k t g, SameToken x.config (field fields b!"token") t →
      ¬ InForce x.config (x.event :: x.past) k t g

/-- "If the particular token is a refresh token and the authorization server supports the revocation
of access tokens, then the authorization server SHOULD also invalidate all access tokens based on the
same authorization grant." (section 2.1) -/
def cascades (x : Exchange) : Prop :=
  ∀ fields id secret res, x.About b!"revoke" fields id secret res → res.statusCode = 200 →
    ∀ e b a g, e ∈ x.past → Hands e .refresh b → Hands e .access a →
      SameToken x.config (field fields b!"token") b →
      ¬ InForce x.config (x.event :: x.past) .access a g

/-- "The authorization server responds with HTTP status code 200 if the token has been revoked
successfully or if the client submitted an invalid token. Note: invalid tokens do not cause an error
response since the client cannot handle such an error in a reasonable way." (section 2.2) -/
def invalidToken (x : Exchange) : Prop :=
  ∀ fields id secret res, x.About b!"revoke" fields id secret res → x.Authentic id secret →
    field fields b!"token" ≠ [] → field fields b!"token_type_hint" = [] →
    x.Unknown (field fields b!"token") → res.statusCode = 200

/-- The same of a token that carries the signature of the server. -/
def invalidTokenSigned (x : Exchange) : Prop :=
  ∀ fields id secret res, x.About b!"revoke" fields id secret res → x.Authentic id secret →
    field fields b!"token" ≠ [] → field fields b!"token_type_hint" = [] →
    Signed x.config (field fields b!"token") → x.Unknown (field fields b!"token") →
    res.statusCode = 200

end Rfc7009

/-! ### RFC 7662: Token Introspection -/

namespace Rfc7662

/-- "To prevent token scanning attacks, the endpoint MUST also require some form of authorization to
access this endpoint." (section 2.1) -/
def authorization (x : Exchange) : Prop :=
  ∀ fields id secret res, x.About b!"introspect" fields id secret res → res.statusCode = 200 →
    ∃ e, x.clients.get? id = some e ∧ e.confidential = true ∧ e.secret = secret

/-- What is required instead: public clients have no secret. -/
def authentic (x : Exchange) : Prop :=
  ∀ r res, x.At b!"introspect" r res → res.statusCode = 200 →
    ∃ id secret, BasicCredentials (r.header.get b!"Authorization") id secret ∧ x.Authentic id secret

/-- "active: REQUIRED. Boolean indicator of whether or not the presented token is currently active."
(section 2.2) -/
def active (x : Exchange) : Prop :=
  ∀ r res, x.At b!"introspect" r res → res.statusCode = 200 →
    ∃ members b, parseJSON res.body = some (.obj members) ∧ (b!"active", .bool b) ∈ members

/-- "If the token can expire, the authorization server MUST determine whether or not the token has
expired." (section 4; "active" is true only if "it has not expired", section 2.2) -/
def notExpired (x : Exchange) : Prop :=
  ∀ fields id secret res members, x.About b!"introspect" fields id secret res →
    res.statusCode = 200 → parseJSON res.body = some (.obj members) →
    (b!"active", .bool true) ∈ members →
    ∃ k t g, SameToken x.config (field fields b!"token") t ∧ InForce x.config x.past k t g ∧
      g.client = id ∧ x.now ≤ g.expires

/-- "It has been issued by the authorization server [...] and has not been revoked." -/
def inForce (x : Exchange) : Prop :=
  ∀ fields id secret res members, x.About b!"introspect" fields id secret res →
    res.statusCode = 200 → parseJSON res.body = some (.obj members) →
    (b!"active", .bool true) ∈ members →
    ∃ k t g, SameToken x.config (field fields b!"token") t ∧ InForce x.config x.past k t g ∧
      g.client = id

/-- "If the introspection call is properly authorized but the token is not active, does not exist on
this server, or the protected resource is not allowed to introspect this particular token, then the
authorization server MUST return an introspection response with the "active" field set to "false"."
(section 2.2) Here: it does not exist. -/
def unknown (x : Exchange) : Prop :=
  ∀ fields id secret res, x.About b!"introspect" fields id secret res → x.Authentic id secret →
    field fields b!"token" ≠ [] → field fields b!"token_type_hint" = [] →
    x.Unknown (field fields b!"token") →
    res.statusCode = 200 ∧ ∃ members, parseJSON res.body = some (.obj members) ∧
      (b!"active", .bool false) ∈ members

/-- The same of a token that carries the signature of the server. -/
def unknownSigned (x : Exchange) : Prop :=
  ∀ fields id secret res, x.About b!"introspect" fields id secret res → x.Authentic id secret →
    field fields b!"token" ≠ [] → field fields b!"token_type_hint" = [] →
    Signed x.config (field fields b!"token") → x.Unknown (field fields b!"token") →
    res.statusCode = 200 ∧ ∃ members, parseJSON res.body = some (.obj members) ∧
      (b!"active", .bool false) ∈ members

/-- The same: the client is not allowed to introspect the token. -/
def foreign (x : Exchange) : Prop :=
  ∀ fields id secret res, x.About b!"introspect" fields id secret res → x.Authentic id secret →
    Foreign x.config x.past (field fields b!"token") id →
    res.statusCode = 200 ∧ ∃ members, parseJSON res.body = some (.obj members) ∧
      (b!"active", .bool false) ∈ members

/-- Nothing is told about such a token all the same. -/
def foreignSilent (x : Exchange) : Prop :=
  ∀ fields id secret res, x.About b!"introspect" fields id secret res →
    Foreign x.config x.past (field fields b!"token") id →
    400 ≤ res.statusCode ∧ ∀ name v, JsonMember res name v → name ∈ [b!"error", b!"error_description"]

/-- "Note that to avoid disclosing too much of the authorization server's state to a third party, the
authorization server SHOULD NOT include any additional information about an inactive token, including
why the token is inactive." (section 2.2) -/
def inactiveSilent (x : Exchange) : Prop :=
  ∀ r res members, x.At b!"introspect" r res → parseJSON res.body = some (.obj members) →
    (b!"active", .bool false) ∈ members → members = [(b!"active", .bool false)]

/-- "token_type: OPTIONAL. Type of the token as defined in Section 5.1 of OAuth 2.0." (section 2.2;
the tokens are bearer tokens) -/
def tokenType (x : Exchange) : Prop :=
  ∀ r res v, x.At b!"introspect" r res → JsonMember res b!"token_type" v → v = b!"bearer"

end Rfc7662

end OAuth2.Rfc

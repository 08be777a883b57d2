import Verif.Model.Suite
import Verif.Spec.Document
/-
What the integration tests of package oauth2test ask of a server, whatever that server is: which
requests they make, in which order, and which answers they accept.
-/

namespace OAuth2.Conformance

/-! ### Conversations -/

/-- A request made while the tests run and what the recorder held when the handler had returned. -/
structure Exchange where
  request : Request
  answer : Recorder

/-- The requests made and the answers given while a test runs, up to the first panic. -/
def conversation {σ α : Type} (handler : Request → Prog σ Unit) (draws : Nat → Suite.Draw) :
    Suite.Test α → Shared σ → Nat → List Exchange
  | .ret _, _, _ => []
  | .panic, _, _ => []
  | .check _ k, s, n => conversation handler draws k s n
  | .send r k, s, n =>
    match r.request with
    | none => []
    | some req =>
      match exec (handler req) s { coins := (draws n).coins, clock := (draws n).clock } with
      | (.ret (), s, l) => ⟨req, l.w⟩ :: conversation handler draws (k l.w) s (n + 1)
      | _ => []

/-- The tests were run, nothing panicked and no assertion failed. -/
def Conforms {σ : Type} (handler : Request → Prog σ Unit) (draws : Nat → Suite.Draw)
    (s : Shared σ) (spec : Suite.Spec) : Prop :=
  ∃ s' n, (Suite.run spec).run handler draws s 0 = some ((), true, s', n)

/-- The handler may answer the request like this, in some state, with some random bytes and clock. -/
def MayAnswer {σ : Type} (handler : Request → Prog σ Unit) (r : Request) (w : Recorder) : Prop :=
  ∃ (s s' : Shared σ) (draw : Suite.Draw) (l : Local),
    exec (handler r) s { coins := draw.coins, clock := draw.clock } = (.ret (), s', l) ∧ l.w = w

/-- Exchanges with these properties occur, one after the other, but others may come between. -/
def InOrder : List Exchange → List (Exchange → Prop) → Prop
  | _, [] => True
  | conv, p :: ps => ∃ before e after, conv = before ++ e :: after ∧ p e ∧ InOrder after ps

/-! ### Requests -/

/-- The request is made with this method, for this URL. -/
def Sent (method uri : Str) (r : Request) : Prop :=
  r.method = method ∧ ∃ u, parseURL uri = some u ∧ r.path = u.path ∧ r.rawQuery = u.rawQuery

/-- The value of the header `Authorization`. -/
def Authorization (r : Request) (value : Str) : Prop := r.header.get b!"Authorization" = value

/-- The client identifies itself with HTTP basic authentication. -/
def Basic (id secret : Str) (r : Request) : Prop :=
  Authorization r (b!"Basic " ++ b64StdEncode (id ++ b!":" ++ secret))

/-- The form has these parameters, with one value each, and no others. -/
def Form (fields : Str → Option Str) (r : Request) : Prop :=
  ∀ name, (r.postForm.getD []).all name = (fields name).toList

/-- The parameters of a form that is written out. -/
def fields (form : GoMap Str) : Str → Option Str := form.get?

/-- A GET request for the protected resource with this header. -/
def Fetch (spec : Suite.Spec) (authorization : Str) (r : Request) : Prop :=
  Sent b!"GET" spec.protectedResource r ∧ Authorization r authorization

/-- A GET request for the protected resource with an access token. -/
def FetchWith (spec : Suite.Spec) (token : Str) : Request → Prop :=
  Fetch spec (b!"Bearer " ++ token)

/-- A form is posted without any client authentication. -/
def Anonymous (uri : Str) (form : GoMap Str) (r : Request) : Prop :=
  Sent b!"POST" uri r ∧ Authorization r [] ∧ Form (fields form) r

/-- A client posts a form. -/
def PostAs (id secret uri : Str) (form : GoMap Str) (r : Request) : Prop :=
  Sent b!"POST" uri r ∧ Basic id secret r ∧ Form (fields form) r

/-- The confidential client posts a form. -/
def Post (spec : Suite.Spec) (uri : Str) (form : GoMap Str) : Request → Prop :=
  PostAs spec.confidentialClientID spec.confidentialClientSecret uri form

/-- The public client posts a form. -/
def PostPublic (spec : Suite.Spec) (uri : Str) (form : GoMap Str) : Request → Prop :=
  PostAs spec.publicClientID [] uri form

/-- The parameters of an authorization request. -/
def authorizing (spec : Suite.Spec) (responseType scope : Str) : GoMap Str :=
  [(b!"response_type", responseType), (b!"client_id", spec.confidentialClientID),
    (b!"redirect_uri", spec.primaryRedirectURI), (b!"scope", scope), (b!"state", b!"xyz")]

/-- An authorization request is posted, along with parameters and headers that are to identify the
resource owner. Of headers with names that differ only in case one is sent. -/
def Consent (spec : Suite.Spec) (params headers : Option (GoMap Str)) (responseType scope : Str)
    (r : Request) : Prop :=
  Sent b!"POST" spec.authorizeEndpoint r ∧
  Form (fun name => (fields (authorizing spec responseType scope) name).or
    (fields (params.getD []) name)) r ∧
  ∀ name,
    (∃ e ∈ headers.getD [], canonicalKey e.1 = canonicalKey name ∧ r.header.get name = e.2) ∨
    ((∀ e ∈ headers.getD [], canonicalKey e.1 ≠ canonicalKey name) ∧ r.header.get name = [])

/-- The parameters of a grant that is given by an authorization code. -/
def exchanging (spec : Suite.Spec) (code redirectURI : Str) : GoMap Str :=
  [(b!"grant_type", b!"authorization_code"), (b!"scope", spec.validScope), (b!"code", code),
    (b!"redirect_uri", redirectURI)]

/-- The parameters of a grant that is given by a refresh token. -/
def refreshing (token : Str) : GoMap Str :=
  [(b!"grant_type", b!"refresh_token"), (b!"refresh_token", token)]

/-- The parameters of a grant that is given by a password. -/
def owning (username password scope : Str) : GoMap Str :=
  [(b!"grant_type", b!"password"), (b!"username", username), (b!"password", password),
    (b!"scope", scope)]

/-- The parameters of a grant that is given by the credentials of the client. -/
def crediting (scope : Str) : GoMap Str :=
  [(b!"grant_type", b!"client_credentials"), (b!"scope", scope)]

/-- The parameters of a question about a token, or of its revocation. -/
def naming (token hint : Str) : GoMap Str := [(b!"token", token), (b!"token_type_hint", hint)]

/-! ### Answers -/

/-- The status of the answer; 200 if none was written. -/
def Status (status : Nat) (w : Recorder) : Prop := (w.sent.map Prod.fst).getD 200 = status

/-- The body begins with a JSON object, in which no number is too large, and this is its last member
of this name. -/
def HasMember (w : Recorder) (name : Str) (doc : JSON) : Prop :=
  ∃ members space text rest, w.body = space ++ text ++ rest ∧ Spec.Space space ∧
    Spec.JsonValue maxDepth (.obj members) text ∧ Spec.InRange (.obj members) ∧
    Spec.LastMember members name doc

/-- The body has this number as a member: its literal and the number are the same, as 64-bit floating
point numbers. -/
def HasNumber (w : Recorder) (name : Str) (i : Int) : Prop :=
  ∃ lit f g, HasMember w name (.num lit) ∧ Spec.NumberDenotes lit f ∧ Spec.Nearest i g ∧
    f.value = g.value

/-- An error in a JSON body. -/
def Refused (status : Nat) (name : Str) (w : Recorder) : Prop :=
  Status status w ∧ HasMember w b!"error" (.str name)

/-- A list of texts, separated by a comma and a space. -/
def listed : List Str → Str
  | [] => []
  | [s] => s
  | s :: t => s ++ b!", " ++ listed t

/-- The header `WWW-Authenticate` has this parameter; quotes and commas around the value do not
count. -/
def Challenge (w : Recorder) (name value : Str) : Prop :=
  ∃ scheme front left right back,
    w.header.get b!"WWW-Authenticate" =
      scheme ++ b!" " ++ listed (front ++ (name ++ b!"=" ++ left ++ value ++ right) :: back) ∧
    ∀ c ∈ left ++ right, c = 0x22 ∨ c = 0x2C

/-- The header `WWW-Authenticate` names a realm. -/
def HasRealm (w : Recorder) : Prop := ∃ realm, Challenge w b!"realm" realm ∧ realm ≠ []

/-- An error in a JSON body, of a server that also names its realm. -/
def RefusedRealm (status : Nat) (name : Str) (w : Recorder) : Prop :=
  Refused status name w ∧ HasRealm w

/-- An error in the header `WWW-Authenticate`, and no body. -/
def Challenged (status : Nat) (name : Str) (w : Recorder) : Prop :=
  Status status w ∧ Challenge w b!"error" name ∧ w.body = []

/-- A token response with these two tokens. A duration of zero need not be mentioned, and what is
expected is a number of 64 bits. -/
def Tokens (spec : Suite.Spec) (accessToken refreshToken : Str) (w : Recorder) : Prop :=
  Status 200 w ∧ HasMember w b!"token_type" (.str b!"bearer") ∧
  HasMember w b!"scope" (.str spec.validScope) ∧
  (spec.expectedExpiresIn ≠ 0 → -2 ^ 63 ≤ spec.expectedExpiresIn →
    spec.expectedExpiresIn < 2 ^ 63 → HasNumber w b!"expires_in" spec.expectedExpiresIn) ∧
  HasMember w b!"access_token" (.str accessToken) ∧ accessToken ≠ [] ∧
  HasMember w b!"refresh_token" (.str refreshToken) ∧ refreshToken ≠ []

/-- A redirect whose query gives parameters these values, "" if they are missing. -/
def RedirectQuery (params : GoMap Str) (w : Recorder) : Prop :=
  Status 303 w ∧ ∃ u, parseURL (w.header.get b!"Location") = some u ∧
    ∀ e ∈ params, u.query.get e.1 = e.2

/-- A redirect whose fragment gives parameters these values, "" if they are missing. -/
def RedirectFragment (params : GoMap Str) (w : Recorder) : Prop :=
  Status 303 w ∧ ∃ u f, parseURL (w.header.get b!"Location") = some u ∧
    parseQuery u.fragment = (f, false) ∧ ∀ e ∈ params, f.get e.1 = e.2

/-- An error sent to the client by a redirect. -/
def denied (name : Str) : GoMap Str := [(b!"error", name), (b!"state", b!"xyz")]

/-- The answer to a question about a token: it is valid, and of this type. -/
def Active (type : Str) (w : Recorder) : Prop :=
  Status 200 w ∧ HasMember w b!"active" (.bool true) ∧ HasMember w b!"token_type" (.str type)

/-- The answer to a question about a token: it is not said to be valid. -/
def Inactive (w : Recorder) : Prop := Status 200 w ∧ ¬ HasMember w b!"active" (.bool true)

/-! ### What has to be answered in which way -/

/-- A request and the answer it has to get. -/
structure Requirement where
  asked : Request → Prop
  answered : Recorder → Prop

/-- The exchange fulfils the requirement. -/
def Requirement.Met (q : Requirement) (e : Exchange) : Prop :=
  q.asked e.request ∧ q.answered e.answer

/-- Some rows, if the condition holds. -/
def whenever {α : Type} (p : Prop) [Decidable p] (rows : List α) : List α := if p then rows else []

/-- The protected resource is kept from everybody without a sufficient token. -/
def resourceRows (spec : Suite.Spec) : List Requirement :=
  [⟨Fetch spec [], fun w => Status 401 w ∧ HasRealm w ∧ w.body = []⟩,
   ⟨Fetch spec b!"invalid", Challenged 400 b!"invalid_request"⟩,
   ⟨FetchWith spec spec.invalidToken, Challenged 401 b!"invalid_token"⟩,
   ⟨FetchWith spec spec.unknownToken, Challenged 401 b!"invalid_token"⟩,
   ⟨FetchWith spec spec.expiredToken, Challenged 401 b!"invalid_token"⟩,
   ⟨FetchWith spec spec.insufficientToken, Challenged 403 b!"insufficient_scope"⟩]

/-- The token endpoint refuses requests that are malformed or of unknown clients. -/
def tokenRows (spec : Suite.Spec) : List Requirement :=
  [⟨Anonymous spec.tokenEndpoint [], Refused 400 b!"invalid_request"⟩,
   ⟨PostAs b!"unknown" [] spec.tokenEndpoint [(b!"grant_type", b!"password")],
    Refused 401 b!"invalid_client"⟩,
   ⟨Post spec spec.tokenEndpoint [(b!"grant_type", b!"invalid")], Refused 400 b!"invalid_request"⟩]

/-- The authorization endpoint refuses requests that are malformed, of unknown clients or with a
foreign redirect URI, and knows GET requests. -/
def authorizationRows (spec : Suite.Spec) : List Requirement :=
  [⟨Anonymous spec.authorizeEndpoint [], Refused 400 b!"invalid_request"⟩,
   ⟨Anonymous spec.authorizeEndpoint [(b!"response_type", b!"code"), (b!"client_id", b!"invalid"),
      (b!"redirect_uri", spec.primaryRedirectURI)], RefusedRealm 401 b!"invalid_client"⟩,
   ⟨Anonymous spec.authorizeEndpoint [(b!"response_type", b!"code"),
      (b!"client_id", spec.confidentialClientID), (b!"redirect_uri", spec.invalidRedirectURI)],
    Refused 400 b!"invalid_request"⟩,
   ⟨PostAs spec.confidentialClientID [] spec.authorizeEndpoint
      [(b!"response_type", b!"invalid"), (b!"client_id", spec.confidentialClientID),
        (b!"redirect_uri", spec.primaryRedirectURI)], Refused 400 b!"invalid_request"⟩,
   ⟨fun r => Sent b!"GET" spec.authorizeEndpoint r ∧ Basic spec.confidentialClientID [] r ∧
      Form (fields [(b!"response_type", b!"token"), (b!"client_id", spec.confidentialClientID),
        (b!"redirect_uri", spec.primaryRedirectURI)]) r, fun w => ¬ Status 404 w⟩]

/-- A password gives nothing to a client with a wrong secret, and nothing if it is wrong or the
scope is not allowed. -/
def passwordRows (spec : Suite.Spec) : List Requirement :=
  [⟨PostAs spec.confidentialClientID b!"invalid" spec.tokenEndpoint
      (owning spec.resourceOwnerUsername spec.resourceOwnerPassword spec.validScope),
    Refused 401 b!"invalid_client"⟩,
   ⟨Post spec spec.tokenEndpoint
      (owning b!"invalid" spec.resourceOwnerPassword spec.validScope),
    Refused 403 b!"access_denied"⟩,
   ⟨Post spec spec.tokenEndpoint
      (owning spec.resourceOwnerUsername b!"invalid" spec.validScope),
    Refused 403 b!"access_denied"⟩,
   ⟨Post spec spec.tokenEndpoint
      (owning spec.resourceOwnerUsername spec.resourceOwnerPassword spec.invalidScope),
    Refused 400 b!"invalid_scope"⟩,
   ⟨Post spec spec.tokenEndpoint
      (owning spec.resourceOwnerUsername spec.resourceOwnerPassword spec.exceedingScope),
    Refused 400 b!"invalid_scope"⟩]

/-- The credentials of a client give nothing if they are wrong, the client is public or the scope
is not allowed. -/
def credentialsRows (spec : Suite.Spec) : List Requirement :=
  [⟨PostAs spec.confidentialClientID b!"invalid" spec.tokenEndpoint (crediting spec.validScope),
    RefusedRealm 401 b!"invalid_client"⟩,
   ⟨PostPublic spec spec.tokenEndpoint (crediting spec.validScope),
    RefusedRealm 401 b!"invalid_client"⟩,
   ⟨Post spec spec.tokenEndpoint (crediting spec.invalidScope), Refused 400 b!"invalid_scope"⟩,
   ⟨Post spec spec.tokenEndpoint (crediting spec.exceedingScope), Refused 400 b!"invalid_scope"⟩]

/-- Nothing is authorized with a scope that is not allowed, or without the right credentials of the
resource owner. The type of the response says where the client finds the error. -/
def consentRows (spec : Suite.Spec) (responseType : Str)
    (redirect : GoMap Str → Recorder → Prop) : List Requirement :=
  [⟨Consent spec spec.validAuthorizationParams spec.validAuthorizationHeaders responseType
      spec.invalidScope, redirect (denied b!"invalid_scope")⟩,
   ⟨Consent spec spec.validAuthorizationParams spec.validAuthorizationHeaders responseType
      spec.exceedingScope, redirect (denied b!"invalid_scope")⟩,
   ⟨Anonymous spec.authorizeEndpoint (authorizing spec responseType spec.validScope),
    redirect (denied b!"access_denied")⟩,
   ⟨Consent spec spec.invalidAuthorizationParams spec.invalidAuthorizationHeaders responseType
      spec.validScope, redirect (denied b!"access_denied")⟩]

/-- An authorization code gives nothing if the client has a wrong secret, or the code is malformed,
unknown or expired. -/
def codeRows (spec : Suite.Spec) : List Requirement :=
  [⟨PostAs spec.confidentialClientID b!"invalid" spec.tokenEndpoint
      (exchanging spec spec.invalidAuthorizationCode spec.primaryRedirectURI),
    Refused 401 b!"invalid_client"⟩,
   ⟨Post spec spec.tokenEndpoint
      (exchanging spec spec.invalidAuthorizationCode spec.primaryRedirectURI),
    Refused 400 b!"invalid_request"⟩,
   ⟨Post spec spec.tokenEndpoint
      (exchanging spec spec.unknownAuthorizationCode spec.primaryRedirectURI),
    Refused 400 b!"invalid_grant"⟩,
   ⟨Post spec spec.tokenEndpoint
      (exchanging spec spec.expiredAuthorizationCode spec.primaryRedirectURI),
    Refused 400 b!"invalid_grant"⟩]

/-- A refresh token gives nothing if the client has a wrong secret or is another one, if the token
is malformed, unknown or expired, or if the scope exceeds what was granted. -/
def refreshRows (spec : Suite.Spec) : List Requirement :=
  [⟨PostAs spec.confidentialClientID b!"invalid" spec.tokenEndpoint
      (refreshing spec.validRefreshToken), Refused 401 b!"invalid_client"⟩,
   ⟨Post spec spec.tokenEndpoint (refreshing spec.invalidRefreshToken),
    Refused 400 b!"invalid_request"⟩,
   ⟨Post spec spec.tokenEndpoint (refreshing spec.unknownRefreshToken),
    Refused 400 b!"invalid_grant"⟩,
   ⟨Post spec spec.tokenEndpoint (refreshing spec.expiredRefreshToken),
    Refused 400 b!"invalid_grant"⟩,
   ⟨PostPublic spec spec.tokenEndpoint (refreshing spec.validRefreshToken),
    Refused 400 b!"invalid_grant"⟩,
   ⟨Post spec spec.tokenEndpoint
      (refreshing spec.validRefreshToken ++ [(b!"scope", spec.exceedingScope)]),
    Refused 400 b!"invalid_scope"⟩]

/-- The introspection and the revocation endpoint refuse requests that are malformed, with an
unknown hint or of other clients than the one the token belongs to, and have nothing against tokens
they do not know. -/
def endpointRows (spec : Suite.Spec) (uri : Str) : List Requirement :=
  [⟨Anonymous uri [], Refused 400 b!"invalid_request"⟩,
   ⟨Anonymous uri [(b!"token", spec.validToken)], Refused 400 b!"invalid_request"⟩,
   ⟨Post spec uri [], Refused 400 b!"invalid_request"⟩,
   ⟨Post spec uri (naming spec.validToken b!"invalid"), Refused 400 b!"unsupported_token_type"⟩,
   ⟨PostAs b!"unknown" [] uri [(b!"token", spec.validToken)],
    RefusedRealm 401 b!"invalid_client"⟩,
   ⟨PostAs spec.confidentialClientID [] uri [(b!"token", spec.validToken)],
    RefusedRealm 401 b!"invalid_client"⟩,
   ⟨PostPublic spec uri [(b!"token", spec.validToken)], Refused 401 b!"invalid_client"⟩,
   ⟨Post spec uri [(b!"token", spec.invalidToken)], Refused 400 b!"invalid_request"⟩,
   ⟨Post spec uri [(b!"token", spec.unknownToken)], Status 200⟩]

/-- Introspection is no GET request, and tells that a valid token is valid. -/
def introspectionRows (spec : Suite.Spec) : List Requirement :=
  [⟨fun r => Sent b!"GET" spec.introspectionEndpoint r ∧ Authorization r [] ∧ Form (fields []) r,
    Refused 400 b!"invalid_request"⟩] ++
  endpointRows spec spec.introspectionEndpoint ++
  [⟨Post spec spec.introspectionEndpoint (naming spec.validToken b!"access_token"),
    fun w => Status 200 w ∧ HasMember w b!"active" (.bool true)⟩]

/-- Whether the specification names a grant of the token endpoint. -/
def Grants (spec : Suite.Spec) : Prop :=
  spec.passwordGrantSupport = true ∨ spec.clientCredentialsGrantSupport = true ∨
    spec.authorizationCodeGrantSupport = true ∨ spec.refreshTokenGrantSupport = true

instance (spec : Suite.Spec) : Decidable (Grants spec) := by unfold Grants; infer_instance

/-- Everything that has to be answered in one way, whatever was said before. -/
def requirements (spec : Suite.Spec) : List Requirement :=
  resourceRows spec ++
  whenever (Grants spec) (tokenRows spec) ++
  whenever (spec.implicitGrantSupport = true ∨ spec.authorizationCodeGrantSupport = true)
    (authorizationRows spec) ++
  whenever (spec.passwordGrantSupport = true) (passwordRows spec) ++
  whenever (spec.clientCredentialsGrantSupport = true) (credentialsRows spec) ++
  whenever (spec.implicitGrantSupport = true) (consentRows spec b!"token" RedirectFragment) ++
  whenever (spec.authorizationCodeGrantSupport = true)
    (consentRows spec b!"code" RedirectQuery ++ codeRows spec) ++
  whenever (spec.refreshTokenGrantSupport = true) (refreshRows spec) ++
  whenever (spec.introspectionEndpoint ≠ []) (introspectionRows spec) ++
  whenever (spec.revocationEndpoint ≠ []) (endpointRows spec spec.revocationEndpoint)

/-! ### What has to be answered after what -/

/-- The request is made and answered like this. -/
def says (asked : Request → Prop) (answered : Recorder → Prop) (e : Exchange) : Prop :=
  asked e.request ∧ answered e.answer

/-- The life of an access token: it opens the resource and is active, until it is revoked. -/
def accessLife (spec : Suite.Spec) (token : Str) : List (Exchange → Prop) :=
  [says (FetchWith spec token) (Status 200)] ++
  whenever (spec.introspectionEndpoint ≠ [])
    [says (Post spec spec.introspectionEndpoint (naming token b!"access_token"))
      (Active b!"access_token")] ++
  whenever (spec.revocationEndpoint ≠ [])
    ([says (Post spec spec.revocationEndpoint (naming token b!"access_token")) (Status 200),
      says (FetchWith spec token)
        (fun w => Status 401 w ∧ Challenge w b!"error" b!"invalid_token")] ++
    whenever (spec.introspectionEndpoint ≠ [])
      [says (Post spec spec.introspectionEndpoint (naming token b!"access_token")) Inactive])

/-- The life of a refresh token: it is active and gives an access token and another refresh token,
once, and the other one gives nothing after it has been revoked. -/
def refreshLife (spec : Suite.Spec) (token accessToken newToken : Str) : List (Exchange → Prop) :=
  whenever (spec.introspectionEndpoint ≠ [])
    [says (Post spec spec.introspectionEndpoint (naming token b!"refresh_token"))
      (Active b!"refresh_token")] ++
  [says (Post spec spec.tokenEndpoint (refreshing token)) (Tokens spec accessToken newToken)] ++
  accessLife spec accessToken ++
  [says (Post spec spec.tokenEndpoint (refreshing token)) (Refused 400 b!"invalid_grant")] ++
  whenever (spec.introspectionEndpoint ≠ [])
    [says (Post spec spec.introspectionEndpoint (naming token b!"refresh_token")) Inactive] ++
  whenever (spec.revocationEndpoint ≠ [])
    ([says (Post spec spec.revocationEndpoint (naming newToken b!"refresh_token")) (Status 200),
      says (Post spec spec.tokenEndpoint (refreshing newToken))
        (Refused 400 b!"invalid_grant")] ++
    whenever (spec.introspectionEndpoint ≠ [])
      [says (Post spec spec.introspectionEndpoint (naming newToken b!"refresh_token")) Inactive])

/-- A grant of the token endpoint gives tokens that then live as they should. -/
def grantLife (spec : Suite.Spec) (form : GoMap Str) (accessToken refreshToken a r : Str) :
    List (Exchange → Prop) :=
  [says (Post spec spec.tokenEndpoint form) (Tokens spec accessToken refreshToken)] ++
  accessLife spec accessToken ++ refreshLife spec refreshToken a r

/-- The implicit grant gives an access token in the fragment, and no refresh token. -/
def implicitLife (spec : Suite.Spec) (accessToken : Str) : List (Exchange → Prop) :=
  [says (Consent spec spec.validAuthorizationParams spec.validAuthorizationHeaders b!"token"
      spec.validScope)
    (fun w => RedirectFragment [(b!"token_type", b!"bearer"), (b!"scope", spec.validScope),
      (b!"expires_in", itoa spec.expectedExpiresIn), (b!"state", b!"xyz"),
      (b!"refresh_token", []), (b!"access_token", accessToken)] w ∧ accessToken ≠ [])] ++
  accessLife spec accessToken

/-- An authorization code is handed out. -/
def codeGiven (spec : Suite.Spec) (code : Str) : Exchange → Prop :=
  says (Consent spec spec.validAuthorizationParams spec.validAuthorizationHeaders b!"code"
      spec.validScope)
    (fun w => RedirectQuery [(b!"state", b!"xyz"), (b!"code", code)] w ∧ code ≠ [])

/-- An authorization code gives nothing to another client or with another redirect URI, and then
tokens to the right client. -/
def codeLife (spec : Suite.Spec) (code accessToken refreshToken a r : Str) :
    List (Exchange → Prop) :=
  [codeGiven spec code,
   says (PostPublic spec spec.tokenEndpoint (exchanging spec code spec.primaryRedirectURI))
     (Refused 400 b!"invalid_grant"),
   says (Post spec spec.tokenEndpoint (exchanging spec code spec.secondaryRedirectURI))
     (Refused 400 b!"invalid_grant")] ++
  grantLife spec (exchanging spec code spec.primaryRedirectURI) accessToken refreshToken a r

/-- An authorization code gives tokens once. With replay mitigation, its second use takes them
back. -/
def codeReplay (spec : Suite.Spec) (code accessToken refreshToken : Str) :
    List (Exchange → Prop) :=
  [codeGiven spec code,
   says (Post spec spec.tokenEndpoint (exchanging spec code spec.primaryRedirectURI))
     (Tokens spec accessToken refreshToken),
   says (Post spec spec.tokenEndpoint (exchanging spec code spec.primaryRedirectURI))
     (Refused 400 b!"invalid_grant")] ++
  whenever (spec.codeReplayMitigation = true)
    [says (FetchWith spec accessToken) (Status 401),
     says (Post spec spec.tokenEndpoint (refreshing refreshToken)) (Refused 400 b!"invalid_grant")]

/-- The maps in the specification have one value for a key, as Go maps do. -/
def Maps (spec : Suite.Spec) : Prop :=
  (spec.validAuthorizationParams.getD []).keys.Nodup ∧
    (spec.invalidAuthorizationParams.getD []).keys.Nodup

end OAuth2.Conformance

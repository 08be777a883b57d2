import Verif.Model.Server
/-
The package oauth2test: integration tests to run against any OAuth2 server. A test is a tree of
requests, assertions and panics that knows nothing of the server it is run against.

`Request` is a name of net/http already modelled, so the type `Request` of oauth2test is `Req`.
The messages of assertions (`debug`, oauth2test/utils.go:100-102) and the names passed to `t.Run`
are left out. A test package passes if no assertion fails and nothing panics; `t.Run` runs its
argument to completion before it returns, and a failed assertion of `testify/assert` does not stop
the test.
-/

namespace OAuth2.Suite

/-- oauth2test/request.go:11-19 `Request`, without the callback. -/
structure Req where
  method : Str
  path : Str
  header : GoMap Str := []
  form : GoMap Str := []
  username : Str := []
  password : Str := []

/-- A test. Auxiliary, no code: the language the tests of oauth2test are written in. -/
inductive Test (α : Type) where
  | ret (a : α)
  /-- Go `panic` -/
  | panic
  /-- one call of an assertion of `testify/assert` -/
  | check (ok : Bool) (k : Test α)
  /-- one call of `Do`, with what the `httptest.ResponseRecorder` then holds -/
  | send (r : Req) (k : Recorder → Test α)

namespace Test

/-- One test after the other. Auxiliary, no code: Go statements in sequence. -/
def bind {α β : Type} : Test α → (α → Test β) → Test β
  | ret a, f => f a
  | panic, _ => panic
  | check ok k, f => check ok (bind k f)
  | send r k, f => send r fun w => bind (k w) f

/-- So that tests can be written with `do`. Auxiliary, no code. -/
instance : Monad Test where
  pure := ret
  bind := bind

/-- `assert.True(t, ok)` and the assertions that amount to it. For example
oauth2test/endpoints.go:18. -/
def assert (ok : Bool) : Test Unit := check ok (ret ())

/-- oauth2test/utils.go:11-15 `must`. -/
def must (ok : Bool) : Test Unit := if ok then ret () else panic

/-- A value whose computation panics if it is `none`. Auxiliary; for the panics at
oauth2test/utils.go:62-97. -/
def ofOption {α : Type} : Option α → Test α
  | some a => ret a
  | none => panic

/-- oauth2test/request.go:22 `Do`, returning the recorder the callback gets. -/
def Do (r : Req) : Test Recorder := send r ret

end Test

/-- Go: `http.Header.Set` for every entry of a map (oauth2test/request.go:30-32). -/
def setHeaders (h : Header) (m : GoMap Str) : Header := m.foldl (fun h e => h.set e.1 e.2) h

/-- Go: `url.Values.Set` for every entry of a map (oauth2test/request.go:44-47). -/
def setValues (m : GoMap Str) : Values := m.foldl (fun v e => GoMap.set v e.1 [e.2]) []

/-- oauth2test/request.go:22-47: the request `Do` makes; `none` is a panic, because the path is not
a URL. `http.NewRequest` with a nil body leaves `Body` nil. -/
def Req.request (r : Req) : Option Request :=
  match parseURL r.path with
  | none => none
  | some u =>
    let h := setHeaders [] r.header
    let h := if r.username ≠ [] then
        h.set b!"Authorization" (b!"Basic " ++ b64StdEncode (r.username ++ [0x3A] ++ r.password))
      else h
    some {
      method := r.method
      path := u.path
      rawQuery := u.rawQuery
      header := h
      postForm := some (setValues r.form) }

/-- The random bytes and clock readings the handler obtains during one request.
oauth2test/request.go:49-56 runs the handler; hs256.go:13 and `time.Now` are what it draws from. -/
structure Draw where
  coins : Str
  clock : Nat → Time

/-- Running a test against a handler: its result, whether every assertion held, the state it leaves
and the number of requests made so far; `none` if something panics. `draws n` is what the handler
obtains during request `n`. oauth2test/request.go:49-56. -/
def Test.run {σ α : Type} (handler : Request → Prog σ Unit) (draws : Nat → Draw) :
    Test α → Shared σ → Nat → Option (α × Bool × Shared σ × Nat)
  | .ret a, s, n => some (a, true, s, n)
  | .panic, _, _ => none
  | .check ok k, s, n =>
    match run handler draws k s n with
    | none => none
    | some (a, passed, s, n) => some (a, ok && passed, s, n)
  | .send r k, s, n =>
    match r.request with
    | none => none
    | some req =>
      match exec (handler req) s { coins := (draws n).coins, clock := (draws n).clock } with
      | (.ret (), s, l) => run handler draws (k l.w) s (n + 1)
      | _ => none

/-! ### utils.go -/

/-- Go: `httptest.ResponseRecorder.Code`: 200 until a status is written. -/
def code (w : Recorder) : Nat :=
  match w.sent with
  | some (status, _) => status
  | none => 200

/-- oauth2test/utils.go:17-31 `extend`; a nil map has no entries. -/
def extend (src ext : GoMap Str) : GoMap Str :=
  ext.foldl (fun m e => m.set e.1 e.2) (src.foldl (fun m e => GoMap.set m e.1 e.2) [])

/-- oauth2test/utils.go:33-44 `jsonField`; `none` is nil, and of members with the same name the
last one counts. Only the first document in the body is read. A number that is too large, anywhere in
it, is an error. -/
def jsonField (w : Recorder) (field : Str) : Option JSON :=
  match parseValue (w.body.length + 1) 0 w.body with
  | some (.obj members, _) =>
    if JSON.readableMembers members then GoMap.get? members.reverse field else none
  | _ => none

/-- oauth2test/utils.go:46-49 `jsonFieldBool`. -/
def jsonFieldBool (w : Recorder) (field : Str) : Bool :=
  match jsonField w field with
  | some (.bool b) => b
  | _ => false

/-- oauth2test/utils.go:51-54 `jsonFieldString`. -/
def jsonFieldString (w : Recorder) (field : Str) : Str :=
  match jsonField w field with
  | some (.str s) => s
  | _ => []

/-- oauth2test/utils.go:56-59 `jsonFieldFloat`. -/
def jsonFieldFloat (w : Recorder) (field : Str) : F64 :=
  match jsonField w field with
  | some (.num lit) => (F64.parse lit).getD (F64.zero false)
  | _ => F64.zero false

/-- oauth2test/utils.go:61-73 `fragment`. -/
def fragment (w : Recorder) (key : Str) : Option Str :=
  match parseURL (w.header.get b!"Location") with
  | none => none
  | some u =>
    match parseQuery u.fragment with
    | (_, true) => none
    | (f, false) => some (f.get key)

/-- oauth2test/utils.go:75-82 `query`. -/
def query (w : Recorder) (key : Str) : Option Str :=
  match parseURL (w.header.get b!"Location") with
  | none => none
  | some u => some (u.query.get key)

/-- Go: `strings.Split(s, ", ")`. -/
def splitComma : Str → List Str
  | [] => [[]]
  | [c] => [[c]]
  | c :: d :: cs =>
    if c = 0x2C ∧ d = 0x20 then [] :: splitComma cs
    else match splitComma (d :: cs) with
      | [] => [[c]]
      | h :: t => (c :: h) :: t

/-- Go: `strings.Trim(s, "\",")`. -/
def trimQuotes (s : Str) : Str :=
  let drop := fun s : Str => s.dropWhile fun c => c = 0x22 || c = 0x2C
  (drop (drop s).reverse).reverse

/-- oauth2test/utils.go:89-95, the loop of `auth`; `none` is a panic. -/
def authParam (key : Str) : List Str → Option Str
  | [] => some []
  | part :: parts =>
    match cutByte 0x3D part with
    | none => if part ≠ key then authParam key parts else none
    | some (name, value) => if name ≠ key then authParam key parts else some (trimQuotes value)

/-- oauth2test/utils.go:84-98 `auth`; `none` is a panic. -/
def auth (w : Recorder) (key : Str) : Option Str :=
  match cutByte 0x20 (w.header.get b!"WWW-Authenticate") with
  | none => none
  | some (_, params) => authParam key (splitComma params)

/-! ### spec.go -/

/-- oauth2test/spec.go:11-105 `Spec`, without the handler, which is given to `Test.run`. A nil map
is `none`. -/
structure Spec where
  tokenEndpoint : Str := []
  authorizeEndpoint : Str := []
  revocationEndpoint : Str := []
  introspectionEndpoint : Str := []
  protectedResource : Str := []
  passwordGrantSupport : Bool := false
  clientCredentialsGrantSupport : Bool := false
  implicitGrantSupport : Bool := false
  authorizationCodeGrantSupport : Bool := false
  refreshTokenGrantSupport : Bool := false
  confidentialClientID : Str := []
  confidentialClientSecret : Str := []
  publicClientID : Str := []
  invalidScope : Str := []
  validScope : Str := []
  exceedingScope : Str := []
  expectedExpiresIn : Int := 0
  invalidToken : Str := []
  unknownToken : Str := []
  validToken : Str := []
  expiredToken : Str := []
  insufficientToken : Str := []
  resourceOwnerUsername : Str := []
  resourceOwnerPassword : Str := []
  invalidRedirectURI : Str := []
  primaryRedirectURI : Str := []
  secondaryRedirectURI : Str := []
  invalidRefreshToken : Str := []
  unknownRefreshToken : Str := []
  validRefreshToken : Str := []
  expiredRefreshToken : Str := []
  invalidAuthorizationCode : Str := []
  unknownAuthorizationCode : Str := []
  expiredAuthorizationCode : Str := []
  invalidAuthorizationParams : Option (GoMap Str) := none
  invalidAuthorizationHeaders : Option (GoMap Str) := none
  validAuthorizationParams : Option (GoMap Str) := none
  validAuthorizationHeaders : Option (GoMap Str) := none
  codeReplayMitigation : Bool := false

/-- oauth2test/spec.go:108-121 `Default`. -/
def Spec.default : Spec where
  tokenEndpoint := b!"/oauth2/token"
  authorizeEndpoint := b!"/oauth2/authorize"
  revocationEndpoint := b!"/oauth2/revoke"
  introspectionEndpoint := b!"/oauth2/introspect"
  protectedResource := b!"/api/protected"
  expectedExpiresIn := 3600
  invalidToken := b!"invalid"
  invalidRedirectURI := b!"http://invalid.com"
  invalidRefreshToken := b!"invalid"

open Test

/-! ### Assertions that occur again and again -/

/-- `assert.Equal(t, status, r.Code)` and `assert.Equal(t, name, jsonFieldString(r, "error"))`. For
example oauth2test/endpoints.go:18-19. -/
def expectError (w : Recorder) (status : Nat) (name : Str) : Test Unit := do
  assert (code w = status)
  assert (jsonFieldString w b!"error" = name)

/-- `assert.NotEmpty(t, auth(r, "realm"))`. For example oauth2test/endpoints.go:77. -/
def expectRealm (w : Recorder) : Test Unit := do
  let realm ← ofOption (auth w b!"realm")
  assert (realm ≠ [])

/-- `assert.Equal(t, status, r.Code)`, `assert.Equal(t, name, auth(r, "error"))` and
`assert.Empty(t, r.Body.String())`. For example oauth2test/endpoints.go:434-436. -/
def expectChallenge (w : Recorder) (status : Nat) (name : Str) : Test Unit := do
  assert (code w = status)
  assert ((← ofOption (auth w b!"error")) = name)
  assert (w.body = [])

/-- The callback that checks a token response and takes the two tokens from it, for example
oauth2test/grants.go:118-130. Numbers are compared by their values: the two zeros are equal. -/
def expectTokens (spec : Spec) (w : Recorder) : Test (Str × Str) := do
  assert (code w = 200)
  assert (jsonFieldString w b!"token_type" = b!"bearer")
  assert (jsonFieldString w b!"scope" = spec.validScope)
  assert ((jsonFieldFloat w b!"expires_in").value = (F64.ofInt spec.expectedExpiresIn).value)
  let accessToken := jsonFieldString w b!"access_token"
  assert (accessToken ≠ [])
  let refreshToken := jsonFieldString w b!"refresh_token"
  assert (refreshToken ≠ [])
  return (accessToken, refreshToken)

/-- The callback that checks an error sent through a redirect, for example
oauth2test/grants.go:257-261. -/
def expectRedirect (get : Recorder → Str → Option Str) (w : Recorder) (name : Str) : Test Unit := do
  assert (code w = 303)
  assert ((← ofOption (get w b!"error")) = name)
  assert ((← ofOption (get w b!"state")) = b!"xyz")

/-! ### Requests that occur again and again -/

/-- A GET request for the protected resource with an access token. For example
oauth2test/general.go:15-20. -/
def protectedReq (spec : Spec) (accessToken : Str) : Req where
  method := b!"GET"
  path := spec.protectedResource
  header := [(b!"Authorization", b!"Bearer " ++ accessToken)]

/-- A POST request of the confidential client. For example oauth2test/endpoints.go:166-174. -/
def confidentialReq (spec : Spec) (path : Str) (form : GoMap Str) : Req where
  method := b!"POST"
  path := path
  username := spec.confidentialClientID
  password := spec.confidentialClientSecret
  form := form

/-- A POST request of the public client. For example oauth2test/endpoints.go:212-218. -/
def publicReq (spec : Spec) (path : Str) (form : GoMap Str) : Req where
  method := b!"POST"
  path := path
  username := spec.publicClientID
  form := form

/-- The form of an introspection or revocation request with a hint. For example
oauth2test/endpoints.go:171-174. -/
def tokenForm (token hint : Str) : GoMap Str :=
  [(b!"token", token), (b!"token_type_hint", hint)]

/-- The form of a refresh token grant. For example oauth2test/grants.go:681-684. -/
def refreshForm (refreshToken : Str) : GoMap Str :=
  [(b!"grant_type", b!"refresh_token"), (b!"refresh_token", refreshToken)]

/-- The form of an authorization code grant. For example oauth2test/grants.go:457-462. -/
def codeForm (spec : Spec) (code redirectURI : Str) : GoMap Str :=
  [(b!"grant_type", b!"authorization_code"), (b!"scope", spec.validScope), (b!"code", code),
    (b!"redirect_uri", redirectURI)]

/-- The form of an authorization request. For example oauth2test/grants.go:249-255. -/
def authorizeForm (spec : Spec) (responseType scope : Str) : GoMap Str :=
  [(b!"response_type", responseType), (b!"client_id", spec.confidentialClientID),
    (b!"redirect_uri", spec.primaryRedirectURI), (b!"scope", scope), (b!"state", b!"xyz")]

/-- An authorization request with the credentials given in the spec. For example
oauth2test/grants.go:246-256. -/
def authorizeReq (spec : Spec) (params headers : Option (GoMap Str)) (responseType scope : Str) :
    Req where
  method := b!"POST"
  path := spec.authorizeEndpoint
  form := extend (params.getD []) (authorizeForm spec responseType scope)
  header := extend (headers.getD []) []

/-! ### general.go -/

/-- oauth2test/general.go:13-95 `AccessTokenTest`. -/
def accessTokenTest (spec : Spec) (accessToken : Str) : Test Unit := do
  -- check token functionality
  let w ← Do (protectedReq spec accessToken)
  assert (code w = 200)
  -- check if access token is active
  if spec.introspectionEndpoint ≠ [] then
    let w ← Do (confidentialReq spec spec.introspectionEndpoint
      (tokenForm accessToken b!"access_token"))
    assert (code w = 200)
    assert (jsonFieldBool w b!"active")
    assert (jsonFieldString w b!"token_type" = b!"access_token")
  -- skip if revocation is not available
  if spec.revocationEndpoint = [] then return ()
  else
    -- revoke access token
    let w ← Do (confidentialReq spec spec.revocationEndpoint
      (tokenForm accessToken b!"access_token"))
    assert (code w = 200)
    -- check token functionality
    let w ← Do (protectedReq spec accessToken)
    assert (code w = 401)
    assert ((← ofOption (auth w b!"error")) = b!"invalid_token")
    -- check if access token is now inactive
    if spec.introspectionEndpoint ≠ [] then
      let w ← Do (confidentialReq spec spec.introspectionEndpoint
        (tokenForm accessToken b!"access_token"))
      assert (code w = 200)
      assert (!jsonFieldBool w b!"active")

/-- oauth2test/general.go:99-235 `RefreshTokenTest`. -/
def refreshTokenTest (spec : Spec) (refreshToken : Str) : Test Unit := do
  -- check if refresh token is active
  if spec.introspectionEndpoint ≠ [] then
    let w ← Do (confidentialReq spec spec.introspectionEndpoint
      (tokenForm refreshToken b!"refresh_token"))
    assert (code w = 200)
    assert (jsonFieldBool w b!"active")
    assert (jsonFieldString w b!"token_type" = b!"refresh_token")
  -- test refresh token grant
  let w ← Do (confidentialReq spec spec.tokenEndpoint (refreshForm refreshToken))
  let (accessToken, newRefreshToken) ← expectTokens spec w
  -- test access token
  accessTokenTest spec accessToken
  -- check if refresh token is spent
  let w ← Do (confidentialReq spec spec.tokenEndpoint (refreshForm refreshToken))
  expectError w 400 b!"invalid_grant"
  -- check if refresh token is now inactive
  if spec.introspectionEndpoint ≠ [] then
    let w ← Do (confidentialReq spec spec.introspectionEndpoint
      (tokenForm refreshToken b!"refresh_token"))
    assert (code w = 200)
    assert (!jsonFieldBool w b!"active")
  -- skip if revocation is not available
  if spec.revocationEndpoint = [] then return ()
  else
    -- revoke new refresh token
    let w ← Do (confidentialReq spec spec.revocationEndpoint
      (tokenForm newRefreshToken b!"refresh_token"))
    assert (code w = 200)
    -- check if new refresh token is revoked
    let w ← Do (confidentialReq spec spec.tokenEndpoint (refreshForm newRefreshToken))
    expectError w 400 b!"invalid_grant"
    -- check if new refresh token is now inactive
    if spec.introspectionEndpoint ≠ [] then
      let w ← Do (confidentialReq spec spec.introspectionEndpoint
        (tokenForm newRefreshToken b!"refresh_token"))
      assert (code w = 200)
      assert (!jsonFieldBool w b!"active")

/-! ### endpoints.go -/

/-- oauth2test/endpoints.go:12-51 `TokenEndpointTest`. -/
def tokenEndpointTest (spec : Spec) : Test Unit := do
  -- invalid request
  let w ← Do { method := b!"POST", path := spec.tokenEndpoint }
  expectError w 400 b!"invalid_request"
  -- unknown client
  let w ← Do {
    method := b!"POST", path := spec.tokenEndpoint, username := b!"unknown",
    form := [(b!"grant_type", b!"password")] }
  expectError w 401 b!"invalid_client"
  -- invalid grant type
  let w ← Do (confidentialReq spec spec.tokenEndpoint [(b!"grant_type", b!"invalid")])
  expectError w 400 b!"invalid_request"

/-- oauth2test/endpoints.go:54-126 `AuthorizationEndpointTest`. -/
def authorizationEndpointTest (spec : Spec) : Test Unit := do
  -- invalid request
  let w ← Do { method := b!"POST", path := spec.authorizeEndpoint }
  expectError w 400 b!"invalid_request"
  -- invalid client
  let w ← Do {
    method := b!"POST", path := spec.authorizeEndpoint,
    form := [(b!"response_type", b!"code"), (b!"client_id", b!"invalid"),
      (b!"redirect_uri", spec.primaryRedirectURI)] }
  expectError w 401 b!"invalid_client"
  expectRealm w
  -- invalid redirect uri
  let w ← Do {
    method := b!"POST", path := spec.authorizeEndpoint,
    form := [(b!"response_type", b!"code"), (b!"client_id", spec.confidentialClientID),
      (b!"redirect_uri", spec.invalidRedirectURI)] }
  expectError w 400 b!"invalid_request"
  -- invalid response type
  let w ← Do {
    method := b!"POST", path := spec.authorizeEndpoint, username := spec.confidentialClientID,
    form := [(b!"response_type", b!"invalid"), (b!"client_id", spec.confidentialClientID),
      (b!"redirect_uri", spec.primaryRedirectURI)] }
  expectError w 400 b!"invalid_request"
  -- must respond to GET request
  let w ← Do {
    method := b!"GET", path := spec.authorizeEndpoint, username := spec.confidentialClientID,
    form := [(b!"response_type", b!"token"), (b!"client_id", spec.confidentialClientID),
      (b!"redirect_uri", spec.primaryRedirectURI)] }
  assert (code w ≠ 404)

/-- oauth2test/endpoints.go:129-258 `RevocationEndpointTest`. -/
def revocationEndpointTest (spec : Spec) : Test Unit := do
  -- empty request
  let w ← Do { method := b!"POST", path := spec.revocationEndpoint }
  expectError w 400 b!"invalid_request"
  -- missing client
  let w ← Do {
    method := b!"POST", path := spec.revocationEndpoint, form := [(b!"token", spec.validToken)] }
  expectError w 400 b!"invalid_request"
  -- missing token
  let w ← Do (confidentialReq spec spec.revocationEndpoint [])
  expectError w 400 b!"invalid_request"
  -- invalid token type hint
  let w ← Do (confidentialReq spec spec.revocationEndpoint (tokenForm spec.validToken b!"invalid"))
  expectError w 400 b!"unsupported_token_type"
  -- unknown client
  let w ← Do {
    method := b!"POST", path := spec.revocationEndpoint, username := b!"unknown",
    form := [(b!"token", spec.validToken)] }
  expectError w 401 b!"invalid_client"
  expectRealm w
  -- unauthenticated client
  let w ← Do {
    method := b!"POST", path := spec.revocationEndpoint, username := spec.confidentialClientID,
    form := [(b!"token", spec.validToken)] }
  expectError w 401 b!"invalid_client"
  expectRealm w
  -- wrong client
  let w ← Do (publicReq spec spec.revocationEndpoint [(b!"token", spec.validToken)])
  expectError w 401 b!"invalid_client"
  -- invalid token
  let w ← Do (confidentialReq spec spec.revocationEndpoint [(b!"token", spec.invalidToken)])
  expectError w 400 b!"invalid_request"
  -- unknown token
  let w ← Do (confidentialReq spec spec.revocationEndpoint [(b!"token", spec.unknownToken)])
  assert (code w = 200)
  -- test existence and revocation
  accessTokenTest spec spec.validToken

/-- oauth2test/endpoints.go:261-411 `IntrospectionEndpointTest`. -/
def introspectionEndpointTest (spec : Spec) : Test Unit := do
  -- wrong method
  let w ← Do { method := b!"GET", path := spec.introspectionEndpoint }
  expectError w 400 b!"invalid_request"
  -- empty request
  let w ← Do { method := b!"POST", path := spec.introspectionEndpoint }
  expectError w 400 b!"invalid_request"
  -- missing client
  let w ← Do {
    method := b!"POST", path := spec.introspectionEndpoint,
    form := [(b!"token", spec.validToken)] }
  expectError w 400 b!"invalid_request"
  -- missing token
  let w ← Do (confidentialReq spec spec.introspectionEndpoint [])
  expectError w 400 b!"invalid_request"
  -- invalid token type hint
  let w ← Do (confidentialReq spec spec.introspectionEndpoint
    (tokenForm spec.validToken b!"invalid"))
  expectError w 400 b!"unsupported_token_type"
  -- unknown client
  let w ← Do {
    method := b!"POST", path := spec.introspectionEndpoint, username := b!"unknown",
    form := [(b!"token", spec.validToken)] }
  expectError w 401 b!"invalid_client"
  expectRealm w
  -- unauthenticated client
  let w ← Do {
    method := b!"POST", path := spec.introspectionEndpoint, username := spec.confidentialClientID,
    form := [(b!"token", spec.validToken)] }
  expectError w 401 b!"invalid_client"
  expectRealm w
  -- wrong client
  let w ← Do (publicReq spec spec.introspectionEndpoint [(b!"token", spec.validToken)])
  expectError w 401 b!"invalid_client"
  -- invalid token
  let w ← Do (confidentialReq spec spec.introspectionEndpoint [(b!"token", spec.invalidToken)])
  expectError w 400 b!"invalid_request"
  -- unknown token
  let w ← Do (confidentialReq spec spec.introspectionEndpoint [(b!"token", spec.unknownToken)])
  assert (code w = 200)
  -- valid access token
  let w ← Do (confidentialReq spec spec.introspectionEndpoint
    (tokenForm spec.validToken b!"access_token"))
  assert (code w = 200)
  assert (jsonFieldBool w b!"active")

/-- oauth2test/endpoints.go:414-495 `ProtectedResourceTest`. -/
def protectedResourceTest (spec : Spec) : Test Unit := do
  -- missing token
  let w ← Do { method := b!"GET", path := spec.protectedResource }
  assert (code w = 401)
  expectRealm w
  assert (w.body = [])
  -- invalid header
  let w ← Do {
    method := b!"GET", path := spec.protectedResource,
    header := [(b!"Authorization", b!"invalid")] }
  expectChallenge w 400 b!"invalid_request"
  -- invalid token
  let w ← Do (protectedReq spec spec.invalidToken)
  expectChallenge w 401 b!"invalid_token"
  -- unknown token
  let w ← Do (protectedReq spec spec.unknownToken)
  expectChallenge w 401 b!"invalid_token"
  -- expired token
  let w ← Do (protectedReq spec spec.expiredToken)
  expectChallenge w 401 b!"invalid_token"
  -- insufficient token
  let w ← Do (protectedReq spec spec.insufficientToken)
  expectChallenge w 403 b!"insufficient_scope"

/-! ### grants.go -/

/-- The form of a password grant. For example oauth2test/grants.go:20-25. -/
def passwordForm (username password scope : Str) : GoMap Str :=
  [(b!"grant_type", b!"password"), (b!"username", username), (b!"password", password),
    (b!"scope", scope)]

/-- The form of a client credentials grant. For example oauth2test/grants.go:149-152. -/
def credentialsForm (scope : Str) : GoMap Str :=
  [(b!"grant_type", b!"client_credentials"), (b!"scope", scope)]

/-- oauth2test/grants.go:13-139 `PasswordGrantTest`. -/
def passwordGrantTest (spec : Spec) : Test Unit := do
  -- invalid client secret
  let w ← Do { confidentialReq spec spec.tokenEndpoint
    (passwordForm spec.resourceOwnerUsername spec.resourceOwnerPassword spec.validScope) with
    password := b!"invalid" }
  expectError w 401 b!"invalid_client"
  -- invalid username
  let w ← Do (confidentialReq spec spec.tokenEndpoint
    (passwordForm b!"invalid" spec.resourceOwnerPassword spec.validScope))
  expectError w 403 b!"access_denied"
  -- invalid password
  let w ← Do (confidentialReq spec spec.tokenEndpoint
    (passwordForm spec.resourceOwnerUsername b!"invalid" spec.validScope))
  expectError w 403 b!"access_denied"
  -- invalid scope
  let w ← Do (confidentialReq spec spec.tokenEndpoint
    (passwordForm spec.resourceOwnerUsername spec.resourceOwnerPassword spec.invalidScope))
  expectError w 400 b!"invalid_scope"
  -- exceeding scope
  let w ← Do (confidentialReq spec spec.tokenEndpoint
    (passwordForm spec.resourceOwnerUsername spec.resourceOwnerPassword spec.exceedingScope))
  expectError w 400 b!"invalid_scope"
  -- get access token
  let w ← Do (confidentialReq spec spec.tokenEndpoint
    (passwordForm spec.resourceOwnerUsername spec.resourceOwnerPassword spec.validScope))
  let (accessToken, refreshToken) ← expectTokens spec w
  -- test access token
  accessTokenTest spec accessToken
  -- test refresh token if present
  if refreshToken ≠ [] then refreshTokenTest spec refreshToken

/-- oauth2test/grants.go:142-241 `ClientCredentialsGrantTest`. -/
def clientCredentialsGrantTest (spec : Spec) : Test Unit := do
  -- invalid client secret
  let w ← Do { confidentialReq spec spec.tokenEndpoint (credentialsForm spec.validScope) with
    password := b!"invalid" }
  expectError w 401 b!"invalid_client"
  expectRealm w
  -- public client
  let w ← Do (publicReq spec spec.tokenEndpoint (credentialsForm spec.validScope))
  expectError w 401 b!"invalid_client"
  expectRealm w
  -- invalid scope
  let w ← Do (confidentialReq spec spec.tokenEndpoint (credentialsForm spec.invalidScope))
  expectError w 400 b!"invalid_scope"
  -- exceeding scope
  let w ← Do (confidentialReq spec spec.tokenEndpoint (credentialsForm spec.exceedingScope))
  expectError w 400 b!"invalid_scope"
  -- get access token
  let w ← Do (confidentialReq spec spec.tokenEndpoint (credentialsForm spec.validScope))
  let (accessToken, refreshToken) ← expectTokens spec w
  -- test access token
  accessTokenTest spec accessToken
  -- test refresh token if present
  if refreshToken ≠ [] then refreshTokenTest spec refreshToken

/-- oauth2test/grants.go:244-349 `ImplicitGrantTest`. -/
def implicitGrantTest (spec : Spec) : Test Unit := do
  -- invalid scope
  let w ← Do (authorizeReq spec spec.validAuthorizationParams spec.validAuthorizationHeaders
    b!"token" spec.invalidScope)
  expectRedirect fragment w b!"invalid_scope"
  -- exceeding scope
  let w ← Do (authorizeReq spec spec.validAuthorizationParams spec.validAuthorizationHeaders
    b!"token" spec.exceedingScope)
  expectRedirect fragment w b!"invalid_scope"
  -- access denied
  let w ← Do {
    method := b!"POST", path := spec.authorizeEndpoint,
    form := authorizeForm spec b!"token" spec.validScope }
  expectRedirect fragment w b!"access_denied"
  -- invalid password
  let w ← Do (authorizeReq spec spec.invalidAuthorizationParams spec.invalidAuthorizationHeaders
    b!"token" spec.validScope)
  expectRedirect fragment w b!"access_denied"
  -- get access token
  let w ← Do (authorizeReq spec spec.validAuthorizationParams spec.validAuthorizationHeaders
    b!"token" spec.validScope)
  assert (code w = 303)
  assert ((← ofOption (fragment w b!"token_type")) = b!"bearer")
  assert ((← ofOption (fragment w b!"scope")) = spec.validScope)
  assert ((← ofOption (fragment w b!"expires_in")) = itoa spec.expectedExpiresIn)
  assert ((← ofOption (fragment w b!"state")) = b!"xyz")
  assert ((← ofOption (fragment w b!"refresh_token")) = [])
  let accessToken ← ofOption (fragment w b!"access_token")
  assert (accessToken ≠ [])
  -- test access token
  accessTokenTest spec accessToken

/-- oauth2test/grants.go:430-448 and 596-614: asking for an authorization code. -/
def getCode (spec : Spec) : Test Str := do
  let w ← Do (authorizeReq spec spec.validAuthorizationParams spec.validAuthorizationHeaders
    b!"code" spec.validScope)
  assert (code w = 303)
  assert ((← ofOption (query w b!"state")) = b!"xyz")
  let authorizationCode ← ofOption (query w b!"code")
  assert (authorizationCode ≠ [])
  return authorizationCode

/-- oauth2test/grants.go:352-691 `AuthorizationCodeGrantTest`. -/
def authorizationCodeGrantTest (spec : Spec) : Test Unit := do
  -- invalid scope
  let w ← Do (authorizeReq spec spec.validAuthorizationParams spec.validAuthorizationHeaders
    b!"code" spec.invalidScope)
  expectRedirect query w b!"invalid_scope"
  -- exceeding scope
  let w ← Do (authorizeReq spec spec.validAuthorizationParams spec.validAuthorizationHeaders
    b!"code" spec.exceedingScope)
  expectRedirect query w b!"invalid_scope"
  -- access denied
  let w ← Do {
    method := b!"POST", path := spec.authorizeEndpoint,
    form := authorizeForm spec b!"code" spec.validScope }
  expectRedirect query w b!"access_denied"
  -- invalid password
  let w ← Do (authorizeReq spec spec.invalidAuthorizationParams spec.invalidAuthorizationHeaders
    b!"code" spec.validScope)
  expectRedirect query w b!"access_denied"
  -- get authorization code
  let authorizationCode ← getCode spec
  -- invalid client secret
  let w ← Do { confidentialReq spec spec.tokenEndpoint
    (codeForm spec spec.invalidAuthorizationCode spec.primaryRedirectURI) with
    password := b!"invalid" }
  expectError w 401 b!"invalid_client"
  -- invalid authorization code
  let w ← Do (confidentialReq spec spec.tokenEndpoint
    (codeForm spec spec.invalidAuthorizationCode spec.primaryRedirectURI))
  expectError w 400 b!"invalid_request"
  -- unknown authorization code
  let w ← Do (confidentialReq spec spec.tokenEndpoint
    (codeForm spec spec.unknownAuthorizationCode spec.primaryRedirectURI))
  expectError w 400 b!"invalid_grant"
  -- expired authorization code
  let w ← Do (confidentialReq spec spec.tokenEndpoint
    (codeForm spec spec.expiredAuthorizationCode spec.primaryRedirectURI))
  expectError w 400 b!"invalid_grant"
  -- wrong client
  let w ← Do (publicReq spec spec.tokenEndpoint
    (codeForm spec authorizationCode spec.primaryRedirectURI))
  expectError w 400 b!"invalid_grant"
  -- wrong redirect uri
  let w ← Do (confidentialReq spec spec.tokenEndpoint
    (codeForm spec authorizationCode spec.secondaryRedirectURI))
  expectError w 400 b!"invalid_grant"
  -- get access token
  let w ← Do (confidentialReq spec spec.tokenEndpoint
    (codeForm spec authorizationCode spec.primaryRedirectURI))
  let (accessToken, refreshToken) ← expectTokens spec w
  -- test access token
  accessTokenTest spec accessToken
  -- test refresh token if present
  if refreshToken ≠ [] then refreshTokenTest spec refreshToken
  -- get authorization code
  let authorizationCode ← getCode spec
  -- get access token
  let w ← Do (confidentialReq spec spec.tokenEndpoint
    (codeForm spec authorizationCode spec.primaryRedirectURI))
  let (accessToken, refreshToken) ← expectTokens spec w
  -- get access token
  let w ← Do (confidentialReq spec spec.tokenEndpoint
    (codeForm spec authorizationCode spec.primaryRedirectURI))
  expectError w 400 b!"invalid_grant"
  -- check if code replay mitigation is supported
  if spec.codeReplayMitigation then
    -- check access token
    let w ← Do (protectedReq spec accessToken)
    assert (code w = 401)
    -- check refresh token
    let w ← Do (confidentialReq spec spec.tokenEndpoint (refreshForm refreshToken))
    expectError w 400 b!"invalid_grant"

/-- oauth2test/grants.go:694-793 `RefreshTokenGrantTest`. -/
def refreshTokenGrantTest (spec : Spec) : Test Unit := do
  -- invalid client secret
  let w ← Do { confidentialReq spec spec.tokenEndpoint (refreshForm spec.validRefreshToken) with
    password := b!"invalid" }
  expectError w 401 b!"invalid_client"
  -- invalid refresh token
  let w ← Do (confidentialReq spec spec.tokenEndpoint (refreshForm spec.invalidRefreshToken))
  expectError w 400 b!"invalid_request"
  -- unknown refresh token
  let w ← Do (confidentialReq spec spec.tokenEndpoint (refreshForm spec.unknownRefreshToken))
  expectError w 400 b!"invalid_grant"
  -- expired refresh token
  let w ← Do (confidentialReq spec spec.tokenEndpoint (refreshForm spec.expiredRefreshToken))
  expectError w 400 b!"invalid_grant"
  -- wrong client
  let w ← Do (publicReq spec spec.tokenEndpoint (refreshForm spec.validRefreshToken))
  expectError w 400 b!"invalid_grant"
  -- exceeding scope
  let w ← Do (confidentialReq spec spec.tokenEndpoint
    (refreshForm spec.validRefreshToken ++ [(b!"scope", spec.exceedingScope)]))
  expectError w 400 b!"invalid_scope"
  -- test refresh token
  refreshTokenTest spec spec.validRefreshToken

/-! ### Run -/

/-- The two conditions oauth2test/spec.go:178-179 and 187-188 require. -/
def mustAuthorization (spec : Spec) : Test Unit := do
  must (spec.invalidAuthorizationParams.isSome || spec.invalidAuthorizationHeaders.isSome)
  must (spec.validAuthorizationParams.isSome || spec.validAuthorizationHeaders.isSome)

/-- oauth2test/spec.go:124-220 `Run`. Simplification: the handler is never nil. -/
def run (spec : Spec) : Test Unit := do
  -- validate spec
  must (spec.tokenEndpoint ≠ [])
  must (spec.authorizeEndpoint ≠ [])
  must (spec.protectedResource ≠ [])
  must (spec.confidentialClientID ≠ [])
  must (spec.confidentialClientSecret ≠ [])
  must (spec.publicClientID ≠ [])
  must (spec.invalidScope ≠ [])
  must (spec.validScope ≠ [])
  must (spec.exceedingScope ≠ [])
  must (spec.invalidToken ≠ [])
  must (spec.validToken ≠ [])
  must (spec.unknownToken ≠ [])
  must (spec.expiredToken ≠ [])
  protectedResourceTest spec
  if spec.passwordGrantSupport || spec.clientCredentialsGrantSupport ||
      spec.authorizationCodeGrantSupport || spec.refreshTokenGrantSupport then
    tokenEndpointTest spec
  if spec.implicitGrantSupport || spec.authorizationCodeGrantSupport then
    must (spec.invalidRedirectURI ≠ [])
    must (spec.primaryRedirectURI ≠ [])
    must (spec.secondaryRedirectURI ≠ [])
    authorizationEndpointTest spec
  if spec.passwordGrantSupport then
    must (spec.resourceOwnerUsername ≠ [])
    must (spec.resourceOwnerPassword ≠ [])
    passwordGrantTest spec
  if spec.clientCredentialsGrantSupport then clientCredentialsGrantTest spec
  if spec.implicitGrantSupport then
    mustAuthorization spec
    implicitGrantTest spec
  if spec.authorizationCodeGrantSupport then
    mustAuthorization spec
    must (spec.invalidAuthorizationCode ≠ [])
    must (spec.unknownAuthorizationCode ≠ [])
    must (spec.expiredAuthorizationCode ≠ [])
    authorizationCodeGrantTest spec
  if spec.refreshTokenGrantSupport then
    must (spec.invalidRefreshToken ≠ [])
    must (spec.unknownRefreshToken ≠ [])
    must (spec.validRefreshToken ≠ [])
    must (spec.expiredRefreshToken ≠ [])
    refreshTokenGrantTest spec
  if spec.introspectionEndpoint ≠ [] then introspectionEndpointTest spec
  if spec.revocationEndpoint ≠ [] then revocationEndpointTest spec

end OAuth2.Suite

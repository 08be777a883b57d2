import Verif.Model.Server
import Verif.Model.Client
import Verif.Lemmas.Decide
/-
The unit tests of /repo, replayed on the model by evaluating it in the kernel. They are tests of
the model, not proofs about it: each is one input on which the code is known to behave so.
-/

namespace OAuth2.Tests

/-- What calling a function with an `httptest.ResponseRecorder` leaves behind. -/
def record (p : Prog Unit Bool) (w : Recorder := {}) : Outcome Bool × Recorder :=
  let x := exec p ⟨false, ()⟩ { w := w, clock := fun _ => 0 }
  (x.1, x.2.2.w)

/-- Two Go maps are equal (`assert.Equal` on maps). -/
def sameMap {α : Type} [DecidableEq α] (a b : GoMap α) : Bool :=
  a.length = b.length && a.all fun e => GoMap.get? b e.1 = some e.2

/-- utils_test.go:12-27 -/
def newRequest (body : List (Str × Str)) : Request where
  method := b!"POST"
  path := b!"/foo"
  header := Header.set [] b!"Content-Type" b!"application/x-www-form-urlencoded"
  body := some (Values.encode (body.map fun e => (e.1, [e.2])))

/-- utils_test.go:29-33 -/
def newRequestWithAuth (username password : Str) (body : List (Str × Str)) : Request :=
  (newRequest body).setBasicAuth username password

/-- `http.NewRequest(method, "", nil)` -/
def bare (method : Str) : Request := { method := method }

/-- The members of a JSON object whose values are strings, numbers and Booleans. -/
def members (body : Str) : Option (List (Str × Str)) :=
  match parseJSON body with
  | some (.obj l) => some (l.map fun m => (m.1, match m.2 with
      | .str s => b!"string " ++ s
      | .num s => b!"number " ++ s
      | .bool b => if b then b!"true" else b!"false"
      | _ => b!"other"))
  | _ => none

def failed {ε α : Type} : Except ε α → Bool
  | .error _ => true
  | .ok _ => false

def message {α : Type} : Except Error α → Str
  | .error e => e.string
  | .ok _ => []

/-! ### scope_test.go -/

-- TestParseScope
example : Scope.parse b!"foo" = some [b!"foo"] ∧ (Scope.parse b!"foo").string = b!"foo" := by
  decide +kernel
example : Scope.parse b!"foo bar" = some [b!"foo", b!"bar"] ∧
    (Scope.parse b!"foo bar").string = b!"foo bar" := by decide +kernel
example : Scope.parse b!" foo  bar  baz " = some [b!"foo", b!"bar", b!"baz"] ∧
    (Scope.parse b!" foo  bar  baz ").string = b!"foo bar baz" := by decide +kernel

-- TestScopeContains
example : Scope.containsStr (some [b!"foo", b!"bar"]) b!"foo" = true ∧
    Scope.containsStr (some [b!"foo", b!"bar"]) b!"baz" = false := by decide +kernel

-- TestScopeIncludes
example : Scope.includes (some []) (some []) = true ∧
    Scope.includes (some [b!"foo", b!"bar", b!"baz"]) (some [b!"foo", b!"bar"]) = true ∧
    Scope.includes (some [b!"foo", b!"bar"]) (some [b!"foo", b!"bar", b!"baz"]) = false := by
  decide +kernel

-- TestScopeEmpty
example : Scope.empty (some []) = true ∧ Scope.empty (some [b!"foo"]) = false := by
  decide +kernel

-- TestScopeJSON
example : Scope.marshalJSON (some [b!"foo", b!"bar"]) = b!"\"foo bar\"" ∧
    Scope.unmarshalJSON b!"\"foo bar\"" = some (some [b!"foo", b!"bar"]) := by decide +kernel

/-! ### hs256_test.go -/

/-- A random key. -/
def key16 : Str := [1, 2, 3, 4, 5, 6, 7, 8, 9, 10, 11, 12, 13, 14, 15, 16]

/-- Calling a generator with these random bytes. -/
def drawing {α : Type} (p : Prog Unit α) (coins : Str) : Outcome α :=
  (exec p ⟨false, ()⟩ { coins := coins, clock := fun _ => 0 }).1

-- TestHS256Token
example : drawing (HS256Token.generate b!"secret" 16) key16 =
    .ret (some (HS256Token.fromKey b!"secret" key16)) := by decide +kernel
example : let t := HS256Token.fromKey b!"secret" key16
    t.key ≠ [] ∧ t.signature ≠ [] ∧ t.string ≠ [] ∧
    HS256Token.parse b!"secret" t.string = .ok t ∧
    failed (HS256Token.parse b!"secret" (t.string ++ b!"foo")) = true := by decide +kernel

-- TestParseHS256Token
example : failed (HS256Token.parse b!"secret" b!"") = true ∧
    failed (HS256Token.parse b!"secret" b!"%.foo") = true ∧
    failed (HS256Token.parse b!"secret" b!"foo.%") = true := by decide +kernel

-- TestGenerateHS256Token, TestGenerateHS256TokenError
example : drawing (HS256Token.mustGenerate b!"secret" 16) key16 =
    .ret (HS256Token.fromKey b!"secret" key16) := by decide +kernel
example : drawing (HS256Token.generate b!"secret" 16) [] = .ret none ∧
    drawing (HS256Token.mustGenerate b!"secret" 16) [] = .panic := by decide +kernel

/-! ### bearer_test.go -/

-- TestNewBearerTokenResponse
example : newBearerTokenResponse b!"foo" 1 =
    { tokenType := b!"bearer", accessToken := b!"foo", expiresIn := 1 } := by decide +kernel

/-- A request with this `Authorization` header. -/
def authorizing (v : Str) : Request :=
  { method := b!"GET", path := b!"/foo", header := Header.set [] b!"Authorization" v }

-- TestParseBearerToken
example : failed (parseBearerToken { method := b!"GET", path := b!"/foo" }) = true ∧
    failed (parseBearerToken (authorizing b!"foo")) = true ∧
    failed (parseBearerToken (authorizing b!"Bearer")) = true ∧
    failed (parseBearerToken (authorizing b!"Bearer ")) = true := by decide +kernel
example : parseBearerToken (authorizing b!"Bearer foo") = .ok b!"foo" ∧
    parseBearerToken (authorizing b!"bearer bar") = .ok b!"bar" := by decide +kernel

-- TestWriteBearerError
example : let x := record (writeBearerError (.oauth (invalidRequest b!"foo")))
    x.1 = .ret true ∧ x.2.result.statusCode = 400 ∧
    x.2.header.get b!"WWW-Authenticate" =
      b!"Bearer error=\"invalid_request\", error_description=\"foo\"" ∧ x.2.body = [] := by
  decide +kernel

-- TestWriteBearerErrorForcedRealm
example : let x := record (writeBearerError (.oauth protectedResource))
    x.1 = .ret true ∧ x.2.result.statusCode = 401 ∧
    x.2.header.get b!"WWW-Authenticate" = b!"Bearer realm=\"OAuth2\"" ∧ x.2.body = [] := by
  decide +kernel

-- TestWriteBearerErrorFallback
example : let x := record (writeBearerError (.msg b!"foo"))
    x.1 = .ret true ∧ x.2.result.statusCode = 500 ∧ x.2.body = [] := by decide +kernel

/-! ### error_test.go -/

-- TestErrorBuilders
example : ([invalidRequest b!"foo", invalidClient b!"foo", invalidGrant b!"foo",
    invalidScope b!"foo", invalidToken b!"foo", unauthorizedClient b!"foo",
    unsupportedGrantType b!"foo", unsupportedResponseType b!"foo", unsupportedTokenType b!"foo",
    protectedResource, insufficientScope (some [b!"foo"]), accessDenied b!"foo",
    serverError b!"foo", temporarilyUnavailable b!"foo"].map fun e => (e.name, e.status)) =
  [(b!"invalid_request", 400), (b!"invalid_client", 401), (b!"invalid_grant", 400),
    (b!"invalid_scope", 400), (b!"invalid_token", 401), (b!"unauthorized_client", 400),
    (b!"unsupported_grant_type", 400), (b!"unsupported_response_type", 400),
    (b!"unsupported_token_type", 400), (b!"", 401), (b!"insufficient_scope", 403),
    (b!"access_denied", 403), (b!"server_error", 500), (b!"temporarily_unavailable", 503)] := by
  decide +kernel

-- TestError
example : (invalidRequest b!"foo").string = b!"invalid_request: foo" ∧
    sameMap (invalidRequest b!"foo").map
      [(b!"error", b!"invalid_request"), (b!"error_description", b!"foo")] = true := by
  decide +kernel

-- TestErrorMap
example : sameMap { invalidRequest b!"foo" with uri := b!"http://example.com" }.map
    [(b!"error", b!"invalid_request"), (b!"error_description", b!"foo"),
      (b!"error_uri", b!"http://example.com")] = true := by decide +kernel

/-- The error of the next two tests. -/
def bearerError : Error :=
  { invalidRequest b!"" with realm := b!"bar", scope := some [b!"baz"] }

-- TestBearerErrorMap
example : sameMap bearerError.map
    [(b!"error", b!"invalid_request"), (b!"realm", b!"bar"), (b!"scope", b!"baz")] = true := by
  decide +kernel

-- TestBearerErrorParams
example : bearerError.params =
    b!"error=\"invalid_request\", realm=\"bar\", scope=\"baz\"" := by decide +kernel

-- TestWriteError
example : let x := record (writeError (.oauth
      { invalidRequest b!"foo" with headers := [(b!"foo", b!"bar")] }))
    x.1 = .ret true ∧ x.2.result.statusCode = 400 ∧ x.2.header.get b!"foo" = b!"bar" ∧
    members x.2.body =
      members b!"{ \"error\": \"invalid_request\", \"error_description\": \"foo\" }" ∧
    members x.2.body ≠ none := by decide +kernel

-- TestWriteErrorAsRedirect
example : let x := record (writeError (.oauth
      ((invalidRequest b!"foo").setRedirect b!"http://example.com" b!"bar" false)))
    x.1 = .ret true ∧ x.2.result.statusCode = 303 ∧ x.2.header.get b!"Location" =
      b!"http://example.com?error=invalid_request&error_description=foo&state=bar" := by
  decide +kernel

-- TestWriteErrorFallback
example : let x := record (writeError (.msg b!"foo"))
    x.1 = .ret true ∧ x.2.result.statusCode = 500 ∧
    members x.2.body = members b!"{ \"error\": \"server_error\" }" ∧
    members x.2.body ≠ none := by decide +kernel

-- TestParseRequestError
example : parseRequestError (record (writeError (.oauth (invalidToken b!"test")))).2.result 2048 =
    .oauth (invalidToken b!"test") := by decide +kernel

/-! ### oauth2_test.go -/

-- TestKnownGrantType
example : [b!"foo", PasswordGrantType, ClientCredentialsGrantType, AuthorizationCodeGrantType,
    RefreshTokenGrantType].map knownGrantType = [false, true, true, true, true] := by
  decide +kernel

-- TestKnownResponseType
example : [b!"foo", TokenResponseType, CodeResponseType].map knownResponseType =
    [false, true, true] := by decide +kernel

-- TestKnownTokenType
example : [b!"foo", RefreshToken, AccessToken].map knownTokenType = [false, true, true] := by
  decide +kernel

-- TestWrite
example : let x := record (write b!"\"foo\"" 200)
    x.1 = .ret true ∧ x.2.result.statusCode = 200 ∧ sameMap x.2.header
      [(b!"Content-Type", [b!"application/json;charset=UTF-8"]), (b!"Cache-Control", [b!"no-store"]),
        (b!"Pragma", [b!"no-cache"])] = true := by decide +kernel

-- TestRedirect
example : (record (writeRedirect b!"foo" [] false)).1 = .ret false := by decide +kernel

-- TestRedirectQuery
example : let x := record (writeRedirect b!"http://example.com?foo=bar" [(b!"baz", b!"qux")] false)
    x.1 = .ret true ∧ x.2.result.statusCode = 303 ∧ sameMap x.2.header
      [(b!"Location", [b!"http://example.com?baz=qux&foo=bar"]), (b!"Cache-Control", [b!"no-store"]),
        (b!"Pragma", [b!"no-cache"]), (b!"Referrer-Policy", [b!"origin"])] = true := by
  decide +kernel

-- TestRedirectFragment
example : let x := record (writeRedirect b!"http://example.com?foo=bar" [(b!"baz", b!"qux")] true)
    x.1 = .ret true ∧ x.2.result.statusCode = 303 ∧ x.2.body = [] ∧ sameMap x.2.header
      [(b!"Location", [b!"http://example.com?foo=bar#baz=qux"]), (b!"Cache-Control", [b!"no-store"]),
        (b!"Pragma", [b!"no-cache"]), (b!"Referrer-Policy", [b!"origin"])] = true := by
  decide +kernel

/-! ### code_test.go -/

-- TestNewCodeResponse
example : let r := newCodeResponse b!"foo" b!"http://example.com" b!"bar"
    r.code = b!"foo" ∧ sameMap r.map [(b!"code", b!"foo"), (b!"state", b!"bar")] = true := by
  decide +kernel

-- TestWriteCodeResponse
example : let x := record (writeCodeResponse
      (newCodeResponse b!"foo" b!"http://example.com?foo=bar" b!"bar"))
    x.1 = .ret true ∧ x.2.result.statusCode = 303 ∧ x.2.header.get b!"Location" =
      b!"http://example.com?code=foo&foo=bar&state=bar" := by decide +kernel

/-! ### authorization_test.go -/

-- TestParseAuthorizationRequestMinimal
example : parseAuthorizationRequest (newRequest [(b!"client_id", b!"foo"),
      (b!"response_type", TokenResponseType), (b!"redirect_uri", b!"http://example.com")]) =
    .ok {
      responseType := b!"token", clientID := b!"foo", redirectURI := b!"http://example.com",
      scope := none, state := [] } := by decide +kernel

-- TestParseAuthorizationRequestFull
example : parseAuthorizationRequest (newRequest [(b!"client_id", b!"foo"),
      (b!"scope", b!"foo bar"), (b!"response_type", TokenResponseType),
      (b!"redirect_uri", b!"http://example.com"), (b!"state", b!"baz")]) =
    .ok {
      responseType := b!"token", clientID := b!"foo", redirectURI := b!"http://example.com",
      scope := some [b!"foo", b!"bar"], state := b!"baz" } := by decide +kernel

-- TestParseAuthorizationRequestErrors
example : ([bare b!"PUT", bare b!"POST", newRequest [],
    newRequest [(b!"response_type", TokenResponseType)],
    newRequest [(b!"response_type", TokenResponseType), (b!"client_id", b!"foo")],
    newRequest [(b!"response_type", TokenResponseType), (b!"client_id", b!"foo"),
      (b!"redirect_uri", b!"foo")]].map fun r => failed (parseAuthorizationRequest r)) =
    [true, true, true, true, true, true] := by decide +kernel

/-! ### token_test.go -/

-- TestParseTokenRequestMinimal
example : parseTokenRequest (newRequestWithAuth b!"foo" b!"" [(b!"grant_type", PasswordGrantType)]) =
    .ok { grantType := b!"password", clientID := b!"foo" } := by decide +kernel

-- TestParseTokenRequestFull
example : parseTokenRequest (newRequestWithAuth b!"foo" b!"bar" [(b!"grant_type", PasswordGrantType),
      (b!"scope", b!"foo bar"), (b!"username", b!"baz"), (b!"password", b!"qux"),
      (b!"refresh_token", b!"bla"), (b!"redirect_uri", b!"http://example.com"),
      (b!"code", b!"blaa")]) =
    .ok {
      grantType := b!"password", clientID := b!"foo", clientSecret := b!"bar",
      scope := some [b!"foo", b!"bar"], username := b!"baz", password := b!"qux",
      refreshToken := b!"bla", redirectURI := b!"http://example.com", code := b!"blaa" } := by decide +kernel

-- TestParseTokenRequestNoAuth
example : parseTokenRequest (newRequest [(b!"grant_type", PasswordGrantType),
      (b!"client_id", b!"foo"), (b!"client_secret", b!"bar"), (b!"username", b!"baz"),
      (b!"password", b!"qux")]) =
    .ok {
      grantType := b!"password", clientID := b!"foo", clientSecret := b!"bar",
      username := b!"baz", password := b!"qux" } := by decide +kernel

-- TestParseTokenRequestErrors
example : ([bare b!"GET", bare b!"POST", newRequest [],
    newRequest [(b!"grant_type", PasswordGrantType)],
    newRequestWithAuth b!"foo" b!"bar" [(b!"grant_type", PasswordGrantType),
      (b!"redirect_uri", b!"blaa%blupp")],
    newRequestWithAuth b!"foo" b!"bar" [(b!"grant_type", PasswordGrantType),
      (b!"redirect_uri", b!"foo")]].map fun r => message (parseTokenRequest r)) =
  [b!"invalid_request: invalid HTTP method",
    b!"invalid_request: malformed query parameters or body form",
    b!"invalid_request: missing grant type",
    b!"invalid_request: missing client identification",
    b!"invalid_request: invalid redirect URI",
    b!"invalid_request: invalid redirect URI"] := by decide +kernel

-- TestNewTokenResponse
example : let r := newTokenResponse b!"foo" b!"bar" 1
    r.tokenType = b!"foo" ∧ r.accessToken = b!"bar" ∧ r.expiresIn = 1 ∧
    sameMap r.map [(b!"token_type", b!"foo"), (b!"access_token", b!"bar"),
      (b!"expires_in", b!"1")] = true := by decide +kernel

-- TestTokenResponseMap
example : sameMap { newTokenResponse b!"foo" b!"bar" 1 with
      refreshToken := b!"baz", scope := some [b!"qux"], state := b!"quuz" }.map
    [(b!"token_type", b!"foo"), (b!"access_token", b!"bar"), (b!"expires_in", b!"1"),
      (b!"refresh_token", b!"baz"), (b!"scope", b!"qux"), (b!"state", b!"quuz")] = true := by
  decide +kernel

-- TestWriteTokenResponse
example : let x := record (writeTokenResponse (newTokenResponse b!"foo" b!"bar" 1))
    x.1 = .ret true ∧ x.2.result.statusCode = 200 ∧ members x.2.body =
      members b!"{ \"token_type\": \"foo\", \"access_token\": \"bar\", \"expires_in\": 1 }" ∧
    members x.2.body ≠ none := by decide +kernel

-- TestRedirectTokenResponse
example : let x := record (writeTokenResponse
      ((newTokenResponse b!"foo" b!"bar" 1).setRedirect b!"http://example.com?foo=bar" b!"baz"))
    x.1 = .ret true ∧ x.2.result.statusCode = 303 ∧ x.2.header.get b!"Location" =
      b!"http://example.com?foo=bar#access_token=bar&expires_in=1&state=baz&token_type=foo" := by
  decide +kernel

/-- The request of the next two tests. -/
def tokenRequest : TokenRequest where
  grantType := b!"password"
  scope := some [b!"foo", b!"bar"]
  clientID := b!"client-id"
  clientSecret := b!"client-secret"
  username := b!"username"
  password := b!"password"
  refreshToken := b!"refresh-token"
  redirectURI := b!"http://redirect.uri"
  code := b!"code"

-- TestTokenRequestValues
example : tokenRequestValues {} = [] ∧ sameMap (tokenRequestValues tokenRequest)
    [(b!"grant_type", [b!"password"]), (b!"scope", [b!"foo bar"]), (b!"username", [b!"username"]),
      (b!"password", [b!"password"]), (b!"refresh_token", [b!"refresh-token"]),
      (b!"redirect_uri", [b!"http%3A%2F%2Fredirect.uri"]), (b!"code", [b!"code"])] = true := by
  decide +kernel

-- TestTokenRequestBuild
example : (buildTokenRequest b!"http://auth.server/token" tokenRequest).map parseTokenRequest =
    some (.ok tokenRequest) := by decide +kernel

/-! ### introspection_test.go -/

-- TestParseIntrospectionRequestMinimal, TestParseIntrospectionRequestFull
example : parseIntrospectionRequest (newRequestWithAuth b!"foo" b!"" [(b!"token", b!"foo")]) =
    .ok { token := b!"foo", tokenTypeHint := [], clientID := b!"foo", clientSecret := [] } := by decide +kernel
example : parseIntrospectionRequest (newRequestWithAuth b!"foo" b!"bar" [(b!"token", b!"foo"),
      (b!"token_type_hint", RefreshToken)]) =
    .ok {
      token := b!"foo", tokenTypeHint := b!"refresh_token", clientID := b!"foo",
      clientSecret := b!"bar" } := by decide +kernel

-- TestParseIntrospectionRequestErrors
example : ([bare b!"GET", bare b!"POST", newRequest [], newRequest [(b!"token", b!"foo")]].map
      fun r => message (parseIntrospectionRequest r)) =
  [b!"invalid_request: invalid HTTP method",
    b!"invalid_request: malformed query parameters or body form",
    b!"invalid_request: missing token",
    b!"invalid_request: missing or invalid HTTP authorization header"] := by decide +kernel

-- TestWriteIntrospectionResponse
example : record (writeIntrospectionResponse
      (newIntrospectionResponse true (some [b!"foo"]) b!"bar" b!"baz" b!"quz")) =
    (.ret false, {}) := by decide +kernel
example : let x := record (writeIntrospectionResponse
      (newIntrospectionResponse true (some [b!"foo"]) b!"bar" b!"baz" AccessToken))
    x.1 = .ret true ∧ x.2.result.statusCode = 200 ∧ sameMap x.2.header
      [(b!"Content-Type", [b!"application/json;charset=UTF-8"]), (b!"Cache-Control", [b!"no-store"]),
        (b!"Pragma", [b!"no-cache"])] = true ∧
    members x.2.body ≠ none ∧ members x.2.body = members b!"{
      \"active\": true, \"scope\": \"foo\", \"client_id\": \"bar\", \"username\": \"baz\",
      \"token_type\": \"access_token\" }" := by decide +kernel
example : let x := record (writeIntrospectionResponse {})
    x.1 = .ret true ∧ x.2.result.statusCode = 200 ∧ sameMap x.2.header
      [(b!"Content-Type", [b!"application/json;charset=UTF-8"]), (b!"Cache-Control", [b!"no-store"]),
        (b!"Pragma", [b!"no-cache"])] = true ∧
    members x.2.body ≠ none ∧ members x.2.body = members b!"{ \"active\": false }" := by
  decide +kernel

-- TestIntrospectionRequestValues, TestIntrospectionRequestBuild
example : introspectionRequestValues {} = [] ∧ sameMap (introspectionRequestValues {
      token := b!"token", tokenTypeHint := b!"hint", clientID := b!"client-id",
      clientSecret := b!"client-secret" })
    [(b!"token", [b!"token"]), (b!"token_type_hint", [b!"hint"])] = true := by decide +kernel
example : (buildIntrospectionRequest b!"http://auth.server/introspect" {
      token := b!"token", tokenTypeHint := b!"hint", clientID := b!"client-id",
      clientSecret := b!"client-secret" }).map parseIntrospectionRequest = some (.ok {
      token := b!"token", tokenTypeHint := b!"hint", clientID := b!"client-id",
      clientSecret := b!"client-secret" }) := by decide +kernel

/-! ### revocation_test.go -/

-- TestParseRevocationRequestMinimal, TestParseRevocationRequestFull
example : parseRevocationRequest (newRequestWithAuth b!"foo" b!"" [(b!"token", b!"foo")]) =
    .ok { token := b!"foo", tokenTypeHint := [], clientID := b!"foo", clientSecret := [] } := by decide +kernel
example : parseRevocationRequest (newRequestWithAuth b!"foo" b!"bar" [(b!"token", b!"foo"),
      (b!"token_type_hint", RefreshToken)]) =
    .ok {
      token := b!"foo", tokenTypeHint := b!"refresh_token", clientID := b!"foo",
      clientSecret := b!"bar" } := by decide +kernel

-- TestParseRevocationRequestErrors
example : ([bare b!"GET", bare b!"POST", newRequest [], newRequest [(b!"token", b!"foo")]].map
      fun r => message (parseRevocationRequest r)) =
  [b!"invalid_request: invalid HTTP method",
    b!"invalid_request: malformed query parameters or body form",
    b!"invalid_request: missing token",
    b!"invalid_request: missing or invalid HTTP authorization header"] := by decide +kernel

-- TestRevocationRequestValues, TestRevocationRequestBuild
example : revocationRequestValues {} = [] ∧ sameMap (revocationRequestValues {
      token := b!"token", tokenTypeHint := b!"hint", clientID := b!"client-id",
      clientSecret := b!"client-secret" })
    [(b!"token", [b!"token"]), (b!"token_type_hint", [b!"hint"])] = true := by decide +kernel
example : (buildRevocationRequest b!"http://auth.server/revoke" {
      token := b!"token", tokenTypeHint := b!"hint", clientID := b!"client-id",
      clientSecret := b!"client-secret" }).map parseRevocationRequest = some (.ok {
      token := b!"token", tokenTypeHint := b!"hint", clientID := b!"client-id",
      clientSecret := b!"client-secret" }) := by decide +kernel

end OAuth2.Tests

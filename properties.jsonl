{"id": "C01", "title": "Token string round trip", "statement": "For every secret and key, parsing the string form of the token made from that key under that secret succeeds and gives back exactly that key and signature.", "quantifier": "every secret and every key, of any length including empty", "why_tests_cant": "Base64 padding boundaries, key length and content span an infinite domain; tests use a handful of keys.", "anchors": ["hs256.go:HS256TokenFromKey", "hs256.go:ParseHS256Token", "hs256.go:HS256Token.String"]}
{"id": "C02", "title": "Token acceptance is exact", "statement": "ParseHS256Token accepts a string exactly when it consists of two base64url segments around a single dot, and the second decodes to the HMAC-SHA256 of what the first decodes to under the given secret. The token it returns carries exactly these two decoded values. In particular a string whose signature part is not the HMAC under this secret is always rejected.", "quantifier": "every secret and every byte string", "why_tests_cant": "Acceptance must be exact on all byte strings, including malformed, truncated and forged ones; tests reject only a few samples.", "anchors": ["hs256.go:ParseHS256Token", "hs256.go:HS256Token.Valid", "hs256.go:HS256Token.Equal"]}
{"id": "C03", "title": "All accepted spellings of a token are one token", "statement": "A token string may have several accepted spellings (ignored trailing bits, line breaks). Whatever spelling is presented, the lookup key SignatureString depends only on secret and key: two accepted strings with the same key have the same SignatureString, the canonical String of a parsed token parses back to it, and different signatures have different SignatureStrings. So revoking or redeeming one spelling affects all of them.", "quantifier": "every secret and every pair of accepted byte strings", "why_tests_cant": "Needs injectivity of the encoding over all signatures and all alternative spellings.", "anchors": ["hs256.go:ParseHS256Token", "hs256.go:HS256Token.SignatureString", "server.go:Server.Authorize"]}
{"id": "C04", "title": "Token strings are transport safe", "statement": "The string form of every token consists only of letters, digits, '-', '_' and exactly one '.', its length is determined by the key length, and it is unchanged by form/query escaping, by fragment escaping, by JSON string encoding and by scope-like header trimming.", "quantifier": "every secret and key", "why_tests_cant": "The alphabet claim covers every key byte; tests cannot enumerate keys.", "anchors": ["hs256.go:HS256Token.String", "oauth2.go:WriteRedirect"]}
{"id": "C05", "title": "Token generation uses exactly the requested randomness", "statement": "GenerateHS256Token(secret, n) succeeds exactly when the random source delivers n bytes; then the key is precisely these n bytes and the token is valid under the secret. If the source fails, an error is returned (MustGenerate panics) and no token is produced.", "quantifier": "every secret, every length, every behaviour of the random source", "why_tests_cant": "Failure of the random source at every possible point cannot be enumerated by tests.", "anchors": ["hs256.go:GenerateHS256Token", "hs256.go:MustGenerateHS256Token"]}
{"id": "C06", "title": "Scope parsing and printing", "statement": "ParseScope returns exactly the nonempty, white-space-trimmed items between spaces, in order; no returned item is empty or contains a space; printing and parsing again is the identity on parsed scopes; and for every list of clean items parsing its printed form returns the list.", "quantifier": "every byte string and every list of items", "why_tests_cant": "All placements of spaces, tabs, Unicode white space and invalid UTF-8 must be covered.", "anchors": ["scope.go:ParseScope", "scope.go:Scope.String"]}
{"id": "C07", "title": "Scope inclusion is set inclusion", "statement": "Includes(b) is true on a exactly when every item of b is an item of a; hence it is reflexive, transitive, insensitive to order and repetition, and the empty or missing scope is included in every scope.", "quantifier": "all pairs and triples of scopes", "why_tests_cant": "An algebraic law over unbounded lists.", "anchors": ["scope.go:Scope.Contains", "scope.go:Scope.Includes", "scope.go:Scope.Empty"]}
{"id": "C08", "title": "Scope JSON round trip", "statement": "Marshalling a scope to JSON and unmarshalling it gives the same scope for every list of clean, valid UTF-8 items, whatever characters they contain; for arbitrary scopes the result equals parsing the printed form with invalid UTF-8 replaced.", "quantifier": "every scope", "why_tests_cant": "The JSON escaper has a case for every byte and rune.", "anchors": ["scope.go:Scope.MarshalJSON", "scope.go:Scope.UnmarshalJSON"]}
{"id": "C09", "title": "Bearer token extraction is exact", "statement": "ParseBearerToken returns a token exactly when the Authorization header is the word bearer in any letter case, one space and a nonempty rest, and returns that rest unchanged. With no or an empty header the error asks for authentication (401, no error code). Every other header yields invalid_request (400).", "quantifier": "every request and every header value", "why_tests_cant": "Every byte string must be classified and slicing must never go out of range.", "anchors": ["bearer.go:ParseBearerToken"]}
{"id": "C10", "title": "Bearer errors", "statement": "WriteBearerError writes exactly one response: status 500 with no challenge for foreign errors and for errors with status 500, otherwise the error's status and one WWW-Authenticate header that starts with 'Bearer ' and carries at least one parameter. The body is empty.", "quantifier": "every error value and every initial header map of the response", "why_tests_cant": "Covers every combination of error fields.", "anchors": ["bearer.go:WriteBearerError"]}
{"id": "C11", "title": "Error parameters do not depend on map order", "statement": "Error.Params returns the same text for every iteration order of the parameter map: every nonempty field once, as key=\"value\", sorted.", "quantifier": "every error and every iteration order", "why_tests_cant": "Go randomises map iteration; a test sees a few orders.", "anchors": ["error.go:Error.Map", "error.go:Error.Params"]}
{"id": "C12", "title": "Errors survive the wire", "statement": "An error written with WriteError (without redirect) and read back by ParseRequestError has the same name, state, scope, realm, description and URI (invalid UTF-8 replaced, scope normalised) and the response status as status; an error that is not an OAuth2 error reads back as server_error.", "quantifier": "every error with a valid status, and every read limit not below the body length", "why_tests_cant": "Round trip through JSON escaping for every field content.", "anchors": ["error.go:WriteError", "error.go:ParseRequestError", "oauth2.go:Write"]}
{"id": "C13", "title": "Bearer challenge parameters can be read back", "statement": "The parameter list in the WWW-Authenticate header determines the error's fields: two errors whose header texts are equal have equal parameters. (False as the code stands: quotes are not escaped. Holds for errors whose fields contain no quote.)", "quantifier": "every pair of errors", "why_tests_cant": "An injectivity claim over all field contents.", "anchors": ["error.go:Error.Params", "bearer.go:WriteBearerError"]}
{"id": "C14", "title": "Redirects in the query keep the target and carry the parameters", "statement": "When WriteRedirect adds parameters to the query, the Location it writes parses as a URI with the same scheme, user, host and path as the registered one; every parameter is read back by a standard form decoder with exactly its value, and every pre-existing well-formed query parameter is still there, first.", "quantifier": "every redirect URI that parses, every parameter map", "why_tests_cant": "Every URI and every parameter content, including &, =, #, %, + and non-UTF-8 bytes.", "anchors": ["oauth2.go:WriteRedirect"]}
{"id": "C15", "title": "Redirects in the fragment carry the parameters", "statement": "When WriteRedirect puts parameters in the fragment, the part before '#' is the redirect URI, and decoding the fragment the way the library's own test client does gives exactly the parameters. A client that form-decodes the raw fragment text once gets the exact values too. (The second sentence is false as the code stands: the fragment is escaped twice. It holds for values that need no escaping.)", "quantifier": "every redirect URI that parses, every parameter map", "why_tests_cant": "Every URI and every parameter content.", "anchors": ["oauth2.go:WriteRedirect", "token.go:WriteTokenResponse", "oauth2test/utils.go:fragment"]}
{"id": "C16", "title": "Redirects do not depend on map order", "statement": "The Location written by WriteRedirect is the same for every iteration order of the parameter map.", "quantifier": "every URI, parameter map and iteration order", "why_tests_cant": "Go randomises map iteration.", "anchors": ["oauth2.go:WriteRedirect"]}
{"id": "C17", "title": "Redirect URIs with a fragment are refused", "statement": "Authorization and token requests whose redirect URI contains a fragment are refused with invalid_request. (False as the code stands: the check after ParseRequestURI can never fire.)", "quantifier": "every request", "why_tests_cant": "The check is dead code for every input, which no finite test can establish.", "anchors": ["authorization.go:ParseAuthorizationRequest", "token.go:ParseTokenRequest"]}
{"id": "C18", "title": "Token requests survive the wire", "statement": "For every token request with a grant type, a client id without colon, a clean scope and a redirect URI that parses (or none), building the HTTP request and parsing it on the server gives back exactly the same token request.", "quantifier": "every such token request whose form is at most 10 MB long and every endpoint URI that parses and has a well-formed query", "why_tests_cant": "Every field may contain any byte; two layers of escaping must cancel.", "anchors": ["token.go:BuildTokenRequest", "token.go:TokenRequestValues", "token.go:ParseTokenRequest"]}
{"id": "C19", "title": "Introspection and revocation requests survive the wire", "statement": "For every introspection or revocation request with a nonempty token and a client id without colon (with id or secret nonempty), building and parsing gives back exactly the same request.", "quantifier": "every such request whose form is at most 10 MB long and every endpoint URI that parses and has a well-formed query", "why_tests_cant": "Every field may contain any byte.", "anchors": ["introspection.go:BuildIntrospectionRequest", "introspection.go:ParseIntrospectionRequest", "revocation.go:BuildRevocationRequest", "revocation.go:ParseRevocationRequest"]}
{"id": "C20", "title": "The redirect URI a client sent is the one compared", "statement": "A form-encoded redirect_uri parameter is decoded once, so that the server sees exactly the URI the client encoded. (False as the code stands: it is decoded twice, altering URIs that contain % or +. The URIs that survive are exactly those without these bytes; clients that encode twice, as this library does, are read as meant.)", "quantifier": "every redirect URI", "why_tests_cant": "A claim about all URI contents.", "anchors": ["token.go:ParseTokenRequest", "authorization.go:ParseAuthorizationRequest", "token.go:TokenRequestValues"]}
{"id": "C21", "title": "Client credentials: header wins, never mixed", "statement": "If a token request carries a decodable HTTP basic authorization header, client id and secret come from it and the body fields client_id and client_secret have no influence; otherwise both come from the body. They are never mixed.", "quantifier": "every request", "why_tests_cant": "Every combination of header and body contents.", "anchors": ["token.go:ParseTokenRequest"]}
{"id": "C22", "title": "Secrets are only read from the body", "statement": "Query parameters have no influence on the result of ParseTokenRequest, ParseIntrospectionRequest and ParseRevocationRequest as long as the query is well formed, and usernames and passwords in the query of an authorization request are ignored.", "quantifier": "every request and every pair of well-formed queries", "why_tests_cant": "A non-interference claim over all queries.", "anchors": ["token.go:ParseTokenRequest", "introspection.go:ParseIntrospectionRequest", "revocation.go:ParseRevocationRequest", "server.go:authorizationEndpoint"]}
{"id": "C23", "title": "Token responses survive the wire", "statement": "A token response written with WriteTokenResponse (without redirect) and read with ParseTokenResponse has the same token type, access token, lifetime, refresh token, scope and state (strings with invalid UTF-8 replaced, scope normalised).", "quantifier": "every token response with a lifetime in the int64 range, every limit not below the body length", "why_tests_cant": "JSON escaping for every content.", "anchors": ["token.go:WriteTokenResponse", "token.go:ParseTokenResponse"]}
{"id": "C24", "title": "Introspection responses survive the wire", "statement": "The same for WriteIntrospectionResponse and ParseIntrospectionResponse, including the map of extra user data as far as JSON can express it, except that integers in it become the nearest floating-point numbers; an active response with an unknown token type is refused and nothing is written; a response with extra data that JSON cannot express is reported as an error to the caller and cannot be mistaken by a client for a description of a token.", "quantifier": "every introspection response, every tree of extra data nested at most 9999 deep, every limit not below the body length", "why_tests_cant": "JSON escaping for every content.", "anchors": ["introspection.go:WriteIntrospectionResponse", "introspection.go:ParseIntrospectionResponse", "introspection.go:IntrospectionResponse.Extra", "oauth2.go:Write"]}
{"id": "C25", "title": "The response limit never yields a wrong answer", "statement": "If the body of a token or introspection response is longer than the limit, parsing the truncated body either fails or gives the same result as parsing the whole body: truncation never produces a different token.", "quantifier": "every JSON object body and every limit", "why_tests_cant": "All truncation points of all bodies.", "anchors": ["token.go:ParseTokenResponse", "introspection.go:ParseIntrospectionResponse", "error.go:ParseRequestError"]}
{"id": "C26", "title": "Responses that carry tokens or codes are not cached", "statement": "Every response through which the server delivers an access token, refresh token or authorization code carries Cache-Control: no-store and Pragma: no-cache, exactly once each; redirects also carry Referrer-Policy: origin.", "quantifier": "every server state and request", "why_tests_cant": "All code paths that write tokens, for every state.", "anchors": ["oauth2.go:Write", "oauth2.go:WriteRedirect", "server.go:Server.ServeHTTP"]}
{"id": "C27", "title": "Authorize admits only genuine, live, sufficient tokens", "statement": "If Authorize returns true at any point of any history of requests on a server that started without tokens, then the presented token is (a spelling of) an access token the server delivered in an earlier response, its lifetime has not passed, the required scope is included in the scope it was issued with, and since then it was not revoked by its client and the authorization code it came from was not replayed.", "quantifier": "every history of requests (any methods, paths, bodies, clocks and random sources) from every initial configuration", "why_tests_cant": "Quantifies over all request histories.", "anchors": ["server.go:Server.Authorize", "server.go:issueTokens", "server.go:revocationEndpoint", "server.go:handleAuthorizationCodeGrant"]}
{"id": "C28", "title": "Issued access tokens are usable", "statement": "An access token delivered to a client is accepted by Authorize for every required scope included in its granted scope at every later time up to its expiry, whatever other requests are processed in between, unless it was revoked, its code was replayed, or a later token got the same signature.", "quantifier": "every history", "why_tests_cant": "Quantifies over all interleaved requests of other clients.", "anchors": ["server.go:issueTokens", "server.go:Server.Authorize"]}
{"id": "C29", "title": "Revocation is effective and permanent", "statement": "After a revocation request for a token was answered with success, no later Authorize call, refresh or introspection treats the token as valid, whatever happens in between (unless a new token with the same signature is generated).", "quantifier": "every history", "why_tests_cant": "All continuations after a revocation.", "anchors": ["server.go:revocationEndpoint", "server.go:revokeToken"]}
{"id": "C30", "title": "Only the owner can revoke, and only that token", "statement": "A revocation request changes nothing but the presented token, and only if the requester identified as the client the token was issued to (with the correct secret if confidential).", "quantifier": "every state and request", "why_tests_cant": "A frame property over all states.", "anchors": ["server.go:revocationEndpoint", "server.go:revokeToken"]}
{"id": "C31", "title": "A refresh token is used at most once", "statement": "Once a refresh request with a refresh token has been answered with success, every later refresh request with that token, in any spelling, is refused with invalid_grant (unless the server happens to generate a token with the same signature again).", "quantifier": "every history", "why_tests_cant": "All continuations.", "anchors": ["server.go:handleRefreshTokenGrant"]}
{"id": "C32", "title": "Refreshing never widens rights", "statement": "Tokens obtained with a refresh token have a scope included in that of the refresh token and the same client and user; along any chain of refreshes the scope stays included in the scope first granted.", "quantifier": "every history of refreshes", "why_tests_cant": "Chains of unbounded length.", "anchors": ["server.go:handleRefreshTokenGrant"]}
{"id": "C33", "title": "An authorization code is redeemed at most once", "statement": "For every authorization code, at most one token request with it is answered with tokens in any history.", "quantifier": "every history", "why_tests_cant": "All histories and spellings of the code.", "anchors": ["server.go:handleAuthorizationCodeGrant"]}
{"id": "C34", "title": "Replaying an authorization code revokes what it gave", "statement": "When a code that was already redeemed is presented again by an identified client, the request is refused with invalid_grant and every token that was issued from the code stops being accepted. (Only the tokens issued directly: tokens obtained by refreshing survive, so the full claim is false as the code stands.)", "quantifier": "every history", "why_tests_cant": "All histories of issue, refresh and replay.", "anchors": ["server.go:handleAuthorizationCodeGrant"]}
{"id": "C35", "title": "An authorization code is bound to its client, redirect URI and lifetime", "statement": "A code yields tokens only for the client that requested it, with the same redirect URI, not after its expiry, and the tokens carry exactly the scope and user approved at authorization.", "quantifier": "every history", "why_tests_cant": "All histories.", "anchors": ["server.go:handleAuthorizationCodeGrant", "server.go:handleAuthorizationCodeGrantAuthorization"]}
{"id": "C36", "title": "No token exceeds the server's allowed scope", "statement": "In every reachable state, every access token, refresh token and authorization code has a scope included in the configured allowed scope.", "quantifier": "every history from a server without tokens", "why_tests_cant": "An invariant of all reachable states.", "anchors": ["server.go:ServerConfig", "server.go:issueTokens"]}
{"id": "C37", "title": "Confidential clients must present their secret", "statement": "The token, introspection and revocation endpoints answer a request that identifies as a confidential client with success, or change the state, only if the request carries the client's secret.", "quantifier": "every state and request", "why_tests_cant": "All request shapes.", "anchors": ["server.go:tokenEndpoint", "server.go:introspectionEndpoint", "server.go:revocationEndpoint"]}
{"id": "C38", "title": "Public clients cannot use the client credentials grant", "statement": "A client credentials request of a client that is not confidential is refused with invalid_client and changes nothing.", "quantifier": "every state and request", "why_tests_cant": "All request shapes.", "anchors": ["server.go:handleClientCredentialsGrant"]}
{"id": "C39", "title": "No open redirect", "statement": "Whenever the server writes a Location header, its target before the added parameters is the redirect URI registered for the client named in the request; requests with an unknown client or another redirect URI are never redirected.", "quantifier": "every state and request", "why_tests_cant": "All request shapes.", "anchors": ["server.go:authorizationEndpoint", "oauth2.go:WriteRedirect"]}
{"id": "C40", "title": "Introspection tells the truth, to the owner only", "statement": "An introspection answered with active=true reports exactly the client, user, scope, kind and expiry of a live stored token with that signature belonging to the authenticated client; a token of another client is never described; unknown tokens are reported inactive; introspection changes nothing. Expired tokens are reported inactive (this last part is false as the code stands).", "quantifier": "every state and request", "why_tests_cant": "All states.", "anchors": ["server.go:introspectionEndpoint"]}
{"id": "C41", "title": "Failed and read-only requests change nothing", "statement": "Authorize, introspection, GET requests and unknown paths never change the server state, and a request that is answered with an error changes nothing, with two exceptions: replaying a redeemed authorization code deletes the tokens issued from it, and a revocation request for a signature shared by an access token of the client and a refresh token of another client (an HMAC collision or a repeated random key) deletes the former before it is refused. Every change shows in the answer.", "quantifier": "every state and request", "why_tests_cant": "All error paths.", "anchors": ["server.go:Server.ServeHTTP", "server.go:Server.Authorize"]}
{"id": "C42", "title": "A failing random source leaves the server consistent", "statement": "If generating a token panics because the random source fails, the server state is unchanged, the mutex is released and nothing was written to the client; a later request is served normally.", "quantifier": "every state, request and failure point", "why_tests_cant": "All failure points of the random source.", "anchors": ["server.go:issueTokens", "hs256.go:MustGenerateHS256Token"]}
{"id": "C43", "title": "Users must present their password", "statement": "Tokens and codes that act for a user are only issued by a request that carries this user's password, or from a code or refresh token that goes back to one.", "quantifier": "every history", "why_tests_cant": "All histories.", "anchors": ["server.go:handleImplicitGrant", "server.go:handleAuthorizationCodeGrantAuthorization", "server.go:handleResourceOwnerPasswordCredentialsGrant"]}
{"id": "C44", "title": "The authorization endpoint never issues more than asked", "statement": "The implicit flow never yields a refresh token, the code flow never yields a token at the authorization endpoint, and a GET request issues nothing.", "quantifier": "every state and request", "why_tests_cant": "All request shapes.", "anchors": ["server.go:authorizationEndpoint", "server.go:handleImplicitGrant"]}
{"id": "C45", "title": "Announced lifetimes are honoured", "statement": "The expires_in sent to the client is the configured lifespan in whole seconds, the token is accepted at every time up to issue time plus lifespan and refused after it; hence it is accepted for at least expires_in seconds.", "quantifier": "every configuration, issue time and use time", "why_tests_cant": "All times, including the boundary.", "anchors": ["server.go:issueTokens", "server.go:Server.Authorize"]}
{"id": "C46", "title": "Every request is answered exactly once", "statement": "For every request and state, serving returns normally with exactly one status line written and the mutex released, unless the random source fails; it never deadlocks and never panics.", "quantifier": "every state and request", "why_tests_cant": "All request shapes and states.", "anchors": ["server.go:Server.ServeHTTP", "server.go:Server.Authorize"]}
{"id": "C47", "title": "Concurrent requests are linearizable", "statement": "For every set of concurrent calls and every interleaving of their steps, the replies and the final state are those of running the calls one after the other in some order that respects real time; some call can always make progress.", "quantifier": "every number of concurrent calls and every schedule", "why_tests_cant": "Schedules cannot be enumerated.", "anchors": ["server.go:Server.Mutex", "server.go:Server.ServeHTTP", "server.go:Server.Authorize"]}
{"id": "C48", "title": "Expired codes and refresh tokens are refused", "statement": "A code or refresh token presented after its expiry is refused with invalid_grant and nothing is issued.", "quantifier": "every state and time", "why_tests_cant": "All times.", "anchors": ["server.go:handleAuthorizationCodeGrant", "server.go:handleRefreshTokenGrant"]}
{"id": "C49", "title": "Client and server agree end to end", "statement": "A token request that the client library sends to the server with valid credentials returns a token response whose access token the server's Authorize then accepts for the requested scope; introspecting it with the client library reports it active with that scope; after revoking it with the client library it is refused.", "quantifier": "every configuration with valid credentials, any contents of the fields", "why_tests_cant": "Composition of all encoders, decoders and the server for all inputs.", "anchors": ["client.go:Client.Authenticate", "client.go:Client.Introspect", "client.go:Client.Revoke", "server.go:Server"]}
{"id": "C50", "title": "Requests are routed by the last path segment", "statement": "Which endpoint handles a request depends only on the text after the last slash of the path; every other last segment is answered with 404 and no state change.", "quantifier": "every path", "why_tests_cant": "All paths.", "anchors": ["server.go:Server.ServeHTTP"]}
{"id": "C51", "title": "Valid requests are honoured", "statement": "After every history of calls, a well-formed request that presents what it needs is answered with what it asks for: a token request with the password of a registered user by an identified client for an allowed scope, one with the secret of a confidential client, one with an unredeemed unexpired code by the client and with the redirect URI it was issued for, one with a live unexpired refresh token by its client for a scope within it, and a submitted authorization request with a registered redirect URI, a valid password and an allowed scope. The only further condition is that the random source has enough bytes.", "quantifier": "every server configuration, every history of calls, every request of the given kind, every clock and random source", "why_tests_cant": "A test shows that one request succeeds after one history; whether some earlier sequence of calls makes a valid request fail ranges over all histories.", "anchors": ["server.go: Server.ServeHTTP, authorizationEndpoint, handleImplicitGrant, handleAuthorizationCodeGrantAuthorization, tokenEndpoint, handleResourceOwnerPasswordCredentialsGrant, handleClientCredentialsGrant, handleAuthorizationCodeGrant, handleRefreshTokenGrant, issueTokens"]}
{"id": "C52", "title": "Requests are accepted exactly when well formed", "statement": "A token, introspection, revocation or authorization request is accepted by its Parse function exactly if it has the right method and a form that can be read, carries the required parameters, names a client (by HTTP basic authentication, or by the form if there is no such header) and its redirect URI, where required or present, can be parsed; what it parses to is determined by the form and the header field by field. Everything else is refused as an invalid request with status 400, with a description that names the first thing that is wrong with it: the method, query or body that cannot be read, or the parameter or header that is missing or not valid.", "quantifier": "every HTTP request", "why_tests_cant": "An if-and-only-if over all methods, headers, bodies and queries.", "anchors": ["token.go:ParseTokenRequest", "introspection.go:ParseIntrospectionRequest", "revocation.go:ParseRevocationRequest", "authorization.go:ParseAuthorizationRequest"]}
{"id": "C53", "title": "Responses sent through a redirect carry exactly their fields", "statement": "A token response or code response with a redirect URI, and an error with one, is written as a 303 redirect to that URI whose fragment or query carries exactly the fields that are present (a missing or empty optional field is left out) in addition to the parameters the URI already had, and nothing else. Headers an error asks for are set on the response.", "quantifier": "every response or error, every absolute redirect URI without fragment", "why_tests_cant": "The set of carried fields must be right for every combination of present fields and all contents.", "anchors": ["token.go:TokenResponse.Map", "code.go:CodeResponse.Map", "error.go:Error.Map", "token.go:WriteTokenResponse", "code.go:WriteCodeResponse", "error.go:WriteError"]}
{"id": "C54", "title": "The client library never mistakes a failure for success", "statement": "Against any server: Authenticate and Introspect return a response only if the request was sent to the configured endpoint, answered with status 200, and the body reads as that response within the limit; Revoke returns nil exactly if the request was sent to the configured endpoint and answered with status 200. Any other status is returned as an error that tells the status, and an error document written by WriteError is returned as an OAuth2 error with the same status, name, description and URI. A broken connection is an error.", "quantifier": "every configuration, request and HTTP transport", "why_tests_cant": "Ranges over all servers, statuses and bodies.", "anchors": ["client.go:Client.Authenticate", "client.go:Client.Introspect", "client.go:Client.Revoke", "client.go:NewClientWithClient", "error.go:ParseRequestError"]}
{"id": "C55", "title": "The bundled conformance suite passes against the server", "statement": "Package oauth2test's Run, given any specification that truly describes a server and the handler in front of it (its clients, user, scopes, tokens, codes, endpoints, supported grants), makes no assertion fail and does not panic, provided random tokens do not collide and the run is shorter than the token lifespans. In particular TestServer of server_test.go passes for all random bytes and clock readings of that kind.", "quantifier": "every specification, server state, handler that routes to the server, all random bytes and clock readings", "why_tests_cant": "Running the suite checks one specification with one set of random tokens at one time; grants, endpoints and scopes can be combined in many ways, and a flaky suite would pass most of the time.", "anchors": ["oauth2test/spec.go:Run", "oauth2test/grants.go", "oauth2test/endpoints.go", "oauth2test/general.go", "oauth2test/request.go", "server_test.go:TestServer", "server.go:Server.ServeHTTP"]}
{"id": "C56", "title": "What a client that decodes the fragment once finds", "statement": "When parameters are sent in the fragment of a redirect, a client that decodes the raw fragment once as form data finds each parameter with its name and value percent-escaped, and nothing else. It finds exactly the parameters if, and only if, every name and value consists of characters that are never escaped (letters, digits, '-', '_', '.', '~') and spaces.", "quantifier": "every redirect URI, every non-empty set of parameters", "why_tests_cant": "Ranges over all parameter names and values; the bundled tests decode the fragment twice and so cannot see the double escaping.", "anchors": ["oauth2.go:WriteRedirect", "token.go:WriteTokenResponse", "oauth2test/utils.go:fragment"]}
{"id": "C57", "title": "What takes a token away, and what a replayed code takes away", "statement": "After an authorization code is presented again by any identified client, exactly the tokens that were issued directly for this code are no longer in force; tokens refreshed from them stay in force. A token in force ceases to be in force only by: being reissued under the same signature, revocation by its own identified client, its use as a refresh token by its own client, or a replay of the code it was issued for by an identified client.", "quantifier": "every history of calls, every token and code", "why_tests_cant": "Must hold after every history; the tests replay one code with one client.", "anchors": ["server.go:Server.handleAuthorizationCodeGrant", "server.go:Server.handleRefreshTokenGrant", "server.go:Server.revocationEndpoint"]}
{"id": "C58", "title": "Requests do not interfere with what they do not name", "statement": "Two servers that are configured alike and agree on the clients and users a call names and on what is stored under the tokens and codes it carries, give the same answer, whatever other clients, users, tokens and codes they hold; and what becomes of any other token or code depends only on what was stored under it. This composes to sequences of calls.", "quantifier": "every pair of servers, every call, every sequence of calls", "why_tests_cant": "It compares runs from all pairs of server states; a test sees one state.", "anchors": ["server.go:Server.ServeHTTP", "server.go:Server.Authorize"]}
{"id": "C59", "title": "No header injection", "statement": "Whatever a request contains, and whatever redirect URI and parameters a response carries, no header of a response that the server, WriteRedirect or (for errors whose own fields are free of control characters) WriteBearerError sends contains a control character, in particular no line break. The requests the library builds do not have one in a header either, whatever the client id and secret are.", "quantifier": "every server state and request, every redirect URI and parameters, every client id and secret", "why_tests_cant": "An attacker chooses the input; absence of a bad input cannot be shown by trying some.", "anchors": ["oauth2.go:WriteRedirect", "bearer.go:WriteBearerError", "server.go:Server.ServeHTTP", "server.go:Server.Authorize", "token.go:BuildTokenRequest"]}
{"id": "C60", "title": "A broken response writer cannot harm the server", "statement": "Whatever the response writer passed to ServeHTTP or Authorize makes of the calls on it (it fails, drops bytes, or panics in the middle of the answer), the call leaves the server exactly as if the answer had been written, releases the mutex, and returns the same result unless the writer panicked. After any sequence of calls with such writers the server answers later calls as if all had worked.", "quantifier": "every request, every server state, every behaviour of the response writer including a panic at any call on it, every sequence of calls", "why_tests_cant": "The writer may fail at any point of any answer; tests use a recorder that never fails.", "anchors": ["server.go:Server.ServeHTTP", "server.go:Server.Authorize", "oauth2.go:Write", "oauth2.go:WriteRedirect", "bearer.go:WriteBearerError"]}
{"id": "C61", "title": "Which secrets are the same secret", "statement": "Two secrets of at most 64 bytes that differ only in zero bytes at their end, and a secret longer than 64 bytes and its SHA-256 digest, are interchangeable: they make and accept the same tokens, and two servers that differ in nothing else give the same answers in every history. Hence for every secret shorter than 64 bytes there is another one that accepts all of its tokens.", "quantifier": "every pair of such secrets, every key and token text, every server state and sequence of calls", "why_tests_cant": "It is about all pairs of secrets and all histories.", "anchors": ["hs256.go:HS256TokenFromKey", "hs256.go:ParseHS256Token", "server.go:ServerConfig"]}
{"id": "C62", "title": "An answer reveals about the registered secrets only whether those presented are right", "statement": "Two servers that differ only in their registered users and confidential clients give the same answer to a request, and move on in the same way, whenever every user name and password and every client name and secret in the request is right for both or wrong for both. In particular a request that does not present the right password of a user cannot tell whether that user is registered, and a request that does not present the right secret of a confidential client cannot tell whether that client is registered, except at the authorization endpoint, which tells known clients from unknown ones.", "quantifier": "every server state, every pair of registries, every request and every sequence of requests", "why_tests_cant": "It compares the answers of all pairs of servers to all requests; a test compares two answers.", "anchors": ["server.go:Server.tokenEndpoint", "server.go:Server.authorizationEndpoint", "server.go:Server.revocationEndpoint", "server.go:Server.introspectionEndpoint"]}
{"id": "C63", "title": "Revoking twice is revoking once", "statement": "A revocation request succeeds exactly if its hint is missing or one of the two known ones, the client identifies itself, the token is genuine, and no token in force presented by it belongs to another client; whether it is in force at all makes no difference. The successful answer is status 200 with no headers and no body. Repeating the request succeeds again and changes nothing.", "quantifier": "every history, every server state, every revocation request", "why_tests_cant": "The equivalence ranges over all histories and requests.", "anchors": ["server.go:Server.revocationEndpoint", "server.go:Server.revokeToken"]}
{"id": "C64", "title": "The public maps hold exactly what is in force", "statement": "After any history the maps AccessTokens and RefreshTokens of the server hold exactly the tokens in force, under their signatures, with client, user, scope, expiry and originating code, and AuthorizationCodes holds exactly the codes ever handed out, with whether they were redeemed. Each of the two token maps has at most as many entries as there were answers that handed out a token of that kind.", "quantifier": "every history, every signature", "why_tests_cant": "It is an invariant of all histories; tests look at the maps after a few.", "anchors": ["server.go:Server", "server.go:ServerCredential", "server.go:Server.issueTokens"]}
{"id": "C65", "title": "The flows work end to end", "statement": "Implicit flow: if a registered client sends a user with its redirect URI to the authorization endpoint and the user signs in, the fragment of the redirect carries an access token, which gives access exactly until it expires and exactly to what was consented to, whatever else happens short of ending it. Code flow: the query of the redirect carries a code; whatever else happens, short of the code being redeemed or issued anew, the client library exchanges it for an access token if the client identifies itself and repeats the redirect URI before the code expires, and that token gives access exactly until it expires and exactly to what was consented to. The refresh token that came along can be exchanged with the client library for further tokens on behalf of the same user.", "quantifier": "every history before, between and after the steps of the flow, every client, user, scope, redirect URI and clock", "why_tests_cant": "Tests run one flow on an idle server; the claim is about all interleavings with other calls and all inputs.", "anchors": ["server.go:Server.ServeHTTP", "server.go:Server.Authorize", "client.go:Client.Authenticate"]}
{"id": "C66", "title": "A refusal tells the true reason", "statement": "Whether and with which error a request is refused is determined by what a client and an observer of the traffic know. Token endpoint: invalid_request for an unknown grant type or a text that is no code or token of this server; 401 invalid_client exactly if the client is unknown, its secret wrong, or a public client asks for itself; 403 access_denied exactly if the password is wrong; invalid_grant exactly if the code or refresh token is genuine but not (or no longer) good for this client, redirect URI and time; invalid_scope exactly if everything else is in order and the scope goes too far; and if there is no reason, the tokens are handed out. Introspection and revocation: unsupported_token_type, invalid_client (unknown, wrong secret, or token of another client), invalid_request, in the same sense. Authorization endpoint: an unknown response type, client or redirect URI is refused directly and never by a redirect; a scope that is not allowed and a wrong password are reported by a redirect. Requests that are not well-formed: 400 invalid_request, and nothing changes. Authorize: the status and the text of the challenge tell exactly whether the header is missing, malformed, the token forged, unknown, expired, or its scope too small. The description in the error document, too, is the one that is true of the reason: which flaw makes a text no token (segments, encoding of key or signature, signature), whether a code or refresh token is unknown, expired or another client's, whether the redirect URI has changed, whether the client or the owner of the token is the matter, and what is wrong with a request that is not well-formed.", "quantifier": "every history, every request, every client, user, token, code, scope and clock reading", "why_tests_cant": "Tests check single refusals; that a refusal is given for no other reason and that no reason is overlooked or masked by another is a statement about all requests after all histories.", "anchors": ["server.go:Server.authorizationEndpoint", "server.go:Server.tokenEndpoint", "server.go:Server.handleAuthorizationCodeGrant", "server.go:Server.handleRefreshTokenGrant", "server.go:Server.introspectionEndpoint", "server.go:Server.revocationEndpoint", "server.go:Server.Authorize", "error.go:Error"]}
{"id": "C67", "title": "A connection that breaks yields no wrong answer and no half effect", "statement": "Server: a request whose body breaks off at any byte is never taken for a shorter request; either the body does not matter and the server does what it would have done for the whole request, or it answers 400 invalid_request and nothing has changed. Client: if a response is lost or its body cut off at any byte, noticed or not, Authenticate, Introspect and Revoke return what they would have returned over a good connection or an error of their own; never other tokens, another description, or an OAuth2 error nobody sent. Together: over a connection to the server that breaks anywhere, each request takes full effect or none; tokens that Authenticate returns are those the server handed out for this request; a nil error of Revoke means that the server got the whole request and revoked; an OAuth2 error is the one the server reported or the invalid_request for half a request.", "quantifier": "every server state, request, response, point at which the connection breaks, response limit and configuration", "why_tests_cant": "Tests use an in-memory recorder or a healthy loopback connection; a test can cut a few bodies at a few bytes, not every body at every byte.", "anchors": ["token.go:ParseTokenRequest", "token.go:ParseTokenResponse", "introspection.go:ParseIntrospectionRequest", "introspection.go:ParseIntrospectionResponse", "revocation.go:ParseRevocationRequest", "authorization.go:ParseAuthorizationRequest", "error.go:ParseRequestError", "client.go:Client.Authenticate", "client.go:Client.Introspect", "client.go:Client.Revoke", "server.go:Server.ServeHTTP"]}
{"id": "C68", "title": "The server sends no other responses than those of the protocol", "statement": "Every response of ServeHTTP is one of: tokens (200, a JSON document with token_type bearer, access_token, expires_in and possibly refresh_token and scope, at the token endpoint only); a token description (200, at the introspection endpoint only; if not active, nothing else is told); an empty 200 (revocation endpoint only); an error document with exactly error and possibly error_description, whose name is one the endpoint may report and whose status goes with the name; a 303 redirect without a body (authorization endpoint only); the constant page for browsers; or 404. Documents and redirects forbid caching, and no other headers are sent. A response has status 401 exactly if it carries a WWW-Authenticate header, and then exactly one, demanding basic authentication.", "quantifier": "every server state, request, random bytes and clock readings", "why_tests_cant": "Tests look at selected fields of selected responses; that nothing else is ever sent ranges over all requests and states.", "anchors": ["server.go:ServeHTTP", "server.go:authorizationEndpoint", "server.go:tokenEndpoint", "server.go:introspectionEndpoint", "server.go:revocationEndpoint", "error.go:WriteError", "oauth2.go:Write", "oauth2.go:WriteRedirect"]}
{"id": "C69", "title": "Broken response writers cannot harm concurrent requests", "statement": "For every set of concurrent calls, each with a response writer that may fail, drop or change what is written, or panic in the middle of the answer, and every interleaving of their steps: the server ends up as if the calls had been made one after the other with working writers in some order that respects real time; every call whose writer works gets the answer it gets in that order; Authorize returns what it should unless its writer panics; a call panics only if its writer does or if it would have panicked anyway; a panicking call releases the mutex, so that some call can always make progress and every run ends with all calls over and the mutex free.", "quantifier": "every number of concurrent calls, every behaviour of each response writer, every schedule", "why_tests_cant": "Neither schedules nor failures of writers can be enumerated, let alone together.", "anchors": ["server.go:Server.Mutex", "server.go:Server.ServeHTTP", "server.go:Server.Authorize", "oauth2.go:Write", "oauth2.go:WriteRedirect", "bearer.go:WriteBearerError"]}
{"id": "C70", "title": "How a request is written makes no difference", "statement": "What the server answers and does depends only on what the protocol gives a meaning to: the endpoint (the last segment of the path), the method, whether the form can be read, the first value of each parameter the endpoint knows and the client's credentials. Two requests that agree on these are served alike in every state: the order, spelling and further values of parameters, unknown parameters, other headers, the prefix of the path and (except at the authorization endpoint) the query make no difference, and at the token endpoint neither does whether the client presents its credentials by basic authentication or in the body. Authorize reads nothing but the Authorization header.", "quantifier": "every pair of requests, every server state, every source of randomness and clock", "why_tests_cant": "The requests that say the same are infinitely many, and so are the states of the server.", "anchors": ["server.go:Server.ServeHTTP", "server.go:Server.Authorize", "token.go:ParseTokenRequest", "authorization.go:ParseAuthorizationRequest", "introspection.go:ParseIntrospectionRequest", "revocation.go:ParseRevocationRequest", "bearer.go:ParseBearerToken"]}
{"id": "C71", "title": "Tokens are made of the call's random bytes, and nothing else depends on them", "statement": "The key of every access token and every code that a call hands out is the first keyLength of the random bytes this call obtains, the key of the refresh token is made of the next keyLength, and the signature is the HMAC of the key; a call hands out at most one token of each kind, and a code only alone. Apart from the places where these tokens stand, the answer to a request is the same whatever the random bytes are: nothing about the random source leaks into or influences status, headers, redirect or body. Authorize uses no random bytes at all.", "quantifier": "every server state, every request, every clock, every random source that yields enough bytes", "why_tests_cant": "A test sees a few draws; that two tokens of a call never share bytes and that no other part of any answer depends on the draws is a statement about all pairs of random sources.", "anchors": ["hs256.go:GenerateHS256Token", "server.go:Server.issueTokens", "server.go:Server.handleImplicitGrant", "server.go:Server.handleAuthorizationCodeGrantAuthorization"]}
{"id": "C72", "title": "With keys that do not repeat, tokens live and die without exceptions", "statement": "If the random source never yields the same key twice and no two keys in use have the same HMAC, then in every history: every token handed out is in force from then on exactly until it is revoked, its code is replayed or, for refresh tokens, it is used; Authorize admits it for exactly as long (and until it expires, for scopes within its grant); no refresh token is used twice and no code redeemed twice; a token once revoked, a refresh token once used, and the tokens of a code once replayed never come back; and a failing call takes nothing away and adds nothing, except for the replay of a code.", "quantifier": "every history of calls of which the keys do not repeat, every configuration, request and clock", "why_tests_cant": "The claim is about what no later event of any length of history can do; the rules without exceptions only hold given an assumption on the random source that a test cannot make.", "anchors": ["server.go:Server.ServeHTTP", "server.go:Server.Authorize", "server.go:Server.issueTokens", "server.go:Server.revokeToken", "hs256.go:GenerateHS256Token"]}
{"id": "C73", "title": "The public maps decide, whatever the program has put in them", "statement": "The maps of tokens and codes are exported, and a program may fill them (to seed a test, or to restore a session). On a server in any state, a call changes them in exactly these ways: tokens and codes that it hands out are recorded with client, user, scope, expiry and originating code as the request and the stored code or refresh token say; a revoked token, the tokens of a replayed code that is on record and a refresh token that is used are removed; a redeemed code is marked; nothing else changes. Authorize admits a token exactly if the map of access tokens has it unexpired with the required scope; a token request is answered with tokens exactly if the client identifies itself and the maps back what it presents. A token stored by the program therefore works like one that the server issued, until an event takes it away, and a token that is not stored does not appear unless it is handed out.", "quantifier": "every content of the maps, every configuration, every call and history of calls from there", "why_tests_cant": "The states that a program can set up are unbounded and most are not reachable by requests; tests seed a few.", "anchors": ["server.go:Server", "server.go:ServerCredential", "server.go:Server.ServeHTTP", "server.go:Server.Authorize", "server.go:Server.issueTokens", "server.go:Server.revokeToken"]}
{"id": "C74", "title": "A client understands the answers of any server as JSON defines them", "statement": "ParseTokenResponse, ParseIntrospectionResponse and ParseRequestError accept exactly the bodies whose first limit bytes are a JSON document of RFC 8259 (nested up to 10000 levels) that is an object or null and whose known members have the right type. Members are known by their names up to the case of the letters; of several with the same name the last one that is not null counts; missing members are zero values; an integer is one that fits in 64 bits and is written without fraction and exponent; a scope is the list of its words, and null resets it; extra data is merged from all members of that name, null discards it, and a number in it that is too large for a 64-bit floating-point number is an error. Members with other names, white space and the way strings are escaped make no difference. The two former also require that the response declares itself as application/json and say what it is otherwise; the last reports everything else with the status line.", "quantifier": "every response of any server, every limit", "why_tests_cant": "The documents other servers may send are unbounded in size, nesting, order, spelling and duplication; tests feed the documents this library writes.", "anchors": ["token.go:ParseTokenResponse", "introspection.go:ParseIntrospectionResponse", "error.go:ParseRequestError", "scope.go:Scope.UnmarshalJSON"]}
{"id": "C75", "title": "What requests mean, down to the bytes of bodies, queries and headers", "statement": "ParseTokenRequest, ParseIntrospectionRequest, ParseRevocationRequest and ParseAuthorizationRequest accept exactly the requests whose bytes have the right form, and read exactly the fields that stand there: bodies and queries are fields name=value between & or ;, with + for a space and %XX for a byte, and of several fields with a name the first counts; the content type names the form type in any letter case, with any well-formed parameters, none of them twice; credentials are padded base64 of user:password after the word basic in any letter case; a redirect URI is unescaped once more and is an absolute URI (with scheme, authority or opaque part as RFC 3986 spells them up to the leniencies of net/url), an absolute path or a star, without control characters; a scope is the words between spaces. Everything else is refused. A response declares itself as JSON exactly if its content type says so in the same sense.", "quantifier": "every request and response, byte by byte", "why_tests_cant": "The ways to spell a form, a content type, a URI or a header are unbounded; tests use the spellings of one client library.", "anchors": ["token.go:ParseTokenRequest", "introspection.go:ParseIntrospectionRequest", "revocation.go:ParseRevocationRequest", "authorization.go:ParseAuthorizationRequest", "token.go:ParseTokenResponse"]}
{"id": "C76", "title": "What the client sends, and to whom, when it is redirected", "statement": "Client uses http.Client, which follows redirects. A call sends at most ten requests; each but the first is sent because the response to the previous one has status 301, 302, 303, 307 or 308 and a location, and goes where that says. Only after 307 and 308 the request repeats the method of the previous one and carries the body of the first (with passwords, codes and tokens); otherwise it is a GET request without body. Other headers are repeated; those with credentials only if the site does not change from the previous request to this one. The result of the call is read from the response to the last request. The token, introspection and revocation endpoints of Server never redirect, so with it there is one request per call. Two consequences a user might not expect are shown: another site can be sent the password by a redirect with status 307, and it can get the credentials of the client by redirecting once more within itself.", "quantifier": "every request, every network (any answers, depending on everything sent before), every way to resolve locations and to tell sites apart", "why_tests_cant": "The answers of other servers and the chains they make are unbounded; the tests talk to one server that never redirects.", "anchors": ["client.go:NewClient", "client.go:Client.Authenticate", "client.go:Client.Introspect", "client.go:Client.Revoke", "server.go:Server.ServeHTTP"]}
{"id": "C77", "title": "Pointers in the public maps: nil, shared objects, and what stays the same", "statement": "Server.Clients, Users, AccessTokens, RefreshTokens and AuthorizationCodes are public maps of pointers that a program may fill as it likes: with nil, with one object under several names, or leave nil themselves. Whatever is in them, a call of ServeHTTP or Authorize either panics over something nil, with an empty response and the mutex free again, or answers exactly as if the maps held the objects themselves, and leaves them so, except that a code marked as used is used under all names of its object. Registrations and the objects the program stored never change, but for that mark; no call makes anything nil or shared. So a program that stores no nil and no code twice sees exactly the histories all other properties speak about, and NewServer starts one. A server whose maps are all nil answers like a new one. An authorization code that is stored under several names can be redeemed once in total, over any history.", "quantifier": "every content of the maps (nil maps, nil pointers, shared objects), every request, clock and random bytes, every history of calls and re-registrations", "why_tests_cant": "The contents a program may give the maps are unbounded, and sharing shows only in later calls; the tests store fresh objects.", "anchors": ["server.go:Server", "server.go:NewServer", "server.go:Server.ServeHTTP", "server.go:Server.Authorize"]}
{"id": "C78", "title": "What passing the conformance suite says about any server", "statement": "Package oauth2test is meant to be run against any server. If its Run passes (no assertion fails, nothing panics), then, whatever the server is made of: every refusal and every answer in a table of requests was asked for, with exactly the credentials, form and path listed, and given with the listed status, error, challenge or redirect; each supported grant gave tokens whose whole life was observed in order (usable, active, revoked, refused, inactive; refresh tokens spent after one use; codes useless to others, refused at their second use and, with replay mitigation, their tokens taken back). A server that cannot give one of these answers does not pass. Nothing else is settled: a server that passes still passes if its answers to requests that were not made are replaced by any others.", "quantifier": "every server (any handler over any kind of state), every specification given to the suite, every initial state, clock and random bytes", "why_tests_cant": "The suite is itself a test; that it would notice a flaw is a statement about all servers it could be run against.", "anchors": ["oauth2test/spec.go:Run", "oauth2test/endpoints.go:TokenEndpointTest", "oauth2test/endpoints.go:AuthorizationEndpointTest", "oauth2test/endpoints.go:RevocationEndpointTest", "oauth2test/endpoints.go:IntrospectionEndpointTest", "oauth2test/endpoints.go:ProtectedResourceTest", "oauth2test/grants.go:PasswordGrantTest", "oauth2test/grants.go:ClientCredentialsGrantTest", "oauth2test/grants.go:ImplicitGrantTest", "oauth2test/grants.go:AuthorizationCodeGrantTest", "oauth2test/grants.go:RefreshTokenGrantTest", "oauth2test/general.go:AccessTokenTest", "oauth2test/general.go:RefreshTokenTest", "oauth2test/utils.go:auth", "oauth2test/utils.go:jsonField"]}
{"id": "C79", "title": "Numbers in extra data are IEEE 754 numbers", "statement": "A number in the extra data of an introspection response is read by a client as the 64-bit floating-point number nearest to what its literal says, the even one of two; the response is an error if and only if the number is too large for the format (in particular tiny numbers become zero and long literals are no error). A float64 that a server puts in the extra data arrives as exactly the same number. An integer arrives as the nearest number of the format, so it arrives unchanged if and only if the format has it, which is so for all integers up to 2^53 in absolute value; larger ones may become equal.", "quantifier": "every number literal of JSON, every finite float64, every integer of 64 bits, every key, limit and fresh response writer", "why_tests_cant": "There are 2^64 numbers and infinitely many literals; rounding, halfway cases, subnormal numbers and the shortest printed form are where such code goes wrong, and only few of them are ever tried.", "anchors": ["introspection.go:IntrospectionResponse.Extra", "introspection.go:WriteIntrospectionResponse", "introspection.go:ParseIntrospectionResponse", "oauth2.go:Write"]}
{"id": "C80", "title": "What the specifications demand of the server, sentence by sentence", "statement": "The server that the library builds does what RFC 6749, RFC 6750, RFC 7009 and RFC 7662 (the specifications named in the README) demand of an authorization server and a protected resource, for about forty sentences of them: for instance codes are used once, expire, are bound to client and redirect URI, and a replay revokes what was issued for the code; only confidential clients get tokens for themselves; responses with tokens are not cached; the scope is told when it is not the requested one; the state comes back unchanged in redirects with a code; empty and unknown parameters make no difference; access is refused with the challenge, status and error code that the situation calls for; a revoked token is out of force; introspection says active only of tokens in force of the asking client. It does not do what about twenty other sentences demand, and each of these is shown by an exchange: form-encoded basic credentials are not decoded, redirect URIs are decoded twice before they are compared, a state in a fragment is escaped twice, a replayed code does not revoke tokens two steps away, an unknown response type is not reported by redirect, client credentials come with a refresh token, wrong passwords are answered with 403 and access_denied, repeated parameters and two ways of authentication are accepted, unsupported_grant_type is not used, malformed codes and tokens are invalid requests, a refreshed refresh token is narrowed, revoking a refresh token leaves its access token, public clients may introspect, expired tokens are active, tokens of other clients are answered with 401, and token_type is not the type of RFC 6749.", "quantifier": "every exchange: every request, every history of requests before it, every configuration, set of clients and users, source of randomness and clock", "why_tests_cant": "Each sentence of a specification speaks about all requests and histories; the conformance suite of the library tries one request of each kind after a fresh start, and passes although twenty sentences are not met.", "anchors": ["README.md", "server.go:Server", "token.go", "authorization.go", "introspection.go", "revocation.go", "error.go"]}
{"id": "C81", "title": "Expiry with Go's times: words of 64 bits, a wall clock that is set, and a monotonic clock", "statement": "As long as nobody sets the wall clock and the monotonic clock does not stop, the server whose times are Go's time.Time (64-bit words, two clock readings) answers every history of requests as if times were exact numbers, for every lifespan that a time.Duration can express; no sum or comparison overflows. If the wall clock is set, to any dates between 1885 and 2157, then tokens and codes that end before March 2157 expire by the monotonic clock alone: all answers but those to introspection are the same however the wall clock is set. Introspection reports the date that the wall clock would have shown at the end, so exp can have passed for a token that Authorize admits, and lie ahead for one that it refuses; past 2157 setting the wall clock back revives tokens.", "quantifier": "every history of calls, all behaviours of the wall clock and of the monotonic clock (arbitrary functions of the instant), every lifespan, every configuration, set of clients and users and source of randomness", "why_tests_cant": "A test runs on one computer for a moment, in which nobody sets the clock, the computer does not sleep and no field of 33 or 64 bits overflows.", "anchors": ["server.go:Server.Authorize", "server.go:Server.ServeHTTP", "server.go:ServerCredential.ExpiresAt", "server.go:ServerConfig"]}
{"id": "C82", "title": "Strangers cannot guess each other's tokens", "statement": "Two parties use one server that starts without tokens; each of them decides its next request as it likes from the answers it has got (it may know the server's secret and all clients' and users' secrets). If no request that one would make alone carries a token or code of a key among the random bytes for the other, then each of them makes exactly the requests and gets exactly the answers that it would make and get if it had the server for itself. Counted over all random bytes the server can obtain, the share with which this fails, or with which any request carries a token or code made of a key drawn for the other party, is at most 4\u00b7m\u00b7n\u00b7F / 256^k, for m and n requests, keys of k bytes, and at most F keys with the same signature.", "quantifier": "every pair of adaptive strategies (arbitrary functions of the answers), every order of their requests, every key length, every configuration, set of clients and users, all clocks, and all random bytes (counted)", "why_tests_cant": "That something cannot be guessed is a statement about all strategies and about the share of all random bytes; a test tries one guess with one source of bytes.", "anchors": ["server.go:Server.ServeHTTP", "server.go:Server.Authorize", "server.go:Server.issueTokens", "hs256.go:GenerateHS256Token", "hs256.go:ParseHS256Token"]}
{"id": "C83", "title": "Measuring time tells nothing about token secrets, but finds passwords", "statement": "Whoever watches which branches are taken and which memory is read while a token is parsed, checked, compared or made learns nothing about the secret except its length, and nothing about the right signature except whether the token is accepted: for two secrets of the same length that accept or both refuse the text, the traces are identical, wherever a forged signature differs from the right one. Hashing in pieces, as the code does, gives the same tokens as hashing in one. The comparisons of client secrets and passwords in the bundled server, in contrast, stop at the first difference: their time tells exactly how many bytes are right, and somebody who measures it finds every password of n bytes within 256\u00b7n attempts.", "quantifier": "every secret, every presented text, every key and signature, every way to cut a message into pieces; every password and attempt, every block size of the comparison; one attack that works for all passwords of a length", "why_tests_cant": "Constant time is a statement about pairs of runs for all pairs of secrets; a test measures a few runs with noise, and cannot show that an attack works for every password.", "anchors": ["hs256.go:ParseHS256Token", "hs256.go:HS256Token.Valid", "hs256.go:HS256Token.Equal", "hs256.go:HS256TokenFromKey", "server.go:Server.handleResourceOwnerPasswordCredentialsGrant", "server.go:Server.tokenEndpoint"]}
{"id": "C84", "title": "What challenges say to a client that reads them as RFC 7235 defines", "statement": "From the WWW-Authenticate header that WriteBearerError writes for an error, a client that follows the grammar of RFC 7235 (tokens, quoted strings with escapes, lists with optional blanks and empty elements, several challenges in one header) can read a Bearer challenge with exactly the error's parameters and values if and only if every value consists of bytes that stand for themselves between quotes (no quote, backslash, DEL or control byte except tab); in that case the text has no other reading. Otherwise it is read as something else or not at all. The challenges of the bundled server's endpoints always say Basic authentication for the realm OAuth2 and nothing else; those of Authorize say the true status's error and nothing else, provided the scope that the program requires is made of such bytes, whatever the request and whatever is stored.", "quantifier": "every error with a three-digit status other than 500; every text and every reading the grammar allows; every server state, request and required scope", "why_tests_cant": "Grammars with optional blanks, empty list elements and several challenges allow many readings of one text; that there is exactly one is a statement about all readings of all texts.", "anchors": ["bearer.go:WriteBearerError", "error.go:Error.Params", "error.go:InvalidClient", "error.go:InsufficientScope", "server.go:Server.Authorize", "server.go:Server.ServeHTTP"]}
{"id": "C85", "title": "Requests and responses survive the connection as bytes", "statement": "Every request and response that is in order by RFC 7230 (any case of field names, any optional blanks, bodies with a length or in chunks of any sizes) is read as what it says, and reading stops exactly where the message ends, so messages that follow each other on a connection are told apart. What is written for a request of the client library or an answer of a handler is in order by RFC 7230 and is read by the other side with the same method, status, body, path and query, and with the same header fields; line breaks in header values become blanks, so no value can end the head, add a field or begin another message. Every answer of the bundled server and every challenge of Authorize arrives byte for byte. The client library's Authenticate, Introspect and Revoke return over such a connection exactly what they would if client and server handed each other requests and answers directly.", "quantifier": "every text the grammar of RFC 7230 allows (without continued lines, chunk extensions and trailers), every sequence of messages and every continuation of the connection; every header, body and way to cut a body into chunks; every server state, call, client configuration whose endpoint URL has a host, no user and no blank in its query, and every client request", "why_tests_cant": "That no header or body can be confused with the bytes that frame messages is a statement about all headers, bodies, spellings and chunkings; tests use recorders without a connection, or a connection with harmless values.", "anchors": ["client.go:Client.Authenticate", "client.go:Client.Introspect", "client.go:Client.Revoke", "server.go:Server.ServeHTTP", "server.go:Server.Authorize", "oauth2.go:WriteRedirect", "oauth2.go:Write", "bearer.go:WriteBearerError", "token.go:BuildTokenRequest"]}
{"id": "C86", "title": "A connection that breaks at any byte never makes half a message a whole one", "statement": "If a request or a response that is in order by RFC 7230 breaks off anywhere before its last byte, then the reader gets nothing, or the head as it was sent, a first part of the body and an error; never a message without error. Of requests that follow each other on a connection that breaks at some byte, a server handles exactly those that got through whole, in order and as they were sent, and besides at most the next one with an error in its body. A request of the client library over a connection that breaks at any byte of the request or of the answer takes full effect on the server or none. Authenticate and Introspect return only what the server answered to the whole request, Revoke returns nil only if the server got the whole request and answered so, and an OAuth2 error they return is one the server reported.", "quantifier": "every request and response text of the grammar and every proper prefix of it; every sequence of requests and every prefix of its bytes; every server state, random bytes, clock, client request, number of bytes of the request and number of bytes of the answer that get through", "why_tests_cant": "A break can fall on any byte of any message, in the head, in a chunk size, in a body or in the last line break; tests break connections at a few points if at all.", "anchors": ["client.go:Client.Authenticate", "client.go:Client.Introspect", "client.go:Client.Revoke", "error.go:ParseRequestError", "server.go:Server.ServeHTTP", "token.go:ParseTokenRequest", "token.go:ParseTokenResponse", "introspection.go:ParseIntrospectionResponse"]}
{"id": "C87", "title": "Many connections, many requests on each: nobody gets another's answer", "statement": "Clients send requests of the client library over any number of connections, any number one after the other on each without waiting for answers, and the server serves the next request of some connection in any order. Then the server ends in the state, and each client reads from its connection exactly the answers, that it would if the requests were handed to the server in that order and the answers to the clients: each client gets the answers to its own requests, in their order, with status, body and header fields. If any of the connections break, each at any byte, the server ends in a state that follows from whole requests only, in the order they were sent. Whatever bytes come in on any number of connections, the server only comes into states that histories of requests lead to, so that all properties of histories hold of servers that are attacked with arbitrary bytes.", "quantifier": "every number of connections, every sequence of library requests on each, every order of turns, all random bytes and clock readings, every way net/http cuts answers and ends connections; every prefix of the bytes of each connection; for the last part all bytes", "why_tests_cant": "That answers on one connection cannot run into each other or into another connection depends on all requests, answers and orders; tests use one connection and one request at a time.", "anchors": ["server.go:Server.ServeHTTP", "client.go:Client.Authenticate", "client.go:Client.Introspect", "client.go:Client.Revoke"]}
{"id": "C88", "title": "Exceptions are as rare as keys that repeat", "statement": "Whatever calls are made, each chosen in any way from the answers to the calls before (by clients, strangers and the embedding program together, who may know all secrets): counted over all the random bytes the server can obtain for n calls, the share with which a key repeats or two keys have the same signature is at most n(2n-1)F / 256^k, for keys of k bytes of which at most F have the same signature. With all other random bytes tokens live and die without exceptions: a token handed out is in force, and an access token admitted, exactly until it is revoked, its code is replayed or, for refresh tokens, it is used; no refresh token is used twice and no code redeemed twice; what was taken away never comes back.", "quantifier": "every adaptive sequence of calls (an arbitrary function of the answers), every number of calls, key length, configuration, set of clients and users, all clocks, and all random bytes (counted)", "why_tests_cant": "It is a statement about the share of all random bytes for which no sequence of calls, however chosen, meets an exception; a test sees one choice of random bytes, and repetitions of keys are too rare to be met.", "anchors": ["server.go:Server.issueTokens", "server.go:ServerConfig.MustGenerate", "hs256.go:GenerateHS256Token", "server.go:Server.ServeHTTP", "server.go:Server.Authorize"]}
{"id": "C89", "title": "Where redirects lead, and what is sent along", "statement": "When a server answers a call of the client with a redirect, the next request goes where RFC 3986 says the location leads from the address of the previous request, and never to a path with segments of dots. Credentials in headers are sent along to the same machine and port and to subdomains of its name and to no other site, until a request has left the site; the first request that does carries none of them, unless the location itself names a user. A location without scheme and authority stays on the site. The next request says of the previous one its address without user and password, and nothing when the way leads from https to http. What a user might not expect: with status 307 the form, with passwords and secrets in it, is sent to the other site, also without TLS.", "quantifier": "every address of a call, every location, network and chain of redirects, every method of converting names that are not ASCII", "why_tests_cant": "Locations are arbitrary texts chosen by the other side: that no spelling of one leads to another place than the standard says, or gets credentials to another site, is a statement about all of them and all chains.", "anchors": ["client.go:Client.Authenticate", "client.go:Client.Introspect", "client.go:Client.Revoke", "client.go:NewClientWithClient"]}
{"id": "C90", "title": "Countermeasures of RFC 6819", "statement": "The bundled server takes these countermeasures of the OAuth 2.0 threat model (RFC 6819): tokens and codes are made of as many random bytes as configured, 16 by default, and the access and refresh token of an answer share none of them; they expire; codes and refresh tokens are good for one use and bound to client and redirect URI; refreshing replaces the refresh token; forged tokens are refused; no token has more scope than the server allows; tokens are accepted in the header only; the authorization endpoint hands out nothing without a user's password and redirects to registered URIs only; answers with tokens are not cached; and tokens and codes are kept as HMACs only. It does not take these: a replaced refresh token that turns up again does not revoke its successors, pages may be framed, and neither users nor clients are locked out after failed attempts.", "quantifier": "every configuration, registered clients and users, every history of requests before and every request", "why_tests_cant": "Each countermeasure has to hold against an attacker who chooses the requests and their order; that a lockout does not exist for any number of attempts, and that nothing else of the random bytes is kept, are statements about all of them.", "anchors": ["server.go:Server.authorizationEndpoint", "server.go:Server.tokenEndpoint", "server.go:Server.Authorize", "server.go:Server.issueTokens", "hs256.go:GenerateHS256Token"]}
{"id": "C91", "title": "Restarts, several servers, and changes of configuration", "statement": "The program around a server may exchange its configuration between calls, start another server, or copy one. Whoever is admitted, through all such changes, presents a token that this very server has handed out, within the lifespan that was configured when it did, and for a scope that some configuration had allowed. With another secret all tokens and codes made with the old one are refused (as far as the two secrets do not make the same HMACs), and when the old secret is put back those that are still in force work again. Narrowing the allowed scope takes nothing back: access tokens are still admitted, and codes and refresh tokens still worth new tokens, as before. What a server has handed out is worth nothing to a server that is started in its place or beside it, even with the same secret, clients and users. A copy that is taken while the mutex is free goes on where the calls so far have led; one that is taken in the middle of a call may contain half of the call, such as the tokens for a code without the note that the code is used.", "quantifier": "every sequence of calls and new configurations, every concurrent run before the copy or the end of a server, every configuration, key and call after", "why_tests_cant": "When a configuration is exchanged, when a process dies and when a copy is taken relative to the calls are choices without end, and so is what happens between; tests run one server with one configuration from its start.", "anchors": ["server.go:Server", "server.go:ServerConfig", "server.go:NewServer", "server.go:Server.Authorize", "server.go:Server.ServeHTTP", "server.go:Server.handleRefreshTokenGrant"]}
{"id": "C92", "title": "Time counts by differences and by what has expired", "statement": "When everything that is done to a server is done earlier or later by the same span, all answers are the same, except that introspection tells times of expiry that are moved by that span. Of the time at which a call is made, it counts only which of the stored tokens and codes have expired by then: two calls that differ in their clock readings get the same answer when the same have expired. And earlier is never worse: who is admitted or given tokens by a server in some state would be so at any earlier time.", "quantifier": "every server state or history, every call, every span of time in either direction, every sequence of clock readings", "why_tests_cant": "Tests run at the time at which they run; that no date, no size of the clock and no pace of it changes an answer is a statement about all clock readings.", "anchors": ["server.go:Server.Authorize", "server.go:Server.handleAuthorizationCodeGrant", "server.go:Server.handleRefreshTokenGrant", "server.go:Server.introspectionEndpoint", "server.go:Server.issueTokens"]}
{"id": "C93", "title": "Constructors make what their names say", "statement": "An error made by one of the functions named after the errors of the specifications is, however it leaves the process, the error its name says: written as a document it has the status of its kind and reads back with the name of its kind, the given description and nothing else, with a Basic challenge for invalid clients only; redirected it carries name, description and state and nothing else; as a bearer challenge it carries name and description, or the necessary scope, or nothing but a realm; printed it is name and description, from which both can be told. Token, code and introspection responses made by their functions carry the values they were made from, each in its place, and nothing else.", "quantifier": "every such function, every description, scope, token, token type, lifetime, code, client, user and state, every absolute redirect URI, query or fragment", "why_tests_cant": "Tests look at a few errors with fixed descriptions in one of the three ways out; that no description and no way out changes the name, the status or adds a field is a statement about all of them.", "anchors": ["error.go:InvalidRequest", "error.go:InvalidClient", "error.go:InvalidGrant", "error.go:InvalidScope", "error.go:InvalidToken", "error.go:UnauthorizedClient", "error.go:UnsupportedGrantType", "error.go:UnsupportedResponseType", "error.go:UnsupportedTokenType", "error.go:ProtectedResource", "error.go:InsufficientScope", "error.go:AccessDenied", "error.go:ServerError", "error.go:TemporarilyUnavailable", "error.go:WriteError", "bearer.go:WriteBearerError", "token.go:NewTokenResponse", "bearer.go:NewBearerTokenResponse", "code.go:NewCodeResponse", "introspection.go:NewIntrospectionResponse"]}
{"id": "C94", "title": "Malformed framing is refused", "statement": "Whatever bytes arrive on a connection: what the server takes for a request, and what the client takes for a response, was one that is in order by RFC 7230 with the leniency it allows, namely a first line, fields that each have a name and a value, and a body that ends where the fields say; and it says what these bytes say. A message whose fields do not say how long its body is, or say so in two ways (several or unknown transfer codings, lengths that differ or are no numbers), is refused whatever follows. Bytes start with one message at most, so that no two readers that keep to the rules see different messages in them; and every message in order is read as such and nothing beyond it.", "quantifier": "every sequence of bytes, every head, line ending, folded line, chunk extension and trailer", "why_tests_cant": "Request smuggling lives in the inputs nobody thought of testing; that everything accepted is in order is a statement about all byte sequences.", "anchors": ["server.go:Server.ServeHTTP", "server.go:Server.Authorize", "client.go:Client.Authenticate", "client.go:Client.Introspect", "client.go:Client.Revoke"]}
{"id": "C95", "title": "Requests whose form the program has already looked at", "statement": "A program may look at the form of a request (with ParseForm, FormValue or one of the Parse functions) before it leaves the request to the server. Looking twice changes nothing. If the form could be read, every Parse function and the server treat the request as they would have treated it untouched. In general only the known values count: the Parse functions accept the request exactly if these values have what is needed, and the server reads nothing of query, body and content type as they arrived. If the program ignored an error when it looked, the request is therefore answered like one in order that consists of the well-formed pairs alone, where the untouched request would have been refused; but a body that breaks off, is larger than 10 MB or is no form is refused by the token, introspection and revocation endpoints even then.", "quantifier": "every request, every form and query however malformed, every set of values known beforehand, every state of the server", "why_tests_cant": "Tests hand fresh requests to the library; what earlier handlers may leave in a request is an unbounded set of values, and that nothing else is read is a statement about all pairs of requests.", "anchors": ["token.go:ParseTokenRequest", "authorization.go:ParseAuthorizationRequest", "introspection.go:ParseIntrospectionRequest", "revocation.go:ParseRevocationRequest", "server.go:Server.ServeHTTP"]}
{"id": "C96", "title": "Who has to wait for whom when clients are slow", "statement": "ServeHTTP takes the mutex of the server before it reads the body of the request. While one call waits for a body, no other call of ServeHTTP or Authorize is answered and nothing in the server changes, whatever calls are made and whatever other bodies arrive; anybody can bring this about at any time, without credentials, by announcing a form to one of the four endpoints and not sending it. Nothing else holds up the server: otherwise some call can go on, and once all bodies that are read have arrived every call is answered. Which bodies are read is known from path, method, content type and whether the form has been parsed; those that are not read have no influence on the answer. What is answered is not affected by slow bodies: it looks as if the calls had been made one after the other. A program that parses all forms before it calls the server is never held up.", "quantifier": "every number of calls, every schedule, every order in which bodies arrive or do not, every state of the server", "why_tests_cant": "That nobody is answered, however long one waits and whatever else happens, and that nothing else can hold up the server, are statements about all infinite schedules.", "anchors": ["server.go:Server.ServeHTTP", "server.go:Server.Authorize", "server.go:Server.Mutex", "token.go:ParseTokenRequest", "authorization.go:ParseAuthorizationRequest", "introspection.go:ParseIntrospectionRequest", "revocation.go:ParseRevocationRequest"]}
{"id": "C97", "title": "Every call is answered, however many others are made", "statement": "In a server that runs for ever and gets calls without end, every call of ServeHTTP and Authorize is answered some time, if goroutines that can go on are let go on, the mutex starves nobody that finds it free again and again, and every body that is read arrives or ends some time. None of the three can be left out: without each of them there is a run that meets the other two and in which a call is never answered. For every sequence of calls there is a run that meets all three and makes all of them.", "quantifier": "every infinite run: every infinite set of calls, every schedule, every order in which bodies arrive, every initial state of the server", "why_tests_cant": "That something happens eventually cannot be seen in any finite run, and fairness is a property of infinite ones.", "anchors": ["server.go:Server.ServeHTTP", "server.go:Server.Authorize", "server.go:Server.Mutex"]}
{"id": "C98", "title": "Nothing of a request comes back in a refusal", "statement": "Whatever a request says and whatever the server stores: a request to an existing endpoint that is neither served nor redirected is answered with one of 51 fixed documents (an endpoint, an error and its description), with the status that goes with the error and no headers but the fixed ones, and each of the 51 is the answer to some request. A body of an answer other than success is never longer than 100 bytes. Somebody turned away by Authorize gets one of five fixed challenges or is told the scope the program asked for, with no other header and no body. (That does not go for grants: a client that may have tokens can make an answer about as long as a form may be, by repeating a scope.) So no value of a request, no stored value and no parser message is reflected to somebody who is refused.", "quantifier": "every state of the server, every request however long or malformed, every clock and source of randomness, every required scope", "why_tests_cant": "That no input whatsoever is echoed is a statement about all inputs; tests look for the inputs they thought of.", "anchors": ["server.go:Server.ServeHTTP", "server.go:Server.Authorize", "error.go:WriteError", "bearer.go:WriteBearerError", "authorization.go:ParseAuthorizationRequest", "token.go:ParseTokenRequest", "introspection.go:ParseIntrospectionRequest", "revocation.go:ParseRevocationRequest", "hs256.go:ParseHS256Token"]}
{"id": "C99", "title": "How much the server stores", "statement": "A call adds at most one access token and at most one refresh token or authorization code to what the server stores, and none at all unless it is answered with success or a redirect; so after any history of calls the number of stored access tokens, and the number of stored refresh tokens and codes together, is at most the number of calls answered with success or a redirect. Somebody who makes the server store more has the password of a user, the secret of a confidential client, an unused code or a stored refresh token. A granted password request adds exactly one access token and one refresh token. Refreshing never makes the refresh tokens more, but the access tokens are all kept. Nothing goes by itself, whatever the clock says: only revocations and codes that turn up again make the entries fewer, apart from a refresh whose new tokens both have signatures that are stored already.", "quantifier": "every state of the server, every call, every history of calls since the start, every clock and source of randomness", "why_tests_cant": "The bound is about histories of any length and with any mixture of calls; a test counts entries after a few calls.", "anchors": ["server.go:Server.ServeHTTP", "server.go:Server.issueTokens", "server.go:Server.handleAuthorizationCodeGrant", "server.go:Server.handleRefreshTokenGrant", "server.go:Server.revokeToken", "server.go:Server.AccessTokens"]}
{"id": "C100", "title": "Names are only names", "statement": "No client and no user is special, and no name or secret: when the clients and users are registered under other names and with other secrets and passwords, different ones staying different, and all calls use these instead, then every call is answered the same way, with the same tokens and codes, and in the end the same is stored, up to the names. Only the description of a token by the introspection endpoint carries the other names.", "quantifier": "every injective exchange of client names, client secrets, user names and passwords, every state of the server, every call and every sequence of calls, every clock and source of randomness", "why_tests_cant": "It is a statement about all names and about pairs of whole histories; a test uses a few names.", "anchors": ["server.go:Server.ServeHTTP", "server.go:Server.Authorize", "server.go:Server.Clients", "server.go:Server.Users", "token.go:ParseTokenRequest", "token.go:BuildTokenRequest", "authorization.go:ParseAuthorizationRequest", "introspection.go:ParseIntrospectionRequest", "revocation.go:ParseRevocationRequest"]}
{"id": "C101", "title": "The order of unrelated calls makes no difference", "statement": "Take any number of calls of which none changes the registered clients and users, no two carry or hand out the same token or code, and none replays a code for which a token was issued that another carries. Made one after the other, each gets exactly the answer that it would get if it were the only one; in whatever order they are made, the server holds the same clients, users, tokens and codes afterwards and answers everything that comes later alike. Made at the same time, on any number of goroutines and under any schedule, each gets the answer it would get alone, and what the server then holds is the same as after making them one after the other.", "quantifier": "every state of the server, every number of calls, every order of them, every schedule of goroutines, every sequence of later calls, every clock and source of randomness", "why_tests_cant": "There are n! orders of n calls and far more schedules; a hidden interaction between users or clients (a shared counter, a deletion that goes too far) shows only in some of them.", "anchors": ["server.go:Server.ServeHTTP", "server.go:Server.Authorize", "server.go:Server.issueTokens", "server.go:Server.handleAuthorizationCodeGrant", "server.go:Server.handleRefreshTokenGrant", "server.go:Server.revokeToken"]}
{"id": "C102", "title": "What has expired may be removed from the public maps", "statement": "A program may at any time remove expired access and refresh tokens, and expired authorization codes that were not redeemed, from the public maps of its server. Every call that comes later, however many, is then answered as if nothing had been removed, except that a refusal says 'unknown' instead of 'expired', that introspection no longer describes the removed token and that revocation no longer says that it belongs to another client. The same tokens and codes are handed out, the same requests are admitted, and all other entries are the same afterwards. Redeemed codes are different: removing one that has expired makes its replay go unnoticed. No signature ever gets into two of the maps, as long as what is handed out is new.", "quantifier": "every state of the server, every set of expired entries that is removed, every sequence of later calls, every clock that does not go back before the time of removal, every source of randomness that does not draw a removed signature again", "why_tests_cant": "The server never removes what has expired, so a long-running program has to; whether it may depends on every later request, in particular on the order of the checks in each endpoint, and not on a few requests after one removal.", "anchors": ["server.go:Server.AccessTokens", "server.go:Server.RefreshTokens", "server.go:Server.AuthorizationCodes", "server.go:Server.Authorize", "server.go:Server.handleAuthorizationCodeGrant", "server.go:Server.handleRefreshTokenGrant", "server.go:Server.revocationEndpoint", "server.go:Server.introspectionEndpoint"]}
{"id": "C103", "title": "Nothing a request contains becomes markup", "statement": "Whatever bytes a request, an error or a response contains, what WriteError, WriteTokenResponse and WriteIntrospectionResponse add to the body of the response is nothing, or one line of valid UTF-8 without control characters, without <, > and & and without the line separators U+2028 and U+2029. WriteCodeResponse and WriteBearerError add nothing. Every response of the server has a body of such text, in lines, and a request that Authorize rejects gets no body. So no response can be read as markup or end a script it is put into, even by a browser that ignores its content type.", "quantifier": "every error, token response, introspection response with any nested extra data, every scope, every state of the server and every request, every state of the response writer", "why_tests_cant": "Every byte string in every field counts, including invalid UTF-8 and nested extra data; one field that is written by another way than the encoder is enough for an injection.", "anchors": ["oauth2.go:Write", "error.go:WriteError", "token.go:WriteTokenResponse", "introspection.go:WriteIntrospectionResponse", "code.go:WriteCodeResponse", "bearer.go:WriteBearerError", "scope.go:Scope.MarshalJSON", "server.go:Server.ServeHTTP", "server.go:Server.Authorize"]}
{"id": "C104", "title": "Asking for less is never refused", "statement": "If a request is admitted by Authorize, it is also admitted when fewer scopes are required of it. If a token or authorization request is given an access token, a refresh token or a code, the same request for fewer scopes, made no later and with the same random bytes, is given the same. Both also hold if the server allows more scopes. So the order in which scopes are listed and their repetition make no difference to what is granted, and a client may always drop a scope it does not need.", "quantifier": "every state of the server, every pair of requests of which the second asks for no more than the first, every clock that is not later, every larger set of allowed scopes", "why_tests_cant": "Compares two runs, for every pair of scopes and every state; a test compares a few pairs it lists.", "anchors": ["server.go:Server.Authorize", "server.go:Server.authorizationEndpoint", "server.go:Server.tokenEndpoint", "server.go:Server.handleRefreshTokenGrant", "scope.go:Scope.Includes", "scope.go:Scope.Empty"]}
{"id": "C105", "title": "What removing a client or a user takes away, and what it does not", "statement": "When the program removes a client from the map of clients, every later request in its name is refused, gives nothing and changes nothing; when it removes a user, no request with their password gives or changes anything. Nothing else is affected: Authorize does not look at clients and users, so access tokens are admitted as before, and a user's codes and refresh tokens are worth tokens as before, call after call. When the name of a client is registered again, the server is as if it had been registered all the time, so what the client had works for the one to whom the name then belongs. Which other clients and users are registered makes no difference to any call.", "quantifier": "every state and history of the server, every request, every set of registered clients and users, every name that is removed", "why_tests_cant": "Says that nothing else depends on the registration, for every request and every later history; a program that relies on removal to lock somebody out has to know exactly what stays.", "anchors": ["server.go:Server.Clients", "server.go:Server.Users", "server.go:Server.Authorize", "server.go:Server.ServeHTTP", "server.go:Server.tokenEndpoint", "server.go:Server.authorizationEndpoint", "server.go:Server.handleRefreshTokenGrant", "server.go:Server.handleAuthorizationCodeGrant", "server.go:Server.introspectionEndpoint", "server.go:Server.revocationEndpoint"]}
{"id": "C106", "title": "What happens when a request is made again", "statement": "A client that lost an answer may make the same request again. A refresh request that was granted is then refused and changes nothing, so what the first was given stays in force. A code that was exchanged gives nothing the second time, and the access token and the refresh token that the first request was given stop working. A request with a user's password or a client's secret, and a submitted authorization request, are granted again as long as there is randomness, and what the first was given stays as it is unless the second is given a token or a code with the same signature.", "quantifier": "every state of the server, every granted request, every time and every random bytes of the repetition", "why_tests_cant": "Says what the second of two equal requests does in every state and at every time; retries happen when answers are lost, which tests do not arrange.", "anchors": ["server.go:Server.handleRefreshTokenGrant", "server.go:Server.handleAuthorizationCodeGrant", "server.go:Server.handleResourceOwnerPasswordCredentialsGrant", "server.go:Server.handleClientCredentialsGrant", "server.go:Server.handleImplicitGrant", "server.go:Server.handleAuthorizationCodeGrantAuthorization"]}
{"id": "C107", "title": "Tokens of one kind are worth nothing as another", "statement": "Access tokens, refresh tokens and authorization codes look alike and are signed with the same secret. Yet what was handed out as one of them is worth nothing as another: a refresh token or a code used as a bearer token is not admitted, an access token or a code used as a refresh token refreshes nothing, and an access token or a refresh token used as a code is not exchanged. Such a use is given nothing and changes nothing, however the token is spelled, unless a token of the other kind was handed out with the same signature. Revoking a code changes nothing either.", "quantifier": "every history of a started server, every two kinds, every token handed out and every spelling of it, every call that uses it", "why_tests_cant": "Ranges over every history and every token; only the maps of the server tell the kinds apart, and a test tries few of the combinations.", "anchors": ["server.go:Server.Authorize", "server.go:Server.handleRefreshTokenGrant", "server.go:Server.handleAuthorizationCodeGrant", "server.go:Server.revocationEndpoint", "hs256.go:ParseHS256Token"]}
{"id": "C108", "title": "A refusal is final", "statement": "A bearer token that Authorize does not admit is not admitted at any later time when no less is required of it, whatever calls are made in between. A refresh request or the exchange of a code that is refused, though the client identifies itself and there is randomness, gives nothing at any later time when the same client asks for no less. The only exception is that a token of that kind with the same signature is handed out in between. So trying again and waiting never help.", "quantifier": "every server whose maps hold anything, every history from there, every text presented, every later time and every wider scope", "why_tests_cant": "Excludes that any sequence of calls of any length brings a token back; tests can only try some.", "anchors": ["server.go:Server.Authorize", "server.go:Server.handleRefreshTokenGrant", "server.go:Server.handleAuthorizationCodeGrant"]}
{"id": "C109", "title": "Introspection and Authorize agree", "statement": "A resource server may call Authorize or may introspect a token and decide by the answer, as RFC 7662 has it: the token is active, is an access token, its exp has not passed by the second, and it has the required scope. Whatever Authorize admits is then admitted by the answer too, and whatever is admitted by the answer is admitted by Authorize, except in the second in which the token expires. The only other exception is a token whose signature is also that of a refresh token, which is described instead. Likewise a client that introspects its refresh token learns exactly which refresh requests will be granted, again except in the last second.", "quantifier": "every server whose stored tokens have scopes and expiry times that JSON transports, every token text, every required scope, every time, every introspection request that is answered", "why_tests_cant": "Compares two ways of deciding over all tokens, scopes and times, including the last second; tests compare single cases.", "anchors": ["server.go:Server.Authorize", "server.go:Server.introspectionEndpoint", "introspection.go:WriteIntrospectionResponse", "introspection.go:ParseIntrospectionResponse", "server.go:Server.handleRefreshTokenGrant"]}

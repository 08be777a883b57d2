import Verif.Model.Server
/-
server.go once more, with the pointers and nil maps that Verif/Model/Server.lean leaves out. The
maps of `Server` hold pointers: an entry may be nil, two entries may point to one object, and a map
that was never made is nil.

Simplification: the five maps are five different maps (a program could assign one map to two of the
fields).
-/

namespace OAuth2

/-- Go: `*ServerEntity` or `*ServerCredential` (server.go:59-63): nil, or the address of an
object. -/
abbrev Ptr := Option Nat

/-- Go: `map[string]*ServerEntity` or `map[string]*ServerCredential` (server.go:59-63); `none` is
the nil map. -/
abbrev RefMap := Option (GoMap Ptr)

/-- The two results of `m[k]` in one: the pointer found. A nil map has no entries. For example
server.go:168. -/
def RefMap.lookup (m : RefMap) (k : Str) : Option Ptr := GoMap.get? (Option.getD m []) k

/-- Go: `delete(m, k)`, which does nothing to a nil map. For example server.go:443. -/
def RefMap.delete (m : RefMap) (k : Str) : RefMap := Option.map (fun m => GoMap.del m k) m

/-- server.go:57-65, with the objects the maps point to: an address is a position in `entities` or
`credentials`. -/
structure RefServer where
  config : ServerConfig
  clients : RefMap := none
  users : RefMap := none
  accessTokens : RefMap := none
  refreshTokens : RefMap := none
  authorizationCodes : RefMap := none
  entities : List ServerEntity := []
  credentials : List ServerCredential := []
  deriving DecidableEq

namespace RefServer

/-- server.go:68-77 `NewServer`. -/
def new (config : ServerConfig) : RefServer where
  config := config
  clients := some []
  users := some []
  accessTokens := some []
  refreshTokens := some []
  authorizationCodes := some []

/-- The object a pointer points to. Auxiliary; Go: `*p` for a `*ServerEntity` (server.go:59-60).
Go has no dangling pointers; here they count as nil. -/
def entity (s : RefServer) (p : Ptr) : Option ServerEntity := p.bind fun a => s.entities[a]?

/-- The object a pointer points to. Auxiliary; Go: `*p` for a `*ServerCredential`
(server.go:61-63). -/
def credential (s : RefServer) (p : Ptr) : Option ServerCredential :=
  p.bind fun a => s.credentials[a]?

/-- A handler of the server. server.go:124 and the methods it calls. -/
abbrev Handler := Prog RefServer

/-- Go: reading a field of a `*ServerEntity`, for example server.go:175; a nil pointer panics.
Simplification: all fields a handler reads are read at once; the mutex is held. -/
def loadEntity (p : Ptr) : Handler ServerEntity := do
  let s ← .getS
  match s.entity p with
  | none => .panic
  | some e => return e

/-- Go: reading a field of a `*ServerCredential`, for example server.go:108; a nil pointer panics.
Simplification: all fields a handler reads are read at once; the mutex is held. -/
def loadCredential (p : Ptr) : Handler ServerCredential := do
  let s ← .getS
  match s.credential p with
  | none => .panic
  | some c => return c

/-- Go: `p.Used = true` (server.go:395). -/
def markUsed (p : Ptr) : Handler Unit := do
  let s ← .getS
  match s.credential p with
  | none => .panic
  | some _ => .modifyS fun s => { s with
      credentials := s.credentials.modify (p.getD 0) fun c => { c with used := true } }

/-- Go: `s.AccessTokens[k] = &c` (server.go:608-614); assigning to a nil map panics. -/
def putAccessToken (k : Str) (c : ServerCredential) : Handler Unit := do
  let s ← .getS
  match s.accessTokens with
  | none => .panic
  | some m => .modifyS fun s => { s with
      accessTokens := some (m.set k (some s.credentials.length))
      credentials := s.credentials ++ [c] }

/-- Go: `s.RefreshTokens[k] = &c` (server.go:618-624); assigning to a nil map panics. -/
def putRefreshToken (k : Str) (c : ServerCredential) : Handler Unit := do
  let s ← .getS
  match s.refreshTokens with
  | none => .panic
  | some m => .modifyS fun s => { s with
      refreshTokens := some (m.set k (some s.credentials.length))
      credentials := s.credentials ++ [c] }

/-- Go: `s.AuthorizationCodes[k] = &c` (server.go:245-251); assigning to a nil map panics. -/
def putAuthorizationCode (k : Str) (c : ServerCredential) : Handler Unit := do
  let s ← .getS
  match s.authorizationCodes with
  | none => .panic
  | some m => .modifyS fun s => { s with
      authorizationCodes := some (m.set k (some s.credentials.length))
      credentials := s.credentials ++ [c] }

/-- server.go:630-644 `revokeToken` on `s.AccessTokens` (`access = true`) or `s.RefreshTokens`. -/
def revokeToken (clientID : Str) (access : Bool) (signature : Str) : Handler Unit := do
  let s ← .getS
  match (if access then s.accessTokens else s.refreshTokens).lookup signature with
  | none => return ()
  | some p => do
    let token ← loadCredential p
    if token.clientID ≠ clientID then return ()
    else if access then
      .modifyS fun s => { s with accessTokens := s.accessTokens.delete signature }
    else
      .modifyS fun s => { s with refreshTokens := s.refreshTokens.delete signature }

/-- server.go:586-628 `issueTokens`. -/
def issueTokens (issueRefreshToken : Bool) (scope : Scope) (clientID username code : Str) :
    Handler TokenResponse := do
  let s ← .getS
  let accessToken ← s.config.mustGenerate
  let refreshToken ← (if issueRefreshToken then do
      let s ← .getS
      let t ← s.config.mustGenerate
      return some t
    else return none : Handler (Option HS256Token))
  let s ← .getS
  let r := newBearerTokenResponse accessToken.string (s.config.accessTokenLifespan.tdiv second)
  let r := { r with scope := scope }
  let r := match refreshToken with
    | some t => { r with refreshToken := t.string }
    | none => r
  let now ← .timeNow
  putAccessToken accessToken.signatureString {
    clientID := clientID, username := username,
    expiresAt := now + s.config.accessTokenLifespan, scope := scope, code := code }
  match refreshToken with
  | none => return r
  | some t => do
    let s ← .getS
    let now ← .timeNow
    putRefreshToken t.signatureString {
      clientID := clientID, username := username,
      expiresAt := now + s.config.refreshTokenLifespan, scope := scope, code := code }
    return r

/-- Discard the error a writer returns (`_ = WriteError(...)`). For example server.go:157. -/
def ignore (p : Handler Bool) : Handler Unit := do
  let _ ← p
  return ()

/-- `_ = WriteError(w, e)`. For example server.go:157. -/
def fail (e : Error) : Handler Unit := ignore (writeError (.oauth e))

/-- `_ = WriteBearerError(w, e)`. For example server.go:89. -/
def failBearer (e : Error) : Handler Unit := ignore (writeBearerError (.oauth e))

/-- `owner, found := s.Users[username]; found && owner.Secret == password`: server.go:208-209,
232-233 and 299-300. -/
def checkUser (username password : Str) : Handler Bool := do
  let s ← .getS
  match s.users.lookup username with
  | none => return false
  | some p => do
    let owner ← loadEntity p
    return owner.secret = password

/-- server.go:200-222 `handleImplicitGrant`. -/
def handleImplicitGrant (username password : Str) (rq : AuthorizationRequest) : Handler Unit := do
  let s ← .getS
  if !s.config.allowedScope.includes rq.scope then
    fail ((invalidScope []).setRedirect rq.redirectURI rq.state true)
  else do
    let ok ← checkUser username password
    if !ok then fail ((accessDenied []).setRedirect rq.redirectURI rq.state true)
    else do
      let r ← issueTokens false rq.scope rq.clientID username []
      let r := r.setRedirect rq.redirectURI rq.state
      ignore (writeTokenResponse r)

/-- server.go:224-255 `handleAuthorizationCodeGrantAuthorization`. -/
def handleAuthorizationCodeGrantAuthorization (username password : Str)
    (rq : AuthorizationRequest) : Handler Unit := do
  let s ← .getS
  if !s.config.allowedScope.includes rq.scope then
    fail ((invalidScope []).setRedirect rq.redirectURI rq.state false)
  else do
    let ok ← checkUser username password
    if !ok then fail ((accessDenied []).setRedirect rq.redirectURI rq.state false)
    else do
      let s ← .getS
      let authorizationCode ← s.config.mustGenerate
      let r := newCodeResponse authorizationCode.string rq.redirectURI rq.state
      let s ← .getS
      let now ← .timeNow
      putAuthorizationCode authorizationCode.signatureString {
        clientID := rq.clientID, username := username,
        expiresAt := now + s.config.authorizationCodeLifespan, scope := rq.scope,
        redirectURI := rq.redirectURI }
      ignore (writeCodeResponse r)

/-- server.go:153-198 `authorizationEndpoint`. -/
def authorizationEndpoint (r : Request) : Handler Unit := do
  match parseAuthorizationRequest r with
  | .error err => fail err
  | .ok req =>
    if !knownResponseType req.responseType then fail (invalidRequest b!"unknown response type")
    else do
      let s ← .getS
      match s.clients.lookup req.clientID with
      | none => fail (invalidClient b!"unknown client")
      | some p => do
        let client ← loadEntity p
        if client.redirectURI ≠ req.redirectURI then fail (invalidRequest b!"invalid redirect URI")
        else if r.method = b!"GET" then .respond (·.write Server.notice)
        else
          let post : Values := r.parseForm.1.postForm.getD []
          let username := post.get b!"username"
          let password := post.get b!"password"
          if req.responseType = TokenResponseType then handleImplicitGrant username password req
          else if req.responseType = CodeResponseType then
            handleAuthorizationCodeGrantAuthorization username password req
          else return ()

/-- server.go:297-316 `handleResourceOwnerPasswordCredentialsGrant`. -/
def handleResourceOwnerPasswordCredentialsGrant (rq : TokenRequest) : Handler Unit := do
  let ok ← checkUser rq.username rq.password
  if !ok then fail (accessDenied [])
  else do
    let s ← .getS
    if !s.config.allowedScope.includes rq.scope then fail (invalidScope [])
    else do
      let r ← issueTokens true rq.scope rq.clientID rq.username []
      ignore (writeTokenResponse r)

/-- server.go:318-336 `handleClientCredentialsGrant`. A missing entry is a nil pointer. -/
def handleClientCredentialsGrant (rq : TokenRequest) : Handler Unit := do
  let s ← .getS
  let client ← loadEntity ((s.clients.lookup rq.clientID).getD none)
  if !client.confidential then fail (invalidClient b!"unknown client")
  else do
    let s ← .getS
    if !s.config.allowedScope.includes rq.scope then fail (invalidScope [])
    else do
      let r ← issueTokens true rq.scope rq.clientID [] []
      ignore (writeTokenResponse r)

/-- server.go:356-360: the loop over `s.AccessTokens`, in its iteration order. -/
def deleteAccessTokens (code : Str) : GoMap Ptr → Handler Unit
  | [] => return ()
  | (key, p) :: rest => do
    let token ← loadCredential p
    if token.code = code then
      .modifyS fun s => { s with accessTokens := s.accessTokens.delete key }
    else pure ()
    deleteAccessTokens code rest

/-- server.go:363-367: the loop over `s.RefreshTokens`, in its iteration order. -/
def deleteRefreshTokens (code : Str) : GoMap Ptr → Handler Unit
  | [] => return ()
  | (key, p) :: rest => do
    let token ← loadCredential p
    if token.code = code then
      .modifyS fun s => { s with refreshTokens := s.refreshTokens.delete key }
    else pure ()
    deleteRefreshTokens code rest

/-- server.go:338-399 `handleAuthorizationCodeGrant`. -/
def handleAuthorizationCodeGrant (rq : TokenRequest) : Handler Unit := do
  let s ← .getS
  match HS256Token.parse s.config.secret rq.code with
  | .error err => fail (invalidRequest err)
  | .ok authorizationCode => do
    let s ← .getS
    match s.authorizationCodes.lookup authorizationCode.signatureString with
    | none => fail (invalidGrant b!"unknown authorization code")
    | some p => do
      let storedAuthorizationCode ← loadCredential p
      if storedAuthorizationCode.used then do
        let s ← .getS
        deleteAccessTokens authorizationCode.signatureString (s.accessTokens.getD [])
        let s ← .getS
        deleteRefreshTokens authorizationCode.signatureString (s.refreshTokens.getD [])
        fail (invalidGrant b!"unknown authorization code")
      else do
        let now ← .timeNow
        if storedAuthorizationCode.expiresAt.before now then
          fail (invalidGrant b!"expired authorization code")
        else if storedAuthorizationCode.clientID ≠ rq.clientID then
          fail (invalidGrant b!"invalid authorization code ownership")
        else if storedAuthorizationCode.redirectURI ≠ rq.redirectURI then
          fail (invalidGrant b!"changed redirect uri")
        else do
          let r ← issueTokens true storedAuthorizationCode.scope rq.clientID
            storedAuthorizationCode.username authorizationCode.signatureString
          markUsed p
          ignore (writeTokenResponse r)

/-- server.go:401-447 `handleRefreshTokenGrant`. -/
def handleRefreshTokenGrant (rq : TokenRequest) : Handler Unit := do
  let s ← .getS
  match HS256Token.parse s.config.secret rq.refreshToken with
  | .error err => fail (invalidRequest err)
  | .ok refreshToken => do
    let s ← .getS
    match s.refreshTokens.lookup refreshToken.signatureString with
    | none => fail (invalidGrant b!"unknown refresh token")
    | some p => do
      let storedRefreshToken ← loadCredential p
      let now ← .timeNow
      if storedRefreshToken.expiresAt.before now then
        fail (invalidGrant b!"expired refresh token")
      else if storedRefreshToken.clientID ≠ rq.clientID then
        fail (invalidGrant b!"invalid refresh token ownership")
      else
        let scope := if rq.scope.empty then storedRefreshToken.scope else rq.scope
        if !storedRefreshToken.scope.includes scope then
          fail (invalidScope b!"scope exceeds the originally granted scope")
        else do
          let r ← issueTokens true scope rq.clientID storedRefreshToken.username []
          .modifyS fun s => { s with
            refreshTokens := s.refreshTokens.delete refreshToken.signatureString }
          ignore (writeTokenResponse r)

/-- server.go:257-295 `tokenEndpoint`. -/
def tokenEndpoint (r : Request) : Handler Unit := do
  match parseTokenRequest r with
  | .error err => fail err
  | .ok req =>
    if !knownGrantType req.grantType then fail (invalidRequest b!"unknown grant type")
    else do
      let s ← .getS
      match s.clients.lookup req.clientID with
      | none => fail (invalidClient b!"unknown client")
      | some p => do
        let client ← loadEntity p
        if client.confidential && client.secret ≠ req.clientSecret then
          fail (invalidClient b!"unknown client")
        else if req.grantType = PasswordGrantType then
          handleResourceOwnerPasswordCredentialsGrant req
        else if req.grantType = ClientCredentialsGrantType then handleClientCredentialsGrant req
        else if req.grantType = AuthorizationCodeGrantType then handleAuthorizationCodeGrant req
        else if req.grantType = RefreshTokenGrantType then handleRefreshTokenGrant req
        else return ()

/-- server.go:491-508: the refresh token part of `revocationEndpoint`. -/
def revokeRefreshToken (clientID signature : Str) : Handler Unit := do
  let s ← .getS
  match s.refreshTokens.lookup signature with
  | some p => do
    let refreshToken ← loadCredential p
    if refreshToken.clientID ≠ clientID then fail (invalidClient b!"wrong client")
    else do
      revokeToken clientID false signature
      .writeHeader 200
  | none => .writeHeader 200

/-- server.go:449-509 `revocationEndpoint`. -/
def revocationEndpoint (r : Request) : Handler Unit := do
  match parseRevocationRequest r with
  | .error err => fail err
  | .ok req =>
    if req.tokenTypeHint ≠ [] ∧ !knownTokenType req.tokenTypeHint then
      fail (unsupportedTokenType [])
    else do
      let s ← .getS
      match s.clients.lookup req.clientID with
      | none => fail (invalidClient b!"unknown client")
      | some p => do
        let client ← loadEntity p
        if client.confidential && client.secret ≠ req.clientSecret then
          fail (invalidClient b!"unknown client")
        else do
          let s ← .getS
          match HS256Token.parse s.config.secret req.token with
          | .error err => fail (invalidRequest err)
          | .ok token => do
            let s ← .getS
            match s.accessTokens.lookup token.signatureString with
            | some p => do
              let accessToken ← loadCredential p
              if accessToken.clientID ≠ req.clientID then fail (invalidClient b!"wrong client")
              else do
                revokeToken req.clientID true token.signatureString
                revokeRefreshToken req.clientID token.signatureString
            | none => revokeRefreshToken req.clientID token.signatureString

/-- server.go:565-583: the refresh token part of `introspectionEndpoint`. -/
def introspectRefreshToken (clientID signature : Str) (res : IntrospectionResponse) :
    Handler Unit := do
  let s ← .getS
  match s.refreshTokens.lookup signature with
  | some p => do
    let refreshToken ← loadCredential p
    if refreshToken.clientID ≠ clientID then fail (invalidClient b!"wrong client")
    else
      ignore (writeIntrospectionResponse { res with
        active := true, scope := refreshToken.scope,
        clientID := refreshToken.clientID, username := refreshToken.username,
        tokenType := RefreshToken, expiresAt := refreshToken.expiresAt.unix })
  | none => ignore (writeIntrospectionResponse res)

/-- server.go:511-584 `introspectionEndpoint`. -/
def introspectionEndpoint (r : Request) : Handler Unit := do
  match parseIntrospectionRequest r with
  | .error err => fail err
  | .ok req =>
    if req.tokenTypeHint ≠ [] ∧ !knownTokenType req.tokenTypeHint then
      fail (unsupportedTokenType [])
    else do
      let s ← .getS
      match s.clients.lookup req.clientID with
      | none => fail (invalidClient b!"unknown client")
      | some p => do
        let client ← loadEntity p
        if client.confidential && client.secret ≠ req.clientSecret then
          fail (invalidClient b!"unknown client")
        else do
          let s ← .getS
          match HS256Token.parse s.config.secret req.token with
          | .error err => fail (invalidRequest err)
          | .ok token => do
            let res : IntrospectionResponse := {}
            let s ← .getS
            match s.accessTokens.lookup token.signatureString with
            | some p => do
              let accessToken ← loadCredential p
              if accessToken.clientID ≠ req.clientID then fail (invalidClient b!"wrong client")
              else
                introspectRefreshToken req.clientID token.signatureString { res with
                  active := true, scope := accessToken.scope, clientID := accessToken.clientID,
                  username := accessToken.username, tokenType := AccessToken,
                  expiresAt := accessToken.expiresAt.unix }
            | none => introspectRefreshToken req.clientID token.signatureString res

/-- Go: `http.NotFound(w, r)` (standard library), for server.go:149. -/
def notFound : Handler Unit := do
  .respond fun w => { w with header := w.header.set b!"Content-Type" b!"text/plain; charset=utf-8" }
  .respond fun w => { w with header := w.header.set b!"X-Content-Type-Options" b!"nosniff" }
  .writeHeader 404
  .respond (·.write b!"404 page not found\n")

/-- server.go:129-150, the part of `ServeHTTP` that runs with the mutex held. -/
def serveLocked (r : Request) : Handler Unit :=
  let path := Server.lastSegment r.path
  if path = b!"authorize" then authorizationEndpoint r
  else if path = b!"token" then tokenEndpoint r
  else if path = b!"introspect" then introspectionEndpoint r
  else if path = b!"revoke" then revocationEndpoint r
  else notFound

/-- server.go:124-151 `ServeHTTP`. -/
def serveHTTP (r : Request) : Handler Unit := .lock (.deferUnlock (serveLocked r))

/-- server.go:86-119, the part of `Authorize` that runs with the mutex held. -/
def authorizeLocked (r : Request) (required : Scope) : Handler Bool := do
  match parseBearerToken r with
  | .error err => do
    failBearer err
    return false
  | .ok tk => do
    let s ← .getS
    match HS256Token.parse s.config.secret tk with
    | .error _ => do
      failBearer (invalidToken b!"malformed token")
      return false
    | .ok token => do
      let s ← .getS
      match s.accessTokens.lookup token.signatureString with
      | none => do
        failBearer (invalidToken b!"unknown token")
        return false
      | some p => do
        let accessToken ← loadCredential p
        let now ← .timeNow
        if accessToken.expiresAt.before now then do
          failBearer (invalidToken b!"expired token")
          return false
        else if !accessToken.scope.includes required then do
          failBearer (insufficientScope required)
          return false
        else return true

/-- server.go:81-120 `Authorize`. -/
def authorize (r : Request) (required : Scope) : Handler Bool :=
  .lock (.deferUnlock (authorizeLocked r required))

end RefServer

end OAuth2

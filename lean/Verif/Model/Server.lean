import Verif.Model.HS256
import Verif.Model.Bearer
import Verif.Model.Code
import Verif.Model.Authorization
import Verif.Model.Introspection
import Verif.Model.Revocation
/-
server.go, as programs over the shared server state. Every read of a field of `s` is one `get`,
every map update one `modify`.
-/

namespace OAuth2

/-- Go: `time.Second`, in nanoseconds. -/
def second : Int := 1000000000

/-- server.go:11-18. Durations are in nanoseconds. Simplification: no 64-bit overflow. -/
structure ServerConfig where
  secret : Str := []
  keyLength : Int := 0
  allowedScope : Scope := none
  accessTokenLifespan : Int := 0
  refreshTokenLifespan : Int := 0
  authorizationCodeLifespan : Int := 0
  deriving DecidableEq, Repr

/-- server.go:21-30 `DefaultServerConfig`. -/
def ServerConfig.default (secret : Str) (allowed : Scope) : ServerConfig :=
  { secret := secret, keyLength := 16, allowedScope := allowed,
    accessTokenLifespan := 60 * 60 * second,
    refreshTokenLifespan := 7 * 24 * (60 * 60 * second),
    authorizationCodeLifespan := 10 * (60 * second) }

/-- server.go:33-35 `MustGenerate`. -/
def ServerConfig.mustGenerate {σ : Type} (c : ServerConfig) : Prog σ HS256Token :=
  HS256Token.mustGenerate c.secret c.keyLength

/-- server.go:38-42 -/
structure ServerEntity where
  secret : Str := []
  redirectURI : Str := []
  confidential : Bool := false
  deriving DecidableEq, Repr

/-- server.go:45-53 -/
structure ServerCredential where
  clientID : Str := []
  username : Str := []
  expiresAt : Time := 0
  scope : Scope := none
  redirectURI : Str := []
  code : Str := []
  used : Bool := false
  deriving DecidableEq, Repr

/-- server.go:57-65. The mutex is `Shared.locked`. Simplification: map entries are
never nil and the maps hold the objects; Model/Pointer.lean has the pointers. -/
structure Server where
  config : ServerConfig
  clients : GoMap ServerEntity := []
  users : GoMap ServerEntity := []
  accessTokens : GoMap ServerCredential := []
  refreshTokens : GoMap ServerCredential := []
  authorizationCodes : GoMap ServerCredential := []
  deriving DecidableEq, Repr

/-- server.go:68-77 `NewServer`. -/
def newServer (config : ServerConfig) : Server := { config := config }

/-- A handler of the server. server.go:124 and the methods it calls. -/
abbrev Handler := Prog Server

/-- Go: `t.Before(u)`. -/
def Time.before (t u : Time) : Bool := t < u

/-- Go: `t.Unix()`: seconds since the epoch, rounded down. -/
def Time.unix (t : Time) : Int := t / second

/-- Changing a field of the credential a map entry points to (server.go:395). -/
def GoMap.update {α : Type} (m : GoMap α) (k : Str) (f : α → α) : GoMap α :=
  m.map fun e => if e.1 = k then (e.1, f e.2) else e

namespace Server

/-- server.go:630-644 `revokeToken` on `s.AccessTokens` (`access = true`) or `s.RefreshTokens`. -/
def revokeToken (clientID : Str) (access : Bool) (signature : Str) : Handler Unit := do
  let s ← .getS
  match GoMap.get? (if access then s.accessTokens else s.refreshTokens) signature with
  | none => return ()
  | some token =>
    if token.clientID ≠ clientID then return ()
    else if access then
      .modifyS fun s => { s with accessTokens := s.accessTokens.del signature }
    else
      .modifyS fun s => { s with refreshTokens := s.refreshTokens.del signature }

/-- server.go:586-628 `issueTokens`. -/
def issueTokens (issueRefreshToken : Bool) (scope : Scope) (clientID username code : Str) :
    Handler TokenResponse := do
  let s ← .getS
  let accessToken ← s.config.mustGenerate
  let refreshToken ← (if issueRefreshToken then do
      let s ← .getS
      let t ← s.config.mustGenerate
      return some t
    else return none : Handler (Option HS256Token))
  let s ← .getS
  let r := newBearerTokenResponse accessToken.string (s.config.accessTokenLifespan.tdiv second)
  let r := { r with scope := scope }
  let r := match refreshToken with
    | some t => { r with refreshToken := t.string }
    | none => r
  let now ← .timeNow
  .modifyS fun s => { s with
    accessTokens := s.accessTokens.set accessToken.signatureString {
      clientID := clientID, username := username,
      expiresAt := now + s.config.accessTokenLifespan, scope := scope, code := code } }
  match refreshToken with
  | none => return r
  | some t =>
    let now ← .timeNow
    .modifyS fun s => { s with
      refreshTokens := s.refreshTokens.set t.signatureString {
        clientID := clientID, username := username,
        expiresAt := now + s.config.refreshTokenLifespan, scope := scope, code := code } }
    return r

/-- Discard the error a writer returns (`_ = WriteError(...)`). For example server.go:157. -/
def ignore (p : Handler Bool) : Handler Unit := do
  let _ ← p
  return ()

/-- `_ = WriteError(w, e)`. For example server.go:157. -/
def fail (e : Error) : Handler Unit := ignore (writeError (.oauth e))

/-- `_ = WriteBearerError(w, e)`. For example server.go:89. -/
def failBearer (e : Error) : Handler Unit := ignore (writeBearerError (.oauth e))

/-- server.go:200-222 `handleImplicitGrant`. -/
def handleImplicitGrant (username password : Str) (rq : AuthorizationRequest) : Handler Unit := do
  let s ← .getS
  if !s.config.allowedScope.includes rq.scope then
    fail ((invalidScope []).setRedirect rq.redirectURI rq.state true)
  else do
    let s ← .getS
    let ok : Bool := match s.users.get? username with
      | none => false
      | some owner => owner.secret = password
    if !ok then fail ((accessDenied []).setRedirect rq.redirectURI rq.state true)
    else do
      let r ← issueTokens false rq.scope rq.clientID username []
      let r := r.setRedirect rq.redirectURI rq.state
      ignore (writeTokenResponse r)

/-- server.go:224-255 `handleAuthorizationCodeGrantAuthorization`. -/
def handleAuthorizationCodeGrantAuthorization (username password : Str)
    (rq : AuthorizationRequest) : Handler Unit := do
  let s ← .getS
  if !s.config.allowedScope.includes rq.scope then
    fail ((invalidScope []).setRedirect rq.redirectURI rq.state false)
  else do
    let s ← .getS
    let ok : Bool := match s.users.get? username with
      | none => false
      | some owner => owner.secret = password
    if !ok then fail ((accessDenied []).setRedirect rq.redirectURI rq.state false)
    else do
      let s ← .getS
      let authorizationCode ← s.config.mustGenerate
      let r := newCodeResponse authorizationCode.string rq.redirectURI rq.state
      let now ← .timeNow
      .modifyS fun s => { s with
        authorizationCodes := s.authorizationCodes.set authorizationCode.signatureString {
          clientID := rq.clientID, username := username,
          expiresAt := now + s.config.authorizationCodeLifespan, scope := rq.scope,
          redirectURI := rq.redirectURI } }
      ignore (writeCodeResponse r)

/-- server.go:182-183: the notice shown for GET requests. -/
def notice : Str :=
  b!"This authentication server does not provide an authorization form.\nPlease submit the resource owners username and password in a POST request."

/-- server.go:153-198 `authorizationEndpoint`. -/
def authorizationEndpoint (r : Request) : Handler Unit := do
  match parseAuthorizationRequest r with
  | .error err => fail err
  | .ok req =>
    if !knownResponseType req.responseType then fail (invalidRequest b!"unknown response type")
    else do
      let s ← .getS
      match s.clients.get? req.clientID with
      | none => fail (invalidClient b!"unknown client")
      | some client =>
        if client.redirectURI ≠ req.redirectURI then fail (invalidRequest b!"invalid redirect URI")
        else if r.method = b!"GET" then .respond (·.write notice)
        else
          let post : Values := r.parseForm.1.postForm.getD []
          let username := post.get b!"username"
          let password := post.get b!"password"
          if req.responseType = TokenResponseType then handleImplicitGrant username password req
          else if req.responseType = CodeResponseType then
            handleAuthorizationCodeGrantAuthorization username password req
          else return ()

/-- server.go:297-316 `handleResourceOwnerPasswordCredentialsGrant`. -/
def handleResourceOwnerPasswordCredentialsGrant (rq : TokenRequest) : Handler Unit := do
  let s ← .getS
  let ok : Bool := match s.users.get? rq.username with
    | none => false
    | some owner => owner.secret = rq.password
  if !ok then fail (accessDenied [])
  else do
    let s ← .getS
    if !s.config.allowedScope.includes rq.scope then fail (invalidScope [])
    else do
      let r ← issueTokens true rq.scope rq.clientID rq.username []
      ignore (writeTokenResponse r)

/-- server.go:318-336 `handleClientCredentialsGrant`. -/
def handleClientCredentialsGrant (rq : TokenRequest) : Handler Unit := do
  let s ← .getS
  match s.clients.get? rq.clientID with
  | none => .panic
  | some client =>
    if !client.confidential then fail (invalidClient b!"unknown client")
    else do
      let s ← .getS
      if !s.config.allowedScope.includes rq.scope then fail (invalidScope [])
      else do
        let r ← issueTokens true rq.scope rq.clientID [] []
        ignore (writeTokenResponse r)

/-- server.go:356-360 and 363-367: the deletion loops, over the map in its iteration order. -/
def deleteByCode (m : GoMap ServerCredential) (code : Str) : GoMap ServerCredential :=
  m.foldl (fun acc e => if e.2.code = code then acc.del e.1 else acc) m

/-- server.go:338-399 `handleAuthorizationCodeGrant`. -/
def handleAuthorizationCodeGrant (rq : TokenRequest) : Handler Unit := do
  let s ← .getS
  match HS256Token.parse s.config.secret rq.code with
  | .error err => fail (invalidRequest err)
  | .ok authorizationCode => do
    let s ← .getS
    match s.authorizationCodes.get? authorizationCode.signatureString with
    | none => fail (invalidGrant b!"unknown authorization code")
    | some storedAuthorizationCode =>
      if storedAuthorizationCode.used then do
        .modifyS fun s => { s with
          accessTokens := deleteByCode s.accessTokens authorizationCode.signatureString }
        .modifyS fun s => { s with
          refreshTokens := deleteByCode s.refreshTokens authorizationCode.signatureString }
        fail (invalidGrant b!"unknown authorization code")
      else do
        let now ← .timeNow
        if storedAuthorizationCode.expiresAt.before now then
          fail (invalidGrant b!"expired authorization code")
        else if storedAuthorizationCode.clientID ≠ rq.clientID then
          fail (invalidGrant b!"invalid authorization code ownership")
        else if storedAuthorizationCode.redirectURI ≠ rq.redirectURI then
          fail (invalidGrant b!"changed redirect uri")
        else do
          let r ← issueTokens true storedAuthorizationCode.scope rq.clientID
            storedAuthorizationCode.username authorizationCode.signatureString
          .modifyS fun s => { s with
            authorizationCodes := s.authorizationCodes.update authorizationCode.signatureString
              fun c => { c with used := true } }
          ignore (writeTokenResponse r)

/-- server.go:401-447 `handleRefreshTokenGrant`. -/
def handleRefreshTokenGrant (rq : TokenRequest) : Handler Unit := do
  let s ← .getS
  match HS256Token.parse s.config.secret rq.refreshToken with
  | .error err => fail (invalidRequest err)
  | .ok refreshToken => do
    let s ← .getS
    match s.refreshTokens.get? refreshToken.signatureString with
    | none => fail (invalidGrant b!"unknown refresh token")
    | some storedRefreshToken => do
      let now ← .timeNow
      if storedRefreshToken.expiresAt.before now then
        fail (invalidGrant b!"expired refresh token")
      else if storedRefreshToken.clientID ≠ rq.clientID then
        fail (invalidGrant b!"invalid refresh token ownership")
      else
        let scope := if rq.scope.empty then storedRefreshToken.scope else rq.scope
        if !storedRefreshToken.scope.includes scope then
          fail (invalidScope b!"scope exceeds the originally granted scope")
        else do
          let r ← issueTokens true scope rq.clientID storedRefreshToken.username []
          .modifyS fun s => { s with
            refreshTokens := s.refreshTokens.del refreshToken.signatureString }
          ignore (writeTokenResponse r)

/-- server.go:257-295 `tokenEndpoint`. -/
def tokenEndpoint (r : Request) : Handler Unit := do
  match parseTokenRequest r with
  | .error err => fail err
  | .ok req =>
    if !knownGrantType req.grantType then fail (invalidRequest b!"unknown grant type")
    else do
      let s ← .getS
      match s.clients.get? req.clientID with
      | none => fail (invalidClient b!"unknown client")
      | some client =>
        if client.confidential && client.secret ≠ req.clientSecret then
          fail (invalidClient b!"unknown client")
        else if req.grantType = PasswordGrantType then
          handleResourceOwnerPasswordCredentialsGrant req
        else if req.grantType = ClientCredentialsGrantType then handleClientCredentialsGrant req
        else if req.grantType = AuthorizationCodeGrantType then handleAuthorizationCodeGrant req
        else if req.grantType = RefreshTokenGrantType then handleRefreshTokenGrant req
        else return ()

/-- server.go:449-509 `revocationEndpoint`. -/
def revocationEndpoint (r : Request) : Handler Unit := do
  match parseRevocationRequest r with
  | .error err => fail err
  | .ok req =>
    if req.tokenTypeHint ≠ [] ∧ !knownTokenType req.tokenTypeHint then
      fail (unsupportedTokenType [])
    else do
      let s ← .getS
      match s.clients.get? req.clientID with
      | none => fail (invalidClient b!"unknown client")
      | some client =>
        if client.confidential && client.secret ≠ req.clientSecret then
          fail (invalidClient b!"unknown client")
        else do
          let s ← .getS
          match HS256Token.parse s.config.secret req.token with
          | .error err => fail (invalidRequest err)
          | .ok token =>
            let refresh : Handler Unit := do
              let s ← .getS
              match s.refreshTokens.get? token.signatureString with
              | some refreshToken =>
                if refreshToken.clientID ≠ req.clientID then fail (invalidClient b!"wrong client")
                else do
                  revokeToken req.clientID false token.signatureString
                  .writeHeader 200
              | none => .writeHeader 200
            let s ← .getS
            match s.accessTokens.get? token.signatureString with
            | some accessToken =>
              if accessToken.clientID ≠ req.clientID then fail (invalidClient b!"wrong client")
              else do
                revokeToken req.clientID true token.signatureString
                refresh
            | none => refresh

/-- server.go:511-584 `introspectionEndpoint`. -/
def introspectionEndpoint (r : Request) : Handler Unit := do
  match parseIntrospectionRequest r with
  | .error err => fail err
  | .ok req =>
    if req.tokenTypeHint ≠ [] ∧ !knownTokenType req.tokenTypeHint then
      fail (unsupportedTokenType [])
    else do
      let s ← .getS
      match s.clients.get? req.clientID with
      | none => fail (invalidClient b!"unknown client")
      | some client =>
        if client.confidential && client.secret ≠ req.clientSecret then
          fail (invalidClient b!"unknown client")
        else do
          let s ← .getS
          match HS256Token.parse s.config.secret req.token with
          | .error err => fail (invalidRequest err)
          | .ok token =>
            let refresh (res : IntrospectionResponse) : Handler Unit := do
              let s ← .getS
              match s.refreshTokens.get? token.signatureString with
              | some refreshToken =>
                if refreshToken.clientID ≠ req.clientID then fail (invalidClient b!"wrong client")
                else
                  ignore (writeIntrospectionResponse { res with
                    active := true, scope := refreshToken.scope,
                    clientID := refreshToken.clientID, username := refreshToken.username,
                    tokenType := RefreshToken, expiresAt := refreshToken.expiresAt.unix })
              | none => ignore (writeIntrospectionResponse res)
            let res : IntrospectionResponse := {}
            let s ← .getS
            match s.accessTokens.get? token.signatureString with
            | some accessToken =>
              if accessToken.clientID ≠ req.clientID then fail (invalidClient b!"wrong client")
              else
                refresh { res with
                  active := true, scope := accessToken.scope, clientID := accessToken.clientID,
                  username := accessToken.username, tokenType := AccessToken,
                  expiresAt := accessToken.expiresAt.unix }
            | none => refresh res

/-- Go: `http.NotFound(w, r)` (standard library). -/
def notFound : Handler Unit := do
  .respond fun w => { w with header := w.header.set b!"Content-Type" b!"text/plain; charset=utf-8" }
  .respond fun w => { w with header := w.header.set b!"X-Content-Type-Options" b!"nosniff" }
  .writeHeader 404
  .respond (·.write b!"404 page not found\n")

/-- server.go:129-136: the last path segment. -/
def lastSegment (path : Str) : Str :=
  match cutLastByte 0x2F path with
  | some (_, seg) => seg
  | none => path

/-- server.go:129-150, the part of `ServeHTTP` that runs with the mutex held. -/
def serveLocked (r : Request) : Handler Unit :=
  let path := lastSegment r.path
  if path = b!"authorize" then authorizationEndpoint r
  else if path = b!"token" then tokenEndpoint r
  else if path = b!"introspect" then introspectionEndpoint r
  else if path = b!"revoke" then revocationEndpoint r
  else notFound

/-- server.go:124-151 `ServeHTTP`. -/
def serveHTTP (r : Request) : Handler Unit := .lock (.deferUnlock (serveLocked r))

/-- server.go:86-119, the part of `Authorize` that runs with the mutex held. -/
def authorizeLocked (r : Request) (required : Scope) : Handler Bool := do
  match parseBearerToken r with
  | .error err => do
    failBearer err
    return false
  | .ok tk => do
    let s ← .getS
    match HS256Token.parse s.config.secret tk with
    | .error _ => do
      failBearer (invalidToken b!"malformed token")
      return false
    | .ok token => do
      let s ← .getS
      match s.accessTokens.get? token.signatureString with
      | none => do
        failBearer (invalidToken b!"unknown token")
        return false
      | some accessToken => do
        let now ← .timeNow
        if accessToken.expiresAt.before now then do
          failBearer (invalidToken b!"expired token")
          return false
        else if !accessToken.scope.includes required then do
          failBearer (insufficientScope required)
          return false
        else return true

/-- server.go:81-120 `Authorize`. -/
def authorize (r : Request) (required : Scope) : Handler Bool :=
  .lock (.deferUnlock (authorizeLocked r required))

end Server

end OAuth2

import Verif.Model.Introspection
import Verif.Model.Revocation
/-
client.go. The HTTP transport (`http.Client.Do`) is a parameter: any function from requests to
responses, `none` being a transport error. It may be the server of this model or anything else.
-/

namespace OAuth2

/-- client.go:8-14 -/
structure ClientConfig where
  baseURI : Str := []
  tokenEndpoint : Str := []
  introspectionEndpoint : Str := []
  revocationEndpoint : Str := []
  responseLimit : Int := 0
  deriving DecidableEq, Repr

/-- client.go:17-24 `Default`. -/
def ClientConfig.default (baseURI : Str) : ClientConfig :=
  { baseURI := baseURI, tokenEndpoint := b!"/oauth2/token",
    introspectionEndpoint := b!"/oauth2/introspect", revocationEndpoint := b!"/oauth2/revoke" }

/-- `http.Client.Do`. client.go:64, 99, 134. `none` is an error. Simplification: the transport may
be any function; Model/Follow.lean has the one that follows redirects. -/
abbrev Transport := Request → Option Response

/-- client.go:27-30 -/
structure Client where
  config : ClientConfig
  client : Transport

/-- client.go:39-49 `NewClientWithClient`. -/
def newClient (config : ClientConfig) (client : Transport) : Client :=
  { config := if config.responseLimit = 0 then { config with responseLimit := 2048 } else config,
    client := client }

namespace Client

/-- client.go:53-84 `Authenticate`. -/
def authenticate (c : Client) (trq : TokenRequest) : Except GoErr TokenResponse :=
  let endpoint := c.config.baseURI ++ c.config.tokenEndpoint
  match buildTokenRequest endpoint trq with
  | none => .error .lib
  | some req =>
    match c.client req with
    | none => .error .lib
    | some res =>
      if res.statusCode ≠ 200 then .error (parseRequestError res c.config.responseLimit)
      else parseTokenResponse res c.config.responseLimit

/-- client.go:88-119 `Introspect`. -/
def introspect (c : Client) (irq : IntrospectionRequest) : Except GoErr IntrospectionResponse :=
  let endpoint := c.config.baseURI ++ c.config.introspectionEndpoint
  match buildIntrospectionRequest endpoint irq with
  | none => .error .lib
  | some req =>
    match c.client req with
    | none => .error .lib
    | some res =>
      if res.statusCode ≠ 200 then .error (parseRequestError res c.config.responseLimit)
      else parseIntrospectionResponse res c.config.responseLimit

/-- client.go:123-148 `Revoke`; `none` is a nil error. -/
def revoke (c : Client) (rrq : RevocationRequest) : Option GoErr :=
  let endpoint := c.config.baseURI ++ c.config.revocationEndpoint
  match buildRevocationRequest endpoint rrq with
  | none => some .lib
  | some req =>
    match c.client req with
    | none => some .lib
    | some res =>
      if res.statusCode ≠ 200 then some (parseRequestError res c.config.responseLimit)
      else none

end Client

end OAuth2

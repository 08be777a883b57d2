import Verif.Model.Error
/-
The errors of RFC 6749, RFC 6750, RFC 7009 and RFC 7662 by the functions that make them: which name
and which status each one has, and which challenge comes with it.
-/

namespace OAuth2.Spec

/-- A function that makes an error from a description, and what it promises. -/
structure ErrorKind where
  make : Str → Error
  name : Str
  status : Nat
  /-- The `WWW-Authenticate` headers of its document. -/
  challenge : List Str := []

/-- The functions of error.go that take a description, with the status codes of RFC 6749
section 5.2, RFC 6750 section 3.1 and HTTP. -/
def errorKinds : List ErrorKind := [
  { make := invalidRequest, name := b!"invalid_request", status := 400 },
  { make := invalidClient, name := b!"invalid_client", status := 401,
    challenge := [b!"Basic realm=\"OAuth2\""] },
  { make := invalidGrant, name := b!"invalid_grant", status := 400 },
  { make := invalidScope, name := b!"invalid_scope", status := 400 },
  { make := invalidToken, name := b!"invalid_token", status := 401 },
  { make := unauthorizedClient, name := b!"unauthorized_client", status := 400 },
  { make := unsupportedGrantType, name := b!"unsupported_grant_type", status := 400 },
  { make := unsupportedResponseType, name := b!"unsupported_response_type", status := 400 },
  { make := unsupportedTokenType, name := b!"unsupported_token_type", status := 400 },
  { make := accessDenied, name := b!"access_denied", status := 403 },
  { make := serverError, name := b!"server_error", status := 500 },
  { make := temporarilyUnavailable, name := b!"temporarily_unavailable", status := 503 }]

end OAuth2.Spec

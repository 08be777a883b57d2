import Verif.Spec.Answers
/-
What the server says when it refuses a request: a few sentences, in which nothing of the request
comes back.
-/

namespace OAuth2.Spec

/-- What is wrong with a text that is no token of this server. -/
def tokenPhrases : List Str := [
  b!"a token must have two segments separated by a dot", b!"token key is not base64 encoded",
  b!"token signature is not base64 encoded", b!"invalid token supplied"]

/-- An endpoint, an error and its description. -/
def phrases : List (Str × Str × Str) :=
  [(b!"authorize", b!"invalid_request", b!"invalid HTTP method"),
   (b!"authorize", b!"invalid_request", b!"malformed query parameters or form data"),
   (b!"authorize", b!"invalid_request", b!"missing response type"),
   (b!"authorize", b!"invalid_request", b!"missing client ID"),
   (b!"authorize", b!"invalid_request", b!"missing redirect URI"),
   (b!"authorize", b!"invalid_request", b!"invalid redirect URI"),
   (b!"authorize", b!"invalid_request", b!"unknown response type"),
   (b!"authorize", b!"invalid_client", b!"unknown client"),
   (b!"token", b!"invalid_request", b!"invalid HTTP method"),
   (b!"token", b!"invalid_request", b!"malformed query parameters or body form"),
   (b!"token", b!"invalid_request", b!"missing grant type"),
   (b!"token", b!"invalid_request", b!"missing client identification"),
   (b!"token", b!"invalid_request", b!"invalid redirect URI"),
   (b!"token", b!"invalid_request", b!"unknown grant type"),
   (b!"token", b!"invalid_client", b!"unknown client"),
   (b!"token", b!"access_denied", []),
   (b!"token", b!"invalid_scope", []),
   (b!"token", b!"invalid_scope", b!"scope exceeds the originally granted scope"),
   (b!"token", b!"invalid_grant", b!"unknown authorization code"),
   (b!"token", b!"invalid_grant", b!"expired authorization code"),
   (b!"token", b!"invalid_grant", b!"invalid authorization code ownership"),
   (b!"token", b!"invalid_grant", b!"changed redirect uri"),
   (b!"token", b!"invalid_grant", b!"unknown refresh token"),
   (b!"token", b!"invalid_grant", b!"expired refresh token"),
   (b!"token", b!"invalid_grant", b!"invalid refresh token ownership")] ++
  tokenPhrases.map (fun d => (b!"token", b!"invalid_request", d)) ++
  [b!"introspect", b!"revoke"].flatMap fun endpoint =>
    [(endpoint, b!"invalid_request", b!"invalid HTTP method"),
     (endpoint, b!"invalid_request", b!"malformed query parameters or body form"),
     (endpoint, b!"invalid_request", b!"missing token"),
     (endpoint, b!"invalid_request", b!"missing or invalid HTTP authorization header"),
     (endpoint, b!"unsupported_token_type", []),
     (endpoint, b!"invalid_client", b!"unknown client"),
     (endpoint, b!"invalid_client", b!"wrong client")] ++
    tokenPhrases.map fun d => (endpoint, b!"invalid_request", d)

/-- The document with an error and its description. -/
def errorDocument (name description : Str) : Str :=
  b!"{\"error\":\"" ++ name ++ b!"\"" ++
    (if description = [] then [] else b!",\"error_description\":\"" ++ description ++ b!"\"") ++ b!"}\n"

/-- What `Authorize` says, apart from asking for the scope that the program requires. -/
def challenges : List (Nat × Str) :=
  [(401, b!"Bearer realm=\"OAuth2\""),
   (400, b!"Bearer error=\"invalid_request\", error_description=\"malformed authorization header\""),
   (401, b!"Bearer error=\"invalid_token\", error_description=\"malformed token\""),
   (401, b!"Bearer error=\"invalid_token\", error_description=\"unknown token\""),
   (401, b!"Bearer error=\"invalid_token\", error_description=\"expired token\"")]

end OAuth2.Spec

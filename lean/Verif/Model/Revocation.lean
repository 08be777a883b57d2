import Verif.Model.Token
/-
revocation.go
-/

namespace OAuth2

/-- revocation.go:11-16 -/
structure RevocationRequest where
  token : Str := []
  tokenTypeHint : Str := []
  clientID : Str := []
  clientSecret : Str := []
  deriving DecidableEq, Repr

/-- revocation.go:21-54 `ParseRevocationRequest`. -/
def parseRevocationRequest (r : Request) : Except Error RevocationRequest :=
  if r.method ≠ b!"POST" then .error (invalidRequest b!"invalid HTTP method")
  else
    let (r, err) := r.parseForm
    if err then .error (invalidRequest b!"malformed query parameters or body form")
    else
      let post : Values := r.postForm.getD []
      let token := post.get b!"token"
      if token = [] then .error (invalidRequest b!"missing token")
      else
        let tokenTypeHint := post.get b!"token_type_hint"
        match r.basicAuth with
        | none => .error (invalidRequest b!"missing or invalid HTTP authorization header")
        | some (clientID, clientSecret) =>
          .ok { token := token, tokenTypeHint := tokenTypeHint, clientID := clientID,
                clientSecret := clientSecret }

/-- revocation.go:57-78 `RevocationRequestValues`. -/
def revocationRequestValues (r : RevocationRequest) : Values :=
  (if r.token ≠ [] then [(b!"token", [r.token])] else []) ++
  (if r.tokenTypeHint.length ≠ 0 then [(b!"token_type_hint", [r.tokenTypeHint])] else [])

/-- revocation.go:81-100 `BuildRevocationRequest`; `none` is an error. -/
def buildRevocationRequest (uri : Str) (r : RevocationRequest) : Option Request :=
  buildFormRequest uri (revocationRequestValues r) r.clientID r.clientSecret

end OAuth2

import Verif.Model.Token
/-
bearer.go
-/

namespace OAuth2

/-- bearer.go:10 -/
def BearerAccessTokenType : Str := b!"bearer"

/-- bearer.go:14-16 `NewBearerTokenResponse`. -/
def newBearerTokenResponse (token : Str) (expiresIn : Int) : TokenResponse :=
  newTokenResponse BearerAccessTokenType token expiresIn

/-- bearer.go:25-51 `ParseBearerToken`. -/
def parseBearerToken (r : Request) : Except Error Str :=
  let h := r.header.get b!"Authorization"
  if h = [] then .error protectedResource
  else if h.length < BearerAccessTokenType.length + 2 then
    .error (invalidRequest b!"malformed authorization header")
  else if !equalFold (h.take BearerAccessTokenType.length) BearerAccessTokenType then
    .error (invalidRequest b!"malformed authorization header")
  else if (h.drop BearerAccessTokenType.length).take 1 ≠ [0x20] then
    .error (invalidRequest b!"malformed authorization header")
  else .ok (h.drop (BearerAccessTokenType.length + 1))

/-- bearer.go:59-93 `WriteBearerError`; the result is "the returned error is nil". -/
def writeBearerError {σ : Type} (err : GoErr) : Prog σ Bool :=
  let internal : Prog σ Bool := do
    .writeHeader 500
    .respond (·.write [])
    return true
  match err.asError with
  | none => internal
  | some anError =>
    if anError.status = 500 then internal
    else do
      let params := anError.params
      let params := if params = [] then b!"realm=\"OAuth2\"" else params
      let response := b!"Bearer " ++ params
      .respond fun w => { w with header := w.header.set b!"WWW-Authenticate" response }
      .writeHeader anError.status
      .respond (·.write [])
      return true

end OAuth2

import Verif.Model.OAuth2
/-
code.go
-/

namespace OAuth2

/-- code.go:9-14 -/
structure CodeResponse where
  code : Str := []
  state : Str := []
  redirectURI : Str := []
  deriving DecidableEq, Repr

/-- code.go:17-23 `NewCodeResponse`. -/
def newCodeResponse (code redirectURI state : Str) : CodeResponse :=
  { code := code, state := state, redirectURI := redirectURI }

/-- code.go:28-40 `Map`. -/
def CodeResponse.map (r : CodeResponse) : GoMap Str :=
  [(b!"code", r.code)] ++ (if r.state ≠ [] then [(b!"state", r.state)] else [])

/-- code.go:44-46 `WriteCodeResponse`. -/
def writeCodeResponse {σ : Type} (r : CodeResponse) : Prog σ Bool :=
  writeRedirect r.redirectURI r.map false

end OAuth2

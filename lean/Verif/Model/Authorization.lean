import Verif.Model.Error
/-
authorization.go
-/

namespace OAuth2

/-- authorization.go:10-16 -/
structure AuthorizationRequest where
  responseType : Str := []
  scope : Scope := none
  clientID : Str := []
  redirectURI : Str := []
  state : Str := []
  deriving DecidableEq, Repr

/-- authorization.go:21-70 `ParseAuthorizationRequest`. `r.ParseForm` also stores the parsed
forms in `r`; that update is `r.parseForm.1`. -/
def parseAuthorizationRequest (r : Request) : Except Error AuthorizationRequest :=
  if r.method ≠ b!"GET" ∧ r.method ≠ b!"POST" then
    .error (invalidRequest b!"invalid HTTP method")
  else
    let (r, err) := r.parseForm
    if err then .error (invalidRequest b!"malformed query parameters or form data")
    else
      let form : Values := r.form.getD []
      let state := form.get b!"state"
      let responseType := form.get b!"response_type"
      if responseType = [] then .error (invalidRequest b!"missing response type")
      else
        let scope := Scope.parse (form.get b!"scope")
        let clientID := form.get b!"client_id"
        if clientID = [] then .error (invalidRequest b!"missing client ID")
        else
          match queryUnescape (form.get b!"redirect_uri") with
          | none => .error (invalidRequest b!"missing redirect URI")
          | some redirectURIString =>
            if redirectURIString = [] then .error (invalidRequest b!"missing redirect URI")
            else
              match parseRequestURI redirectURIString with
              | none => .error (invalidRequest b!"invalid redirect URI")
              | some redirectURI =>
                if redirectURI.fragment ≠ [] then .error (invalidRequest b!"invalid redirect URI")
                else .ok {
                  responseType := responseType, scope := scope, clientID := clientID,
                  redirectURI := redirectURIString, state := state }

end OAuth2

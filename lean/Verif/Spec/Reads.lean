import Verif.Spec.History
/-
What the server reads of a request. Everything else about a request (its other parameters and
headers, the order and spelling of the parameters, where the server is mounted) is of no
consequence if two requests that agree on this are served alike.
-/

namespace OAuth2.Spec

/-- The first value of a parameter in the body, after `r.ParseForm()`. -/
def inBody (r : Request) (name : Str) : Str := (r.parseForm.1.postForm.getD []).get name

/-- The first value of a parameter in body or query, after `r.ParseForm()`. -/
def inForm (r : Request) (name : Str) : Str := (r.parseForm.1.form.getD []).get name

/-- Client identifier and secret of a token request: by HTTP basic authentication or else in the
body. -/
def presented (r : Request) : Str × Str :=
  match r.basicAuth with
  | some credentials => credentials
  | none => (inBody r b!"client_id", inBody r b!"client_secret")

/-- Two requests to the server that say the same. -/
structure SaysTheSame (r r' : Request) : Prop where
  endpoint : ∀ seg, LastSegment r.path seg ↔ LastSegment r'.path seg
  method : r.method = r'.method
  /-- the forms of both can be read, or of neither -/
  readable : r.parseForm.2 = r'.parseForm.2
  token : LastSegment r.path b!"token" → presented r = presented r' ∧
    ∀ name ∈ [b!"grant_type", b!"scope", b!"username", b!"password", b!"refresh_token",
      b!"redirect_uri", b!"code"], inBody r name = inBody r' name
  aboutToken : LastSegment r.path b!"introspect" ∨ LastSegment r.path b!"revoke" →
    r.basicAuth = r'.basicAuth ∧
    ∀ name ∈ [b!"token", b!"token_type_hint"], inBody r name = inBody r' name
  authorization : LastSegment r.path b!"authorize" →
    (∀ name ∈ [b!"response_type", b!"scope", b!"client_id", b!"redirect_uri", b!"state"],
      inForm r name = inForm r' name) ∧
    ∀ name ∈ [b!"username", b!"password"], inBody r name = inBody r' name

/-- The parameters of the protocol. -/
def parameterNames : List Str := [b!"grant_type", b!"scope", b!"client_id", b!"client_secret",
  b!"username", b!"password", b!"refresh_token", b!"redirect_uri", b!"code", b!"token",
  b!"token_type_hint", b!"response_type", b!"state"]

end OAuth2.Spec

import Verif.Spec.Form
/-
Which parameters a request submits, and which credentials it carries.
-/

namespace OAuth2.Spec

/-- The client credentials of a request with this form: those of a basic authorization header if
there is a readable one, else those of the form. -/
inductive Credentials (r : Request) (form : Values) : Str → Str → Prop
  | header {id secret : Str} : NamesUser (r.header.get b!"Authorization") id secret →
      Credentials r form id secret
  | form : (¬ ∃ id secret, NamesUser (r.header.get b!"Authorization") id secret) →
      Credentials r form (form.get b!"client_id") (form.get b!"client_secret")

/-- A text that names an absolute target: a full URL or a path. -/
def Target (uri : Str) : Prop := ∃ u, parseRequestURI uri = some u

/-- The parameters of a request as it arrives, by name: those of its query for a GET request, those
of its form followed by those of its query for a POST request with a form, and those of its query
for a POST request with another body. Everything must be well formed. -/
inductive Submits (r : Request) : (Str → List Str) → Prop
  | get : r.method = b!"GET" → (parseQuery r.rawQuery).2 = false →
      Submits r fun k => (parseQuery r.rawQuery).1.all k
  | form {form : Values} : FormPost r form →
      Submits r fun k => form.all k ++ (parseQuery r.rawQuery).1.all k
  | other {data : Str} {mediaType : Str} : r.method = b!"POST" → r.body = some data →
      (r.header.get b!"Content-Type" = [] ∨
        parseMediaType (r.header.get b!"Content-Type") = (mediaType, false) ∧
        mediaType ≠ b!"application/x-www-form-urlencoded") →
      (parseQuery r.rawQuery).2 = false →
      Submits r fun k => (parseQuery r.rawQuery).1.all k

/-! ### What is wrong with a request -/

/-- Query and body of the request can be read. -/
def Readable (r : Request) : Prop := ∃ all, Submits r all

/-- Why a token request is not accepted, in the order in which it is looked for. -/
inductive TokenFault (r : Request) : (description : Str) → Prop
  | method : r.method ≠ b!"POST" → TokenFault r b!"invalid HTTP method"
  | unreadable : r.method = b!"POST" → ¬ Readable r →
      TokenFault r b!"malformed query parameters or body form"
  | grantType : r.method = b!"POST" → Readable r →
      (∀ form, FormPost r form → form.get b!"grant_type" = []) →
      TokenFault r b!"missing grant type"
  | client {form secret} : FormPost r form → form.get b!"grant_type" ≠ [] →
      Credentials r form [] secret → TokenFault r b!"missing client identification"
  | redirectURI {form id secret} : FormPost r form → form.get b!"grant_type" ≠ [] →
      Credentials r form id secret → id ≠ [] →
      (∀ uri, queryUnescape (form.get b!"redirect_uri") = some uri → uri ≠ [] ∧ ¬ Target uri) →
      TokenFault r b!"invalid redirect URI"

/-- Why an introspection or revocation request is not accepted. -/
inductive ManagementFault (r : Request) : (description : Str) → Prop
  | method : r.method ≠ b!"POST" → ManagementFault r b!"invalid HTTP method"
  | unreadable : r.method = b!"POST" → ¬ Readable r →
      ManagementFault r b!"malformed query parameters or body form"
  | token : r.method = b!"POST" → Readable r →
      (∀ form, FormPost r form → form.get b!"token" = []) →
      ManagementFault r b!"missing token"
  | header {form} : FormPost r form → form.get b!"token" ≠ [] →
      (¬ ∃ id secret, NamesUser (r.header.get b!"Authorization") id secret) →
      ManagementFault r b!"missing or invalid HTTP authorization header"

/-- Why an authorization request is not accepted. -/
inductive AuthorizationFault (r : Request) : (description : Str) → Prop
  | method : r.method ≠ b!"GET" → r.method ≠ b!"POST" →
      AuthorizationFault r b!"invalid HTTP method"
  | unreadable : r.method = b!"GET" ∨ r.method = b!"POST" → ¬ Readable r →
      AuthorizationFault r b!"malformed query parameters or form data"
  | responseType {all} : Submits r all → (all b!"response_type").headD [] = [] →
      AuthorizationFault r b!"missing response type"
  | client {all} : Submits r all → (all b!"response_type").headD [] ≠ [] →
      (all b!"client_id").headD [] = [] → AuthorizationFault r b!"missing client ID"
  | noRedirectURI {all} : Submits r all → (all b!"response_type").headD [] ≠ [] →
      (all b!"client_id").headD [] ≠ [] →
      (∀ uri, queryUnescape ((all b!"redirect_uri").headD []) = some uri → uri = []) →
      AuthorizationFault r b!"missing redirect URI"
  | redirectURI {all uri} : Submits r all → (all b!"response_type").headD [] ≠ [] →
      (all b!"client_id").headD [] ≠ [] →
      queryUnescape ((all b!"redirect_uri").headD []) = some uri → uri ≠ [] → ¬ Target uri →
      AuthorizationFault r b!"invalid redirect URI"

end OAuth2.Spec

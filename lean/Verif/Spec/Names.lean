import Verif.Spec.Shift
/-
The same calls, with other names and secrets.
-/

namespace OAuth2.Spec

/-- Other names for the clients and users, and other secrets and passwords: what was different stays
different, and a missing name stays missing. -/
structure Renaming where
  client : Str → Str
  secret : Str → Str
  user : Str → Str
  password : Str → Str
  client_inj : ∀ a b, client a = client b → a = b
  secret_inj : ∀ a b, secret a = secret b → a = b
  user_inj : ∀ a b, user a = user b → a = b
  password_inj : ∀ a b, password a = password b → a = b
  client_empty : client [] = []
  user_empty : user [] = []

variable (ρ : Renaming)

/-- Registered clients. -/
def Renaming.clients (m : GoMap ServerEntity) : GoMap ServerEntity :=
  m.map fun e => (ρ.client e.1, { e.2 with secret := ρ.secret e.2.secret })

/-- Registered users. -/
def Renaming.users (m : GoMap ServerEntity) : GoMap ServerEntity :=
  m.map fun e => (ρ.user e.1, { e.2 with secret := ρ.password e.2.secret })

/-- Stored tokens or codes. -/
def Renaming.credentials (m : GoMap ServerCredential) : GoMap ServerCredential :=
  m.map fun e => (e.1, { e.2 with clientID := ρ.client e.2.clientID, username := ρ.user e.2.username })

/-- The server, with the names that it has registered and stored exchanged. -/
def Renaming.server (s : Server) : Server := {
  s with
  clients := ρ.clients s.clients
  users := ρ.users s.users
  accessTokens := ρ.credentials s.accessTokens
  refreshTokens := ρ.credentials s.refreshTokens
  authorizationCodes := ρ.credentials s.authorizationCodes }

/-- An authorization request. -/
def Renaming.authorizationRequest (rq : AuthorizationRequest) : AuthorizationRequest :=
  { rq with clientID := ρ.client rq.clientID }

/-- A token request. -/
def Renaming.tokenRequest (rq : TokenRequest) : TokenRequest :=
  { rq with
    clientID := ρ.client rq.clientID, clientSecret := ρ.secret rq.clientSecret,
    username := ρ.user rq.username, password := ρ.password rq.password }

/-- An introspection request. -/
def Renaming.introspectionRequest (rq : IntrospectionRequest) : IntrospectionRequest :=
  { rq with clientID := ρ.client rq.clientID, clientSecret := ρ.secret rq.clientSecret }

/-- A revocation request. -/
def Renaming.revocationRequest (rq : RevocationRequest) : RevocationRequest :=
  { rq with clientID := ρ.client rq.clientID, clientSecret := ρ.secret rq.clientSecret }

/-- The description of a token. -/
def Renaming.description (i : IntrospectionResponse) : IntrospectionResponse :=
  { i with clientID := ρ.client i.clientID, username := ρ.user i.username }

/-- The second request says with the other names what the first says: it goes to the same endpoint in the
same way, and what this endpoint reads from it is the same up to the names, or malformed for the same
reason. -/
structure SameRequest (r r' : Request) : Prop where
  path : r'.path = r.path
  method : r'.method = r.method
  authorization : LastSegment r.path b!"authorize" →
    parseAuthorizationRequest r' = (parseAuthorizationRequest r).map ρ.authorizationRequest
  user : LastSegment r.path b!"authorize" →
    (r'.parseForm.1.postForm.getD []).get b!"username" =
      ρ.user ((r.parseForm.1.postForm.getD []).get b!"username")
  password : LastSegment r.path b!"authorize" →
    (r'.parseForm.1.postForm.getD []).get b!"password" =
      ρ.password ((r.parseForm.1.postForm.getD []).get b!"password")
  token : LastSegment r.path b!"token" →
    parseTokenRequest r' = (parseTokenRequest r).map ρ.tokenRequest
  introspection : LastSegment r.path b!"introspect" →
    parseIntrospectionRequest r' = (parseIntrospectionRequest r).map ρ.introspectionRequest
  revocation : LastSegment r.path b!"revoke" →
    parseRevocationRequest r' = (parseRevocationRequest r).map ρ.revocationRequest

/-- The second operation is the first with the other names. What is presented to `Authorize` has no names
in it. -/
inductive SameOp : Op → Op → Prop
  | serve {r r' : Request} : SameRequest ρ r r' → SameOp (.serve r) (.serve r')
  | authorize (r : Request) (required : Scope) : SameOp (.authorize r required) (.authorize r required)
  | configure (clients users : GoMap ServerEntity) :
      SameOp (.configure clients users) (.configure (ρ.clients clients) (ρ.users users))

/-- The second call is the first with the other names, at the same times and with the same random
bytes. -/
structure SameCall (c c' : Call) : Prop where
  op : SameOp ρ c.op c'.op
  coins : c'.coins = c.coins
  clock : c'.clock = c.clock

/-- The second answer to the call is the first with the other names: it is the same, unless it is the
description of a token, in which they appear. -/
def SameAnswer (c : Call) (a a' : Answer) : Prop :=
  (a' = a ∧ ∀ res, a = .answered res → ToIntrospection c → res.statusCode ≠ 200) ∨
  (∃ i res res', ToIntrospection c ∧ a = .answered res ∧ a' = .answered res' ∧ WrittenAs i res ∧
    WrittenAs (ρ.description i) res')

end OAuth2.Spec

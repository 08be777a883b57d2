import Verif.Spec.Store
import Verif.Spec.Scope
import Verif.Spec.Utf8
/-
A resource server that introspects instead of calling `Authorize`.
-/

namespace OAuth2.Spec

/-- What the client library reads from the successful answer to an introspection request of this client for the text. -/
def ReadsFor (s : Shared Server) (c : Call) (client text : Str) (i : IntrospectionResponse) : Prop :=
  ∃ rq res limit, AsksIntrospection c rq ∧ rq.clientID = client ∧ rq.token = text ∧ (step s c).1 = .answered res ∧
    res.statusCode = 200 ∧ (res.body.length : Int) ≤ limit ∧ parseIntrospectionResponse res limit = .ok i

/-- The same for any client. -/
def ReadsOf (s : Shared Server) (c : Call) (text : Str) (i : IntrospectionResponse) : Prop :=
  ∃ client, ReadsFor s c client text i

/-- The token is good by what is read (RFC 7662, section 4): it is active, is of the kind, has not expired, by the
second, and has the required scope. -/
structure GoodBy (i : IntrospectionResponse) (k : Kind) (required : Scope) (now : Time) : Prop where
  active : i.active = true
  kind : i.tokenType = k.name
  alive : now.unix ≤ i.expiresAt
  scope : Within required i.scope

/-- How a resource server decides by what it reads. -/
def Admissible (i : IntrospectionResponse) (required : Scope) (now : Time) : Prop := GoodBy i .access required now

/-- What JSON and the syntax of scopes can transport. -/
structure Transportable (cred : ServerCredential) : Prop where
  expiry : -2 ^ 63 ≤ cred.expiresAt.unix ∧ cred.expiresAt.unix < 2 ^ 63
  clean : ∀ i ∈ cred.scope.items, CleanItem i
  valid : ∀ i ∈ cred.scope.items, ValidUTF8 i

/-- All tokens that are stored can be transported. -/
def AllTransportable (s : Server) : Prop :=
  ∀ k sig cred, (tokens s k).get? sig = some cred → Transportable cred

end OAuth2.Spec

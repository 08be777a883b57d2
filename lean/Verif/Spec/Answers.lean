import Verif.Spec.History
import Verif.Spec.Refusal

/-!
The responses the protocol (RFC 6749, RFC 6750, RFC 7009, RFC 7662) knows, as this server sends them.
-/

namespace OAuth2.Spec

/-- The headers of a JSON document that must not be cached. -/
def documentHeaders : Header :=
  [(b!"Content-Type", [b!"application/json;charset=UTF-8"]), (b!"Cache-Control", [b!"no-store"]),
   (b!"Pragma", [b!"no-cache"])]

/-- The demand for basic authentication. -/
def basicChallenge : Header := [(b!"Www-Authenticate", [b!"Basic realm=\"OAuth2\""])]

/-- The errors the endpoints report in a document, and the endpoints that report them. -/
def reported : List (Str × List Str) :=
  [(b!"invalid_request", [b!"authorize", b!"token", b!"introspect", b!"revoke"]),
   (b!"invalid_client", [b!"authorize", b!"token", b!"introspect", b!"revoke"]),
   (b!"invalid_grant", [b!"token"]), (b!"invalid_scope", [b!"token"]),
   (b!"access_denied", [b!"token"]),
   (b!"unsupported_token_type", [b!"introspect", b!"revoke"])]

/-- The response is one the protocol knows, at the endpoint the path names. -/
inductive Conforms (path : Str) (res : Response) : Prop
  /-- Tokens: status 200 and a document with these members, in this order, of which `refresh_token`
  and `scope` may be missing. -/
  | tokens (members : List (Str × JSON)) (a : Str) (n : Int) : LastSegment path b!"token" →
      res.statusCode = 200 → res.header.Perm documentHeaders →
      parseJSON res.body = some (.obj members) →
      (members.map (·.1)).Sublist
        [b!"token_type", b!"access_token", b!"expires_in", b!"refresh_token", b!"scope"] →
      (b!"token_type", .str b!"bearer") ∈ members → (b!"access_token", .str a) ∈ members →
      (b!"expires_in", .num (itoa n)) ∈ members → Conforms path res
  /-- The description of a token, or the news that it is not active and nothing else. -/
  | description (members : List (Str × JSON)) (active : Bool) : LastSegment path b!"introspect" →
      res.statusCode = 200 → res.header.Perm documentHeaders →
      parseJSON res.body = some (.obj members) →
      (members.map (·.1)).Sublist
        [b!"active", b!"scope", b!"client_id", b!"username", b!"token_type", b!"exp"] →
      (b!"active", .bool active) ∈ members → (active = false → members.length = 1) →
      Conforms path res
  /-- Success of a revocation: nothing but the status. -/
  | revoked : LastSegment path b!"revoke" → res.statusCode = 200 → res.header = [] →
      res.body = [] → Conforms path res
  /-- An error document: the status goes with the error name, and a status of 401 comes with a
  demand for basic authentication, and only that. -/
  | failure (members : List (Str × JSON)) (name endpoint : Str) (endpoints : List Str) :
      (name, endpoints) ∈ reported → endpoint ∈ endpoints → LastSegment path endpoint →
      res.statusCode = statusOf name →
      res.header.Perm ((if res.statusCode = 401 then basicChallenge else []) ++ documentHeaders) →
      parseJSON res.body = some (.obj members) →
      (members.map (·.1)).Sublist [b!"error", b!"error_description"] →
      (b!"error", .str name) ∈ members → Conforms path res
  /-- A redirect: without a body, not to be cached, and not to be told to other sites. -/
  | redirect (location : Str) : LastSegment path b!"authorize" → res.statusCode = 303 →
      res.header.Perm [(b!"Location", [location]), (b!"Cache-Control", [b!"no-store"]),
        (b!"Pragma", [b!"no-cache"]), (b!"Referrer-Policy", [b!"origin"])] →
      res.body = [] → Conforms path res
  /-- The page for browsers, a constant text. -/
  | page : LastSegment path b!"authorize" → res.statusCode = 200 → res.header = [] →
      res.body = Server.notice → Conforms path res
  /-- There is no such endpoint. -/
  | notFound : (∀ endpoint ∈ [b!"authorize", b!"token", b!"introspect", b!"revoke"],
        ¬ LastSegment path endpoint) → res.statusCode = 404 →
      res.header.Perm [(b!"Content-Type", [b!"text/plain; charset=utf-8"]),
        (b!"X-Content-Type-Options", [b!"nosniff"])] →
      res.body = b!"404 page not found\n" → Conforms path res

end OAuth2.Spec

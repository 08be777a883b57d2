import Verif.Model.Follow
/-
What a client that follows redirects may send, and to whom.
-/

namespace OAuth2.Spec

/-- The response sends the client elsewhere. -/
def Elsewhere (res : Response) : Prop :=
  res.statusCode ∈ [301, 302, 303] ∨
  res.statusCode ∈ [307, 308] ∧ res.header.get b!"Location" ≠ []

/-- The headers that tell who the client is. -/
def credentialHeaders : List Str := [b!"Authorization", b!"Www-Authenticate", b!"Cookie", b!"Cookie2"]

/-- A request as it is sent: one without an `Authorization` header gets one if the URL has a user. -/
inductive SentAs (h : Hop) : Hop → Prop
  | same : h.url.user = none ∨ h.request.header.get b!"Authorization" ≠ [] → SentAs h h
  | user {u : Userinfo} : h.url.user = some u → h.request.header.get b!"Authorization" = [] →
      SentAs h { h with request := { h.request with
        header := h.request.header.set b!"Authorization"
          (b!"Basic " ++ b64StdEncode (u.username ++ [0x3A] ++ u.password.getD [])) } }

/-- The response to the request leads to the next one, in a chain that began with `first`. -/
structure Leads (f : Navigation) (first prev : Hop) (res : Response) (next : Hop) : Prop where
  elsewhere : Elsewhere res
  location : res.header.get b!"Location" ≠ [] ∧
    f.resolve prev.url (res.header.get b!"Location") = some next.url
  line : next.request.path = next.url.path ∧ next.request.rawQuery = next.url.rawQuery
  /-- Only 307 and 308 repeat a POST request. -/
  method : next.request.method =
    if res.statusCode ∈ [307, 308] ∨ prev.request.method ∈ [b!"GET", b!"HEAD"] then prev.request.method
    else b!"GET"
  /-- Only after 307 and 308 there is a body; it is that of the first request. -/
  body : next.request.body = if res.statusCode ∈ [307, 308] then first.request.body else none
  headers : ∀ k, canonicalKey k ∉ credentialHeaders → canonicalKey k ≠ b!"Referer" →
    next.request.header.all k = first.request.header.all k
  /-- Credentials stay within a site. -/
  stays : f.sameSite prev.url next.url = true → ∀ k, canonicalKey k ∈ credentialHeaders →
    first.request.header.get k ≠ [] → next.request.header.all k = first.request.header.all k
  leaves : f.sameSite prev.url next.url = false → ∀ k, canonicalKey k ∈ credentialHeaders →
    next.request.header.all k = [] ∨
    canonicalKey k = b!"Authorization" ∧ ∃ u, next.url.user = some u ∧ next.request.header.all k =
      [b!"Basic " ++ b64StdEncode (u.username ++ [0x3A] ++ u.password.getD [])]

/-- The requests that are sent, what is answered to them, and the result. -/
structure Chain (f : Navigation) (net : Network) (first : Hop)
    (trace : List (Hop × Option Response)) (result : Option Response) : Prop where
  few : trace.length ≤ 10
  begins : ∃ h x rest, trace = (h, x) :: rest ∧ SentAs first h
  answers : ∀ pre h x post, trace = pre ++ (h, x) :: post → x = net (pre.map (·.1)) h
  links : ∀ pre h x h' x' post, trace = pre ++ (h, x) :: (h', x') :: post →
    ∃ res, x = some res ∧ Leads f first h res h'
  result : ∀ pre h x, trace = pre ++ [(h, x)] →
    ∀ res, result = some res ↔ x = some res ∧ ¬ Elsewhere res
  /-- A redirect is not followed only if there is nowhere to go, or after ten requests. -/
  ends : ∀ pre h res, trace = pre ++ [(h, some res)] → Elsewhere res →
    trace.length = 10 ∨ res.header.get b!"Location" = [] ∨
      f.resolve h.url (res.header.get b!"Location") = none

end OAuth2.Spec

import Verif.Model.Client
/-
`http.Client.Do` (Go 1.16), which `Client` calls (client.go:64, 99, 134): how it follows redirects. The
rest of this model takes `Do` as an arbitrary function from requests to responses; here it is a loop
over an arbitrary network.
-/

namespace OAuth2

/-- A request and where it is sent. Go: `http.Request` with its field `URL`, as `http.NewRequest` makes
it (token.go:241, introspection.go:131, revocation.go:86). -/
structure Hop where
  url : URL
  request : Request
  deriving DecidableEq, Repr

/-- What is answered to a request after others have been sent; `none` is an error. Go: the field
`Transport` of `http.Client`. -/
abbrev Network := List Hop → Hop → Option Response

/-- What `Do` calls to look at URLs. These may be any functions here; what Go does is in
Verif/Model/Navigate.lean (`goNavigation`). Go:
`(*URL).Parse(ref)`, `isDomainOrSubdomain(canonicalAddr(next), canonicalAddr(previous))` and
`refererForURL(previous, next)`, all called by `http.Client.Do` (client.go:64). -/
structure Navigation where
  resolve : URL → Str → Option URL
  sameSite : URL → URL → Bool
  referer : URL → URL → Str

/-- The headers that stay within a site. Go: `net/http.shouldCopyHeaderOnRedirect`, called by
`http.Client.Do` (client.go:64). -/
def sensitiveHeaders : List Str := [b!"Authorization", b!"Www-Authenticate", b!"Cookie", b!"Cookie2"]

/-- Go: `net/http.redirectBehavior`: the method of the next request and whether it has the body of the
first; `none` if the response is final. `GetBody` is always set, because the body is a
`strings.Reader`. Called by `http.Client.Do` (client.go:64). -/
def redirectBehavior (method : Str) (res : Response) : Option (Str × Bool) :=
  if res.statusCode = 301 ∨ res.statusCode = 302 ∨ res.statusCode = 303 then
    some (if method ≠ b!"GET" ∧ method ≠ b!"HEAD" then b!"GET" else method, false)
  else if res.statusCode = 307 ∨ res.statusCode = 308 then
    if res.header.get b!"Location" = [] then none else some (method, true)
  else none

/-- Go: `net/http.send` sends the user of the URL if there is no `Authorization` header (called by
`http.Client.Do`, client.go:64). -/
def Hop.withUser (h : Hop) : Hop :=
  match h.url.user with
  | some u =>
    if h.request.header.get b!"Authorization" = [] then
      { h with request := h.request.setBasicAuth u.username (u.password.getD []) }
    else h
  | none => h

/-- The next request of a chain of redirects. Go: the loop of `(*http.Client).do` and
`makeHeadersCopier`: the headers are those of the first request, and the site is compared with that of
the previous one (client.go:64). -/
def Hop.next (f : Navigation) (first prev : Hop) (u : URL) (method : Str) (includeBody : Bool) : Hop :=
  let header : Header := first.request.header.filter fun e =>
    !(sensitiveHeaders.contains (canonicalKey e.1)) || f.sameSite prev.url u
  let ref := f.referer prev.url u
  { url := u,
    request := {
      method := method, path := u.path, rawQuery := u.rawQuery,
      header := if ref ≠ [] then header.set b!"Referer" ref else header,
      body := if includeBody then first.request.body else none } }

/-- The loop of `(*http.Client).do`: what was sent and answered, and the result; `none` is an error.
The number says how many more requests there may be. Go: client.go:64. -/
def follow (f : Navigation) (net : Network) (first : Hop) :
    Nat → List Hop → Hop → List (Hop × Option Response) × Option Response
  | n, via, hop =>
    let sent := hop.withUser
    match net via sent with
    | none => ([(sent, none)], none)
    | some res =>
      match redirectBehavior hop.request.method res with
      | none => ([(sent, some res)], some res)
      | some (method, includeBody) =>
        let location := res.header.get b!"Location"
        if location = [] then ([(sent, some res)], none)
        else
          match f.resolve hop.url location, n with
          | none, _ => ([(sent, some res)], none)
          | some _, 0 => ([(sent, some res)], none)
          | some u, n + 1 =>
            let rest := follow f net first n (via ++ [sent])
              (Hop.next f first hop u method includeBody)
            ((sent, some res) :: rest.1, rest.2)

/-- Go: `new(http.Client).Do(req)` (client.go:34, 64): not more than ten requests
(`defaultCheckRedirect`). -/
def httpDo (f : Navigation) (net : Network) (hop : Hop) :
    List (Hop × Option Response) × Option Response :=
  follow f net hop 9 [] hop

/-- `http.Client.Do` for requests to this URL, as a transport. client.go:33-35 `NewClient`. -/
def httpClient (f : Navigation) (net : Network) (url : URL) : Transport :=
  fun r => (httpDo f net ⟨url, r⟩).2

end OAuth2

import Verif.Model.Concurrent
/-
Bodies that take their time. `ServeHTTP` takes the mutex first (server.go:126) and parses the form
afterwards (authorization.go:28, introspection.go:33, revocation.go:28 and token.go:41, called from
server.go:155, 259, 451 and 513), so that a call waits for the body of its request with the mutex
held.

Simplifications: a body arrives at once; what has arrived is the body of the model's request, and
whether it ended early is its `bodyErr`. Nothing happens between taking the mutex and waiting for
the body but looking at path, method and content type. Responses are written without waiting:
`net/http` collects the first 2048 bytes of a body (`bufferBeforeChunkingSize`) and sends them when
the handler has returned. No refusal is longer than that (C98_short); a grant can be (C98_long), and
then waiting for the client to take it, also with the mutex held, is not modelled.
-/

namespace OAuth2

/-- Go: `r.ParseForm()` reads from the body (`net/http.parsePostForm`, Go 1.16): the values of the
body are not known yet, the method is one with a body, and the content type is that of forms.
Reached from token.go:41 and the others. -/
def Request.formReads (r : Request) : Bool :=
  r.postForm.isNone &&
  (r.method = b!"POST" || r.method = b!"PUT" || r.method = b!"PATCH") && r.body.isSome &&
  (parseMediaType (if r.header.get b!"Content-Type" = [] then b!"application/octet-stream"
    else r.header.get b!"Content-Type")).1 = b!"application/x-www-form-urlencoded"

/-- server.go:129-150: `ServeHTTP` reads from the body of the request. The method is checked before
(authorization.go:23, introspection.go:28, revocation.go:23, token.go:36). -/
def Server.readsBody (r : Request) : Bool :=
  let path := lastSegment r.path
  if path = b!"authorize" then (r.method = b!"GET" || r.method = b!"POST") && r.formReads
  else if path = b!"token" ∨ path = b!"introspect" ∨ path = b!"revoke" then
    r.method = b!"POST" && r.formReads
  else false

/-- The next effect takes the mutex (server.go:83 and 126). -/
def Prog.isLock {σ α : Type} : Prog σ α → Bool
  | .lock _ => true
  | _ => false

end OAuth2

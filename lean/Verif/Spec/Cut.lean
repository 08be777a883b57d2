import Verif.Spec.Carry
import Verif.Spec.Broken
/-
Connections that break after some byte.
-/

namespace OAuth2.Rfc7230

open Spec

/-- What the other side gets of a request: it is read from the first bytes of its text only. -/
def arriving (x : Sending) (u : URL) (bytes : Nat) (r : Request) : Option Request :=
  (readRequest ((requestText x u.requestURI r).take bytes)).map (·.1)

/-- `http.Client.Do` over a connection to the server in this state of which only so many bytes of the
request and so many of the response get through. -/
def cutLine (x : Sending) (y : Shipping) (u : URL) (s : Shared Server) (coins : Str) (clock : Nat → Time)
    (there back : Nat) : Transport := fun r =>
  if !r.header.sendable then none
  else do
    let r' ← arriving x u there r
    let res ← wire s coins clock r'
    let (res', _) ← readResponse ((responseText y res).take back)
    return res'

/-- The state in which the server is left. -/
def cutState (x : Sending) (u : URL) (s : Shared Server) (coins : Str) (clock : Nat → Time) (there : Nat)
    (r : Request) : Shared Server :=
  if !r.header.sendable then s
  else match arriving x u there r with
    | none => s
    | some r' => (step s { op := .serve r', coins := coins, clock := clock }).2

/-- The requests that are handed to a handler one after the other, from the bytes of a connection: up
to bytes that are not a request, or up to a request whose body breaks off. The number bounds that of
the requests. Go: `net/http.conn.serve` (server.go:124). -/
def fed : Nat → Str → List Request
  | 0, _ => []
  | n + 1, s =>
    match readRequest s with
    | none => []
    | some (r, rest) => if r.bodyErr then [r] else r :: fed n rest

end OAuth2.Rfc7230

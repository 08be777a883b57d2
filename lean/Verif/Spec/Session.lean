import Verif.Spec.Cut
/-
Many connections to one server, and many requests on each.
-/

namespace OAuth2.Rfc7230

open Spec

/-- A connection: the bytes the client sends on it as long as it lasts that the server has not read
yet, and the bytes the server has written on it. -/
structure Conn where
  unread : Str
  written : Str := []

/-- The server serves the next request of a connection, with these random bytes and clock readings.
`ship` is what `net/http` adds to the answer, and whether it ends the connection then. -/
structure Turn where
  conn : Nat
  coins : Str
  clock : Nat → Time
  ship : Shipping

/-- A server and its connections. -/
structure Hub where
  server : Shared Server
  conn : Nat → Conn

/-- Serving the next request of a connection: it is read from the bytes of the connection, handed to
the server, and its answer is written. After a body that breaks off, or a panic, nothing more is read.
Go: `net/http.conn.serve` (server.go:124). Simplification: nothing is written for bytes that are not a
request, and when the handler panics; a turn is taken at once (C47 says that requests that overlap are
answered as if one came after the other). -/
def Hub.turn (h : Hub) (t : Turn) : Hub :=
  match readRequest (h.conn t.conn).unread with
  | none => h
  | some (r, rest) =>
    let p := step h.server { op := .serve r, coins := t.coins, clock := t.clock }
    { server := p.2
      conn := fun i =>
        if i = t.conn then
          match p.1 with
          | .answered res =>
            { unread := if r.bodyErr || t.ship.close then [] else rest
              written := (h.conn i).written ++ responseText t.ship res }
          | _ => { unread := [], written := (h.conn i).written }
        else h.conn i }

/-- The same without bytes: for each connection the requests that wait, and the answers given. -/
structure Desk where
  server : Shared Server
  waiting : Nat → List Request
  answers : Nat → List Response := fun _ => []

/-- The next request of a connection is answered. After a panic, or if `net/http` says so, none of its
other requests are. -/
def Desk.turn (d : Desk) (t : Turn) : Desk :=
  match d.waiting t.conn with
  | [] => d
  | r :: l =>
    let p := step d.server { op := .serve r, coins := t.coins, clock := t.clock }
    match p.1 with
    | .answered res =>
      { server := p.2
        waiting := fun i => if i = t.conn then if t.ship.close then [] else l else d.waiting i
        answers := fun i => if i = t.conn then d.answers i ++ [res] else d.answers i }
    | _ => { d with server := p.2, waiting := fun i => if i = t.conn then [] else d.waiting i }

/-- A request the client library makes for the endpoint at this URL. -/
def Library (u : URL) (r : Request) : Prop :=
  Address u ∧ ∃ uri values clientID clientSecret, parseURL uri = some u ∧
    buildFormRequest uri values clientID clientSecret = some r ∧ values.encode.length < 2 ^ 63

/-- The requests as the client sends them, one after the other. -/
def sentText (x : Sending) (l : List (URL × Request)) : Str :=
  l.flatMap fun p => requestText x p.1.requestURI p.2

/-- The response that is read is the one that was given: status, body and header fields, but for what
`net/http` adds. -/
structure Delivered (sent got : Response) : Prop where
  status : got.statusCode = sent.statusCode ∧ got.status = sent.status
  body : got.body = sent.body ∧ got.bodyErr = false
  header : ∀ name, (∀ own ∈ [b!"Date", b!"Content-Length", b!"Connection", b!"Transfer-Encoding"],
      ¬ SameName name own) →
    (SameName name b!"Content-Type" → sent.header.all name ≠ [] ∨ sent.body = []) →
    (SameName name b!"Cache-Control" → sent.header.all name ≠ [] ∨ sent.header.all b!"Pragma" = []) →
    got.header.all name = sent.header.all name

end OAuth2.Rfc7230

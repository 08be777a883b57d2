import Verif.Spec.Wire
import Verif.Spec.History
import Verif.Model.Wire
import Verif.Model.Client
/-
What it means that a request or a response arrives as it was sent.
-/

namespace OAuth2.Rfc7230

open Rfc7235 (Token Blank)

/-- The elements of two lists are related one by one. -/
inductive Each {α β : Type} (R : α → β → Prop) : List α → List β → Prop
  | nil : Each R [] []
  | cons {a : α} {b : β} {l : List α} {l' : List β} : R a b → Each R l l' → Each R (a :: l) (b :: l')

/-- The second text is the first with line breaks as blanks and without blanks at its ends. -/
def Cleaned (v v' : Str) : Prop :=
  Value v' ∧ ∃ a b, Blank a ∧ Blank b ∧
    v.map (fun c => if c = 0x0D ∨ c = 0x0A then 0x20 else c) = a ++ v' ++ b

/-- A header as Go keeps it: a map, its names in one spelling. -/
structure Kept (h : Header) : Prop where
  once : h.keys.Nodup
  name : ∀ k ∈ h.keys, Token k ∧ canonicalKey k = k

/-- An answer of a handler with a body, which has left to `net/http` what is its business. -/
structure Given (res : Response) : Prop where
  header : Kept res.header
  own : ∀ k ∈ res.header.keys, k ∉ [b!"Date", b!"Content-Length", b!"Connection",
    b!"Transfer-Encoding", b!"Trailer"]
  status : 200 ≤ res.statusCode ∧ res.statusCode ≤ 999 ∧ res.statusCode ≠ 204 ∧ res.statusCode ≠ 304
  size : res.body.length < 2 ^ 63

/-- What `net/http` adds to a response with this body is in order: date and guessed content type are
values, and the pieces it cuts the body into make up the body. -/
structure Ships (x : Shipping) (body : Str) : Prop where
  date : Value x.date
  sniff : Value (x.sniff body)
  chunks : (x.chunks body).flatten = body ∧ ∀ c ∈ x.chunks body, c ≠ []

/-- The response that is read has status and body of the one that was sent and its header fields,
with their values cleaned, but for what `net/http` adds. -/
structure Arrived (sent got : Response) : Prop where
  code : got.statusCode = sent.statusCode
  status : got.status = statusLine sent.statusCode
  body : got.body = sent.body
  whole : got.bodyErr = false
  header : ∀ name, (∀ own ∈ [b!"Date", b!"Content-Length", b!"Connection", b!"Transfer-Encoding"],
      ¬ SameName name own) →
    (SameName name b!"Content-Type" → sent.header.all name ≠ [] ∨ sent.body = []) →
    (SameName name b!"Cache-Control" → sent.header.all name ≠ [] ∨ sent.header.all b!"Pragma" = []) →
    Each Cleaned (sent.header.all name) (got.header.all name)

/-- A request to this target, as `http.Client` agrees to send it. -/
structure Asked (x : Sending) (target : Str) (r : Request) : Prop where
  method : Token r.method
  header : Kept r.header
  printable : ∀ e ∈ r.header, ∀ v ∈ e.2, Printable v
  own : ∀ k ∈ r.header.keys, k ∉ [b!"Host", b!"User-Agent", b!"Content-Length",
    b!"Transfer-Encoding", b!"Trailer", b!"Accept-Encoding"]
  host : HostText x.host
  target : ∀ b ∈ target, 0x20 < b ∧ b ≠ 0x7F
  body : (r.body.getD []).length < 2 ^ 63

/-- The request that is read has the method and body of the one that was sent and its header fields,
with their values cleaned, but for what `net/http` adds; path and query are those of the target. -/
structure Reached (sent : Request) (target : Str) (got : Request) : Prop where
  method : got.method = sent.method
  url : ∃ u, parseRequestURI target = some u ∧ got.path = u.path ∧ got.rawQuery = u.rawQuery
  body : got.body = some (sent.body.getD [])
  whole : got.bodyErr = false
  fresh : got.postForm = none ∧ got.form = none
  header : ∀ name, (∀ own ∈ [b!"Host", b!"User-Agent", b!"Content-Length", b!"Transfer-Encoding",
      b!"Accept-Encoding"], ¬ SameName name own) →
    (SameName name b!"Cache-Control" → sent.header.all name ≠ [] ∨ sent.header.all b!"Pragma" = []) →
    Each Cleaned (sent.header.all name) (got.header.all name)

/-- Reading this many messages one after the other. -/
def readMany {α : Type} (read : Str → Option (α × Str)) : Nat → Str → Option (List α × Str)
  | 0, s => some ([], s)
  | n + 1, s =>
    match read s with
    | none => none
    | some (a, rest) => (readMany read n rest).map fun p => (a :: p.1, p.2)

/-- The URL of an endpoint a client can send requests to: it has a path, no user, and no blank or
control character in its query. -/
structure Address (u : URL) : Prop where
  path : u.opaque_ = [] ∧ ∀ p ∈ [u.path, u.rawPath], p = [] ∨ ∃ t, p = 0x2F :: t
  user : u.user = none
  query : ∀ b ∈ u.rawQuery, 0x20 < b ∧ b ≠ 0x7F

/-- `http.Client.Do` for the endpoint at this URL: the request goes over a connection as text, the
other side reads it, serves it and writes its response, which is read in turn. Requests with
headers that may not be sent are errors, as are messages that cannot be read. -/
def connection (x : Sending) (y : Shipping) (u : URL) (serve : Request → Option Response) : Transport :=
  fun r =>
    if !r.header.sendable then none
    else do
      let (r', _) ← readRequest (requestText x u.requestURI r)
      let res ← serve r'
      let (res', _) ← readResponse (responseText y res)
      return res'

end OAuth2.Rfc7230

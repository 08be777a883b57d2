import Verif.Model.Http
import Verif.Model.Float
/-
HTTP/1.1 on a connection: how `net/http` (Go standard library, Go 1.16) writes the requests of
client.go:64, 99 and 134 and the responses of server.go:124 as bytes, and how the other side reads
them. Simplifications: no limits on the size of a head; HTTP/1.1 only; no HEAD or CONNECT requests,
no trailers set by a handler, no compression.
-/

namespace OAuth2

/-- The end of a line. Go: `net/http`, for example in `Request.write` (client.go:64). -/
def crlf : Str := [0x0D, 0x0A]

/-! ### Writing -/

/-- Remove such bytes from both ends. Go: `textproto.TrimString` and `trim`, under client.go:64. -/
def trimBy (p : UInt8 → Bool) (s : Str) : Str := ((s.dropWhile p).reverse.dropWhile p).reverse

/-- Go: `net/textproto.isASCIISpace`. -/
def isASCIISpace (c : UInt8) : Bool := c = 0x20 || c = 0x09 || c = 0x0A || c = 0x0D

/-- Go: `net/http.headerNewlineToSpace.Replace(v)`. -/
def newlineToSpace (v : Str) : Str := v.map fun c => if c = 0x0A ∨ c = 0x0D then 0x20 else c

/-- What becomes of a header value when it is written. Go: the loop body of
`net/http.Header.writeSubset` (oauth2.go:75-77). -/
def cleanValue (v : Str) : Str := trimBy isASCIISpace (newlineToSpace v)

/-- One line of a head. Go: `net/http.Header.writeSubset` (oauth2.go:75-77). -/
def fieldLine (k v : Str) : Str := k ++ b!": " ++ v ++ crlf

/-- Go: `net/http.Header.writeSubset(w, exclude)`: keys sorted. -/
def Header.text (h : Header) (exclude : List Str) : Str :=
  ((sortStrings h.keys).filter fun k => !exclude.contains k).flatMap fun k =>
    ((GoMap.get? h k).getD []).flatMap fun v => fieldLine k (cleanValue v)

/-- Lower-case hexadecimal digits of a number. Go: `%x` in `net/http.chunkWriter.Write`. -/
def hexDigits (n : Nat) : Str := (Nat.toDigits 16 n).map fun c => UInt8.ofNat c.toNat

/-- What a server does not derive from the handler's answer. `date` is the text of the time,
`close` whether it wants to end the connection, `chunks` how it cuts a long body into pieces (Go:
as its buffer fills) and `sniff` the content type it guesses from a body
(`http.DetectContentType`). Go: `net/http.chunkWriter` (server.go:124). -/
structure Shipping where
  date : Str
  close : Bool := false
  chunks : Str → List Str := fun body => [body]
  sniff : Str → Str := fun _ => b!"text/plain; charset=utf-8"

/-- The size of the buffer before which the length of a body is not announced. Go:
`net/http.bufferBeforeChunkingSize`. -/
def bufferBeforeChunking : Nat := 2048

/-- A body in chunks. Go: `net/http.chunkWriter.Write` and `close`. -/
def chunkedText (chunks : List Str) : Str :=
  (chunks.flatMap fun c => hexDigits c.length ++ crlf ++ c ++ crlf) ++ b!"0" ++ crlf ++ crlf

/-- A response as the server of `net/http` writes it (`chunkWriter.writeHeader`), for a handler
that has returned (server.go:124). Simplification: the handler has not set one of the headers of
`serverFields`, and the status allows a body. -/
def responseText (x : Shipping) (res : Response) : Str :=
  let small : Bool := res.body.length ≤ bufferBeforeChunking
  b!"HTTP/1.1 " ++ statusLine res.statusCode ++ crlf ++
  res.header.text [] ++
  fieldLine b!"Date" x.date ++
  (if small then fieldLine b!"Content-Length" (natDigits res.body.length) else []) ++
  (if GoMap.get? res.header b!"Content-Type" = none ∧ res.body ≠ [] then
    fieldLine b!"Content-Type" (x.sniff res.body) else []) ++
  (if x.close then fieldLine b!"Connection" b!"close" else []) ++
  (if small then [] else fieldLine b!"Transfer-Encoding" b!"chunked") ++
  crlf ++
  (if small then res.body else chunkedText (x.chunks res.body))

/-- The headers the server of `net/http` takes over itself. Go: `chunkWriter.writeHeader`
(server.go:124). -/
def serverFields : List Str :=
  [b!"Date", b!"Content-Length", b!"Connection", b!"Transfer-Encoding", b!"Trailer"]

/-- What a client does not derive from the request: the text for the host, and whether it asks for
compression. Go: `net/http.Request.write` and `persistConn.roundTrip` (client.go:64). -/
structure Sending where
  host : Str
  gzip : Bool := true
  deriving DecidableEq, Repr

/-- Go: `net/http.reqWriteExcludeHeader`. -/
def requestFields : List Str :=
  [b!"Host", b!"User-Agent", b!"Content-Length", b!"Transfer-Encoding", b!"Trailer"]

/-- Go: `(*URL).RequestURI()`. -/
def URL.requestURI (u : URL) : Str :=
  (if u.opaque_ = [] then if u.escapedPath = [] then [0x2F] else u.escapedPath
    else if hasPrefix b!"//" u.opaque_ then u.scheme ++ [0x3A] ++ u.opaque_ else u.opaque_) ++
  (if u.forceQuery ∨ u.rawQuery ≠ [] then 0x3F :: u.rawQuery else [])

/-- A request as the client of `net/http` writes it (`Request.write`), to this request target.
Simplification: it has no User-Agent header of its own. Go: client.go:64, 99 and 134. -/
def requestText (x : Sending) (target : Str) (r : Request) : Str :=
  let body := r.body.getD []
  r.method ++ [0x20] ++ target ++ b!" HTTP/1.1" ++ crlf ++
  fieldLine b!"Host" x.host ++
  fieldLine b!"User-Agent" b!"Go-http-client/1.1" ++
  (if body ≠ [] ∨ r.method = b!"POST" ∨ r.method = b!"PUT" ∨ r.method = b!"PATCH" then
    fieldLine b!"Content-Length" (natDigits body.length) else []) ++
  r.header.text requestFields ++
  (if x.gzip then fieldLine b!"Accept-Encoding" b!"gzip" else []) ++
  crlf ++ body

/-- Go: `httpguts.ValidHeaderFieldName(k)`. -/
def validFieldName (k : Str) : Bool := k ≠ [] && k.all validHeaderFieldByte

/-- Go: `httpguts.ValidHeaderFieldValue(v)`. -/
def validFieldValue (v : Str) : Bool := v.all fun c => !(c < 0x20 || c = 0x7F) || c = 0x20 || c = 0x09

/-- The headers a client agrees to send. Go: the checks of `net/http.Transport.roundTrip`
(client.go:64). -/
def Header.sendable (h : Header) : Bool :=
  List.all h fun e => validFieldName e.1 && e.2.all validFieldValue

/-! ### Reading -/

/-- A line without its end. Go: `bufio.Reader.ReadLine`. -/
def dropCR (l : Str) : Str := if l.getLast? = some 0x0D then l.dropLast else l

/-- Go: `textproto.Reader.ReadLine()`; `none` is the end of the connection. Simplification: a last
line that breaks off is not returned; a head that ends in one is an error either way. -/
def readLine (s : Str) : Option (Str × Str) := (cutByte 0x0A s).map fun p => (dropCR p.1, p.2)

/-- The lines up to an empty one and what follows it; the number is at least that of the lines. Go:
`textproto.Reader.ReadMIMEHeader`. -/
def readBlock : Nat → Str → Option (List Str × Str)
  | 0, _ => none
  | n + 1, s =>
    match readLine s with
    | none => none
    | some (l, rest) =>
      if l = [] then some ([], rest) else (readBlock n rest).map fun p => (l :: p.1, p.2)

/-- Go: the bytes `textproto.trim` removes. -/
def isWsp (c : UInt8) : Bool := c = 0x20 || c = 0x09

/-- Lines with those that continue them: the text that continues the line before, and for each
further line its first part and the whole. Go: `textproto.Reader.readContinuedLineSlice`. -/
def unfoldLines : List Str → Str × List (Str × Str)
  | [] => ([], [])
  | l :: ls =>
    let p := unfoldLines ls
    if l.head?.any isWsp then ([0x20] ++ trimBy isWsp l ++ p.1, p.2)
    else ([], (l, trimBy isWsp l ++ p.1) :: p.2)

/-- One field of a head. Go: the loop body of `textproto.Reader.ReadMIMEHeader`. -/
def readField (h : Header) (line : Str × Str) : Option Header :=
  if !line.1.contains 0x3A then none
  else match cutByte 0x3A line.2 with
    | none => none
    | some (k, v) =>
      let key := canonicalKey k
      if key = [] then some h
      else some (GoMap.set h key ((GoMap.get? h key).getD [] ++ [v.dropWhile isWsp]))

/-- Go: `textproto.Reader.ReadMIMEHeader()`; `none` is an error. -/
def readHead (s : Str) : Option (Header × Str) := do
  let (ls, rest) ← readBlock (s.length + 1) s
  let (t, lines) := unfoldLines ls
  if t ≠ [] then none
  else do
    let h ← lines.foldlM readField []
    return (h, rest)

/-- Go: `net/http.fixPragmaCacheControl(header)`. -/
def fixPragma (h : Header) : Header :=
  if h.get b!"Pragma" = b!"no-cache" ∧ GoMap.get? h b!"Cache-Control" = none then
    GoMap.set h b!"Cache-Control" [b!"no-cache"]
  else h

/-- Go: `net/http.parseContentLength(cl)`, for a text that is not empty. -/
def parseContentLength (s : Str) : Option Nat :=
  if s ≠ [] ∧ s.all (inRange 48 57) ∧ digitsVal s < 2 ^ 63 then some (digitsVal s) else none

/-- The value of hexadecimal digits. Go: `net/http/internal.parseHexUint`. -/
def parseHex : Nat → Str → Option Nat
  | n, [] => some n
  | n, c :: cs =>
    match unhex c with
    | none => none
    | some d => parseHex (n * 16 + d) cs

/-- The size on the first line of a chunk. Go: `net/http/internal.readChunkLine` and `parseHexUint`
(at most 16 digits). -/
def chunkSize (line : Str) : Option Nat :=
  let digits := ((cutByte 0x3B (line.reverse.dropWhile isASCIISpace).reverse).getD
    ((line.reverse.dropWhile isASCIISpace).reverse, [])).1
  if digits.length ≤ 16 then parseHex 0 digits else none

/-- A body in chunks: the body, whether reading it failed, and what follows; the number is at least
that of the chunks. Go: `net/http/internal.chunkedReader` and `net/http.body.readTrailer`.
Simplification: a trailer is dropped. -/
def readChunks : Nat → Str → Str × Bool × Str
  | 0, _ => ([], true, [])
  | n + 1, s =>
    match cutByte 0x0A s with
    | none => ([], true, [])
    | some (line, rest) =>
      match chunkSize line with
      | none => ([], true, [])
      | some 0 =>
        match readHead rest with
        | none => ([], true, [])
        | some (_, rest') => ([], false, rest')
      | some size =>
        if rest.length < size then (rest, true, [])
        else match stripPrefix crlf (rest.drop size) with
          | none => (rest.take size, true, [])
          | some rest' =>
            let p := readChunks n rest'
            (rest.take size ++ p.1, p.2.1, p.2.2)

/-- How a body is delimited. Go: `net/http.transferReader` (client.go:64, server.go:124). -/
inductive BodyLength where
  | chunked
  | fixed (n : Nat)
  /-- to the end of the connection -/
  | toEnd
  deriving DecidableEq, Repr

/-- Go: `strings.ToLower(s) == "chunked"` in `net/http.transferReader.parseTransferEncoding`
(client.go:64, server.go:124). The only rune outside of ASCII whose lower case is one of these letters
is U+212A (k), three bytes long. -/
def isChunked (s : Str) : Bool :=
  s.map lowerByte = b!"chunked" ||
    ((s.take 4).map lowerByte = b!"chun" && (s.drop 4).take 3 = [0xE2, 0x84, 0xAA] &&
      (s.drop 7).map lowerByte = b!"ed")

/-- Go: `parseTransferEncoding` and `fixLength` of `net/http`, for a status and a method that allow
a body: the header that is left and the length; `none` is an error. -/
def bodyLength (isRequest : Bool) (h : Header) : Option (Header × BodyLength) :=
  match GoMap.get? h b!"Transfer-Encoding" with
  | some [te] =>
    if isChunked (trimBy isASCIISpace te) then
      some ((h.del b!"Transfer-Encoding").del b!"Content-Length", .chunked)
    else none
  | some _ => none
  | none =>
    let cls := ((GoMap.get? h b!"Content-Length").getD []).map (trimBy isASCIISpace)
    match cls with
    | [] => some (h.del b!"Content-Length", if isRequest then .fixed 0 else .toEnd)
    | cl :: more =>
      if !more.all (· = cl) then none
      else if cl = [] then
        some (h.del b!"Content-Length", if isRequest then .fixed 0 else .toEnd)
      else match parseContentLength cl with
        | none => none
        | some n =>
          some (if more = [] then h else GoMap.set h b!"Content-Length" [cl], .fixed n)

/-- The body of a message: its bytes, whether reading them fails, and what follows. Go:
`net/http.body` over the readers `readTransfer` chooses (client.go:64, server.go:124). -/
def readBody (length : BodyLength) (s : Str) : Str × Bool × Str :=
  match length with
  | .chunked => readChunks (s.length + 1) s
  | .fixed n => (s.take n, s.length < n, s.drop n)
  | .toEnd => (s, false, [])

/-- Go: `http.ReadResponse`: the response, and what follows it on the connection once its body has
been read; `none` is an error. Simplification: the status is one that allows a body. -/
def readResponse (s : Str) : Option (Response × Str) := do
  let (line, rest) ← readLine s
  let (proto, status) ← cutByte 0x20 line
  let status := status.dropWhile (· = 0x20)
  let code := ((cutByte 0x20 status).getD (status, [])).1
  if proto ≠ b!"HTTP/1.1" ∨ code.length ≠ 3 ∨ !code.all (inRange 48 57) then none
  else do
    let (h, rest) ← readHead rest
    let (h, length) ← bodyLength false (fixPragma h)
    let (body, err, rest) := readBody length rest
    return ({ statusCode := digitsVal code, status := status, header := h, body := body,
              bodyErr := err }, rest)

/-- Go: `httpguts.ValidHostHeader(h)`. -/
def validHost (h : Str) : Bool := h.all fun c => isAlnum c || b!"!$%&()*+,-.:;='[]_~".contains c

/-- Go: `net/http.readRequest` and `conn.readRequest`: the request, and what follows it on the
connection; `none` is an error or an answer of the server itself (400). -/
def readRequest (s : Str) : Option (Request × Str) := do
  let (line, rest) ← readLine s
  let (method, line) ← cutByte 0x20 line
  let (target, proto) ← cutByte 0x20 line
  if !validFieldName method ∨ proto ≠ b!"HTTP/1.1" then none
  else do
    let u ← parseRequestURI target
    let (h, rest) ← readHead rest
    let (h, length) ← bodyLength true (fixPragma h)
    match GoMap.get? h b!"Host" with
    | some [host] =>
      if !validHost host ∨ !h.sendable then none
      else
        let (body, err, rest) := readBody length rest
        return ({ method := method, path := u.path, rawQuery := u.rawQuery,
                  header := h.del b!"Host", body := some body, bodyErr := err }, rest)
    | _ => none

end OAuth2

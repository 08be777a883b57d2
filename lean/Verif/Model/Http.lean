import Verif.Model.Url
import Verif.Model.Mime
import Verif.Model.Base64
/-
The parts of `net/http` (Go standard library, Go 1.16) the code in /repo calls: headers,
requests, `ParseForm`, basic authentication, responses and the response writer.
-/

namespace OAuth2

/-- Go: `http.Header`. Keys are stored in canonical form. -/
abbrev Header := GoMap (List Str)

/-- Go: `net/textproto.validHeaderFieldByte`: the RFC 7230 token bytes. -/
def validHeaderFieldByte (c : UInt8) : Bool := isAlnum c || b!"!#$%&'*+-.^_`|~".contains c

/-- The loop of `textproto.canonicalMIMEHeaderKey`: upper-case the first letter and any letter
after a hyphen, lower-case the others. Go: called by `Header.Get`, `Set` and `Add`, for example at
bearer.go:27 and oauth2.go:75-77. -/
def canonicalAux : Bool → Str → Str
  | _, [] => []
  | up, c :: cs => (if up then upperByte c else lowerByte c) :: canonicalAux (c = 0x2D) cs

/-- Go: `textproto.CanonicalMIMEHeaderKey(k)`. -/
def canonicalKey (k : Str) : Str := if k.all validHeaderFieldByte then canonicalAux true k else k

namespace Header

/-- Go: `h.Get(k)`: the first value or "". -/
def get (h : Header) (k : Str) : Str :=
  match GoMap.get? h (canonicalKey k) with
  | some (x :: _) => x
  | _ => []

/-- All values of a header (Go: `h.Values(k)`). -/
def all (h : Header) (k : Str) : List Str := (GoMap.get? h (canonicalKey k)).getD []

/-- Go: `h.Set(k, v)`. -/
def set (h : Header) (k v : Str) : Header := GoMap.set h (canonicalKey k) [v]

/-- Go: `h.Add(k, v)`. -/
def add (h : Header) (k v : Str) : Header := GoMap.set h (canonicalKey k) (h.all k ++ [v])

end Header

/-- Go: `http.Request`, restricted to what /repo reads. `body = none` is a nil `Body`;
`bodyErr` says that reading the body fails after these bytes. `postForm`/`form` are `none` while
nil. Simplification: `r.URL` is never nil, and a body is not wrapped in `http.MaxBytesReader`. -/
structure Request where
  method : Str
  path : Str := []
  rawQuery : Str := []
  header : Header := []
  body : Option Str := none
  bodyErr : Bool := false
  postForm : Option Values := none
  form : Option Values := none
  deriving DecidableEq, Repr

/-- 10 MB, the form size limit in `net/http.parsePostForm`. Go: reached through `ParseForm`
(token.go:41). -/
def maxFormSize : Nat := 10485760

/-- Go: `net/http.copyValues(dst, src)`: append all values of `src`. -/
def copyValues (dst src : Values) : Values :=
  src.foldl (fun d e => e.2.foldl (fun d x => d.add e.1 x) d) dst

/-- Go: `net/http.parsePostForm(r)` (Go 1.16): the values (`none` = nil) and `err != nil`. A nil
body is an error, as /repo/token_test.go:101-103 (the case `r2`) expects. -/
def parsePostForm (r : Request) : Option Values × Bool :=
  match r.body with
  | none => (none, true)
  | some data =>
    let ct := r.header.get b!"Content-Type"
    let (mt, err) := parseMediaType (if ct = [] then b!"application/octet-stream" else ct)
    if mt = b!"application/x-www-form-urlencoded" then
      if r.bodyErr && data.length ≤ maxFormSize then (none, true)
      else if data.length > maxFormSize then (none, true)
      else
        let (vs, e) := parseQuery data
        (some vs, err || e)
    else (none, err)

/-- Go: `r.ParseForm()`: the updated request and `err != nil`. -/
def Request.parseForm (r : Request) : Request × Bool :=
  let (postForm, err) : Values × Bool :=
    match r.postForm with
    | some pf => (pf, false)
    | none =>
      if r.method = b!"POST" ∨ r.method = b!"PUT" ∨ r.method = b!"PATCH" then
        let (vs, e) := parsePostForm r
        (vs.getD [], e)
      else ([], false)
  match r.form with
  | some f => ({ r with postForm := some postForm, form := some f }, err)
  | none =>
    let (q, e) := parseQuery r.rawQuery
    ({ r with postForm := some postForm, form := some (copyValues postForm q) }, err || e)

/-- Go: `net/http.parseBasicAuth(auth)`. -/
def parseBasicAuth (auth : Str) : Option (Str × Str) :=
  if auth.length < 6 then none
  else if !equalFold (auth.take 6) b!"Basic " then none
  else do cutByte 0x3A (← b64StdDecode (auth.drop 6))

/-- Go: `username, password, ok := r.BasicAuth()`. -/
def Request.basicAuth (r : Request) : Option (Str × Str) :=
  let auth := r.header.get b!"Authorization"
  if auth = [] then none else parseBasicAuth auth

/-- Go: `r.SetBasicAuth(username, password)`. -/
def Request.setBasicAuth (r : Request) (username password : Str) : Request :=
  { r with header :=
      r.header.set b!"Authorization" (b!"Basic " ++ b64StdEncode (username ++ [0x3A] ++ password)) }

/-- Go: `http.NewRequest("POST", uri, strings.NewReader(body))`; `none` is an error. The request
line a server sees has the URL's path and raw query. -/
def newPostRequest (uri body : Str) : Option Request := do
  let u ← parseURL uri
  return { method := b!"POST", path := u.path, rawQuery := u.rawQuery, body := some body }

/-- What an `http.ResponseWriter` has received. `header` is the live header map, `sent` the status
and the header snapshot taken when the status was written, `superfluous` the number of
`WriteHeader` calls made after that (`net/http` logs and ignores them). Go: what is written at
oauth2.go:73-86 and 124-137 and bearer.go:64-90. -/
structure Recorder where
  header : Header := []
  sent : Option (Nat × Header) := none
  body : Str := []
  superfluous : Nat := 0
  deriving DecidableEq, Repr

/-- Go: `w.WriteHeader(status)`: only the first call has an effect. -/
def Recorder.writeHeader (w : Recorder) (status : Nat) : Recorder :=
  match w.sent with
  | some _ => { w with superfluous := w.superfluous + 1 }
  | none => { w with sent := some (status, w.header) }

/-- Go: `w.Write(data)`: writes status 200 first if no status was written. Simplification: no
content sniffing, and the write never fails. -/
def Recorder.write (w : Recorder) (data : Str) : Recorder :=
  let w := match w.sent with
    | some _ => w
    | none => w.writeHeader 200
  { w with body := w.body ++ data }

/-- Go: the table of `http.StatusText`. -/
def statusTexts : List (Nat × Str) := [
    (100, b!"Continue"), (101, b!"Switching Protocols"), (102, b!"Processing"),
    (103, b!"Early Hints"), (200, b!"OK"), (201, b!"Created"), (202, b!"Accepted"),
    (203, b!"Non-Authoritative Information"), (204, b!"No Content"), (205, b!"Reset Content"),
    (206, b!"Partial Content"), (207, b!"Multi-Status"), (208, b!"Already Reported"),
    (226, b!"IM Used"), (300, b!"Multiple Choices"), (301, b!"Moved Permanently"), (302, b!"Found"),
    (303, b!"See Other"), (304, b!"Not Modified"), (305, b!"Use Proxy"),
    (307, b!"Temporary Redirect"), (308, b!"Permanent Redirect"), (400, b!"Bad Request"),
    (401, b!"Unauthorized"), (402, b!"Payment Required"), (403, b!"Forbidden"),
    (404, b!"Not Found"), (405, b!"Method Not Allowed"), (406, b!"Not Acceptable"),
    (407, b!"Proxy Authentication Required"), (408, b!"Request Timeout"), (409, b!"Conflict"),
    (410, b!"Gone"), (411, b!"Length Required"), (412, b!"Precondition Failed"),
    (413, b!"Request Entity Too Large"), (414, b!"Request URI Too Long"),
    (415, b!"Unsupported Media Type"), (416, b!"Requested Range Not Satisfiable"),
    (417, b!"Expectation Failed"), (418, b!"I'm a teapot"), (421, b!"Misdirected Request"),
    (422, b!"Unprocessable Entity"), (423, b!"Locked"), (424, b!"Failed Dependency"),
    (425, b!"Too Early"), (426, b!"Upgrade Required"), (428, b!"Precondition Required"),
    (429, b!"Too Many Requests"), (431, b!"Request Header Fields Too Large"),
    (451, b!"Unavailable For Legal Reasons"), (500, b!"Internal Server Error"),
    (501, b!"Not Implemented"), (502, b!"Bad Gateway"), (503, b!"Service Unavailable"),
    (504, b!"Gateway Timeout"), (505, b!"HTTP Version Not Supported"),
    (506, b!"Variant Also Negotiates"), (507, b!"Insufficient Storage"), (508, b!"Loop Detected"),
    (510, b!"Not Extended"), (511, b!"Network Authentication Required")]

/-- The status line after the protocol (`res.Status`), as the server of `net/http` writes it
(`writeStatusLine`) and its client reads it. Simplification: codes have three digits. Read at
error.go:293. -/
def statusLine (code : Nat) : Str :=
  itoa code ++ [0x20] ++ match statusTexts.lookup code with
    | some text => text
    | none => b!"status code " ++ itoa code

/-- Go: `http.Response`, as a client sees it. `status` is the status line text (`res.Status`),
by default the one a `net/http` server sends;
`bodyErr` says that reading the body fails after these bytes. -/
structure Response where
  statusCode : Nat
  status : Str := statusLine statusCode
  header : Header := []
  body : Str := []
  bodyErr : Bool := false
  deriving DecidableEq, Repr

/-- The response the client receives once the handler has returned: `net/http` writes status 200 if
the handler wrote none. Go: `http.ResponseWriter` after the handler (server.go:124) has returned.
-/
def Recorder.result (w : Recorder) : Response :=
  match w.sent with
  | some (code, h) =>
    { statusCode := code, status := statusLine code, header := h, body := w.body }
  | none => { statusCode := 200, status := statusLine 200, header := w.header, body := w.body }

/-- Go: `ioutil.ReadAll(io.LimitReader(res.Body, limit))`: the bytes read and `err != nil`. -/
def Response.readAll (res : Response) (limit : Int) : Str × Bool :=
  (res.body.take limit.toNat, res.bodyErr && res.body.length < limit.toNat)

end OAuth2

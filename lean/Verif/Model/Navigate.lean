import Verif.Model.Follow
/-
What `http.Client.Do` (Go 1.16) calls to look at URLs when it follows a redirect (client.go:64, 99,
134): `(*URL).Parse`, `(*URL).ResolveReference`, `isDomainOrSubdomain`, `canonicalAddr` and
`refererForURL`. `Verif.Model.Follow` takes them as any functions; these are the functions.
-/

namespace OAuth2

/-! ### Where a location leads -/

/-- What the loop of `resolvePath` has written, and whether the next segment is the first. Go: the
variables `dst` and `first` of `net/url.resolvePath` (called through client.go:64). -/
structure Resolving where
  dst : Str := []
  first : Bool := true
  deriving DecidableEq, Repr

/-- One segment of a path. Go: the loop body of `net/url.resolvePath` (called through client.go:64). -/
def Resolving.step (s : Resolving) (elem : Str) : Resolving :=
  if elem = b!"." then { s with first := false }
  else if elem = b!".." then
    match cutLastByte 0x2F s.dst with
    | none => { dst := [], first := true }
    | some (before, _) => { s with dst := before }
  else { dst := s.dst ++ (if s.first then [] else [0x2F]) ++ elem, first := false }

/-- Go: the part of `net/url.resolvePath` that follows `full` (called through client.go:64). -/
def resolveSegments (full : Str) : Str :=
  if full = [] then []
  else
    let elems := splitByte 0x2F full
    let dst := (elems.foldl Resolving.step {}).dst
    let last := elems.getLast?
    let dst := if last = some b!"." ∨ last = some b!".." then dst ++ [0x2F] else dst
    0x2F :: (stripPrefix [0x2F] dst).getD dst

/-- Go: the variable `full` of `net/url.resolvePath(base, ref)` (called through client.go:64). -/
def fullPath (base ref : Str) : Str :=
  if ref = [] then base
  else if ref.head? ≠ some 0x2F then
    (match cutLastByte 0x2F base with
      | some (before, _) => before ++ [0x2F]
      | none => []) ++ ref
  else ref

/-- Go: `net/url.resolvePath(base, ref)` (called through client.go:64). -/
def resolvePath (base ref : Str) : Str := resolveSegments (fullPath base ref)

/-- Go: `(*URL).setPath`, whose error is ignored by `ResolveReference` (called through client.go:64). -/
def URL.withPath (u : URL) (p : Str) : URL := (setPath u p).getD u

/-- Go: `u.ResolveReference(ref)` (called through client.go:64). Simplification: `RawFragment` is left
out, see `URL`. -/
def URL.resolveReference (u ref : URL) : URL :=
  let url := { ref with scheme := if ref.scheme = [] then u.scheme else ref.scheme }
  if ref.scheme ≠ [] ∨ ref.host ≠ [] ∨ ref.user ≠ none then
    url.withPath (resolvePath ref.escapedPath [])
  else if ref.opaque_ ≠ [] then { url with user := none, host := [], path := [] }
  else
    let url := if ref.path = [] ∧ ref.rawQuery = [] then
        { url with
          rawQuery := u.rawQuery
          fragment := if ref.fragment = [] then u.fragment else ref.fragment }
      else url
    { url with host := u.host, user := u.user }.withPath (resolvePath u.escapedPath ref.escapedPath)

/-- Go: `u.Parse(ref)` (called by `http.Client.Do`, client.go:64). -/
def URL.parseFrom (u : URL) (ref : Str) : Option URL := (parseURL ref).map u.resolveReference

/-! ### Which sites are the same -/

/-- Go: `net/url.splitHostPort` (called through client.go:64). -/
def splitHostPort (hostPort : Str) : Str × Str :=
  let (host, port) := match cutLastByte 0x3A hostPort with
    | some (before, after) =>
      if validOptionalPort (0x3A :: after) then (before, after) else (hostPort, [])
    | none => (hostPort, [])
  (if host.head? = some 0x5B ∧ host.getLast? = some 0x5D then (host.drop 1).dropLast else host, port)

/-- Go: `u.Hostname()` (called through client.go:64). -/
def URL.hostname (u : URL) : Str := (splitHostPort u.host).1

/-- Go: `u.Port()` (called through client.go:64). -/
def URL.port (u : URL) : Str := (splitHostPort u.host).2

/-- Go: `net/http.portMap` (called through client.go:64). -/
def portMap (scheme : Str) : Str :=
  if scheme = b!"http" then b!"80"
  else if scheme = b!"https" then b!"443"
  else if scheme = b!"socks5" then b!"1080"
  else []

/-- Go: `net/http.idnaASCII(v)`, with the name itself if there is an error. Simplification: the
conversion of names that are not ASCII may be any function. Called through client.go:64. -/
def idnaASCII (idna : Str → Str) (v : Str) : Str := if v.all (· < 0x80) then v else idna v

/-- Go: `net/http.canonicalAddr(url)`, with `net.JoinHostPort` (called through client.go:64). -/
def canonicalAddr (idna : Str → Str) (u : URL) : Str :=
  let addr := idnaASCII idna u.hostname
  let port := if u.port = [] then portMap u.scheme else u.port
  if addr.contains 0x3A then [0x5B] ++ addr ++ b!"]:" ++ port else addr ++ [0x3A] ++ port

/-- Go: `net/http.isDomainOrSubdomain(sub, parent)` (called through client.go:64). -/
def isDomainOrSubdomain (sub parent : Str) : Bool :=
  if sub = parent then true
  else if !parent.isSuffixOf sub then false
  else sub[sub.length - parent.length - 1]? = some 0x2E

/-! ### What is said about the previous request -/

/-- Go: `strings.Replace(s, old, "", 1)`, for a text that is not empty (called through client.go:64). -/
def removeFirst (old : Str) : Str → Str
  | [] => []
  | c :: cs => if hasPrefix old (c :: cs) then (c :: cs).drop old.length else c :: removeFirst old cs

/-- Go: `net/http.refererForURL(lastReq, newReq)` (called through client.go:64). -/
def refererForURL (lastReq newReq : URL) : Str :=
  if lastReq.scheme = b!"https" ∧ newReq.scheme = b!"http" then []
  else
    match lastReq.user with
    | some u => removeFirst (u.string ++ [0x40]) lastReq.string
    | none => lastReq.string

/-- The functions of the Go library. Go: `http.Client.Do` (client.go:64). -/
def goNavigation (idna : Str → Str) : Navigation where
  resolve := URL.parseFrom
  sameSite := fun previous next =>
    isDomainOrSubdomain (canonicalAddr idna next) (canonicalAddr idna previous)
  referer := refererForURL

end OAuth2

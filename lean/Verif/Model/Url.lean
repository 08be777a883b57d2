import Verif.Model.Bytes
/-
`net/url` (Go standard library, Go 1.16): query escaping, `Values`, `ParseQuery`,
`ParseRequestURI`, `Parse` and `URL.String`, as called from authorization.go, token.go,
oauth2.go, introspection.go, revocation.go and from oauth2test/utils.go.
-/

namespace OAuth2

/-- A Go map with string keys, as an association list. `set` keeps keys unique. The order of the
list stands for the (unspecified) iteration order; results that depend on iterating a map are
proved independent of it. -/
abbrev GoMap (α : Type) := List (Str × α)

namespace GoMap

/-- Go: `v, ok := m[k]`. -/
def get? (m : GoMap α) (k : Str) : Option α :=
  match m with
  | [] => none
  | (k', v) :: rest => if k' = k then some v else get? rest k

/-- Go: `delete(m, k)`. -/
def del (m : GoMap α) (k : Str) : GoMap α := m.filter fun e => !(e.1 = k)

/-- Go: `m[k] = v`. -/
def set (m : GoMap α) (k : Str) (v : α) : GoMap α := (k, v) :: m.del k

/-- The keys of the map. Go: `range` over a map, for example error.go:96 and oauth2.go:104. -/
def keys (m : GoMap α) : List Str := m.map (·.1)

end GoMap

/-- net/url's `encoding` modes that are reachable from /repo. Go: `QueryEscape` (token.go:190),
`Values.Encode` (oauth2.go:109) and `URL.String` (oauth2.go:124). -/
inductive EncMode where
  | path | host | zone | userPassword | queryComponent | fragment
  deriving DecidableEq, Repr

/-- ASCII letter or digit. Go: part of `net/url` `shouldEscape` (token.go:190). -/
def isAlnum (c : UInt8) : Bool := inRange 97 122 c || inRange 65 90 c || inRange 48 57 c

/-- Go: `net/url.shouldEscape(c, mode)`. -/
def shouldEscape (c : UInt8) (mode : EncMode) : Bool :=
  if isAlnum c then false
  else if (mode = .host || mode = .zone) && b!"!$&'()*+,;=:[]<>\"".contains c then false
  else if b!"-_.~".contains c then false
  else if b!"$&+,/:;=?@".contains c then
    match mode with
    | .path => c = 0x3F
    | .userPassword => c = 0x40 || c = 0x2F || c = 0x3F || c = 0x3A
    | .queryComponent => true
    | .fragment => false
    | .host | .zone => true
  else if mode = .fragment && b!"!()*".contains c then false
  else true

/-- Go: `net/url.escape(s, mode)`. -/
def escape (mode : EncMode) : Str → Str
  | [] => []
  | c :: cs =>
    if c = 0x20 ∧ mode = .queryComponent then 0x2B :: escape mode cs
    else if shouldEscape c mode then
      0x25 :: hexUpper (c.toNat / 16) :: hexUpper (c.toNat % 16) :: escape mode cs
    else c :: escape mode cs

/-- Go: `net/url.unescape(s, mode)`; `none` is a non-nil error. Go validates the whole string in
a first pass and decodes in a second; the two passes are merged here. -/
def unescape (mode : EncMode) : Str → Option Str
  | [] => some []
  | c :: cs =>
    if c = 0x25 then
      match cs with
      | h :: l :: rest =>
        match unhex h, unhex l with
        | some hv, some lv =>
          let v := UInt8.ofNat (hv * 16 + lv)
          -- in a host, %-encoding is for non-ASCII bytes only, except %25
          if mode = .host && hv < 8 && !(h = 0x32 && l = 0x35) then none
          -- in an IPv6 zone, escapes may only introduce bytes valid in a host, or space
          else if mode = .zone && !(h = 0x32 && l = 0x35) && !(v = 0x20) && shouldEscape v .host
          then none
          else (unescape mode rest).map (v :: ·)
        | _, _ => none
      | _ => none
    else if c = 0x2B then
      (unescape mode cs).map ((if mode = .queryComponent then 0x20 else 0x2B) :: ·)
    else if (mode = .host || mode = .zone) && c < 0x80 && shouldEscape c mode then none
    else (unescape mode cs).map (c :: ·)

/-- Go: `url.QueryEscape(s)` (token.go:190). -/
def queryEscape (s : Str) : Str := escape .queryComponent s

/-- Go: `url.QueryUnescape(s)` (authorization.go:52, token.go:75). -/
def queryUnescape (s : Str) : Option Str := unescape .queryComponent s

/-- Go: `url.Values`. -/
abbrev Values := GoMap (List Str)

namespace Values

/-- Go: `v.Get(key)`: the first value or "". -/
def get (v : Values) (k : Str) : Str :=
  match GoMap.get? v k with
  | some (x :: _) => x
  | _ => []

/-- All values of a key (Go: `v[key]`). -/
def all (v : Values) (k : Str) : List Str := (GoMap.get? v k).getD []

/-- Go: `v.Add(key, value)`. -/
def add (v : Values) (k x : Str) : Values := GoMap.set v k (all v k ++ [x])

/-- `k=v` for every value of one key, as `Encode` writes it. Go: the inner loop of `Values.Encode`
(oauth2.go:109, token.go:238). -/
def encodeKey (k : Str) (vs : List Str) : List Str :=
  vs.map fun x => queryEscape k ++ [0x3D] ++ queryEscape x

/-- Go: `v.Encode()`: keys sorted, pairs joined with '&'. -/
def encode (v : Values) : Str :=
  joinStr [0x26] ((sortStrings v.keys).flatMap fun k => encodeKey k (all v k))

end Values

/-- Split at every `&` or `;`, as Go 1.16's `parseQuery` does. -/
def splitPairs (q : Str) : List Str :=
  (splitByte 0x26 q).flatMap (splitByte 0x3B)

/-- One `key=value` piece of a query, added to the values so far; the flag is "an error has
occurred". Malformed pieces are skipped. Go: the loop body of `net/url` `parseQuery`
(oauth2.go:112, token.go:41). -/
def parsePair (acc : Values × Bool) (piece : Str) : Values × Bool :=
  if piece = [] then acc
  else
    let (k, x) := (cutByte 0x3D piece).getD (piece, [])
    match queryUnescape k, queryUnescape x with
    | some k', some x' => (acc.1.add k' x', acc.2)
    | _, _ => (acc.1, true)

/-- Go: `url.ParseQuery(q)` (Go 1.16: both '&' and ';' separate pairs): the values that could be
parsed, and whether the error is non-nil. -/
def parseQuery (q : Str) : Values × Bool := (splitPairs q).foldl parsePair ([], false)

/-- Go: `url.Userinfo`. -/
structure Userinfo where
  username : Str
  password : Option Str
  deriving DecidableEq, Repr

/-- Go: `url.URL`. `RawFragment` is left out: /repo never sets it, and `Parse` sets it only when
the default escaping of the fragment differs; see `parseURL`. -/
structure URL where
  scheme : Str := []
  opaque_ : Str := []
  user : Option Userinfo := none
  host : Str := []
  path : Str := []
  rawPath : Str := []
  forceQuery : Bool := false
  rawQuery : Str := []
  fragment : Str := []
  deriving DecidableEq, Repr

/-- Go: `net/url.stringContainsCTLByte`. -/
def containsCTL (s : Str) : Bool := s.any fun c => c < 0x20 || c = 0x7F

/-- Go: `net/url.getScheme`; the first argument is "at index 0", the second the text read so far
reversed. `none` is the error "missing protocol scheme". -/
def getSchemeAux (orig : Str) : Bool → Str → Str → Option (Str × Str)
  | _, _, [] => some ([], orig)
  | first, acc, c :: cs =>
    if inRange 97 122 c || inRange 65 90 c then getSchemeAux orig false (c :: acc) cs
    else if inRange 48 57 c || c = 0x2B || c = 0x2D || c = 0x2E then
      if first then some ([], orig) else getSchemeAux orig false (c :: acc) cs
    else if c = 0x3A then
      if first then none else some (acc.reverse, cs)
    else some ([], orig)

/-- Go: `net/url.getScheme(rawURL)`. -/
def getScheme (raw : Str) : Option (Str × Str) := getSchemeAux raw true [] raw

/-- Go: `net/url.validOptionalPort`. -/
def validOptionalPort (p : Str) : Bool :=
  match p with
  | [] => true
  | c :: ds => c = 0x3A && ds.all (inRange 48 57)

/-- Find "%25" and split before it. Go: part of `net/url` `parseHost` (authorization.go:58). -/
def cutZone : Str → Option (Str × Str)
  | [] => none
  | c :: cs =>
    if hasPrefix b!"%25" (c :: cs) then some ([], c :: cs)
    else match cutZone cs with
      | some (a, r) => some (c :: a, r)
      | none => none

/-- Go: `net/url.parseHost`. -/
def parseHost (host : Str) : Option Str :=
  match host with
  | 0x5B :: _ =>
    match cutLastByte 0x5D host with
    | none => none
    | some (before, colonPort) =>
      if !validOptionalPort colonPort then none
      else match cutZone before with
        | some (h1, z) => do
          let a ← unescape .host h1
          let b ← unescape .zone z
          let c ← unescape .host (0x5D :: colonPort)
          return a ++ b ++ c
        | none => unescape .host host
  | _ =>
    match cutLastByte 0x3A host with
    | some (_, port) =>
      if !validOptionalPort (0x3A :: port) then none else unescape .host host
    | none => unescape .host host

/-- Go: `net/url.validUserinfo`. Go iterates runes; every non-ASCII rune is rejected, and so is
every byte of one here. -/
def validUserinfo (s : Str) : Bool :=
  s.all fun c => isAlnum c || b!"-._:~!$&'()*+,;=%@".contains c

/-- Go: `net/url.parseAuthority`. -/
def parseAuthority (authority : Str) : Option (Option Userinfo × Str) :=
  match cutLastByte 0x40 authority with
  | none => (parseHost authority).map fun h => (none, h)
  | some (userinfo, hostPart) => do
    let host ← parseHost hostPart
    if !validUserinfo userinfo then none
    else match cutByte 0x3A userinfo with
      | none => do
        let u ← unescape .userPassword userinfo
        return (some ⟨u, none⟩, host)
      | some (un, pw) => do
        let u ← unescape .userPassword un
        let p ← unescape .userPassword pw
        return (some ⟨u, some p⟩, host)

/-- Go: `strings.ToLower` on a scheme, which is pure ASCII. -/
def lowerStr (s : Str) : Str := s.map lowerByte

/-- Go: `(*URL).setPath`. -/
def setPath (u : URL) (p : Str) : Option URL := do
  let path ← unescape .path p
  return { u with path := path, rawPath := if p = escape .path path then [] else p }

/-- The query part of `net/url.parse`: the rest of the URL, `RawQuery` and `ForceQuery`.
authorization.go:58, oauth2.go:93. -/
def splitQuery (rest : Str) : Str × Str × Bool :=
  match cutByte 0x3F rest with
  | none => (rest, [], false)
  | some (a, q) => if q = [] then (a, [], true) else (a, q, false)

/-- Go: `net/url.parse(rawURL, viaRequest)`; `none` is a non-nil error. -/
def parseRaw (raw : Str) (viaRequest : Bool) : Option URL :=
  if containsCTL raw then none
  else if raw = [] && viaRequest then none
  else if raw = [0x2A] then some { path := [0x2A] }
  else match getScheme raw with
    | none => none
    | some (scheme0, rest0) =>
      let scheme := lowerStr scheme0
      let (rest, rq, fq) := splitQuery rest0
      let u : URL := { scheme := scheme, rawQuery := rq, forceQuery := fq }
      if !(hasPrefix [0x2F] rest) && scheme ≠ [] then some { u with opaque_ := rest }
      else if !(hasPrefix [0x2F] rest) && viaRequest then none
      else if !(hasPrefix [0x2F] rest) && (((cutByte 0x2F rest).getD (rest, [])).1).contains 0x3A
      then none
      else if (scheme ≠ [] || (!viaRequest && !hasPrefix b!"///" rest)) && hasPrefix b!"//" rest
      then
        let afterSlashes := rest.drop 2
        let (authority, p) := match cutByte 0x2F afterSlashes with
          | some (a, r) => (a, 0x2F :: r)
          | none => (afterSlashes, [])
        match parseAuthority authority with
        | none => none
        | some (user, host) => setPath { u with user := user, host := host } p
      else setPath u rest

/-- Go: `url.ParseRequestURI(rawURL)` (authorization.go:58, token.go:82, oauth2.go:93). The
string is assumed not to have a `#fragment` suffix: a `#` is an ordinary byte. -/
def parseRequestURI (raw : Str) : Option URL := parseRaw raw true

/-- Go: `url.Parse(rawURL)` (oauth2test/utils.go:56, 70 and http.NewRequest). Simplification:
`RawFragment` is dropped. -/
def parseURL (raw : Str) : Option URL :=
  match cutByte 0x23 raw with
  | none => parseRaw raw false
  | some (before, frag) => do
    let u ← parseRaw before false
    if frag = [] then return u
    else do
      let f ← unescape .fragment frag
      return { u with fragment := f }

/-- Go: `net/url.validEncoded(s, encodePath)`. -/
def validEncodedPath (s : Str) : Bool :=
  s.all fun c => b!"!$&'()*+,;=:@[]%".contains c || !shouldEscape c .path

/-- Go: `(*URL).EscapedPath()`. -/
def URL.escapedPath (u : URL) : Str :=
  if u.rawPath ≠ [] ∧ validEncodedPath u.rawPath ∧ unescape .path u.rawPath = some u.path then
    u.rawPath
  else if u.path = [0x2A] then [0x2A]
  else escape .path u.path

/-- Go: `(*Userinfo).String()`. -/
def Userinfo.string (u : Userinfo) : Str :=
  escape .userPassword u.username ++
    match u.password with
    | some p => 0x3A :: escape .userPassword p
    | none => []

/-- The part of `URL.String` before the query and the fragment. Go: `net/url` (oauth2.go:124). -/
def URL.base (u : URL) : Str :=
  let pre := if u.scheme ≠ [] then u.scheme ++ [0x3A] else []
  if u.opaque_ ≠ [] then pre ++ u.opaque_
  else
    let auth :=
      if u.scheme ≠ [] ∨ u.host ≠ [] ∨ u.user ≠ none then
        (if u.host ≠ [] ∨ u.path ≠ [] ∨ u.user ≠ none then b!"//" else []) ++
        (match u.user with
          | some ui => ui.string ++ [0x40]
          | none => []) ++
        (if u.host ≠ [] then escape .host u.host else [])
      else []
    let path := u.escapedPath
    let slash : Str := if path ≠ [] ∧ path.head? ≠ some 0x2F ∧ u.host ≠ [] then [0x2F] else []
    let dot : Str :=
      if pre ++ auth ++ slash = [] ∧ (((cutByte 0x2F path).getD (path, [])).1).contains 0x3A
      then b!"./" else []
    pre ++ auth ++ slash ++ dot ++ path

/-- Go: `(*URL).String()` (oauth2.go:124). -/
def URL.string (u : URL) : Str :=
  u.base ++
    (if u.forceQuery ∨ u.rawQuery ≠ [] then 0x3F :: u.rawQuery else []) ++
    (if u.fragment ≠ [] then 0x23 :: escape .fragment u.fragment else [])

/-- Go: `(*URL).Query()` (oauth2.go:112): like `ParseQuery`, dropping the error. -/
def URL.query (u : URL) : Values := (parseQuery u.rawQuery).1

end OAuth2

import Verif.Spec.Accept
import Verif.Spec.Json
import Verif.Spec.Scope
import Verif.Spec.Base64
/-
The texts requests and responses are made of (forms, content types, URIs, basic credentials) as
grammars, independently of the parsers in Verif/Model.
-/

namespace OAuth2.Spec

/-! ### Forms (`application/x-www-form-urlencoded`) -/

/-- A name or value as it is written in a form, and what it stands for: `+` is a space, `%` with two
hexadecimal digits is a byte, and any other byte is itself. -/
inductive FormText : Str → Str → Prop
  | nil : FormText [] []
  | space {t s : Str} : FormText t s → FormText (0x2B :: t) (0x20 :: s)
  | escape {h l : UInt8} {a b : Nat} {t s : Str} : HexDigit h a → HexDigit l b → FormText t s →
      FormText (0x25 :: h :: l :: t) (UInt8.ofNat (16 * a + b) :: s)
  | byte {c : UInt8} {t s : Str} : c ≠ 0x25 → c ≠ 0x2B → FormText t s → FormText (c :: t) (c :: s)

/-- What separates the fields of a form. -/
def Separator (c : UInt8) : Prop := c = 0x26 ∨ c = 0x3B

/-- One field: `name=value`, or a name alone, whose value is empty. -/
inductive FormField : Str → Str × Str → Prop
  | value {k v : Str} {name value : Str} : 0x3D ∉ k → FormText k name → FormText v value →
      FormField (k ++ [0x3D] ++ v) (name, value)
  | name {k : Str} {name : Str} : k ≠ [] → 0x3D ∉ k → FormText k name → FormField k (name, [])

/-- A form and its fields, in order. Nothing may stand between two separators. -/
inductive FormData : Str → List (Str × Str) → Prop
  | empty : FormData [] []
  | last {t : Str} {f : Str × Str} : (∀ c ∈ t, ¬ Separator c) → FormField t f → FormData t [f]
  | skip {c : UInt8} {t : Str} {fs : List (Str × Str)} : Separator c → FormData t fs →
      FormData (c :: t) fs
  | field {c : UInt8} {p t : Str} {f : Str × Str} {fs : List (Str × Str)} :
      (∀ c ∈ p, ¬ Separator c) → FormField p f → Separator c → FormData t fs →
      FormData (p ++ [c] ++ t) (f :: fs)

/-- The values the fields have for a name, in order. -/
def valuesOf (fields : List (Str × Str)) (name : Str) : List Str :=
  (fields.filter (·.1 = name)).map (·.2)

/-! ### Content types (`type/subtype; name=value; ...`) -/

/-- The bytes that end a token. -/
def special : Str := b!"()<>@,;:\\\"/[]?="

/-- A visible ASCII character that is not special. -/
def TokenByte (c : UInt8) : Prop := 0x21 ≤ c ∧ c ≤ 0x7E ∧ c ∉ special

/-- One or more of them. -/
def Token (t : Str) : Prop := t ≠ [] ∧ ∀ c ∈ t, TokenByte c

/-- A text without capital letters, and a way to write it: capital letters count as small ones, and
so do the two characters outside of ASCII whose small letter is an ASCII letter, the capital I with a
dot (U+0130) and the Kelvin sign (U+212A). -/
inductive Written : Str → Str → Prop
  | nil : Written [] []
  | plain {c : UInt8} {t w : Str} : c < 0x80 → ¬ (0x41 ≤ c ∧ c ≤ 0x5A) → Written t w →
      Written (c :: t) (c :: w)
  | capital {c : UInt8} {t w : Str} : 0x41 ≤ c → c ≤ 0x5A → Written t w →
      Written (c :: t) ((c + 32) :: w)
  | dotted {t w : Str} : Written t w → Written (encodeRune 0x130 ++ t) (b!"i" ++ w)
  | kelvin {t w : Str} : Written t w → Written (encodeRune 0x212A ++ t) (b!"k" ++ w)

/-- What may stand between the quotes of a quoted value: no line breaks; a backslash hides the special
character after it. -/
inductive Quotable : Str → Prop
  | nil : Quotable []
  | byte {c : UInt8} {t : Str} : c ≠ 0x22 → c ≠ 0x5C → c ≠ 0x0A → c ≠ 0x0D → Quotable t →
      Quotable (c :: t)
  | hidden {c : UInt8} {t : Str} : c ∈ special → Quotable t → Quotable (0x5C :: c :: t)
  | backslash {c : UInt8} {t : Str} : c ∉ special → Quotable (c :: t) → Quotable (0x5C :: c :: t)

/-- The value of a parameter: a token, or something in quotes. -/
inductive ParameterValue : Str → Prop
  | token {t : Str} : Token t → ParameterValue t
  | quoted {t : Str} : Quotable t → ParameterValue ([0x22] ++ t ++ [0x22])

/-- Parameters, none of which has one of the names or the name of another one in any letter case.
There may be white space around everything, and a semicolon at the end. -/
inductive Parameters : (names : List Str) → Str → Prop
  | none {ns : List Str} {a : Str} : AllSpace a → Parameters ns a
  | semicolon {ns : List Str} {a b : Str} : AllSpace a → AllSpace b → Parameters ns (a ++ [0x3B] ++ b)
  | more {ns : List Str} {a b c d n n' v rest : Str} : AllSpace a → AllSpace b → AllSpace c →
      AllSpace d → Token n → Written n n' → n' ∉ ns → ParameterValue v → Parameters (n' :: ns) rest →
      Parameters ns (a ++ [0x3B] ++ b ++ n ++ c ++ [0x3D] ++ d ++ v ++ rest)

/-- A content type that names this media type: a token, or two with a slash between them. -/
def ContentType (text mediaType : Str) : Prop :=
  ∃ a t b ps, text = a ++ t ++ b ++ ps ∧ AllSpace a ∧ AllSpace b ∧ Written t mediaType ∧
    (Token mediaType ∨ ∃ x y, mediaType = x ++ [0x2F] ++ y ∧ Token x ∧ Token y) ∧
    Parameters [] ps

/-! ### URIs -/

/-- Text with percent escapes, and what it stands for. The first argument says which bytes may stand
for themselves, the second which may be escaped. -/
inductive Percent (plain escaped : UInt8 → Prop) : Str → Str → Prop
  | nil : Percent plain escaped [] []
  | escape {h l : UInt8} {a b : Nat} {t s : Str} : HexDigit h a → HexDigit l b →
      escaped (UInt8.ofNat (16 * a + b)) → Percent plain escaped t s →
      Percent plain escaped (0x25 :: h :: l :: t) (UInt8.ofNat (16 * a + b) :: s)
  | byte {c : UInt8} {t s : Str} : c ≠ 0x25 → plain c → Percent plain escaped t s →
      Percent plain escaped (c :: t) (c :: s)

/-- Any byte may stand for itself, and any may be escaped. -/
abbrev AnyPercent : Str → Str → Prop := Percent (fun _ => True) (fun _ => True)

/-- A letter or digit. -/
def Alnum (c : UInt8) : Prop :=
  (0x30 ≤ c ∧ c ≤ 0x39) ∨ (0x41 ≤ c ∧ c ≤ 0x5A) ∨ (0x61 ≤ c ∧ c ≤ 0x7A)

/-- The ASCII characters of a host, brackets and colons included. -/
def HostByte (c : UInt8) : Prop := Alnum c ∨ c ∈ b!"-_.~!$&'()*+,;=:[]<>\""

/-- A host: its ASCII characters are those above, and escapes are for bytes outside of ASCII and for
the percent sign. -/
abbrev HostText : Str → Str → Prop :=
  Percent (fun c => 0x80 ≤ c ∨ HostByte c) (fun c => 0x80 ≤ c ∨ c = 0x25)

/-- The zone of an IPv6 address: escapes are for the characters of a host, the space and the percent
sign. -/
abbrev ZoneText : Str → Str → Prop :=
  Percent (fun c => 0x80 ≤ c ∨ HostByte c) (fun c => HostByte c ∨ c = 0x20 ∨ c = 0x25)

/-- Nothing, or a colon and any number of digits. -/
def OptionalPort (p : Str) : Prop := p = [] ∨ ∃ ds, p = [0x3A] ++ ds ∧ ∀ c ∈ ds, Digit c

/-- A host with an optional port: a name, or an address in brackets, perhaps with a zone, which begins
at the first `%25`. -/
inductive HostPort : Str → Str → Prop
  | name {t host : Str} : t.head? ≠ some 0x5B →
      (0x3A ∉ t ∨ ∃ a ds, t = a ++ [0x3A] ++ ds ∧ ∀ c ∈ ds, Digit c) → HostText t host →
      HostPort t host
  | address {x p host : Str} : OptionalPort p → (∀ y z, x ≠ y ++ b!"%25" ++ z) →
      HostText ([0x5B] ++ x ++ [0x5D] ++ p) host → HostPort ([0x5B] ++ x ++ [0x5D] ++ p) host
  | zone {x z p host zone : Str} : OptionalPort p → (∀ y w, x ≠ y ++ b!"%25" ++ w) →
      HostText ([0x5B] ++ x) host → ZoneText (b!"%25" ++ z) zone →
      HostPort ([0x5B] ++ x ++ b!"%25" ++ z ++ [0x5D] ++ p) (host ++ zone ++ [0x5D] ++ p)

/-- The characters of user information. -/
def UserByte (c : UInt8) : Prop := Alnum c ∨ c ∈ b!"-._:~!$&'()*+,;=%@"

/-- A user name, perhaps with a colon and a password. -/
inductive UserText : Str → Userinfo → Prop
  | name {t u : Str} : 0x3A ∉ t → AnyPercent t u → UserText t ⟨u, none⟩
  | password {t w u p : Str} : 0x3A ∉ t → AnyPercent t u → AnyPercent w p →
      UserText (t ++ [0x3A] ++ w) ⟨u, some p⟩

/-- A host, perhaps after a user and `@`. -/
inductive Authority : Str → Option Userinfo → Str → Prop
  | host {t host : Str} : 0x40 ∉ t → HostPort t host → Authority t none host
  | user {a t host : Str} {user : Userinfo} : (∀ c ∈ a, UserByte c) → UserText a user → 0x40 ∉ t →
      HostPort t host → Authority (a ++ [0x40] ++ t) (some user) host

/-- A letter, and then letters, digits, `+`, `-` and `.`. -/
def Scheme (s : Str) : Prop := ∃ c t, s = c :: t ∧
  ((0x41 ≤ c ∧ c ≤ 0x5A) ∨ (0x61 ≤ c ∧ c ≤ 0x7A)) ∧ ∀ d ∈ t, Alnum d ∨ d ∈ b!"+-."

/-- The query of a URI, if there is one, with its question mark. -/
def QueryPart (text : Str) (query : Option Str) : Prop :=
  (text = [] ∧ query = none) ∨ ∃ q, text = [0x3F] ++ q ∧ query = some q

/-- What a URI consists of. -/
structure Parts where
  scheme : Str := []
  opaque_ : Str := []
  user : Option Userinfo := none
  host : Str := []
  path : Str := []
  query : Option Str := none

/-- The parts of a URL as `net/url` has it: it keeps a query and whether there is an empty one. -/
def partsOf (u : URL) : Parts where
  scheme := u.scheme
  opaque_ := u.opaque_
  user := u.user
  host := u.host
  path := u.path
  query := if u.forceQuery then some [] else if u.rawQuery = [] then none else some u.rawQuery

/-- A URI that begins with a scheme. What follows the scheme, if it does not begin with a slash, is not
looked at. -/
inductive Absolute : Str → Parts → Prop
  | other {s scheme o q : Str} {query : Option Str} : Scheme s → Written s scheme →
      o.head? ≠ some 0x2F → 0x3F ∉ o → QueryPart q query →
      Absolute (s ++ [0x3A] ++ o ++ q) { scheme := scheme, opaque_ := o, query := query }
  | path {s scheme p path q : Str} {query : Option Str} : Scheme s → Written s scheme →
      p.head? = some 0x2F → (∀ r, p ≠ b!"//" ++ r) → 0x3F ∉ p → AnyPercent p path →
      QueryPart q query →
      Absolute (s ++ [0x3A] ++ p ++ q) { scheme := scheme, path := path, query := query }
  | authority {s scheme a p path host q : Str} {user : Option Userinfo} {query : Option Str} :
      Scheme s → Written s scheme → 0x2F ∉ a → 0x3F ∉ a → Authority a user host →
      (p = [] ∨ p.head? = some 0x2F) → 0x3F ∉ p → AnyPercent p path → QueryPart q query →
      Absolute (s ++ b!"://" ++ a ++ p ++ q)
        { scheme := scheme, user := user, host := host, path := path, query := query }

/-- No control characters. -/
def NoControl (t : Str) : Prop := ∀ c ∈ t, 0x20 ≤ c ∧ c ≠ 0x7F

/-- A target for requests: a URI that begins with a scheme, a path that begins with a slash, or a star.
There are no control characters in it. A number sign has no special meaning. -/
inductive RequestTarget : Str → Parts → Prop
  | absolute {t : Str} {p : Parts} : NoControl t → Absolute t p → RequestTarget t p
  | path {p path q : Str} {query : Option Str} : NoControl (p ++ q) → p.head? = some 0x2F → 0x3F ∉ p →
      AnyPercent p path → QueryPart q query → RequestTarget (p ++ q) { path := path, query := query }
  | star : RequestTarget [0x2A] { path := [0x2A] }

/-- Where a client goes for a reference without a fragment, such as a browser finds in a `Location`
header: a URI that begins with a scheme, or one that lacks the scheme, the authority, or the beginning
of the path. -/
inductive Relative : Str → Parts → Prop
  | absolute {t : Str} {p : Parts} : Absolute t p → Relative t p
  | authority {a p path host q : Str} {user : Option Userinfo} {query : Option Str} :
      0x2F ∉ a → 0x3F ∉ a → Authority a user host → (p = [] ∨ p.head? = some 0x2F) → 0x3F ∉ p →
      (∀ r, a ++ p ≠ 0x2F :: r) → AnyPercent p path → QueryPart q query →
      Relative (b!"//" ++ a ++ p ++ q) { user := user, host := host, path := path, query := query }
  | path {p path q : Str} {query : Option Str} : p.head? = some 0x2F →
      ((∀ r, p ≠ b!"//" ++ r) ∨ ∃ r, p = b!"///" ++ r) → 0x3F ∉ p →
      AnyPercent p path → QueryPart q query → Relative (p ++ q) { path := path, query := query }
  | segments {a b path q : Str} {query : Option Str} : 0x2F ∉ a → 0x3A ∉ a → 0x3F ∉ a →
      (b = [] ∨ a ≠ [] ∧ b.head? = some 0x2F) → 0x3F ∉ b → AnyPercent (a ++ b) path →
      QueryPart q query → Relative (a ++ b ++ q) { path := path, query := query }

/-- A reference with an optional fragment. -/
inductive Reference : Str → Parts → (fragment : Str) → Prop
  | plain {t : Str} {p : Parts} : NoControl t → 0x23 ∉ t → Relative t p → Reference t p []
  | fragment {t f fragment : Str} {p : Parts} : NoControl t → 0x23 ∉ t → Relative t p →
      AnyPercent f fragment → Reference (t ++ [0x23] ++ f) p fragment

/-! ### Basic credentials -/

/-- The base64 alphabet. -/
def standardAlphabet : Str := b!"ABCDEFGHIJKLMNOPQRSTUVWXYZabcdefghijklmnopqrstuvwxyz0123456789+/"

/-- The text, up to line breaks, is base64 of the data: characters of the alphabet and then as many
`=` as make the length a multiple of four, at most two. Bits that are left over do not matter. -/
def IsBase64 (text data : Str) : Prop :=
  ∃ (chars : Str) (pads : Nat) (positions : List Nat),
    withoutLineBreaks text = chars ++ List.replicate pads 0x3D ∧ pads ≤ 2 ∧
    (chars.length + pads) % 4 = 0 ∧
    chars.map (standardAlphabet.idxOf? ·) = positions.map some ∧
    data.length = positions.length * 6 / 8 ∧
    data.flatMap (fun b => bits 8 b.toNat) = (positions.flatMap (bits 6)).take (8 * data.length)

/-- The word `basic` in any letter case, a space, and base64 of the user, a colon and the password. -/
def BasicCredentials (header user password : Str) : Prop :=
  ∃ word text, header = word ++ [0x20] ++ text ∧ AnyCase word b!"basic" ∧
    IsBase64 text (user ++ [0x3A] ++ password) ∧ 0x3A ∉ user

/-! ### Requests -/

/-- A POST request as it arrives, with these fields in its body and those in its query. -/
structure Posts (r : Request) (fields query : List (Str × Str)) : Prop where
  method : r.method = b!"POST"
  fresh : r.postForm = none ∧ r.form = none
  contentType : ContentType (r.header.get b!"Content-Type") b!"application/x-www-form-urlencoded"
  body : ∃ data, r.body = some data ∧ r.bodyErr = false ∧ data.length ≤ 10 * 2 ^ 20 ∧
    FormData data fields
  query : FormData r.rawQuery query

/-- The fields of a request as it arrives: those of its body, if it is a POST request with a form,
followed by those of its query. -/
inductive Sends (r : Request) : List (Str × Str) → Prop
  | get {query : List (Str × Str)} : r.method = b!"GET" → FormData r.rawQuery query → Sends r query
  | form {fields query : List (Str × Str)} : Posts r fields query → Sends r (fields ++ query)
  | other {data : Str} {query : List (Str × Str)} : r.method = b!"POST" → r.body = some data →
      (r.header.get b!"Content-Type" = [] ∨
        ∃ mt, ContentType (r.header.get b!"Content-Type") mt ∧ mt ≠ b!"application/x-www-form-urlencoded") →
      FormData r.rawQuery query → Sends r query

/-- The first value of a field, empty if there is none. -/
def field (fields : List (Str × Str)) (name : Str) : Str := (valuesOf fields name).headD []

/-- Who sends a request with these fields: who its basic authorization header names if that can be
read, else who the fields name. -/
inductive From (r : Request) (fields : List (Str × Str)) : Str → Str → Prop
  | header {id secret : Str} : BasicCredentials (r.header.get b!"Authorization") id secret →
      From r fields id secret
  | fields : (¬ ∃ id secret, BasicCredentials (r.header.get b!"Authorization") id secret) →
      From r fields (field fields b!"client_id") (field fields b!"client_secret")

/-- The scope a text stands for: none if there are no items in it. -/
def ScopeText (text : Str) (scope : Option (List Str)) : Prop :=
  ScopeItems text [] ∧ scope = none ∨ ∃ items, items ≠ [] ∧ ScopeItems text items ∧ scope = some items

end OAuth2.Spec

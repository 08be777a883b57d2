import Verif.Model.Navigate
/-
Where a client goes when it is redirected: RFC 3986, section 5.2, and which sites are the same.
-/

namespace OAuth2.Spec

/-! ### RFC 3986, section 5.2.4 -/

/-- The last segment and the slash before it, if any, are removed. -/
inductive Popped : Str → Str → Prop
  | slash {a s : Str} : 0x2F ∉ s → Popped (a ++ [0x2F] ++ s) a
  | none {s : Str} : 0x2F ∉ s → Popped s []

/-- The steps of the section, in its order: an input, an output so far, and the output at last. -/
inductive RemoveDots : (input output result : Str) → Prop
  | done {out : Str} : RemoveDots [] out out
  /-- A -/
  | up {i out r : Str} : RemoveDots i out r → RemoveDots (b!"../" ++ i) out r
  | here {i out r : Str} : RemoveDots i out r → RemoveDots (b!"./" ++ i) out r
  /-- B -/
  | stay {i out r : Str} : RemoveDots (b!"/" ++ i) out r → RemoveDots (b!"/./" ++ i) out r
  | stayLast {out r : Str} : RemoveDots b!"/" out r → RemoveDots b!"/." out r
  /-- C -/
  | back {i out out' r : Str} : Popped out out' → RemoveDots (b!"/" ++ i) out' r →
      RemoveDots (b!"/../" ++ i) out r
  | backLast {out out' r : Str} : Popped out out' → RemoveDots b!"/" out' r →
      RemoveDots b!"/.." out r
  /-- D -/
  | onlyHere {out r : Str} : RemoveDots [] out r → RemoveDots b!"." out r
  | onlyUp {out r : Str} : RemoveDots [] out r → RemoveDots b!".." out r
  /-- E: the first segment, with the slash before it if any, up to the next slash -/
  | move {slash s i out r : Str} : slash = [] ∨ slash = b!"/" → 0x2F ∉ s → s ≠ b!"." → s ≠ b!".." →
      slash ++ s ≠ [] → (i = [] ∨ i.head? = some 0x2F) → RemoveDots i (out ++ slash ++ s) r →
      RemoveDots (slash ++ s ++ i) out r

/-! ### RFC 3986, section 5.2.2 -/

/-- A URI; the path is as it is written. -/
structure Uri where
  scheme : Str := []
  user : Option Userinfo := none
  host : Str := []
  path : Str := []
  query : Option Str := none

/-- The URI of a URL as `net/url` has it. -/
def uriOf (u : URL) : Uri where
  scheme := u.scheme
  user := u.user
  host := u.host
  path := u.escapedPath
  query := if u.forceQuery then some [] else if u.rawQuery = [] then none else some u.rawQuery

/-- Section 5.2.3, for a base with an authority. -/
inductive Merged : (base ref merged : Str) → Prop
  | empty {ref : Str} : Merged [] ref (b!"/" ++ ref)
  | after {a s ref : Str} : 0x2F ∉ s → Merged (a ++ [0x2F] ++ s) ref (a ++ [0x2F] ++ ref)

/-- There is an authority. -/
def Uri.Authority (u : Uri) : Prop := u.host ≠ [] ∨ u.user ≠ none

/-- What a reference means in a document of this address, but for fragments. -/
inductive Resolves (base ref : Uri) : Uri → Prop
  | scheme {path : Str} : ref.scheme ≠ [] → RemoveDots ref.path [] path →
      Resolves base ref { ref with path := path }
  | authority {path : Str} : ref.scheme = [] → ref.Authority → RemoveDots ref.path [] path →
      Resolves base ref { ref with scheme := base.scheme, path := path }
  | same : ref.scheme = [] → ¬ ref.Authority → ref.path = [] →
      Resolves base ref { base with query := ref.query.or base.query }
  | rooted {path : Str} : ref.scheme = [] → ¬ ref.Authority → ref.path.head? = some 0x2F →
      RemoveDots ref.path [] path → Resolves base ref { base with path := path, query := ref.query }
  | relative {merged path : Str} : ref.scheme = [] → ¬ ref.Authority → ref.path ≠ [] →
      ref.path.head? ≠ some 0x2F → Merged base.path ref.path merged → RemoveDots merged [] path →
      Resolves base ref { base with path := path, query := ref.query }

/-- No two slashes in a row. -/
def Single (path : Str) : Prop := ∀ a b, path ≠ a ++ b!"//" ++ b

/-- No segment is a dot or two. -/
def Dotless (path : Str) : Prop := ∀ a s b, path = a ++ s ++ b → (a = [] ∨ a.getLast? = some 0x2F) →
  (b = [] ∨ b.head? = some 0x2F) → s ≠ b!"." ∧ s ≠ b!".."

/-- The path is empty or begins with a slash. -/
def FromRoot (path : Str) : Prop := path = [] ∨ path.head? = some 0x2F

/-- An address on a host: nothing is strange about its path, and it does not end in a question mark. -/
structure OnHost (u : URL) : Prop where
  host : u.host ≠ []
  noOpaque : u.opaque_ = []
  path : FromRoot u.escapedPath ∧ Dotless u.escapedPath ∧ Single u.escapedPath
  query : u.forceQuery = false

/-! ### Sites -/

/-- The port that a scheme stands for. -/
def standardPort (scheme : Str) : Str :=
  if scheme = b!"http" then b!"80" else if scheme = b!"https" then b!"443"
  else if scheme = b!"socks5" then b!"1080" else []

/-- The host with its optional port names this machine: a name, or an IP address in brackets. -/
inductive MachineText : (host name port : Str) → Prop
  | plain {name : Str} : 0x3A ∉ name → 0x5B ∉ name → 0x5D ∉ name → MachineText name name []
  | port {name port : Str} : 0x3A ∉ name → 0x5B ∉ name → 0x5D ∉ name →
      (∀ c ∈ port, 48 ≤ c ∧ c ≤ 57) → MachineText (name ++ [0x3A] ++ port) name port
  | address {name : Str} : 0x3A ∈ name → 0x5B ∉ name → 0x5D ∉ name → MachineText ([0x5B] ++ name ++ [0x5D]) name []
  | addressPort {name port : Str} : 0x3A ∈ name → 0x5B ∉ name → 0x5D ∉ name →
      (∀ c ∈ port, 48 ≤ c ∧ c ≤ 57) → MachineText ([0x5B] ++ name ++ b!"]:" ++ port) name port

/-- The machine of this name and port is where the URL leads. -/
def LeadsTo (u : URL) (name port : Str) : Prop :=
  ∃ p, MachineText u.host name p ∧ port = if p = [] then standardPort u.scheme else p

/-- The bytes are ASCII. -/
def Ascii (name : Str) : Prop := ∀ c ∈ name, c < 0x80

/-- The name is the other one, or that of a subdomain. -/
def Below (name parent : Str) : Prop :=
  name = parent ∨ 0x3A ∉ name ∧ ∃ label, name = label ++ b!"." ++ parent

end OAuth2.Spec

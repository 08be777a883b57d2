import Verif.Model.Bytes
/-
The grammar of the header WWW-Authenticate, RFC 7235 (appendix C) with the tokens and quoted strings of
RFC 7230: every text it allows, with what the text says.
-/

namespace OAuth2.Rfc7235

/-- RFC 7230, `tchar`: what names are made of. -/
def Tchar (b : UInt8) : Prop :=
  b ∈ b!"!#$%&'*+-.^_`|~0123456789ABCDEFGHIJKLMNOPQRSTUVWXYZabcdefghijklmnopqrstuvwxyz"

instance : DecidablePred Tchar := fun _ => inferInstanceAs (Decidable (_ ∈ (_ : Str)))

/-- RFC 7230, `token = 1*tchar`. -/
def Token (s : Str) : Prop := s ≠ [] ∧ ∀ b ∈ s, Tchar b

/-- RFC 7230, `OWS` and `BWS`: spaces and tabs, or nothing. -/
def Blank (s : Str) : Prop := ∀ b ∈ s, b = 0x20 ∨ b = 0x09

/-- RFC 7230, `qdtext`: what stands in quotes for itself: tab, and all from space on but the quote, the
backslash and DEL. -/
def Plain (b : UInt8) : Prop := (b = 0x09 ∨ 0x20 ≤ b) ∧ b ≠ 0x22 ∧ b ≠ 0x5C ∧ b ≠ 0x7F

instance : DecidablePred Plain := fun _ => inferInstanceAs (Decidable (_ ∧ _ ∧ _ ∧ _))

/-- RFC 7230, the second byte of a `quoted-pair`. -/
def Escapable (b : UInt8) : Prop := (b = 0x09 ∨ 0x20 ≤ b) ∧ b ≠ 0x7F

instance : DecidablePred Escapable := fun _ => inferInstanceAs (Decidable (_ ∧ _))

/-- RFC 7230, `quoted-string`: what stands between the quotes, and the value it denotes. -/
inductive Quoted : Str → Str → Prop
  | nil : Quoted [] []
  | plain {b : UInt8} {t v : Str} : Plain b → Quoted t v → Quoted (b :: t) (b :: v)
  | pair {b : UInt8} {t v : Str} : Escapable b → Quoted t v → Quoted (0x5C :: b :: t) (b :: v)

/-- RFC 7235, `auth-param = token BWS "=" BWS ( token / quoted-string )`. -/
inductive AuthParam : Str → Str × Str → Prop
  | token {k w w' v : Str} : Token k → Blank w → Blank w' → Token v →
    AuthParam (k ++ w ++ [0x3D] ++ w' ++ v) (k, v)
  | quoted {k w w' t v : Str} : Token k → Blank w → Blank w' → Quoted t v →
    AuthParam (k ++ w ++ [0x3D] ++ w' ++ [0x22] ++ t ++ [0x22]) (k, v)

/-- RFC 7230, the rest of a list, `*( OWS "," [ OWS element ] )`, and its elements. -/
inductive More {α : Type} (element : Str → α → Prop) : Str → List α → Prop
  | done : More element [] []
  | comma {w s : Str} {l : List α} : Blank w → More element s l → More element (w ++ [0x2C] ++ s) l
  | element {w w' e s : Str} {x : α} {l : List α} : Blank w → Blank w' → element e x → More element s l →
    More element (w ++ [0x2C] ++ w' ++ e ++ s) (x :: l)

/-- RFC 7235, the parameters of a challenge, `[ ( "," / auth-param ) *( OWS "," [ OWS auth-param ] ) ]`. -/
inductive AuthParams : Str → List (Str × Str) → Prop
  | none : AuthParams [] []
  | comma {s : Str} {l : List (Str × Str)} : More AuthParam s l → AuthParams (0x2C :: s) l
  | some {p s : Str} {x : Str × Str} {l : List (Str × Str)} : AuthParam p x → More AuthParam s l →
    AuthParams (p ++ s) (x :: l)

/-- RFC 7235, `token68`: letters, digits and a few others, and equality signs at the end. -/
def Token68 (s : Str) : Prop := ∃ t n, s = t ++ List.replicate n 0x3D ∧ t ≠ [] ∧ ∀ b ∈ t,
  b ∈ b!"-._~+/0123456789ABCDEFGHIJKLMNOPQRSTUVWXYZabcdefghijklmnopqrstuvwxyz"

/-- What a challenge says besides the scheme. -/
inductive Said where
  | token68 (s : Str)
  | params (l : List (Str × Str))
  deriving DecidableEq

/-- What a challenge says: which scheme of authentication, and how. -/
structure Challenge where
  scheme : Str
  said : Said
  deriving DecidableEq

/-- RFC 7235, `challenge = auth-scheme [ 1*SP ( token68 / auth-params ) ]`. -/
inductive OneChallenge : Str → Challenge → Prop
  | bare {s : Str} : Token s → OneChallenge s ⟨s, .params []⟩
  | token68 {s t : Str} {n : Nat} : Token s → Token68 t →
    OneChallenge (s ++ List.replicate (n + 1) 0x20 ++ t) ⟨s, .token68 t⟩
  | params {s p : Str} {n : Nat} {l : List (Str × Str)} : Token s → AuthParams p l →
    OneChallenge (s ++ List.replicate (n + 1) 0x20 ++ p) ⟨s, .params l⟩

/-- RFC 7235, `WWW-Authenticate = *( "," OWS ) challenge *( OWS "," [ OWS challenge ] )`, and the
challenges it makes. -/
inductive Challenges : Str → List Challenge → Prop
  | comma {w s : Str} {l : List Challenge} : Blank w → Challenges s l → Challenges ([0x2C] ++ w ++ s) l
  | some {c s : Str} {x : Challenge} {l : List Challenge} : OneChallenge c x → More OneChallenge s l →
    Challenges (c ++ s) (x :: l)

/-- The text says this, and nothing else can be read into it. -/
def Says (text : Str) (challenges : List Challenge) : Prop :=
  ∀ l, Challenges text l ↔ l = challenges

end OAuth2.Rfc7235

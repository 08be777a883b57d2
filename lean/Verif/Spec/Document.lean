import Verif.Spec.Json
import Verif.Spec.Scope
import Verif.Model.Introspection
/-
What a client reads from a JSON document that any server may have written: which members count, what
their values mean, and what the structs it returns contain.
-/

namespace OAuth2.Spec

/-- `k` is the member name `f`, which is in lower case, up to the case of its letters; the long s
(U+017F) counts as an `s`, the Kelvin sign (U+212A) as a `k`. -/
inductive Folded : Str → Str → Prop
  | nil : Folded [] []
  | same {k f : Str} (c : UInt8) : Folded k f → Folded (c :: k) (c :: f)
  | upper {k f : Str} (c : UInt8) : 0x61 ≤ c → c ≤ 0x7A → Folded k f →
      Folded ((c - 0x20) :: k) (c :: f)
  | longS {k f : Str} : Folded k f → Folded (encodeRune 0x17F ++ k) (b!"s" ++ f)
  | kelvin {k f : Str} : Folded k f → Folded (encodeRune 0x212A ++ k) (b!"k" ++ f)

/-- What the members named `f` make of a value that is `old` before them, if a value `v` sets it to
`x` for `Sets v x` and leaves it alone for `Keeps v`: all of them do one or the other, and the last
one that sets it counts. -/
def Field {α : Type} (Sets : JSON → α → Prop) (Keeps : JSON → Prop) (old : α)
    (l : List (Str × JSON)) (f : Str) (x : α) : Prop :=
  (∀ m ∈ l, Folded m.1 f → Keeps m.2 ∨ ∃ y, Sets m.2 y) ∧
  ((∃ a m b, l = a ++ m :: b ∧ Folded m.1 f ∧ Sets m.2 x ∧
      ∀ n ∈ b, Folded n.1 f → Keeps n.2) ∨
    (x = old ∧ ∀ n ∈ l, Folded n.1 f → Keeps n.2))

/-- `null` stands for a missing member. -/
def Null (v : JSON) : Prop := v = .null

/-- A text. -/
def StrField (l : List (Str × JSON)) (f : Str) (x : Str) : Prop :=
  Field (fun v s => v = .str s) Null [] l f x

/-- A truth value. -/
def BoolField (l : List (Str × JSON)) (f : Str) (x : Bool) : Prop :=
  Field (fun v b => v = .bool b) Null false l f x

/-- An integer in decimal notation, without fraction and exponent, that fits in 64 bits. -/
def Integer (v : JSON) (i : Int) : Prop :=
  (v = .num (itoa i) ∨ v = .num b!"-0" ∧ i = 0) ∧ -9223372036854775808 ≤ i ∧ i ≤ 9223372036854775807

/-- A number. -/
def IntField (l : List (Str × JSON)) (f : Str) (x : Int) : Prop :=
  Field Integer Null 0 l f x

/-- The scope of a text; `none` if there are no items in it. -/
def ScopeOf (s : Str) (x : Option (List Str)) : Prop := ∃ items, ScopeItems s items ∧
  x = if items = [] then none else some items

/-- A scope. Here `null` does not stand for a missing member but for a scope without items. -/
def ScopeField (l : List (Str × JSON)) (f : Str) (x : Option (List Str)) : Prop :=
  Field (fun v x => (∃ s, v = .str s ∧ ScopeOf s x) ∨ v = .null ∧ x = none) (fun _ => False) none
    l f x

/-- The last of the members with this name. -/
def LastMember (l : List (Str × JSON)) (k : Str) (v : JSON) : Prop :=
  ∃ a b, l = a ++ (k, v) :: b ∧ ∀ q ∈ b, q.1 ≠ k

mutual
/-- The value that the document denotes. Of members with the same name the last one counts. -/
inductive Denotes : JSON → GoVal → Prop
  | null : Denotes .null .null
  | bool (b : Bool) : Denotes (.bool b) (.bool b)
  | num {lit : Str} {f : F64} : NumberDenotes lit f → Denotes (.num lit) (.num f)
  | str (s : Str) : Denotes (.str s) (.str s)
  | arr {l : List JSON} {l' : List GoVal} : DenoteAll l l' → Denotes (.arr l) (.arr l')
  | obj {l : List (Str × JSON)} {m : List (Str × GoVal)} (last : Str → JSON) : KeysInOrder m →
      (∀ e ∈ m, LastMember l e.1 (last e.1)) → (∀ e ∈ m, Denotes (last e.1) e.2) →
      (∀ q ∈ l, ∃ e ∈ m, e.1 = q.1) → Denotes (.obj l) (.obj m)

/-- One by one. -/
inductive DenoteAll : List JSON → List GoVal → Prop
  | nil : DenoteAll [] []
  | cons {v : JSON} {g : GoVal} {l : List JSON} {l' : List GoVal} : Denotes v g →
      DenoteAll l l' → DenoteAll (v :: l) (g :: l')
end

/-- The document contains a number with this literal. -/
inductive HasNumber (lit : Str) : JSON → Prop
  | num : HasNumber lit (.num lit)
  | arr {l : List JSON} {v : JSON} : v ∈ l → HasNumber lit v → HasNumber lit (.arr l)
  | obj {l : List (Str × JSON)} {q : Str × JSON} : q ∈ l → HasNumber lit q.2 → HasNumber lit (.obj l)

/-- No number in the document is too large. -/
def InRange (v : JSON) : Prop := ∀ lit, HasNumber lit v → ∃ f, NumberDenotes lit f

/-- The members that the objects named `f` have brought together; `null` discards what was there.
Every number in these objects counts, even if it is discarded: none of them may be too large. -/
inductive Collected (f : Str) : List (Str × JSON) → Option (List (Str × JSON)) → Prop
  | nil : Collected f [] none
  | other {l : List (Str × JSON)} {r : Option (List (Str × JSON))} {k : Str} {v : JSON} :
      Collected f l r → ¬ Folded k f → Collected f (l ++ [(k, v)]) r
  | null {l : List (Str × JSON)} {r : Option (List (Str × JSON))} {k : Str} :
      Collected f l r → Folded k f → Collected f (l ++ [(k, .null)]) none
  | obj {l : List (Str × JSON)} {r : Option (List (Str × JSON))} {k : Str}
      {ms : List (Str × JSON)} :
      Collected f l r → Folded k f → InRange (.obj ms) →
      Collected f (l ++ [(k, .obj ms)]) (some (r.getD [] ++ ms))

/-- A map. -/
def MapField (l : List (Str × JSON)) (f : Str) (x : Option (List (Str × GoVal))) : Prop :=
  (Collected f l none ∧ x = none) ∨
    ∃ ms m, Collected f l (some ms) ∧ x = some m ∧ Denotes (.obj ms) (.obj m)

/-- What the members of an object say about a token response. -/
structure TokenMembers (l : List (Str × JSON)) (t : TokenResponse) : Prop where
  tokenType : StrField l b!"token_type" t.tokenType
  accessToken : StrField l b!"access_token" t.accessToken
  expiresIn : IntField l b!"expires_in" t.expiresIn
  refreshToken : StrField l b!"refresh_token" t.refreshToken
  scope : ScopeField l b!"scope" t.scope
  state : StrField l b!"state" t.state
  redirectURI : t.redirectURI = []

/-- What the members of an object say about a token. -/
structure IntrospectionMembers (l : List (Str × JSON)) (t : IntrospectionResponse) : Prop where
  active : BoolField l b!"active" t.active
  scope : ScopeField l b!"scope" t.scope
  clientID : StrField l b!"client_id" t.clientID
  username : StrField l b!"username" t.username
  tokenType : StrField l b!"token_type" t.tokenType
  expiresAt : IntField l b!"exp" t.expiresAt
  issuedAt : IntField l b!"iat" t.issuedAt
  notBefore : IntField l b!"nbf" t.notBefore
  subject : StrField l b!"sub" t.subject
  audience : StrField l b!"aud" t.audience
  issuer : StrField l b!"iss" t.issuer
  identifier : StrField l b!"jti" t.identifier
  extra : MapField l b!"extra" t.extra

/-- What the members of an object say about an error. -/
structure ErrorMembers (l : List (Str × JSON)) (e : Error) : Prop where
  name : StrField l b!"error" e.name
  state : StrField l b!"state" e.state
  scope : ScopeField l b!"scope" e.scope
  realm : StrField l b!"realm" e.realm
  description : StrField l b!"error_description" e.description
  uri : StrField l b!"error_uri" e.uri
  headers : e.headers = []
  redirectURI : e.redirectURI = []
  useFragment : e.useFragment = false

/-- The text is a document that is read: an object, or `null`, which counts as an empty object. -/
def Document (data : Str) (l : List (Str × JSON)) : Prop :=
  JsonText 10000 (.obj l) data ∨ JsonText 10000 .null data ∧ l = []

/-- What a client that reads up to `limit` bytes of a response gets: the connection does not break
before, and the response declares itself as JSON. -/
def JsonResponse (res : Response) (limit : Int) (data : Str) : Prop :=
  data = res.body.take limit.toNat ∧
  (res.bodyErr = true → limit ≤ res.body.length) ∧
  parseMediaType (res.header.get b!"Content-Type") = (b!"application/json", false)

end OAuth2.Spec

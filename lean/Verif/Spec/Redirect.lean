import Verif.Model.Http
/-
What a redirect that carries parameters means for the client that receives it.
-/

namespace OAuth2

/-- The URLs agree in scheme, opaque part, user, host and (unescaped) path: everything but the
spelling of the path, the query and the fragment. -/
def URL.SameTarget (u v : URL) : Prop :=
  v.scheme = u.scheme ∧ v.opaque_ = u.opaque_ ∧ v.user = u.user ∧ v.host = u.host ∧
  v.path = u.path

namespace Spec

/-- `v` is the URL `u` with the parameters added to its query: the same target, every query
parameter of `u` with all its values in order, followed by the value `params` has for that name
(a map has at most one), and nothing else. -/
def ExtendsQuery (u : URL) (params : GoMap Str) (v : URL) : Prop :=
  u.SameTarget v ∧ v.fragment = [] ∧
  ∀ k, v.query.all k = u.query.all k ++ (params.get? k).toList

/-- `v` is the URL `u` with the parameters, form encoded, as its fragment. -/
def ExtendsFragment (u : URL) (params : GoMap Str) (v : URL) : Prop :=
  u.SameTarget v ∧ v.rawQuery = u.rawQuery ∧
  (parseQuery v.fragment).2 = false ∧
  ∀ k, (parseQuery v.fragment).1.all k = (params.get? k).toList

/-- The parameters are these, by name, and no others. -/
def Fields (params : GoMap Str) (fields : List (Str × Option Str)) : Prop :=
  (∀ f ∈ fields, params.get? f.1 = f.2) ∧ ∀ k, k ∉ fields.map (·.1) → params.get? k = none

/-- A field that is left out if it is empty. -/
def unlessEmpty (x : Str) : Option Str := if x = [] then none else some x

/-- The redirect URIs C14 and C15 speak about: absolute, without `#`, and if there is a bracket in
them then without non-ASCII bytes. -/
structure RedirectURI (uri : Str) (u : URL) : Prop where
  parsed : parseRequestURI uri = some u
  absolute : u.scheme ≠ []
  no_hash : (0x23 : UInt8) ∉ uri
  ascii : (∀ c ∈ uri, c < 0x80) ∨ (0x5B : UInt8) ∉ uri

/-- The response is a redirect to the URL with exactly these parameters, in its fragment or added
to its query. -/
def RedirectsWith (res : Response) (u : URL) (fragment : Bool) (fields : List (Str × Option Str)) :
    Prop :=
  res.statusCode = 303 ∧ ∃ L v params, res.header.all b!"Location" = [L] ∧ parseURL L = some v ∧
    (if fragment then ExtendsFragment u params v else ExtendsQuery u params v) ∧
    Fields params fields

/-- Letters, digits, `-`, `_`, `.`, `~` and the space. -/
def Plain (c : UInt8) : Prop :=
  (0x30 ≤ c ∧ c ≤ 0x39) ∨ (0x41 ≤ c ∧ c ≤ 0x5A) ∨ (0x61 ≤ c ∧ c ≤ 0x7A) ∨ c ∈ b!"-_.~ "

instance (c : UInt8) : Decidable (Plain c) := by unfold Plain; infer_instance

/-- A byte as a percent sign and two upper case hexadecimal digits. -/
def percent (c : UInt8) : Str :=
  [0x25, b!"0123456789ABCDEF".getD (c.toNat / 16) 0, b!"0123456789ABCDEF".getD (c.toNat % 16) 0]

/-- The text with every byte that is not plain replaced by its percent escape. -/
def percentEscaped (s : Str) : Str := s.flatMap fun c => if Plain c then [c] else percent c

end Spec

end OAuth2

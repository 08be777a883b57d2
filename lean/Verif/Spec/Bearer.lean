import Verif.Model.Error
/-
The authorization header and the challenge of RFC 6750, independently of the code.
-/

namespace OAuth2.Spec

/-- `s` is the lower-case word `word` with any of its letters capitalised. -/
def AnyCase : (s word : Str) → Prop
  | [], [] => True
  | a :: s, b :: word => (a = b ∨ a + 32 = b) ∧ AnyCase s word
  | _, _ => False

/-- A header value that carries a bearer token. -/
def CarriesBearer (header token : Str) : Prop :=
  ∃ word, header = word ++ [0x20] ++ token ∧ AnyCase word b!"bearer" ∧ token ≠ []

/-- One parameter of a challenge. -/
def param (key value : Str) : Str := key ++ b!"=\"" ++ value ++ b!"\""

/-- The parameters of an error that are present, by name. The scope is present if it has items. -/
def parameters (e : Error) : List (Str × Str) :=
  [(b!"error", e.name), (b!"error_description", e.description), (b!"error_uri", e.uri),
    (b!"realm", e.realm)].filter (·.2 ≠ []) ++
  (if e.scope.items = [] then [] else [(b!"scope", e.scope.string)]) ++
  [(b!"state", e.state)].filter (·.2 ≠ [])

end OAuth2.Spec

import Verif.Model.Http
import Verif.Spec.Bearer
/-
What a request with a form body is, and who a basic authorization header names.
-/

namespace OAuth2.Spec

/-- A POST request as it arrives, with a form in its body: its content type is that of forms,
its body of at most 10 MB is a well-formed form, its query (if any) is well formed, and nothing
has parsed it yet. -/
structure FormPost (r : Request) (form : Values) : Prop where
  method : r.method = b!"POST"
  fresh : r.postForm = none ∧ r.form = none
  contentType : parseMediaType (r.header.get b!"Content-Type") =
    (b!"application/x-www-form-urlencoded", false)
  body : ∃ data, r.body = some data ∧ r.bodyErr = false ∧ data.length ≤ 10485760 ∧
    parseQuery data = (form, false)
  query : (parseQuery r.rawQuery).2 = false

/-- The header value names the user `u` with password `p`: the word `basic` in any letter case, a
space, and standard base64 of `u`, a colon and `p`; there is no colon in `u`. -/
def NamesUser (header u p : Str) : Prop :=
  ∃ word text, header = word ++ [0x20] ++ text ∧ AnyCase word b!"basic" ∧
    b64StdDecode text = some (u ++ [0x3A] ++ p) ∧ 0x3A ∉ u

end OAuth2.Spec

import Verif.Spec.Accept
import Verif.Spec.Reads
/-
Requests whose form has been parsed before the library sees them: by middleware that logs a field,
by a handler that calls `FormValue`, or by the program having called a Parse function itself.
-/

namespace OAuth2.Spec

/-- The form of the request is known already: these are the values of its body and these its values
altogether. -/
structure Known (r : Request) (posted all : Values) : Prop where
  posted : r.postForm = some posted
  all : r.form = some all

/-- What can be made out of the body of a POST request as a form, well formed or not: of a body of
at most 10 MB that arrived in full and whose content type, as far as it can be read, is that of
forms, the pairs that are well formed; of any other body nothing. -/
inductive Legible (r : Request) : Values → Prop
  | form {data : Str} : r.body = some data → r.bodyErr = false → data.length ≤ 10485760 →
      (parseMediaType (r.header.get b!"Content-Type")).1 = b!"application/x-www-form-urlencoded" →
      Legible r (parseQuery data).1
  | none : (∀ data, r.body = some data → r.bodyErr = true ∨ 10485760 < data.length ∨
      (parseMediaType (r.header.get b!"Content-Type")).1 ≠
        b!"application/x-www-form-urlencoded") → Legible r []

/-- Two forms say the same: every parameter of the protocol has the same first value. -/
def SameFields (form form' : Values) : Prop :=
  ∀ name ∈ parameterNames, form.get name = form'.get name

end OAuth2.Spec

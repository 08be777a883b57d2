import Verif.Model.Writer
import Verif.Spec.Local
/-
Calls made with response writers that need not work.
-/

namespace OAuth2.Spec

/-- The server after one call made with a response writer that behaves like this, and whether the
call panicked. -/
def stepWith (b : WriterBehaviour) (s : Shared Server) (c : Call) : Shared Server × Bool :=
  match c.op with
  | .serve r =>
    match exec (Server.serveHTTPWith b r) s c.local with
    | (.panic, s', _) => (s', true)
    | (_, s', _) => (s', false)
  | .authorize r required =>
    match exec (Server.authorizeWith b r required) s c.local with
    | (.panic, s', _) => (s', true)
    | (_, s', _) => (s', false)
  | .configure _ _ => ((step s c).2, false)

/-- The server after calls made one after the other, each with its own response writer. -/
def runWith (s : Shared Server) : List (Call × WriterBehaviour) → Shared Server
  | [] => s
  | (c, b) :: rest => runWith (stepWith b s c).1 rest

end OAuth2.Spec

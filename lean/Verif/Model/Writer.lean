import Verif.Model.Server
/-
Response writers that fail. The server passes the `http.ResponseWriter` it is given through to
`Write`, `WriteRedirect` and `WriteBearerError` and ignores the errors they return
(`_ = Write...` throughout server.go), so a writer that fails, loses bytes or answers to calls in
some other way can only matter by panicking.
-/

namespace OAuth2

/-- What a response writer makes of the calls on it: `b i` is what call `i` does, given what it
should do; `none` is a panic in the middle of the handler. The `w` of server.go:124; the handlers
never look at what a call on it returns. -/
abbrev WriterBehaviour := Nat → Option ((Recorder → Recorder) → Recorder → Recorder)

/-- A writer that does what it should. Auxiliary, no code (server.go:124). -/
def WriterBehaviour.reliable : WriterBehaviour := fun _ => some id

/-- The program, with a response writer that behaves like this. Auxiliary: server.go:124 run with
another `w`. -/
def Prog.withWriter {σ α : Type} : WriterBehaviour → Prog σ α → Prog σ α
  | _, ret a => ret a
  | _, panic => panic
  | b, lock k => lock (withWriter b k)
  | b, unlock k => unlock (withWriter b k)
  | b, get k => get fun s => withWriter b (k s)
  | b, modify f k => modify f (withWriter b k)
  | b, now k => now fun t => withWriter b (k t)
  | b, rand n k => rand n fun x => withWriter b (k x)
  | b, resp f k =>
    match b 0 with
    | none => panic
    | some g => resp (g f) (withWriter (fun i => b (i + 1)) k)

namespace Server

/-- server.go:124-151 `ServeHTTP` with such a response writer. -/
def serveHTTPWith (b : WriterBehaviour) (r : Request) : Handler Unit :=
  .lock (.deferUnlock ((serveLocked r).withWriter b))

/-- server.go:81-120 `Authorize` with such a response writer. -/
def authorizeWith (b : WriterBehaviour) (r : Request) (required : Scope) : Handler Bool :=
  .lock (.deferUnlock ((authorizeLocked r required).withWriter b))

end Server

end OAuth2

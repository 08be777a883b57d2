import Verif.Model.Http
/-
Effectful code. A handler is a program over the primitive effects it performs on shared and
request-local state, one constructor per Go-level effect, so that the same program text has a
sequential meaning (`exec`) and an interleaved one (Verif/Model/Concurrent.lean).
-/

namespace OAuth2

/-- Nanoseconds on one timeline. Go: `time.Time`. Simplification: unbounded. -/
abbrev Time := Int

/-- A program with shared state `σ` and result `α`. Auxiliary, no code: the language the handlers
of server.go are written in. -/
inductive Prog (σ α : Type) where
  /-- return normally -/
  | ret (a : α)
  /-- Go `panic` -/
  | panic
  /-- `s.Mutex.Lock()` -/
  | lock (k : Prog σ α)
  /-- `s.Mutex.Unlock()` -/
  | unlock (k : Prog σ α)
  /-- one read of the shared state -/
  | get (k : σ → Prog σ α)
  /-- one write to the shared state -/
  | modify (f : σ → σ) (k : Prog σ α)
  /-- `time.Now()` -/
  | now (k : Time → Prog σ α)
  /-- `io.ReadFull(randSource, buf)` with `len(buf) = n`; `none` is an error -/
  | rand (n : Nat) (k : Option Str → Prog σ α)
  /-- one call on the `http.ResponseWriter` -/
  | resp (f : Recorder → Recorder) (k : Prog σ α)

namespace Prog

/-- One program after the other. Auxiliary, no code: Go statements in sequence (server.go). -/
def bind {σ α β : Type} : Prog σ α → (α → Prog σ β) → Prog σ β
  | ret a, f => f a
  | panic, _ => panic
  | lock k, f => lock (bind k f)
  | unlock k, f => unlock (bind k f)
  | get k, f => get fun s => bind (k s) f
  | modify g k, f => modify g (bind k f)
  | now k, f => now fun t => bind (k t) f
  | rand n k, f => rand n fun b => bind (k b) f
  | resp g k, f => resp g (bind k f)

/-- So that programs can be written with `do`. Auxiliary, no code. -/
instance : Monad (Prog σ) where
  pure := ret
  bind := bind

/-- Go: `defer s.Mutex.Unlock()`: unlock when the rest returns or panics. -/
def deferUnlock {σ α : Type} : Prog σ α → Prog σ α
  | ret a => unlock (ret a)
  | panic => unlock panic
  | lock k => lock (deferUnlock k)
  | unlock k => unlock (deferUnlock k)
  | get k => get fun s => deferUnlock (k s)
  | modify g k => modify g (deferUnlock k)
  | now k => now fun t => deferUnlock (k t)
  | rand n k => rand n fun b => deferUnlock (k b)
  | resp g k => resp g (deferUnlock k)

/-- Read the shared state: Go: an access to the maps of `Server` (server.go:57-65), for example
server.go:168. -/
def getS : Prog σ σ := get ret
/-- Write the shared state: Go: an assignment to the maps of `Server` (server.go:57-65), for
example server.go:245. -/
def modifyS (f : σ → σ) : Prog σ Unit := modify f (ret ())
/-- Go: `time.Now()` (server.go:108, 248, 374, 417, 611, 621). -/
def timeNow : Prog σ Time := now ret
/-- Go: `io.ReadFull(randSource, key)` (hs256.go:58). -/
def readFull (n : Nat) : Prog σ (Option Str) := rand n ret
/-- Go: a call on the response writer (oauth2.go:73-86, 124-137, bearer.go:64-90). -/
def respond (f : Recorder → Recorder) : Prog σ Unit := resp f (ret ())

/-- Go: `w.WriteHeader(code)`; `net/http` panics for a code that has not three digits. -/
def writeHeader (code : Int) : Prog σ Unit :=
  if code < 100 ∨ 999 < code then panic else respond (·.writeHeader code.toNat)

end Prog

/-- How a program ended. Auxiliary; Go: returning, `panic`, and a `sync.Mutex` locked twice
(server.go:83, 126). -/
inductive Outcome (α : Type) where
  | ret (a : α)
  | panic
  /-- locking a mutex the same goroutine already holds -/
  | deadlock
  deriving DecidableEq, Repr

/-- The request-local part of the world: the response writer, the random bytes and the clock
readings this request will obtain. Both are arbitrary: `coins` may run out, `clock` need not be
monotone. Go: `w` (server.go:124), `randSource` (hs256.go:13) and `time.Now` (server.go:108). -/
structure Local where
  w : Recorder := {}
  coins : Str := []
  clock : Nat → Time
  tick : Nat := 0

/-- Shared state together with the mutex. server.go:57-65 `Server`. -/
structure Shared (σ : Type) where
  locked : Bool := false
  st : σ
  deriving DecidableEq

/-- Running a program alone. Auxiliary, no code: what Go does with the statements of a handler when
no other goroutine runs. -/
def exec {σ α : Type} : Prog σ α → Shared σ → Local → Outcome α × Shared σ × Local
  | .ret a, s, l => (.ret a, s, l)
  | .panic, s, l => (.panic, s, l)
  | .lock k, s, l => if s.locked then (.deadlock, s, l) else exec k { s with locked := true } l
  | .unlock k, s, l => exec k { s with locked := false } l
  | .get k, s, l => exec (k s.st) s l
  | .modify f k, s, l => exec k { s with st := f s.st } l
  | .now k, s, l => exec (k (l.clock l.tick)) s { l with tick := l.tick + 1 }
  | .rand n k, s, l =>
    if n ≤ l.coins.length then exec (k (some (l.coins.take n))) s { l with coins := l.coins.drop n }
    else exec (k none) s { l with coins := [] }
  | .resp f k, s, l => exec k s { l with w := f l.w }

end OAuth2

import Verif.Model.Server
/-
Running programs one effect at a time, so that the effects of several goroutines can interleave.
`sync.Mutex` is the only synchronisation.

Simplification: one effect of `Prog` is one atomic step. `C47_race_free` justifies it: no two
calls are ever about to access the shared state at the same time, so the Go memory model gives
these programs the interleaving semantics.
-/

namespace OAuth2

namespace Prog

variable {σ α : Type}

/-- One effect of a running program. There is no step after the end, and none while waiting for
the mutex (server.go:82-83 and 125-126). A waiting goroutine may be overtaken any number of
times: the queue inside `sync.Mutex` is not modelled. -/
def step : Prog σ α → Shared σ → Local → Option (Prog σ α × Shared σ × Local)
  | ret _, _, _ => none
  | panic, _, _ => none
  | lock k, s, l => if s.locked then none else some (k, { s with locked := true }, l)
  | unlock k, s, l => some (k, { s with locked := false }, l)
  | get k, s, l => some (k s.st, s, l)
  | modify f k, s, l => some (k, { s with st := f s.st }, l)
  | now k, s, l => some (k (l.clock l.tick), s, { l with tick := l.tick + 1 })
  | rand n k, s, l =>
    if n ≤ l.coins.length then some (k (some (l.coins.take n)), s, { l with coins := l.coins.drop n })
    else some (k none, s, { l with coins := [] })
  | resp f k, s, l => some (k, s, { l with w := f l.w })

/-- How a program has ended. Auxiliary, for the interleaved semantics; Go: a goroutine that has
returned or panicked. -/
def ended : Prog σ α → Option (Outcome α)
  | ret a => some (.ret a)
  | panic => some .panic
  | _ => none

/-- The next effect reads or writes the shared state. Auxiliary, for stating that there is no data
race; server.go:83-84 and 126-127 are meant to prevent it. -/
def accesses : Prog σ α → Bool
  | get _ => true
  | modify _ _ => true
  | _ => false

end Prog

/-- The embedding program exchanging the registered clients and users (exported fields of
server.go:57-65) while it holds the exported mutex. -/
def Server.configure (clients users : GoMap ServerEntity) : Handler Unit :=
  .lock (.deferUnlock (.modify (fun s => { s with clients := clients })
    (.modify (fun s => { s with users := users }) (.ret ()))))

end OAuth2

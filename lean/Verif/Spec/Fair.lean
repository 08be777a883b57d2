import Verif.Spec.Slow
/-
Calls without end: runs that go on for ever, with more and more calls, by clients that may be slow.
-/

namespace OAuth2.Spec.Fair

/-- A run for ever. In each moment something happens, or nothing. -/
structure Forever (s₀ : Server) where
  world : Nat → Slow.World
  act : Nat → Option Slow.Act
  start : world 0 = ⟨{ shared := ⟨false, s₀⟩, threads := fun _ => none }, fun _ => false⟩
  next : ∀ n, (act n = none ∧ world (n + 1) = world n) ∨
    ∃ a, act n = some a ∧ Slow.Next (world n) a (world (n + 1))

/-- The act is one of call `i`: a step of it, or that its caller gets the answer. -/
def By (i : Nat) (a : Slow.Act) : Prop :=
  a = .act (.step i) ∨ ∃ answer, a = .act (.answer i answer)

/-- Call `i` can go on. -/
def Able (w : Slow.World) (i : Nat) : Prop := ∃ a w', By i a ∧ Slow.Next w a w'

/-- Call `i` wants the mutex, and it is free. -/
def CanLock (w : Slow.World) (i : Nat) : Prop :=
  ∃ t, w.world.threads i = some t ∧ t.prog.isLock = true ∧ w.world.shared.locked = false

/-- The scheduler of Go lets every goroutine go on that can: not at once, but none that can go on is
left alone for ever. -/
def Schedules {s₀ : Server} (run : Forever s₀) : Prop :=
  ∀ i n, (∀ m, n ≤ m → Able (run.world m) i) → ∃ m, n ≤ m ∧ ∃ a, run.act m = some a ∧ By i a

/-- `sync.Mutex` lets nobody starve: who wants it, and finds it free again and again, gets it. -/
def Unlocks {s₀ : Server} (run : Forever s₀) : Prop :=
  ∀ i n, (∀ k, ∃ m, k ≤ m ∧ CanLock (run.world m) i) →
    ∃ m, n ≤ m ∧ run.act m = some (.act (.step i))

/-- Every body that is read arrives some time, or ends early. -/
def Delivers {s₀ : Server} (run : Forever s₀) : Prop :=
  ∀ i n c r, run.act n = some (.act (.invoke i c)) → c.op = .serve r →
    Server.readsBody r = true → ∃ m, run.act m = some (.arrive i)

end OAuth2.Spec.Fair

import Verif.Spec.Concurrent
import Verif.Model.Slow
/-
Calls made at the same time (Spec/Concurrent.lean) by clients that may take their time to send the
bodies of their requests, or never send them.
-/

namespace OAuth2.Spec.Slow

/-- The server and the goroutines, and whose bodies have arrived. -/
structure World where
  world : Spec.World
  arrived : Nat → Bool

/-- What can happen next. -/
inductive Act where
  /-- as before -/
  | act (a : Spec.Act)
  /-- the body of the request of a call has arrived, or ended early -/
  | arrive (i : Nat)

/-- Call `i` has taken the mutex and waits for the body of its request. -/
def Awaits (w : World) (i : Nat) : Prop :=
  ∃ t r, w.world.threads i = some t ∧ t.call.op = .serve r ∧ Server.readsBody r = true ∧
    t.prog.isLock = false ∧ w.arrived i = false

/-- A call that waits for a body takes no step; otherwise everything is as before. -/
inductive Next (w : World) : Act → World → Prop
  | act {a : Spec.Act} {world : Spec.World} : Spec.Next w.world a world →
      (∀ i, a = .step i → ¬ Awaits w i) → Next w (.act a) { w with world := world }
  | arrive (i : Nat) :
      Next w (.arrive i) { w with arrived := fun j => j = i || w.arrived j }

/-- `tr` (latest act first) is a run of a server that started as `s₀`, and `w` the world after it. -/
inductive Run (s₀ : Server) : List Act → World → Prop
  | start : Run s₀ [] ⟨{ shared := ⟨false, s₀⟩, threads := fun _ => none }, fun _ => false⟩
  | next {tr : List Act} {w w' : World} {act : Act} : Run s₀ tr w → Next w act w' →
      Run s₀ (act :: tr) w'

/-- From `w` the acts (latest first) lead to `w'`. -/
inductive Leads (w : World) : List Act → World → Prop
  | refl : Leads w [] w
  | next {acts : List Act} {w' w'' : World} {act : Act} : Leads w acts w' → Next w' act w'' →
      Leads w (act :: acts) w''

/-- The run without the arrivals. -/
def plain : List Act → List Spec.Act
  | [] => []
  | .act a :: tr => a :: plain tr
  | .arrive _ :: tr => plain tr

/-- The act is not a new call. -/
def Act.continues : Act → Prop
  | .act a => a.continues
  | .arrive _ => True

/-- Nobody has to wait for a body: all that are read have arrived. -/
def World.Complete (w : World) : Prop :=
  ∀ i t r, w.world.threads i = some t → t.call.op = .serve r → Server.readsBody r = true →
    w.arrived i = true

end OAuth2.Spec.Slow

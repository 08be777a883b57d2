import Verif.Spec.History
import Verif.Model.Concurrent
/-
Calls made at the same time, and what it means that they look as if made one after the other.
-/

namespace OAuth2.Spec

/-! ### Concurrent runs -/

/-- What a call returns. -/
def Op.Result : Op → Type
  | .serve _ => Unit
  | .authorize _ _ => Bool
  | .configure _ _ => Unit

/-- The program of a call. -/
def Op.program : (o : Op) → Handler o.Result
  | .serve r => Server.serveHTTP r
  | .authorize r required => Server.authorize r required
  | .configure clients users => Server.configure clients users

/-- What the caller observes when the program has ended. -/
def Op.answer : (o : Op) → Outcome o.Result → Local → Answer
  | .serve _, .ret _, l => .answered l.w.result
  | .authorize _ _, .ret true, _ => .admitted
  | .authorize _ _, .ret false, l => .rejected l.w.result
  | .configure _ _, .ret _, _ => .configured
  | _, .panic, l => .panicked l.w
  | _, .deadlock, _ => .stuck

/-- A goroutine that makes one call: what is left of its program, and whether its caller has the
answer. The random bytes and the clock readings the call obtains are arbitrary. -/
structure Thread where
  call : Call
  prog : Handler call.op.Result
  loc : Local
  answered : Bool := false

/-- The server and the goroutines, each with a number of its own. -/
structure World where
  shared : Shared Server
  threads : Nat → Option Thread

/-- The world with another state of one goroutine. -/
def World.put (w : World) (i : Nat) (t : Thread) : World :=
  { w with threads := fun j => if j = i then some t else w.threads j }

/-- What can happen next. -/
inductive Act where
  /-- a new goroutine makes a call -/
  | invoke (i : Nat) (c : Call)
  /-- a goroutine takes one step -/
  | step (i : Nat)
  /-- the call of a goroutine is over -/
  | answer (i : Nat) (a : Answer)

/-- The act is not a new call. -/
def Act.continues : Act → Prop
  | .invoke _ _ => False
  | _ => True

inductive Next (w : World) : Act → World → Prop
  | invoke (i : Nat) (c : Call) (h : w.threads i = none) :
      Next w (.invoke i c) (w.put i { call := c, prog := c.op.program, loc := c.local })
  | step (i : Nat) (t : Thread) (h : w.threads i = some t) {p : Handler t.call.op.Result}
      {s : Shared Server} {l : Local} (hs : t.prog.step w.shared t.loc = some (p, s, l)) :
      Next w (.step i) ({ w with shared := s }.put i { t with prog := p, loc := l })
  | answer (i : Nat) (t : Thread) (h : w.threads i = some t) (ha : t.answered = false)
      {o : Outcome t.call.op.Result} (ho : t.prog.ended = some o) :
      Next w (.answer i (t.call.op.answer o t.loc)) (w.put i { t with answered := true })

/-- `tr` (latest act first) is a run of a server that started as `s₀`, and `w` the world after it. -/
inductive Run (s₀ : Server) : List Act → World → Prop
  | start : Run s₀ [] { shared := ⟨false, s₀⟩, threads := fun _ => none }
  | next {tr : List Act} {w w' : World} {act : Act} : Run s₀ tr w → Next w act w' →
      Run s₀ (act :: tr) w'

/-! ### Linearizability -/

/-- In the run, call `i` was answered before call `j` was made. -/
def Precedes (tr : List Act) (i j : Nat) : Prop :=
  ∃ later earlier c a, tr = later ++ .invoke j c :: earlier ∧ .answer i a ∈ earlier

/-- The run looks as if the calls in `order` (latest first), and no others, had been made one
after the other, with `s` as the server after them: each call was made in the run, every call
answered in the run is among them with the answer it got, and calls that did not overlap are in
the order in which they were made. (Calls without an answer yet may or may not be among them.) -/
structure Linearizes (s₀ : Server) (tr : List Act) (order : List (Nat × Event))
    (s : Shared Server) : Prop where
  history : History s₀ (order.map (·.2)) s
  once : (order.map (·.1)).Nodup
  invoked : ∀ x ∈ order, .invoke x.1 x.2.call ∈ tr
  answered : ∀ i a, .answer i a ∈ tr → ∃ e, (i, e) ∈ order ∧ e.answer = a
  realtime : ∀ i j, Precedes tr i j → j ∈ order.map (·.1) →
    ∃ new old, order.map (·.1) = new ++ j :: old ∧ i ∈ old

/-- In the run, call `i` was made and answered. -/
def Observed (tr : List Act) (i : Nat) (e : Event) : Prop :=
  .invoke i e.call ∈ tr ∧ .answer i e.answer ∈ tr

/-- Every call is answered. -/
def World.Done (w : World) : Prop := ∀ i t, w.threads i = some t → t.answered = true

/-- The world `w` goes on to `w'` without a new call; `acts` (latest first) happen in between. -/
inductive Proceeds (w : World) : List Act → World → Prop
  | refl : Proceeds w [] w
  | next {acts : List Act} {w' w'' : World} {act : Act} : Proceeds w acts w' → act.continues →
      Next w' act w'' → Proceeds w (act :: acts) w''

end OAuth2.Spec

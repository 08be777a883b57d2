import Verif.Spec.Concurrent
import Verif.Spec.Writer
/-
Calls made at the same time, each with a response writer of its own that need not work: it may
fail, drop or change what is written, or panic in the middle of an answer. As Spec/Concurrent.lean
otherwise.
-/

namespace OAuth2.Spec.Flaky

/-- A call and the response writer it is given. -/
structure Attempt where
  call : Call
  writer : WriterBehaviour := .reliable

/-- The program of a call with its response writer. -/
def Attempt.program (c : Attempt) : Handler c.call.op.Result :=
  match c.call.op with
  | .serve r => Server.serveHTTPWith c.writer r
  | .authorize r required => Server.authorizeWith c.writer r required
  | .configure clients users => Server.configure clients users

/-- A goroutine that makes one call. -/
structure Thread where
  call : Attempt
  prog : Handler call.call.op.Result
  loc : Local
  answered : Bool := false

/-- The server and the goroutines, each with a number of its own. -/
structure World where
  shared : Shared Server
  threads : Nat → Option Thread

/-- The world with another state of one goroutine. -/
def World.put (w : World) (i : Nat) (t : Thread) : World :=
  { w with threads := fun j => if j = i then some t else w.threads j }

/-- What can happen next. -/
inductive Act where
  /-- a new goroutine makes a call -/
  | invoke (i : Nat) (c : Attempt)
  /-- a goroutine takes one step -/
  | step (i : Nat)
  /-- the call of a goroutine is over; `a` is what its response writer has and what it returned -/
  | answer (i : Nat) (a : Answer)

/-- The act is not a new call. -/
def Act.continues : Act → Prop
  | .invoke _ _ => False
  | _ => True

inductive Next (w : World) : Act → World → Prop
  | invoke (i : Nat) (c : Attempt) (h : w.threads i = none) :
      Next w (.invoke i c) (w.put i { call := c, prog := c.program, loc := c.call.local })
  | step (i : Nat) (t : Thread) (h : w.threads i = some t) {p : Handler t.call.call.op.Result}
      {s : Shared Server} {l : Local} (hs : t.prog.step w.shared t.loc = some (p, s, l)) :
      Next w (.step i) ({ w with shared := s }.put i { t with prog := p, loc := l })
  | answer (i : Nat) (t : Thread) (h : w.threads i = some t) (ha : t.answered = false)
      {o : Outcome t.call.call.op.Result} (ho : t.prog.ended = some o) :
      Next w (.answer i (t.call.call.op.answer o t.loc)) (w.put i { t with answered := true })

/-- `tr` (latest act first) is a run of a server that started as `s₀`, and `w` the world after it. -/
inductive Run (s₀ : Server) : List Act → World → Prop
  | start : Run s₀ [] { shared := ⟨false, s₀⟩, threads := fun _ => none }
  | next {tr : List Act} {w w' : World} {act : Act} : Run s₀ tr w → Next w act w' →
      Run s₀ (act :: tr) w'

/-- In the run, call `i` was answered before call `j` was made. -/
def Precedes (tr : List Act) (i j : Nat) : Prop :=
  ∃ later earlier c a, tr = later ++ .invoke j c :: earlier ∧ .answer i a ∈ earlier

/-- Every call is over. -/
def World.Done (w : World) : Prop := ∀ i t, w.threads i = some t → t.answered = true

/-- The world `w` goes on to `w'` without a new call; `acts` (latest first) happen in between. -/
inductive Proceeds (w : World) : List Act → World → Prop
  | refl : Proceeds w [] w
  | next {acts : List Act} {w' w'' : World} {act : Act} : Proceeds w acts w' → act.continues →
      Next w' act w'' → Proceeds w (act :: acts) w''

/-- What a caller with this response writer may observe of a call that should have the answer
`good`. With a writer that works it is `good`. With any other, something arbitrary may have been
written, but `Authorize` returns what it should, and the call panics only if the writer does or if
it would have panicked anyway. -/
def Passes (b : WriterBehaviour) (good a : Answer) : Prop :=
  (b = .reliable → a = good) ∧
  ((∃ w, a = .panicked w) ∧ ((∃ n, b n = none) ∨ ∃ w, good = .panicked w) ∨
    (a = .configured ∧ good = .configured) ∨
    (a = .admitted ∧ good = .admitted) ∨
    (∃ res res', a = .rejected res ∧ good = .rejected res') ∨
    (∃ res res', a = .answered res ∧ good = .answered res'))

/-- The run looks to the server as if the calls in `order` (latest first), and no others, had been
made one after the other with response writers that work, with `s` as the server after them: each
call was made in the run, every call that is over in the run is among them, its caller observes
what its response writer makes of the answer, and calls that did not overlap are in the order in
which they were made. -/
structure Linearizes (s₀ : Server) (tr : List Act) (order : List (Nat × Event))
    (s : Shared Server) : Prop where
  history : History s₀ (order.map (·.2)) s
  once : (order.map (·.1)).Nodup
  invoked : ∀ x ∈ order, ∃ b, .invoke x.1 ⟨x.2.call, b⟩ ∈ tr
  answered : ∀ i a, .answer i a ∈ tr → ∃ e b, (i, e) ∈ order ∧ .invoke i ⟨e.call, b⟩ ∈ tr ∧
    Passes b e.answer a
  realtime : ∀ i j, Precedes tr i j → j ∈ order.map (·.1) →
    ∃ new old, order.map (·.1) = new ++ j :: old ∧ i ∈ old

end OAuth2.Spec.Flaky

import Verif.Spec.Local
import Verif.Spec.Random
/-
Two parties that use one server and see nothing of each other.
-/

namespace OAuth2.Spec

/-- The signature of the token or code with this key. -/
def signatureOf (cfg : ServerConfig) (key : Str) : Str :=
  (HS256Token.fromKey cfg.secret key).signatureString

/-- The call carries a text that is a token or code with this signature. -/
def Names (cfg : ServerConfig) (c : Call) (signature : Str) : Prop :=
  ∃ text t, Carries c text ∧ HS256Token.parse cfg.secret text = .ok t ∧ t.signatureString = signature

/-- One of the two keys in the random bytes of the call has this signature. -/
def Draws (cfg : ServerConfig) (c : Call) (signature : Str) : Prop :=
  ∃ i, i < 2 ∧ signature = signatureOf cfg (draw cfg c i)

/-- How a party goes on, given the answers that it has got so far, latest first: the next call it
makes. The random bytes in it are not used; the server obtains others. A strategy is any function: the
party may know the configuration of the server with its secret, all registered clients and users with
theirs, and may compute anything. -/
abbrev Strategy := List Answer → Call

/-- The next call, with the random bytes that the server obtains for it. -/
def Strategy.next (p : Strategy) (seen : List Answer) (bytes : Str) : Call :=
  { p seen with coins := bytes }

/-- The two parties. -/
inductive Party where
  | first
  | second
  deriving DecidableEq, Repr

/-- A call that a party made, its number, and the answer. -/
structure Move where
  who : Party
  number : Nat
  call : Call
  answer : Answer

/-- The parties make calls in the given order; `tape i` are the random bytes for the `i`-th call, and
`seen` is what each of them has seen before. -/
def together (strategy : Party → Strategy) (tape : Nat → Str) :
    Nat → Shared Server → (Party → List Answer) → List Party → List Move
  | _, _, _, [] => []
  | i, s, seen, who :: order =>
    let call := (strategy who).next (seen who) (tape i)
    let x := step s call
    ⟨who, i, call, x.1⟩ :: together strategy tape (i + 1) x.2
      (fun other => if other = who then x.1 :: seen who else seen other) order

/-- One party makes its calls, when it is its turn, on a server that it has for itself. -/
def alone (me : Party) (strategy : Strategy) (tape : Nat → Str) :
    Nat → Shared Server → List Answer → List Party → List Move
  | _, _, _, [] => []
  | i, s, seen, who :: order =>
    if who = me then
      let call := strategy.next seen (tape i)
      let x := step s call
      ⟨me, i, call, x.1⟩ :: alone me strategy tape (i + 1) x.2 (x.1 :: seen) order
    else alone me strategy tape (i + 1) s seen order

/-- The moves of one party. -/
def movesOf (me : Party) (moves : List Move) : List Move := moves.filter (·.who = me)

/-- The party only sends requests: it does not change the registered clients and users. -/
def Strategy.OnlyRequests (p : Strategy) : Prop :=
  ∀ seen clients users, (p seen).op ≠ .configure clients users

/-! ### All random bytes -/

/-- A key of `k` bytes. -/
abbrev Key (k : Nat) := Fin k → UInt8

/-- The random bytes for `n` calls: two keys for each. -/
abbrev Tape (n k : Nat) := Fin n × Fin 2 → Key k

/-- The bytes for each call. -/
def Tape.bytes {n k : Nat} (tape : Tape n k) (i : Nat) : Str :=
  if h : i < n then List.ofFn (tape (⟨i, h⟩, 0)) ++ List.ofFn (tape (⟨i, h⟩, 1)) else []

/-- The parties know nothing of each other: each of them makes the calls and gets the answers that it
would get alone, and no call carries a token or code made of a key that was drawn for the other one. -/
structure Strangers (s : Server) (strategy : Party → Strategy) (tape : Nat → Str) (order : List Party) :
    Prop where
  alike : ∀ me, movesOf me (together strategy tape 0 ⟨false, s⟩ (fun _ => []) order) =
    alone me (strategy me) tape 0 ⟨false, s⟩ [] order
  secret : ∀ x ∈ together strategy tape 0 ⟨false, s⟩ (fun _ => []) order,
    ∀ y ∈ together strategy tape 0 ⟨false, s⟩ (fun _ => []) order, x.who ≠ y.who →
      ∀ signature, Names s.config x.call signature → ¬ Draws s.config y.call signature

end OAuth2.Spec

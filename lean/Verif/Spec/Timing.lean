import Verif.Model.Timing
/-
What somebody learns from the time that a comparison takes.
-/

namespace OAuth2.Spec

/-- The text is a token under this secret. -/
def Accepted (secret text : Str) : Prop := ∃ t, HS256Token.parse secret text = .ok t

/-- How long a computation takes, in steps. -/
def steps {α : Type} (x : Leaky α) : Nat := x.trace.length

/-- How many bytes two strings have in common at the front. -/
def commonPrefix : Str → Str → Nat
  | a :: x, b :: y => if a = b then commonPrefix x y + 1 else 0
  | _, _ => 0

/-- Somebody who tries passwords and measures how long each refusal takes: the next one to try, given
the times so far, latest first. -/
abbrev Guesser := List Nat → Str

/-- The times that the guesser measures in its first `n` attempts, latest first. -/
def measured (g : Guesser) (time : Str → Nat) : Nat → List Nat
  | 0 => []
  | n + 1 => time (g (measured g time n)) :: measured g time n

end OAuth2.Spec

import Verif.Spec.Client
/-
Connections that break: the body of a request or of a response ends early.
-/

namespace OAuth2.Spec

/-- Of the request `r` the server got everything but the end of the body, and sees that the
connection broke. -/
def Interrupted (r r' : Request) : Prop :=
  ∃ got rest, r.body = some (got ++ rest) ∧ r' = { r with body := some got, bodyErr := true }

/-- Of the response the client got everything but the end of the body; it may see that the
connection broke, or not. -/
def Shortened (res res' : Response) : Prop :=
  ∃ rest seen, res.body = res'.body ++ rest ∧ res' = { res with body := res'.body, bodyErr := seen }

/-- A connection to the server in this state that may break at any point: before the request
arrives, while it is sent, before the answer is sent, or while it comes back. `line` is what the
client gets and `after` the state the server is left in. -/
def Unreliable (s : Shared Server) (coins : Str) (clock : Nat → Time) (line : Transport)
    (after : Request → Shared Server) : Prop :=
  ∀ r, (line r = none ∧ after r = s) ∨
    ∃ r', (r' = r ∨ Interrupted r r') ∧
      after r = (step s { op := .serve r', coins := coins, clock := clock }).2 ∧
      (line r = none ∨ ∃ res res',
        (step s { op := .serve r', coins := coins, clock := clock }).1 = .answered res ∧
        Shortened res res' ∧ line r = some res')

/-- A connection like this one, whose responses may be lost or shortened. -/
def Lossy (line line' : Transport) : Prop :=
  ∀ r, line' r = none ∨ ∃ res res', line r = some res ∧ Shortened res res' ∧ line' r = some res'

/-- The responses of this connection arrive whole, and their bodies are JSON documents. -/
def SpeaksJSON (line : Transport) : Prop :=
  ∀ r res, line r = some res → res.bodyErr = false ∧ ∃ v, parseJSON res.body = some v

end OAuth2.Spec

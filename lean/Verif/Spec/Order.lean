import Verif.Spec.Local
import Verif.Spec.Store
/-
Calls that have nothing to do with each other.
-/

namespace OAuth2.Spec

/-- The call and the answer it gets from a server in this state. -/
def byItself (s : Server) (c : Call) : Event := ⟨c, (step ⟨false, s⟩ c).1⟩

/-- The event is about the token or code with this signature: it carries it or hands it out. -/
inductive About (cfg : ServerConfig) (e : Event) : Str → Prop
  | carried {text t} : Carries e.call text → HS256Token.parse cfg.secret text = .ok t →
      About cfg e t.signatureString
  | handed {k t} : Hands e k t → About cfg e t.signatureString
  | code {x} : HandsCode e x → About cfg e x.signatureString

/-- The first event replays a code, and the second carries a token that was issued for it. -/
def Spoils (s : Server) (e f : Event) : Prop :=
  ∃ k text t cred, Carries f.call text ∧ HS256Token.parse s.config.secret text = .ok t ∧
    (tokens s k).get? t.signatureString = some cred ∧ Replays s.config e cred.code

/-- Made alone in this state, the calls have nothing to do with each other: neither changes the registered
clients and users, no token or code concerns both, and neither replays the code for which a token was issued
that the other carries. -/
structure Independent (s : Server) (c d : Call) : Prop where
  left : ∀ clients users, c.op ≠ .configure clients users
  right : ∀ clients users, d.op ≠ .configure clients users
  apart : ∀ sig, About s.config (byItself s c) sig → ¬ About s.config (byItself s d) sig
  spoils : ¬ Spoils s (byItself s c) (byItself s d)
  spoiled : ¬ Spoils s (byItself s d) (byItself s c)

/-- The servers hold the same. (As lists, their maps may be in another order; Go's maps have none.) -/
structure SameContents (s s' : Server) : Prop where
  config : s.config = s'.config
  clients : ∀ id, s.clients.get? id = s'.clients.get? id
  users : ∀ name, s.users.get? name = s'.users.get? name
  stored : ∀ sig, AgreeAt s s' sig

end OAuth2.Spec

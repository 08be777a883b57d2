import Verif.Spec.Concurrent
import Verif.Spec.Store
/-
The life of a server beyond calls: its program may exchange the exported configuration (server.go:58) between two calls,
copy the server with its exported maps, or be restarted.
-/

namespace OAuth2.Spec

/-- The server `s₀` has lived through `h` (latest first) and is now `s`: calls were made one after the
other, each with the configuration that it found, and in between the configuration was exchanged. -/
inductive Life (s₀ : Server) : List (ServerConfig × Event) → Server → Prop
  | start : Life s₀ [] s₀
  | call {h : List (ServerConfig × Event)} {s : Server} (c : Call) : Life s₀ h s →
      Life s₀ ((s.config, ⟨c, (step ⟨false, s⟩ c).1⟩) :: h) (step ⟨false, s⟩ c).2.st
  | reconfigure {h : List (ServerConfig × Event)} {s : Server} (cfg : ServerConfig) : Life s₀ h s →
      Life s₀ h { s with config := cfg }

/-- The call presents the token or code, and the server honours it: by admitting the caller, or by handing
out tokens for it. -/
def Honours (s : Server) (c : Call) (t : HS256Token) : Prop :=
  (∃ required text, Presents c required text ∧ SameToken s.config text t ∧
    (step ⟨false, s⟩ c).1 = .admitted) ∨
  UsesUp s.config ⟨c, (step ⟨false, s⟩ c).1⟩ t ∨ Redeems s.config ⟨c, (step ⟨false, s⟩ c).1⟩ t

/-- The event hands out this token or code. -/
def Gives (e : Event) (t : HS256Token) : Prop := (∃ k, Hands e k t) ∨ HandsCode e t

end OAuth2.Spec

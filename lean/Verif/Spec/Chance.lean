import Verif.Spec.Strangers
/-
What happens with all but a small share of all random bytes.
-/

namespace OAuth2.Spec

/-- The world makes calls on the server, each chosen from the answers to the ones before; `tape i` are
the random bytes for the `i`-th. The events so far, latest first, and the server. -/
def played (world : Strategy) (tape : Nat → Str) (s : Server) : Nat → List Event × Shared Server
  | 0 => ([], ⟨false, s⟩)
  | n + 1 =>
    let p := played world tape s n
    let call := world.next (p.1.map (·.answer)) (tape n)
    (⟨call, (step p.2 call).1⟩ :: p.1, (step p.2 call).2)

/-- Tokens live and die as they should, without exceptions. -/
structure Orderly (cfg : ServerConfig) (h : List Event) (s : Shared Server) : Prop where
  /-- A token that was handed out is in force until it is revoked, its code is replayed or, if it is a
  refresh token, it is used. -/
  lives : ∀ new e old k t, h = new ++ e :: old → Hands e k t → ∃ g, InForce cfg (e :: old) k t g ∧
    ∀ g', InForce cfg h k t g' ↔ g' = g ∧ ∀ e' ∈ new, ¬ Revokes cfg e' t ∧
      ¬ (g.origin ≠ [] ∧ Replays cfg e' g.origin) ∧ ¬ (k = .refresh ∧ UsesUp cfg e' t)
  /-- `Authorize` admits an access token for as long, until it expires and within its scope. -/
  admitted : ∀ new e old t, h = new ++ e :: old → Hands e .access t →
    ∃ g, InForce cfg (e :: old) .access t g ∧
      ∀ c required, Presents c required t.string → ((step s c).1 = .admitted ↔
        (∀ e' ∈ new, ¬ Revokes cfg e' t ∧ ¬ (g.origin ≠ [] ∧ Replays cfg e' g.origin)) ∧
        c.clock 0 ≤ g.expires ∧ Within required g.scope)
  /-- No refresh token is used twice, and no code redeemed twice. -/
  once : ∀ later e' new e old, h = later ++ e' :: (new ++ e :: old) →
    (∀ t, UsesUp cfg e t → ¬ UsesUp cfg e' t) ∧ ∀ x, Redeems cfg e x → ¬ Redeems cfg e' x
  /-- What was revoked, used up or taken away by a replay does not come back. -/
  gone : ∀ new e old, h = new ++ e :: old →
    (∀ x ∈ old, ∀ k t, Hands x k t → Revokes cfg e t →
      ∀ k' t' g, t'.signatureString = t.signatureString → ¬ InForce cfg h k' t' g) ∧
    (∀ t, UsesUp cfg e t → ∀ t' g, t'.signatureString = t.signatureString →
      ¬ InForce cfg h .refresh t' g) ∧
    (∀ x ∈ old, ∀ y, HandsCode x y → Replays cfg e y.signatureString →
      ∀ k t g, InForce cfg h k t g → g.origin ≠ y.signatureString)

end OAuth2.Spec

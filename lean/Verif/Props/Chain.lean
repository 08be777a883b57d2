import Verif.Props.Rights
import Verif.Spec.Chain

/-!
C32, along chains of refreshes.
-/

namespace OAuth2

open Spec

variable {s₀ : Server} {s : Shared Server} {h : List Event}

theorem Descends.inForce {cfg : ServerConfig} {first g : Grant} {k : Kind} {t : HS256Token}
    (hd : Descends cfg first h k t g) : InForce cfg h k t g := by
  cases hd <;> assumption

theorem history_tail {e : Event} (hh : History s₀ (e :: h) s) : ∃ s', History s₀ h s' := by
  cases hh with
  | next c hh => exact ⟨_, hh⟩

/-- **C32.** Along any chain of refreshes, whatever happens in between, every token stands for the
client and the user of the first refresh token, and for no more than its scope. -/
theorem C32_chain (h0 : Started s₀) (hh : History s₀ h s) {first g : Grant} {k : Kind}
    {t : HS256Token} (hd : Descends s₀.config first h k t g) :
    g.client = first.client ∧ g.user = first.user ∧ Within g.scope first.scope := by
  induction hd generalizing s with
  | first _ => exact ⟨rfl, rfl, fun _ hi => hi⟩
  | wait _ _ ih =>
    obtain ⟨s', hh'⟩ := history_tail hh
    exact ih hh'
  | refresh hd hc hgt hsame ht hi ih =>
    obtain ⟨s', hh'⟩ := history_tail hh
    obtain ⟨ih1, ih2, ih3⟩ := ih hh'
    obtain ⟨st, rfl, ex⟩ := history_state h0 hh'
    obtain ⟨_, y', g', scope, _, _, hy', hsame', _, _, _, hscope, hw, _⟩ :=
      C32_not_wider (new := []) h0 hh hc hgt ht
    rcases inForce_cons.mp hi with hi | ⟨_, hn⟩
    · rw [issued_token hc, hgt] at hi
      obtain ⟨_, ⟨hx, _⟩ | ⟨hx, _⟩ | ⟨hx, _⟩ | ⟨_, u, g'', hu, hsame'', _, rfl⟩⟩ := hi
      · exact absurd hx (by decide)
      · exact absurd hx (by decide)
      · exact absurd hx (by decide)
      · obtain ⟨x, hx1, hx2⟩ := hsame
        obtain ⟨x', hx1', hx2'⟩ := hsame'
        obtain ⟨x'', hx1'', hx2''⟩ := hsame''
        rw [hx1] at hx1' hx1''
        cases hx1'
        cases hx1''
        obtain rfl := token_unique ex (Descends.inForce hd) hy' (hx2.symm.trans hx2')
        obtain rfl := token_unique ex (Descends.inForce hd) hu (hx2.symm.trans hx2'')
        refine ⟨ih1, ih2, fun i hi => ih3 i (hw i ?_)⟩
        rw [hscope]
        unfold Scope.empty at hi
        simpa using hi
    · exact (hn (.inl ⟨_, ht, rfl⟩)).elim

/-- Non-vacuity: the tokens handed out in exchange for the refresh token of the third event. -/
example : History Demo.server [Demo.e4, Demo.e3, Demo.e2, Demo.e1] ⟨false, Demo.s4⟩ ∧
    ∃ first g, Descends Demo.server.config first [Demo.e4, Demo.e3, Demo.e2, Demo.e1] .refresh
      Demo.r4 g := by
  have h1 : ∃ res, TokenCall Demo.e4 {
      grantType := b!"refresh_token", clientID := b!"c2", scope := some [b!"foo"],
      refreshToken := Demo.r3.string } res :=
    ⟨_, (tokenCall_asked _ _ _).mpr ⟨by decide +kernel, rfl⟩⟩
  obtain ⟨res, h1⟩ := h1
  exact ⟨Demo.history4, _, _, .refresh (.first Demo.refresh3) h1 rfl (by decide +kernel)
    (by decide +kernel) Demo.refresh4⟩

end OAuth2

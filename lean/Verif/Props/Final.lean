import Verif.Spec.Final
import Verif.Props.Kinds
import Verif.Props.Again
import Verif.Props.Less
/-
C108: a refusal is final.
-/

namespace OAuth2

open Spec

variable {s₀ : Server} {h : List Event} {s : Shared Server} {c d : Call} {text : Str}

theorem token_since (hp : KeysOnce s₀) (hh : History s₀ h s) {k : Kind} {sig : Str} {cred : ServerCredential}
    (hg : (tokens s.st k).get? sig = some cred) (hk : ∀ e ∈ h, ∀ t, Hands e k t → t.signatureString ≠ sig) :
    (tokens s₀ k).get? sig = some cred := by
  induction hh with
  | start => exact hg
  | next c hh ih =>
    obtain ⟨st, rfl, h1, h2⟩ := history_keysOnce hp hh
    rcases (C73_tokens st h1 c k sig cred).mp hg with ⟨t, h3, h4, _⟩ | ⟨_, h3, _⟩
    · exact (hk _ (List.mem_cons_self ..) t h3 h4).elim
    · exact ih h3 (fun e he => hk e (List.mem_cons_of_mem _ he))

theorem code_since (hp : KeysOnce s₀) (hh : History s₀ h s) {sig : Str} {cred : ServerCredential}
    (hg : s.st.authorizationCodes.get? sig = some cred)
    (hk : ∀ e ∈ h, ∀ x, HandsCode e x → x.signatureString ≠ sig) :
    ∃ old, s₀.authorizationCodes.get? sig = some old ∧ (cred = old ∨ cred = { old with used := true }) := by
  induction hh generalizing cred with
  | start => exact ⟨cred, hg, .inl rfl⟩
  | next c hh ih =>
    obtain ⟨st, rfl, h1, h2⟩ := history_keysOnce hp hh
    rcases (C73_codes st c sig cred).mp hg with ⟨x, _, _, _, h3, h4, _⟩ | ⟨_, old, h3, h4⟩
    · exact (hk _ (List.mem_cons_self ..) x h3 h4).elim
    · obtain ⟨o, h5, h6⟩ := ih h3 (fun e he => hk e (List.mem_cons_of_mem _ he))
      refine ⟨o, h5, ?_⟩
      rcases h4 with ⟨_, rfl⟩ | ⟨_, rfl⟩
      · rcases h6 with rfl | rfl <;> exact .inr rfl
      · exact h6

/-- **C108.** A bearer token that is not admitted is not admitted later either, whatever happens in between, unless an
access token with its signature is handed out. -/
theorem C108_admitted (hp : KeysOnce s₀) (hh : History s₀ h s) (hn : NeverAs s₀.config h .access text)
    (hl : PresentsLater c d text) (hc : (step ⟨false, s₀⟩ c).1 ≠ .admitted) : (step s d).1 ≠ .admitted := by
  have hh₀ := hh
  obtain ⟨st, rfl, h1, h2⟩ := history_keysOnce hp hh
  obtain ⟨required, required', hc', hd, hw, ht⟩ := hl
  intro ha
  obtain ⟨required'', text', t, cred, h3, h4, h5, h6, h7⟩ := (C73_admits_iff st d).mp ha
  obtain rfl := presents_unique hd h3
  obtain rfl : required' = required'' := by
    obtain ⟨r, h8, _⟩ := hd
    obtain ⟨r', h9, _⟩ := h3
    rw [h8] at h9
    cases h9
    rfl
  refine hc ((C73_admits_iff s₀ c).mpr ⟨required, text, t, cred, hc', h2 ▸ h4, ?_, Int.le_trans ht h6, within_trans hw h7⟩)
  exact token_since (k := .access) hp hh₀ h5 fun e he x hx hxs => hn e he x hx ⟨t, h2 ▸ h4, hxs.symm⟩

/-- **C108.** A refresh request or an exchange of a code that is refused, though the client identifies itself and there
is randomness, is refused later too, whatever happens in between, unless a refresh token or a code with the same
signature is handed out. -/
theorem C108_granted (hp : KeysOnce s₀) (hh : History s₀ h s) {rq rq' : TokenRequest} {kind : TokenSort}
    (hn : NeverAs s₀.config h kind text) (hc : AsksToken c rq) (hd : AsksToken d rq')
    (hl : AsksLater c d rq rq' kind text) (hi : Identified s₀ rq.clientID rq.clientSecret)
    (he : Enough s₀.config c 2) (hr : ∀ a, ¬ Hands ⟨c, (step ⟨false, s₀⟩ c).1⟩ .access a) :
    GivesNothing ⟨d, (step s d).1⟩ := by
  have hh₀ := hh
  obtain ⟨st, rfl, h1, h2⟩ := history_keysOnce hp hh
  have no : ∀ a, ¬ Hands ⟨d, (step ⟨false, st⟩ d).1⟩ .access a := by
    intro a ha
    obtain ⟨_, hm, _⟩ := (C73_granted_iff st hd).mp ⟨a, ha⟩
    have hm₀ : ¬ Merits s₀ c rq := fun hm => by
      obtain ⟨a, ha⟩ := (C73_granted_iff s₀ hc).mpr ⟨hi, hm, he⟩
      exact hr a ha
    refine hm₀ ?_
    cases hl with
    | refresh g1 g2 g3 g4 g5 g6 =>
      cases hm with
      | password m1 => exact absurd (m1.symm.trans g2) (by decide)
      | client m1 => exact absurd (m1.symm.trans g2) (by decide)
      | exchange m1 => exact absurd (m1.symm.trans g2) (by decide)
      | @refresh x old m1 m2 m3 m4 m5 m6 =>
        rw [g3, h2] at m2
        refine .refresh g1 m2 ?_ (Int.le_trans g6 m4) (m5.trans g4) (within_trans g5 m6)
        exact token_since (k := .refresh) hp hh₀ m3 fun e he x hx hxs => hn e he x hx ⟨_, m2, hxs.symm⟩
    | exchange g1 g2 g3 g4 g5 g6 =>
      cases hm with
      | password m1 => exact absurd (m1.symm.trans g2) (by decide)
      | client m1 => exact absurd (m1.symm.trans g2) (by decide)
      | @exchange x code m1 m2 m3 m4 m5 m6 m7 =>
        rw [g3, h2] at m2
        obtain ⟨old, h3, h4⟩ := code_since hp hh₀ m3 fun e he x hx hxs => hn e he x hx ⟨_, m2, hxs.symm⟩
        rcases h4 with rfl | rfl
        · exact .exchange g1 m2 h3 m4 (Int.le_trans g6 m5) (m6.trans g4) (m7.trans g5)
        · cases m4
      | refresh m1 => exact absurd (m1.symm.trans g2) (by decide)
  constructor
  · intro k y hy
    obtain ⟨a, _, _, _, _, ha, _⟩ := granted_state hd hy
    exact no a ha
  · rintro x ⟨_, _, _, ⟨r', h6, h7, _⟩, _⟩
    obtain ⟨r, h4, h5, _⟩ := hd
    rw [h4] at h6
    cases h6
    rw [lastSegment_iff] at h5 h7
    exact absurd (h5.symm.trans h7) (by decide)

/-- Non-vacuity: an access token of the session that was taken away, and is presented again after another call. -/
example : KeysOnce Demo.s5 ∧ History Demo.s5 [Demo.e6] ⟨false, Demo.s6⟩ ∧
    NeverAs Demo.s5.config [Demo.e6] .access Demo.a3.string ∧
    PresentsLater (Demo.present Demo.a3.string [b!"foo"] 1040) (Demo.present Demo.a3.string [b!"foo"] 1060)
      Demo.a3.string ∧
    (step ⟨false, Demo.s5⟩ (Demo.present Demo.a3.string [b!"foo"] 1040)).1 ≠ .admitted := by
  refine ⟨⟨by decide +kernel, by decide +kernel⟩, ?_, ?_,
    ⟨[b!"foo"], [b!"foo"], ⟨_, rfl, (C09_bearer_accept_iff _ _).mp (by decide +kernel)⟩,
      ⟨_, rfl, (C09_bearer_accept_iff _ _).mp (by decide +kernel)⟩, fun _ hi => hi, by decide⟩, by decide +kernel⟩
  · have := History.next Demo.c6 (History.start (s₀ := Demo.s5))
    rw [Demo.step6] at this
    exact this
  · intro e he t ht
    obtain rfl := List.mem_singleton.mp he
    exact (hands_none (by decide +kernel) ht).elim

/-- Non-vacuity: a refresh token of the session that was used up, and is used again after another call. -/
example : KeysOnce Demo.s4 ∧ History Demo.s4 [Demo.e5] ⟨false, Demo.s5⟩ ∧
    NeverAs Demo.s4.config [Demo.e5] .refresh Demo.r3.string ∧
    (∃ rq, AsksToken Demo.c4 rq ∧ AsksLater Demo.c4 Demo.c4 rq rq .refresh Demo.r3.string ∧
      Identified Demo.s4 rq.clientID rq.clientSecret) ∧
    Enough Demo.s4.config Demo.c4 2 ∧ ∀ a, ¬ Hands ⟨Demo.c4, (step ⟨false, Demo.s4⟩ Demo.c4).1⟩ .access a := by
  refine ⟨⟨by decide +kernel, by decide +kernel⟩, ?_, ?_,
    ⟨{
      grantType := b!"refresh_token", clientID := b!"c2", scope := some [b!"foo"],
      refreshToken := Demo.r3.string }, ⟨_, rfl, by decide +kernel, by decide +kernel⟩,
      .refresh rfl rfl rfl rfl (fun _ hi => hi) (by decide), ?_⟩, ⟨by decide, by decide⟩,
    fun a ha => hands_none (by decide +kernel) ha⟩
  · have := History.next Demo.c5 (History.start (s₀ := Demo.s4))
    rw [Demo.step5] at this
    exact this
  · intro e he t ht
    obtain rfl := List.mem_singleton.mp he
    exact (hands_none (by decide +kernel) ht).elim
  · exact ⟨_, rfl, nofun⟩

end OAuth2

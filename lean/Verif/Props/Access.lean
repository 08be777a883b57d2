import Verif.Lemmas.Seen
import Verif.Props.Bearer
import Verif.Props.Scopes
import Verif.Lemmas.Demo

/-!
C27, C28, C29: which tokens `Authorize` admits, for every history of calls.
-/

namespace OAuth2

open Spec

set_option linter.unusedSimpArgs false

theorem sameToken_self {cfg : ServerConfig} {t : HS256Token}
    (h : t = HS256Token.fromKey cfg.secret t.key) : SameToken cfg t.string t := by
  have hr : HS256Token.parse cfg.secret (HS256Token.fromKey cfg.secret t.key).string =
    .ok (HS256Token.fromKey cfg.secret t.key) := C01_token_roundtrip cfg.secret t.key
  rw [← h] at hr
  exact ⟨t, hr, rfl⟩

/-- Texts that spell a token with the signature of a genuine one spell that token, or there is a
collision. -/
theorem sameToken_genuine {cfg : ServerConfig} {t t' : HS256Token} {text : Str}
    (h : t = HS256Token.fromKey cfg.secret t.key) (hp : HS256Token.parse cfg.secret text = .ok t')
    (hs : t'.signatureString = t.signatureString) : t' = t ∨ Collision cfg t'.key t.key := by
  obtain ⟨_, _, _, _, _, e⟩ := (parse_ok_iff _ _ _).mp hp
  have h1 := b64RawURLEncode_injective hs
  have h2 : t.signature = hmacSHA256 cfg.secret t.key := by rw [h]; rfl
  by_cases hk : t'.key = t.key
  · left
    cases t; cases t'
    simp only at hk h1
    rw [hk, h1]
  · right
    exact ⟨hk, by rw [← e, h1, h2]⟩

/-- **C27, C28.** After every history, `Authorize` returns true exactly if the header carries a
bearer token that spells an access token in force, which has not expired and whose scope has every
required item. -/
theorem C27_admits_iff {s₀ : Server} (h0 : Started s₀) {h : List Event} {s : Shared Server}
    (hh : History s₀ h s) (c : Call) :
    (step s c).1 = .admitted ↔ ∃ required text t g, Presents c required text ∧
      SameToken s₀.config text t ∧ InForce s₀.config h .access t g ∧ c.clock 0 ≤ g.expires ∧
      Within required g.scope := by
  obtain ⟨st, rfl, ex⟩ := history_state h0 hh
  constructor
  · intro ha
    cases hop : c.op with
    | serve r =>
      rw [step_serve hop] at ha
      cases hr : (st.handle r c.local).1 <;> rw [hr] at ha <;> cases ha
    | configure cl us =>
      rw [step_configure hop] at ha
      cases ha
    | authorize r required =>
      rw [step_authorize hop] at ha
      cases hn : st.authorizes r required (c.clock 0) with
      | some e => rw [hn] at ha; cases ha
      | none =>
        unfold Server.authorizes at hn
        cases hb : parseBearerToken r with
        | error e => rw [hb] at hn; cases hn
        | ok text =>
          rw [hb] at hn
          simp only at hn
          cases hp : HS256Token.parse st.config.secret text with
          | error e => rw [hp] at hn; cases hn
          | ok t' =>
            rw [hp] at hn
            simp only at hn
            cases hg : st.accessTokens.get? t'.signatureString with
            | none => rw [hg] at hn; cases hn
            | some cred =>
              rw [hg] at hn
              simp only at hn
              obtain ⟨t, g, hs, hi, rfl⟩ := (ex.access _ _).mp hg
              by_cases hx : g.cred.expiresAt.before (c.clock 0) = true
              · rw [if_pos hx] at hn; cases hn
              rw [if_neg hx] at hn
              by_cases hsc : g.cred.scope.includes required = true
              · rw [ex.config] at hp
                refine ⟨required, text, t, g, ⟨r, hop, (C09_bearer_accept_iff _ _).mp hb⟩,
                  ⟨t', hp, hs.symm⟩, hi, Server.before_false hx, (C07_includes _ _).mp hsc⟩
              · simp only [hsc, Bool.not_false, if_true] at hn; cases hn
  · rintro ⟨required, text, t, g, ⟨r, hop, hb⟩, ⟨t', hp, hs⟩, hi, hx, hsc⟩
    rw [step_authorize hop]
    have : st.authorizes r required (c.clock 0) = none := by
      unfold Server.authorizes
      rw [(C09_bearer_accept_iff _ _).mpr hb]
      simp only
      rw [ex.config, hp]
      simp only
      rw [(ex.access _ _).mpr ⟨t, g, hs.symm, hi, rfl⟩]
      simp only
      have h1 : ¬ g.cred.expiresAt.before (c.clock 0) = true := by
        unfold Time.before
        simp only [decide_eq_true_eq, Int.not_lt]
        exact hx
      have h2 : g.cred.scope.includes required = true := (C07_includes _ _).mpr hsc
      rw [if_neg h1, h2]
      rfl
    rw [this]

/-- **C27.** Whenever `Authorize` returns true, the presented text spells an access token that the
server delivered earlier (or its key collides with that of such a token); the token was delivered
for a scope with all required items, its lifetime has not passed, and since its delivery nothing
happened that takes it away. -/
theorem C27_admits_only {s₀ : Server} (h0 : Started s₀) {h : List Event} {s : Shared Server}
    (hh : History s₀ h s) (c : Call) (ha : (step s c).1 = .admitted) :
    ∃ required text t' t g new e old, Presents c required text ∧
      HS256Token.parse s₀.config.secret text = .ok t' ∧
      (t' = t ∨ Collision s₀.config t'.key t.key) ∧
      h = new ++ e :: old ∧ Hands e .access t ∧ InForce s₀.config (e :: old) .access t g ∧
      (∀ e' ∈ new, ¬ Ends s₀.config e' .access t g) ∧
      c.clock 0 ≤ g.expires ∧ Within required g.scope := by
  obtain ⟨required, text, t, g, h1, ⟨t', h2, h3⟩, h4, h5, h6⟩ := (C27_admits_iff h0 hh c).mp ha
  obtain ⟨st, rfl, ex⟩ := history_state h0 hh
  obtain ⟨new, e, old, h7, h8, h9⟩ := inForce_hands h4
  exact ⟨required, text, t', t, g, new, e, old, h1, h2,
    sameToken_genuine (ex.valid _ _ _ h4) h2 h3, h7, h8.hands, inForce_cons.mpr (.inl h8), h9, h5, h6⟩

/-- Non-vacuity: in the session of Lemmas/Demo.lean the access token of the fourth event is
admitted after the ninth event. -/
example : History Demo.server [Demo.e9, Demo.e8, Demo.e7, Demo.e6, Demo.e5, Demo.e4, Demo.e3,
      Demo.e2, Demo.e1] ⟨false, Demo.s9⟩ ∧
    (step ⟨false, Demo.s9⟩ (Demo.present Demo.a4.string (some [b!"foo"]) 1100)).1 = .admitted :=
  ⟨Demo.history9, by decide +kernel⟩

/-- **C28.** An access token that an event hands out stands for a grant, and from then on
`Authorize` admits the token for every scope within that grant until the grant expires, whatever
happens in between, unless something of what takes tokens away happens. -/
theorem C28_usable {s₀ : Server} (h0 : Started s₀) {new old : List Event} {e : Event}
    {s : Shared Server} (hh : History s₀ (new ++ e :: old) s) {t : HS256Token}
    (ht : Hands e .access t) :
    ∃ g, InForce s₀.config (e :: old) .access t g ∧
      ((∀ e' ∈ new, ¬ Ends s₀.config e' .access t g) →
        ∀ c required, Presents c required t.string → c.clock 0 ≤ g.expires →
          Within required g.scope → (step s c).1 = .admitted) := by
  obtain ⟨st, _, ex, _, hseen⟩ := history_seen h0 hh
  obtain ⟨g, hg⟩ := hands_inForce hseen ht (by intro hk; cases hk)
  refine ⟨g, hg, ?_⟩
  intro hn c required hc hx hs
  have hi := inForce_later hg hn
  obtain ⟨st', rfl, ex'⟩ := history_state h0 hh
  exact (C27_admits_iff h0 hh c).mpr
    ⟨required, _, t, g, hc, sameToken_self (ex'.valid _ _ _ hi), hi, hx, hs⟩

/-- Non-vacuity: the access token of the eighth event of the session is handed out, the ninth
event does not take it away, and it can be presented. -/
example : Hands Demo.e8 .access Demo.a8 ∧
    (∀ g, g.origin = [] → ∀ e' ∈ [Demo.e9], ¬ Ends Demo.server.config e' .access Demo.a8 g) ∧
    Presents (Demo.present Demo.a8.string (some [b!"bar"]) 1100) (some [b!"bar"])
      Demo.a8.string := by
  refine ⟨by decide +kernel, ?_, _, rfl, b!"Bearer", by decide +kernel, ?_, by decide⟩
  · intro g hg e' he
    rw [List.mem_singleton.mp he]
    rintro (⟨t', h, _⟩ | h | ⟨h, _⟩ | ⟨h, _⟩ | ⟨_, rq, res, h, _⟩)
    · exact hands_none (by decide +kernel) h
    · exact absurd h (by decide +kernel)
    · exact h hg
    · cases h
    · rw [revocationCall_asked] at h
      exact absurd h.1 (by rw [(by decide +kernel : asksRevocation Demo.e9.call = none)]; simp)
  · unfold AnyCase
    simp [AnyCase]

/-! ### Revocation -/

/-- A token that was taken away and not handed out again is not in force. -/
theorem gone {cfg : ServerConfig} {k : Kind} {t : HS256Token} {new old : List Event} {e : Event}
    (he : ∀ t' g, t'.signatureString = t.signatureString → ¬ Issued cfg old e k t' g ∧
      (InForce cfg old k t' g → Ends cfg e k t' g))
    (hn : ∀ e' ∈ new, ∀ t', Hands e' k t' → t'.signatureString ≠ t.signatureString) :
    ∀ t' g, t'.signatureString = t.signatureString → ¬ InForce cfg (new ++ e :: old) k t' g := by
  induction new with
  | nil =>
    intro t' g hs hi
    rcases inForce_cons.mp hi with hi | ⟨hi, hn⟩
    · exact (he t' g hs).1 hi
    · exact hn ((he t' g hs).2 hi)
  | cons x new ih =>
    intro t' g hs hi
    rcases inForce_cons.mp hi with hi | ⟨hi, _⟩
    · exact hn x (by simp) t' hi.hands hs
    · exact ih (fun e' h' => hn e' (List.mem_cons_of_mem _ h')) t' g hs hi

/-- A revoking event hands out nothing. -/
theorem revokes_quiet {cfg : ServerConfig} {e : Event} {t : HS256Token} (ht : Revokes cfg e t) (k : Kind) (t' : HS256Token) :
    ¬ Hands e k t' := by
  obtain ⟨rq, res, ⟨r, h1, h2, _⟩, _⟩ := ht
  rw [lastSegment_iff] at h2
  intro hh
  rcases hh with ⟨rq', res', ⟨r', h1', h2', _⟩, _⟩ | ⟨_, rq', u, res', ⟨r', h1', h2', _⟩, _⟩
  all_goals
    rw [lastSegment_iff] at h2'
    rw [h1] at h1'; cases h1'
    rw [h2] at h2'
    revert h2'
    decide

theorem revoked_gone {s₀ : Server} {new old : List Event} {e : Event} {t : HS256Token}
    (hr : Revokes s₀.config e t) {k : Kind}
    (hn : ∀ e' ∈ new, ∀ t', Hands e' k t' → t'.signatureString ≠ t.signatureString) :
    ∀ t' g, t'.signatureString = t.signatureString →
      ¬ InForce s₀.config (new ++ e :: old) k t' g := by
  refine gone ?_ hn
  intro t' g hs
  refine ⟨fun hi => revokes_quiet hr k t' hi.hands, fun _ => .inr (.inl ?_)⟩
  obtain ⟨rq, res, h1, ⟨x, h2, h3⟩, h4⟩ := hr
  exact ⟨rq, res, h1, ⟨x, h2, by rw [h3, hs]⟩, h4⟩

/-- `Authorize` does not admit a token that is not in force. -/
theorem not_admitted {s₀ : Server} (h0 : Started s₀) {h : List Event}
    {s : Shared Server} (hh : History s₀ h s) {t : HS256Token}
    (hg : ∀ t' g, t'.signatureString = t.signatureString → ¬ InForce s₀.config h .access t' g)
    (c : Call) {required : Scope} {text : Str} (hc : Presents c required text)
    (ht : SameToken s₀.config text t) : (step s c).1 ≠ .admitted := by
  intro ha
  obtain ⟨required', text', t₁, g, ⟨r, h1, h1'⟩, ⟨t₂, h2, h2'⟩, h3, -, -⟩ :=
    (C27_admits_iff h0 hh c).mp ha
  obtain ⟨r', hc1, hc2⟩ := hc
  rw [h1] at hc1
  cases hc1
  have e1 := (C09_bearer_accept_iff _ _).mpr h1'
  rw [(C09_bearer_accept_iff _ _).mpr hc2] at e1
  cases e1
  obtain ⟨t₃, h4, h4'⟩ := ht
  rw [h2] at h4
  cases h4
  exact hg t₁ g (h2'.symm.trans h4') h3

/-- **C29.** After a revocation of a token was answered with success, no later `Authorize` admits
it in any spelling, whatever happens in between, unless an access token with the same signature
is handed out again. -/
theorem C29_not_admitted {s₀ : Server} (h0 : Started s₀) {new old : List Event} {e : Event}
    {s : Shared Server} (hh : History s₀ (new ++ e :: old) s) {t : HS256Token}
    (hr : Revokes s₀.config e t)
    (hn : ∀ e' ∈ new, ∀ t', Hands e' .access t' → t'.signatureString ≠ t.signatureString)
    (c : Call) {required : Scope} {text : Str} (hc : Presents c required text)
    (ht : SameToken s₀.config text t) : (step s c).1 ≠ .admitted :=
  not_admitted h0 hh (revoked_gone hr hn) c hc ht

/-- Non-vacuity: the sixth event of the session revokes the access token of the first, and the
events after it hand out others. -/
example : Revokes Demo.server.config Demo.e6 Demo.a1 ∧
    (∀ e' ∈ [Demo.e9, Demo.e8, Demo.e7], ∀ t', Hands e' .access t' →
      t'.signatureString ≠ Demo.a1.signatureString) ∧
    SameToken Demo.server.config Demo.a1.string Demo.a1 := by
  refine ⟨by decide +kernel, ?_, by decide +kernel⟩
  intro e' he t' ht
  simp only [List.mem_cons, List.not_mem_nil, or_false] at he
  rcases he with rfl | rfl | rfl
  · exact (hands_none (by decide +kernel) ht).elim
  · rw [hands_only (a := Demo.a8) (by decide +kernel) ht]; decide +kernel
  · rw [hands_only (a := Demo.a7) (by decide +kernel) ht]; decide +kernel

end OAuth2

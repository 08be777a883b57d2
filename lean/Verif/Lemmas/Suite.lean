import Verif.Spec.Suite
import Verif.Lemmas.Observe
import Verif.Lemmas.Form
import Verif.Props.Carried

/-!
Running the integration tests: what a test needs in order to pass, and what the assertions of the
tests read off the replies of the server.
-/

namespace OAuth2.Suite

open _root_.OAuth2.Spec

set_option linter.unusedSimpArgs false

variable {α β : Type}

/-! ### Weakest preconditions -/

section

variable (handler : Request → Handler Unit) (draws : Nat → Draw)

/-- The world of request `n` before it starts. -/
def Draw.local (d : Draw) : Local := { coins := d.coins, clock := d.clock }

/-- What has to hold of the server before the test, so that the test passes and this holds of its
result, the server after it and the number of requests made. -/
def wp : Test α → Server → Nat → (α → Server → Nat → Prop) → Prop
  | .ret a, s, n, Q => Q a s n
  | .panic, _, _, _ => False
  | .check ok k, s, n, Q => ok = true ∧ wp k s n Q
  | .send r k, s, n, Q => ∃ req w s', r.request = some req ∧
      (∃ l', exec (handler req) ⟨false, s⟩ (draws n).local = (.ret (), ⟨false, s'⟩, l') ∧ l'.w = w) ∧
      wp (k w) s' (n + 1) Q

theorem wp_run {t : Test α} {s : Server} {n : Nat} {Q : α → Server → Nat → Prop}
    (h : wp handler draws t s n Q) :
    ∃ a s' n', t.run handler draws ⟨false, s⟩ n = some (a, true, ⟨false, s'⟩, n') ∧ Q a s' n' := by
  induction t generalizing s n with
  | ret a => exact ⟨a, s, n, rfl, h⟩
  | panic => exact h.elim
  | check ok k ih =>
    obtain ⟨h1, h2⟩ := h
    obtain ⟨a, s', n', h3, h4⟩ := ih h2
    refine ⟨a, s', n', ?_, h4⟩
    unfold Test.run
    rw [h3, h1]
    rfl
  | send r k ih =>
    obtain ⟨req, w, s', h1, ⟨l', h2, h3⟩, h4⟩ := h
    obtain ⟨a, s'', n', h5, h6⟩ := ih w h4
    refine ⟨a, s'', n', ?_, h6⟩
    unfold Test.run
    rw [h1]
    simp only
    unfold Draw.local at h2
    rw [h2]
    simp only
    rw [h3]
    exact h5

theorem wp_bind {t : Test α} {f : α → Test β} {s : Server} {n : Nat} {Q : β → Server → Nat → Prop} :
    wp handler draws (t >>= f) s n Q ↔
      wp handler draws t s n fun a s n => wp handler draws (f a) s n Q := by
  show wp handler draws (t.bind f) s n Q ↔ _
  induction t generalizing s n with
  | ret a => exact Iff.rfl
  | panic => exact Iff.rfl
  | check ok k ih => unfold Test.bind wp; rw [ih]
  | send r k ih =>
    unfold Test.bind wp
    constructor
    · rintro ⟨req, w, s', h1, h2, h3⟩
      exact ⟨req, w, s', h1, h2, (ih w).mp h3⟩
    · rintro ⟨req, w, s', h1, h2, h3⟩
      exact ⟨req, w, s', h1, h2, (ih w).mpr h3⟩

theorem wp_pure {a : α} {s : Server} {n : Nat} {Q : α → Server → Nat → Prop} :
    wp handler draws (pure a) s n Q ↔ Q a s n := Iff.rfl

theorem wp_assert {ok : Bool} {s : Server} {n : Nat} {Q : Unit → Server → Nat → Prop} :
    wp handler draws (Test.assert ok) s n Q ↔ ok = true ∧ Q () s n := Iff.rfl

theorem wp_must {ok : Bool} {s : Server} {n : Nat} {Q : Unit → Server → Nat → Prop} :
    wp handler draws (Test.must ok) s n Q ↔ ok = true ∧ Q () s n := by
  cases ok <;> simp [Test.must, wp]

theorem wp_ofOption {o : Option α} {s : Server} {n : Nat} {Q : α → Server → Nat → Prop} :
    wp handler draws (Test.ofOption o) s n Q ↔ ∃ a, o = some a ∧ Q a s n := by
  cases o <;> simp [Test.ofOption, wp]

theorem wp_mono {t : Test α} {s : Server} {n : Nat} {Q Q' : α → Server → Nat → Prop}
    (h : wp handler draws t s n Q) (hq : ∀ a s n, Q a s n → Q' a s n) :
    wp handler draws t s n Q' := by
  induction t generalizing s n with
  | ret a => exact hq _ _ _ h
  | panic => exact h
  | check ok k ih => exact ⟨h.1, ih h.2⟩
  | send r k ih =>
    obtain ⟨req, w, s', h1, h2, h3⟩ := h
    exact ⟨req, w, s', h1, h2, ih w h3⟩

/-- A request the server answers. -/
theorem wp_serve {r : Req} {req : Request} (hr : r.request = some req)
    (hh : handler req = Server.serveHTTP req) {s s' : Server} {n : Nat} {reply : Reply}
    (hs : s.handle req (draws n).local = (reply, s')) (hc : reply ≠ .crash)
    {Q : Recorder → Server → Nat → Prop} (hq : Q (reply.render {}) s' (n + 1)) :
    wp handler draws (Test.Do r) s n Q := by
  obtain ⟨l', h1, h2⟩ := Server.serveHTTP_exec req s (draws n).local
  rw [hs] at h1 h2
  refine ⟨req, _, s', hr, ⟨l', ?_, h2⟩, hq⟩
  rw [hh, h1]
  cases reply <;> first | rfl | exact absurd rfl hc

/-- A request for the protected resource. -/
theorem wp_guarded {r : Req} {req : Request} {required : Scope} (hr : r.request = some req)
    (hh : handler req = guarded required req) {s : Server} {n : Nat} {w : Recorder}
    (hw : w = match s.authorizes req required ((draws n).clock 0) with
      | none => Recorder.write {} b!"OK"
      | some e => Server.challenge {} e)
    {Q : Recorder → Server → Nat → Prop} (hq : Q w s (n + 1)) :
    wp handler draws (Test.Do r) s n Q := by
  obtain ⟨l', h1, h2⟩ := Server.authorize_exec req required s (draws n).local
  have hc : (draws n).local.clock (draws n).local.tick = (draws n).clock 0 := rfl
  rw [hc] at h1 h2
  refine ⟨req, w, s, hr, ?_, hq⟩
  rw [hh]
  unfold guarded
  cases ha : s.authorizes req required ((draws n).clock 0) with
  | none =>
    rw [ha] at h1 h2 hw
    refine ⟨{ l' with w := l'.w.write b!"OK" }, ?_, ?_⟩
    · rw [exec_bind_ret h1]
      rfl
    · rw [hw]
      simp only [h2]
      rfl
  | some e =>
    rw [ha] at h1 h2 hw
    refine ⟨l', ?_, ?_⟩
    · rw [exec_bind_ret h1]
      rfl
    · rw [hw, h2]
      rfl

end

end OAuth2.Suite

import Verif.Spec.Chance
import Verif.Props.Strangers
import Verif.Props.Fresh
import Verif.Props.Random
import Verif.Props.Secrets

/-!
C88: with all but a small share of all random bytes, tokens live and die without exceptions.
-/

namespace OAuth2

open Spec

variable {s : Server} {world : Strategy}

theorem played_history (tape : Nat → Str) (n : Nat) :
    History s (played world tape s n).1 (played world tape s n).2 := by
  induction n with
  | zero => exact .start
  | succ n ih => exact .next _ ih

theorem step_free (s : Server) (c : Call) : ∃ s', (step ⟨false, s⟩ c).2 = ⟨false, s'⟩ := by
  cases hop : c.op with
  | serve r => rw [step_serve hop]; exact ⟨_, rfl⟩
  | authorize r required => rw [step_authorize hop]; exact ⟨_, rfl⟩
  | configure clients users => rw [step_configure hop]; exact ⟨_, rfl⟩

/-- The server stays free and its configuration as it is. -/
theorem played_server (tape : Nat → Str) (n : Nat) :
    ∃ s', (played world tape s n).2 = ⟨false, s'⟩ ∧ s'.config = s.config := by
  induction n with
  | zero => exact ⟨s, rfl, rfl⟩
  | succ n ih =>
    obtain ⟨s', h1, h2⟩ := ih
    have hc := step_config s' (world.next ((played world tape s n).1.map (·.answer)) (tape n))
    have hf := step_free s' (world.next ((played world tape s n).1.map (·.answer)) (tape n))
    rw [← h1] at hc hf
    obtain ⟨s'', hf⟩ := hf
    refine ⟨s'', hf, ?_⟩
    rw [hf] at hc
    exact hc.trans h2

/-- What is handed out in an event is made of one of the two keys in its random bytes. -/
theorem issues_draw {s : Server} {c : Call} {t : HS256Token}
    (h : Issues ⟨c, (step ⟨false, s⟩ c).1⟩ t) : ∃ b, b < 2 ∧ t.key = draw s.config c b := by
  rcases h with ⟨k, h⟩ | h
  · cases k with
    | access => exact ⟨0, by omega, (C71_access s h).1.1⟩
    | refresh => exact ⟨1, by omega, (C71_refresh s h).1.1⟩
  · exact ⟨0, by omega, (C71_code s h).1.1⟩

/-- The events, by number. -/
theorem played_event {tape : Nat → Str} {n : Nat} {e : Event} (h : e ∈ (played world tape s n).1) :
    ∃ i, i < n ∧ e.call.coins = tape i ∧ ∃ s', s'.config = s.config ∧
      e.answer = (step ⟨false, s'⟩ e.call).1 := by
  induction n with
  | zero => cases h
  | succ n ih =>
    rcases List.mem_cons.mp h with rfl | h
    · obtain ⟨s', h1, h2⟩ := played_server (s := s) (world := world) tape n
      exact ⟨n, by omega, rfl, s', h2, by rw [h1]⟩
    · obtain ⟨i, h1, h2⟩ := ih h
      exact ⟨i, by omega, h2⟩

/-- Keys of different draws have different signatures. -/
def AllApart (cfg : ServerConfig) (tape : Nat → Str) (n : Nat) : Prop :=
  ∀ c c' : Call, ∀ i j b b', i < n → j < n → b < 2 → b' < 2 → c.coins = tape i → c'.coins = tape j →
    (i ≠ j ∨ b ≠ b') → signatureOf cfg (draw cfg c b) ≠ signatureOf cfg (draw cfg c' b')

theorem apart_keys {cfg : ServerConfig} {x y : Str} (h : signatureOf cfg x ≠ signatureOf cfg y) :
    x ≠ y ∧ ¬ Collision cfg x y := by
  refine ⟨fun e => h (by rw [e]), fun e => h ?_⟩
  unfold signatureOf HS256Token.signatureString
  exact congrArg b64RawURLEncode e.2

theorem fresh_of_apart {tape : Nat → Str} {n : Nat} (h : AllApart s.config tape n) :
    Fresh s.config (played world tape s n).1 := by
  constructor
  · induction n with
    | zero => exact .nil
    | succ n ih =>
      refine .cons ?_ (ih fun c c' i j b b' hi hj => h c c' i j b b' (by omega) (by omega))
      intro e' he' t t' ht ht'
      obtain ⟨j, j1, j2, s', j3, j4⟩ := played_event he'
      obtain ⟨s'', h1, h2⟩ := played_server (s := s) (world := world) tape n
      simp only [h1] at ht
      obtain ⟨b, hb, kb⟩ := issues_draw ht
      obtain ⟨b', hb', kb'⟩ := issues_draw (s := s') (c := e'.call) (t := t') (by rw [← j4]; exact ht')
      rw [kb, kb', h2, j3]
      exact apart_keys (h _ _ n j b b' (by omega) (by omega) hb hb' rfl j2 (.inl (by omega)))
  · intro e he a b ha hb
    obtain ⟨j, j1, j2, s', j3, j4⟩ := played_event he
    have ha' : Hands ⟨e.call, (step ⟨false, s'⟩ e.call).1⟩ .access a := by rw [← j4]; exact ha
    have hb' : Hands ⟨e.call, (step ⟨false, s'⟩ e.call).1⟩ .refresh b := by rw [← j4]; exact hb
    rw [(C71_access s' ha').1.1, (C71_refresh s' hb').1.1, j3]
    exact apart_keys (h _ _ j j 0 1 j1 j1 (by omega) (by omega) j2 j2 (.inr (by omega)))

theorem orderly_of_fresh {h : List Event} {sh : Shared Server} (h0 : Started s) (hh : History s h sh)
    (hf : Fresh s.config h) : Orderly s.config h sh := by
  refine ⟨?_, ?_, ?_, ?_⟩
  · rintro new e old k t rfl ht
    exact C72_in_force h0 hh hf ht
  · rintro new e old t rfl ht
    exact C72_admits h0 hh hf ht
  · rintro later e' new e old rfl
    exact ⟨fun t => C72_refresh_once h0 hh hf, fun x => C72_code_once h0 hh hf⟩
  · rintro new e old rfl
    exact ⟨fun x hx k t ht hr => C72_revoked_for_good h0 hh hf hx ht hr,
      fun t hu => C72_used_for_good h0 hh hf hu,
      fun x hx y hy hr k t g => C72_replayed_for_good h0 hh hf hx hy hr⟩

/-- C88: whatever calls are made, each chosen from the answers to those before: of all the random bytes
that the server can obtain for `n` calls, those with which keys repeat, or two have the same signature,
are at most the number of pairs of keys times the number of keys with one signature, divided by the
number of keys. -/
theorem C88_fresh {n k F : Nat} (hk : s.config.keyLength.toNat = k)
    (hF : ∀ signature, Nat.card {key : Key k // signatureOf s.config (List.ofFn key) = signature} ≤ F) :
    Nat.card {tape : Tape n k // ¬ Fresh s.config (played world tape.bytes s n).1} * 256 ^ k ≤
      n * (2 * n - 1) * F * Nat.card (Tape n k) := by
  classical
  -- pairs of draws
  let J : Finset ((Fin n × Fin 2) × (Fin n × Fin 2)) :=
    Finset.univ.filter fun p => 2 * p.1.1.val + p.1.2.val < 2 * p.2.1.val + p.2.2.val
  have hJ : J.card ≤ n * (2 * n - 1) := by
    let J' : Finset ((Fin n × Fin 2) × (Fin n × Fin 2)) :=
      Finset.univ.filter fun p => 2 * p.2.1.val + p.2.2.val < 2 * p.1.1.val + p.1.2.val
    have e1 : J.card = J'.card :=
      Finset.card_equiv (Equiv.prodComm _ _) (by simp [J, J'])
    have e2 : Disjoint J J' := by
      rw [Finset.disjoint_filter]
      intro p _ h
      omega
    have e3 : J ∪ J' ⊆ (Finset.univ : Finset (Fin n × Fin 2)).offDiag := by
      intro p hp
      rw [Finset.mem_offDiag]
      refine ⟨Finset.mem_univ _, Finset.mem_univ _, ?_⟩
      intro e
      rcases Finset.mem_union.mp hp with h | h <;> simp [J, J', e] at h
    have e4 := Finset.card_le_card e3
    rw [Finset.card_union_of_disjoint e2, ← e1, Finset.offDiag_card, Finset.card_univ,
      Fintype.card_prod, Fintype.card_fin, Fintype.card_fin] at e4
    rw [Nat.mul_sub, Nat.mul_one]
    have e5 : n * 2 * (n * 2) = 2 * (n * (2 * n)) := by
      rw [Nat.mul_comm n 2, Nat.mul_assoc]
    rw [e5] at e4
    omega
  have key := count_any (ι := Fin n × Fin 2) (K := Key k) (J := (Fin n × Fin 2) × (Fin n × Fin 2))
    (fun key => signatureOf s.config (List.ofFn key)) hF J (fun j => j.2)
    (fun j tape => signatureOf s.config (List.ofFn (tape j.1)) = signatureOf s.config (List.ofFn (tape j.2)))
    (by
      rintro ⟨a, b⟩ hm t t' h1 h2 hoff
      have hne : a ≠ b := by
        rintro rfl
        simp [J] at hm
      simp only at h1 h2 ⊢
      rw [← h1, ← h2, hoff a hne])
    (fun tape => ¬ Fresh s.config (played world (Tape.bytes tape) s n).1)
    (by
      intro tape hbad
      by_contra hno
      refine hbad (fresh_of_apart fun c c' i j b b' hi hj hb hb' hc hc' hne e => hno ?_)
      rw [tape_draw hk tape (i := ⟨i, hi⟩) hc hb, tape_draw hk tape (i := ⟨j, hj⟩) hc' hb'] at e
      rcases Nat.lt_or_ge (2 * i + b) (2 * j + b') with hlt | hge
      · exact ⟨((⟨i, hi⟩, ⟨b, hb⟩), (⟨j, hj⟩, ⟨b', hb'⟩)), by simp [J, hlt], e⟩
      · exact ⟨((⟨j, hj⟩, ⟨b', hb'⟩), (⟨i, hi⟩, ⟨b, hb⟩)), by simp [J]; omega, e.symm⟩)
  have hc : Fintype.card (Key k) = 256 ^ k := by
    rw [Fintype.card_fun, card_u8, Fintype.card_fin]
  rw [hc] at key
  rw [Nat.card_eq_fintype_card (α := Tape n k)]
  refine key.trans ?_
  exact Nat.mul_le_mul_right _ (Nat.mul_le_mul_right _ hJ)

/-- C88: and so, with all others, tokens live and die without exceptions. -/
theorem C88_orderly {n k F : Nat} (h0 : Started s) (hk : s.config.keyLength.toNat = k)
    (hF : ∀ signature, Nat.card {key : Key k // signatureOf s.config (List.ofFn key) = signature} ≤ F) :
    Nat.card {tape : Tape n k // ¬ Orderly s.config (played world tape.bytes s n).1
      (played world tape.bytes s n).2} * 256 ^ k ≤ n * (2 * n - 1) * F * Nat.card (Tape n k) := by
  classical
  refine (Nat.mul_le_mul_right _ ?_).trans (C88_fresh (world := world) (n := n) hk hF)
  rw [Nat.card_eq_fintype_card, Nat.card_eq_fintype_card]
  exact Fintype.card_subtype_mono _ _ fun tape hbad hf =>
    hbad (orderly_of_fresh h0 (played_history _ _) hf)

/-- C88, if no two keys have the same signature: the share of the random bytes with which there is an
exception is at most that of the pairs of draws over the number of keys. -/
theorem C88_distinct {n k : Nat} (h0 : Started s) (hk : s.config.keyLength.toNat = k)
    (hd : ∀ x y : Key k, signatureOf s.config (List.ofFn x) = signatureOf s.config (List.ofFn y) → x = y) :
    Nat.card {tape : Tape n k // ¬ Orderly s.config (played world tape.bytes s n).1
      (played world tape.bytes s n).2} * 256 ^ k ≤ n * (2 * n - 1) * Nat.card (Tape n k) := by
  have := C88_orderly (F := 1) (world := world) (n := n) h0 hk (fun sig => ?_)
  · simpa using this
  · classical
    rw [Nat.card_eq_fintype_card]
    refine Fintype.card_le_one_iff_subsingleton.mpr ⟨?_⟩
    rintro ⟨x, hx⟩ ⟨y, hy⟩
    exact Subtype.ext (hd _ _ (hx.trans hy.symm))

/-! ### A case -/

/-- The hypotheses are met, with keys of one byte and a world that obtains tokens and then presents a
guess: at most 6 in 256 of the random bytes make an exception. So there are some that make none. -/
example : Nat.card {tape : Tape 2 1 // ¬ Orderly StrangersDemo.server.config
      (played (fun seen => if seen = [] then Demo.c1 else
        Demo.present StrangersDemo.guess.string (some [b!"foo"]) 1100) tape.bytes StrangersDemo.server 2).1
      (played (fun seen => if seen = [] then Demo.c1 else
        Demo.present StrangersDemo.guess.string (some [b!"foo"]) 1100) tape.bytes
        StrangersDemo.server 2).2} * 256 ≤ 6 * Nat.card (Tape 2 1) :=
  C88_distinct StrangersDemo.started rfl StrangersDemo.distinct

/-- With these random bytes the access token and the refresh token have the same key. -/
example : ¬ Fresh StrangersDemo.server.config (played (fun _ => Demo.c1)
    (Tape.bytes (n := 1) (k := 1) fun _ _ => 7) StrangersDemo.server 1).1 := by
  intro h
  have ha : Hands (⟨{ Demo.c1 with coins := [7, 7] }, (step ⟨false, StrangersDemo.server⟩
      { Demo.c1 with coins := [7, 7] }).1⟩ : Event) .access StrangersDemo.guess := by decide +kernel
  have hb : Hands (⟨{ Demo.c1 with coins := [7, 7] }, (step ⟨false, StrangersDemo.server⟩
      { Demo.c1 with coins := [7, 7] }).1⟩ : Event) .refresh StrangersDemo.guess := by decide +kernel
  exact (h.within _ (.head _) _ _ ha hb).1 rfl

end OAuth2

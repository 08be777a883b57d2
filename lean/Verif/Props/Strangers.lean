import Verif.Lemmas.Strangers
import Verif.Lemmas.Count
import Verif.Lemmas.Signatures
import Verif.Lemmas.Demo

/-! C82. Strangers cannot guess each other's tokens. -/

namespace OAuth2

open Spec

section
variable {s : Server} {strategy : Party → Strategy}

/-- C82, for given random bytes: if no call that one party would make alone carries a token or code made
of a key in the random bytes of a call that the other would make alone, then they are strangers. -/
theorem C82_alone (hs : Started s) (hr : ∀ me, (strategy me).OnlyRequests) (tape : Nat → Str)
    (order : List Party)
    (h : ∀ me other, me ≠ other →
      ∀ x ∈ alone me (strategy me) tape 0 ⟨false, s⟩ [] order,
      ∀ y ∈ alone other (strategy other) tape 0 ⟨false, s⟩ [] order,
      ∀ signature, Names s.config x.call signature → ¬ Draws s.config y.call signature) :
    Strangers s strategy tape order := by
  have alike : ∀ me, movesOf me (together strategy tape 0 ⟨false, s⟩ (fun _ => []) order) =
      alone me (strategy me) tape 0 ⟨false, s⟩ [] order := by
    refine together_alone (K := s.config) (s' := fun _ => s)
      (D := fun me sig => ∃ x ∈ alone me (strategy me) tape 0 ⟨false, s⟩ [] order, Draws s.config x.call sig)
      hr tape order 0 (fun _ => []) (fun me => ⟨?_, ?_⟩) ?_
    · have hp : Proper s := by
        unfold Proper
        rw [hs.access, hs.refresh, hs.codes]
        exact ⟨.nil, .nil, .nil⟩
      exact ⟨rfl, hp, hp, fun _ _ => rfl, fun _ _ => rfl, fun _ _ => ⟨rfl, rfl, rfl⟩, rfl⟩
    · exact ⟨fun _ _ hx => (by rw [hs.access] at hx; cases hx), fun _ _ hx => (by rw [hs.refresh] at hx; cases hx),
        fun _ _ hx => (by rw [hs.codes] at hx; cases hx)⟩
    · exact fun me x hx => ⟨fun sig hd => ⟨x, hx, hd⟩, fun sig hn ⟨y, hy, hd⟩ =>
        h me me.other (Ne.symm me.other_ne) x hx y hy sig hn hd⟩
  refine ⟨alike, fun x hx y hy hne sig hn hd => ?_⟩
  have hx' : x ∈ movesOf x.who (together strategy tape 0 ⟨false, s⟩ (fun _ => []) order) :=
    List.mem_filter.mpr ⟨hx, by simp⟩
  have hy' : y ∈ movesOf y.who (together strategy tape 0 ⟨false, s⟩ (fun _ => []) order) :=
    List.mem_filter.mpr ⟨hy, by simp⟩
  rw [alike] at hx' hy'
  exact h _ _ hne x hx' y hy' sig hn hd

theorem tape_draw {n k : Nat} {K : ServerConfig} (hk : K.keyLength.toNat = k) (tape : Tape n k) {c : Call} {i : Fin n}
    (hc : c.coins = tape.bytes i) {b : Nat} (hb : b < 2) :
    draw K c b = List.ofFn (tape (i, ⟨b, hb⟩)) := by
  unfold draw
  rw [hk, hc, Tape.bytes, dif_pos i.isLt]
  match b, hb with
  | 0, _ => simp
  | 1, _ => simp

/-- C82, over all random bytes: of all the random bytes that the server can obtain for the calls of two
parties, those with which they are not strangers are at most four, times the number of pairs of a call
of the one and a call of the other, times the number of keys with one signature, divided by the number
of keys. -/
theorem C82_strangers {k F : Nat} (hs : Started s) (hk : s.config.keyLength.toNat = k)
    (hr : ∀ me, (strategy me).OnlyRequests) (order : List Party)
    (hF : ∀ signature, Nat.card {key : Key k // signatureOf s.config (List.ofFn key) = signature} ≤ F) :
    Nat.card {tape : Tape order.length k // ¬ Strangers s strategy tape.bytes order} * 256 ^ k ≤
      4 * (order.count .first * order.count .second) * F * Nat.card (Tape order.length k) := by
  classical
  let N := order.length
  let at_ (me : Party) : Finset (Fin N) := Finset.univ.filter fun i => order[i] = me
  -- the party, its call, the call of the other, the key
  let J : Finset (Party × Fin N × Fin N × Fin 2) :=
    ({.first} ×ˢ at_ .first ×ˢ at_ .second ×ˢ Finset.univ) ∪
      ({.second} ×ˢ at_ .second ×ˢ at_ .first ×ˢ Finset.univ)
  have hJ : J.card ≤ 4 * (order.count .first * order.count .second) := by
    refine (Finset.card_union_le _ _).trans ?_
    simp only [Finset.card_product, Finset.card_singleton, Finset.card_univ, Fintype.card_fin]
    have h1 : (at_ .first).card = order.count .first := card_positions _ _
    have h2 : (at_ .second).card = order.count .second := card_positions _ _
    rw [h1, h2]
    generalize List.count Party.first order = a
    generalize List.count Party.second order = b
    have : b * a = a * b := Nat.mul_comm _ _
    rw [← Nat.mul_assoc b a, this, ← Nat.mul_assoc a b]
    omega
  have hJm : ∀ me i j b, (me, i, j, b) ∈ J ↔ order[i] = me ∧ order[j] = me.other := by
    intro me i j b
    cases me <;>
      simp [J, at_, Party.other]
  have key := count_any (ι := Fin N × Fin 2) (K := Key k) (J := Party × Fin N × Fin N × Fin 2)
    (fun key => signatureOf s.config (List.ofFn key)) hF J (fun j => (j.2.2.1, j.2.2.2))
    (fun j tape => ∃ x ∈ alone j.1 (strategy j.1) (Tape.bytes tape) 0 ⟨false, s⟩ [] order,
      x.number = j.2.1 ∧ Names s.config x.call (signatureOf s.config (List.ofFn (tape (j.2.2.1, j.2.2.2)))))
    (by
      rintro ⟨me, i, j, b⟩ hm t t' ⟨x, hx, hn, h1⟩ ⟨x', hx', hn', h1'⟩ hoff
      obtain ⟨_, hj⟩ := (hJm _ _ _ _).mp hm
      have e : alone me (strategy me) (Tape.bytes t) 0 ⟨false, s⟩ [] order =
          alone me (strategy me) (Tape.bytes t') 0 ⟨false, s⟩ [] order := by
        refine alone_congr fun l hl => ?_
        unfold Tape.bytes
        split
        · rename_i hlt
          have hne : ∀ b', (⟨0 + l, hlt⟩, b') ≠ ((j, b) : Fin N × Fin 2) := by
            rintro b' e
            cases e
            obtain ⟨_, hl⟩ := List.getElem?_eq_some_iff.mp hl
            simp only [Fin.getElem_fin, Nat.zero_add] at hj
            exact me.other_ne (hj.symm.trans hl)
          rw [hoff _ (hne 0), hoff _ (hne 1)]
        · rfl
      simp only at hx hx' hn hn' h1 h1' ⊢
      rw [e] at hx
      obtain rfl := alone_unique hx hx' (hn.trans hn'.symm)
      exact names_unique h1 h1')
    (fun tape => ¬ Strangers s strategy (Tape.bytes tape) order)
    (by
      intro tape hbad
      by_contra hno
      refine hbad (C82_alone hs hr _ order fun me other hne x hx y hy sig hn hd => hno ?_)
      obtain ⟨i, hi1, hi2, _⟩ := alone_mem hx
      obtain ⟨j, hj1, hj2, _, hj4⟩ := alone_mem hy
      obtain ⟨hi, hi2⟩ := List.getElem?_eq_some_iff.mp hi2
      obtain ⟨hj, hj2⟩ := List.getElem?_eq_some_iff.mp hj2
      obtain ⟨b, hb, rfl⟩ := hd
      rw [Nat.zero_add] at hi1 hj1
      refine ⟨(me, ⟨i, hi⟩, ⟨j, hj⟩, ⟨b, hb⟩), (hJm _ _ _ _).mpr ⟨hi2, ?_⟩, x, hx, hi1, ?_⟩
      · refine (show order[j] = other from hj2).trans ?_
        rcases Party.eq_or me other with rfl | rfl
        · exact absurd rfl hne
        · rfl
      · have := tape_draw hk tape (i := ⟨j, hj⟩) (by rw [hj4, hj1]) hb
        rw [← this]
        exact hn)
  have hc : Fintype.card (Key k) = 256 ^ k := by
    rw [Fintype.card_fun, card_u8, Fintype.card_fin]
  rw [hc] at key
  rw [Nat.card_eq_fintype_card (α := Tape order.length k)]
  refine key.trans ?_
  exact Nat.mul_le_mul_right _ (Nat.mul_le_mul_right _ hJ)

/-- C82, if no two keys have the same signature: the fraction of the random bytes with which the parties
are not strangers is at most four times the number of pairs of calls over the number of keys. -/
theorem C82_unguessable {k : Nat} (hs : Started s) (hk : s.config.keyLength.toNat = k)
    (hr : ∀ me, (strategy me).OnlyRequests) (order : List Party)
    (hd : ∀ x y : Key k, signatureOf s.config (List.ofFn x) = signatureOf s.config (List.ofFn y) → x = y) :
    Nat.card {tape : Tape order.length k // ¬ Strangers s strategy tape.bytes order} * 256 ^ k ≤
      4 * (order.count .first * order.count .second) * Nat.card (Tape order.length k) := by
  have := C82_strangers (F := 1) (strategy := strategy) hs hk hr order (fun sig => ?_)
  · simpa using this
  · classical
    rw [Nat.card_eq_fintype_card]
    refine Fintype.card_le_one_iff_subsingleton.mpr ⟨?_⟩
    rintro ⟨x, hx⟩ ⟨y, hy⟩
    exact Subtype.ext (hd _ _ (hx.trans hy.symm))

end

/-! ### A guess -/

namespace StrangersDemo

/-- Keys of one byte. -/
def server : Server := { Demo.server with config := { Demo.server.config with keyLength := 1 } }

theorem started : Started server := ⟨rfl, rfl, rfl⟩

/-- The token that the second party tries: it knows the secret, and guesses the key. -/
def guess : HS256Token := HS256Token.fromKey b!"key" [7]

/-- The first party obtains tokens, the second one presents its guess. -/
def strategy : Party → Strategy
  | .first, _ => Demo.c1
  | .second, _ => Demo.present guess.string (some [b!"foo"]) 1100

theorem requests (me : Party) : (strategy me).OnlyRequests := by
  cases me <;> intro _ _ _ h <;> cases h

/-- What the second party names. -/
theorem names (bytes : Str) : Names server.config ((strategy .second).next [] bytes) guess.signatureString :=
  ⟨guess.string, guess, .bearer (required := some [b!"foo"])
    ⟨_, rfl, (C09_bearer_accept_iff _ _).mp (by decide +kernel)⟩, by decide +kernel, rfl⟩

/-- The first party names nothing. -/
theorem names_none (bytes : Str) (signature : Str) :
    ¬ Names server.config ((strategy .first).next [] bytes) signature := by
  rintro ⟨text, t, h, _⟩
  have hg : ∀ rq, AsksToken ((strategy .first).next [] bytes) rq → rq.grantType = b!"password" := by
    rintro rq ⟨r, h1, _, h2⟩
    have h1 : Demo.c1.op = .serve r := h1
    have : (match Demo.c1.op with
      | .serve r => (parseTokenRequest r).toOption.map (·.grantType)
      | _ => none) = some b!"password" := by decide +kernel
    rw [h1] at this
    simp only [h2] at this
    exact Option.some.inj this
  cases h with
  | code h' e => rw [hg _ h'] at e; exact absurd e (by decide)
  | refreshToken h' e => rw [hg _ h'] at e; exact absurd e (by decide)
  | introspection h' =>
    obtain ⟨r, h1, h2, _⟩ := h'
    have h1 : Demo.c1.op = .serve r := h1
    cases h1
    exact absurd ((lastSegment_iff _ _).mp h2) (by decide +kernel)
  | revocation h' =>
    obtain ⟨r, h1, h2, _⟩ := h'
    have h1 : Demo.c1.op = .serve r := h1
    cases h1
    exact absurd ((lastSegment_iff _ _).mp h2) (by decide +kernel)
  | bearer h' =>
    obtain ⟨r, h1, _⟩ := h'
    have h1 : Demo.c1.op = .authorize r _ := h1
    cases h1

/-- A signature tells the key of one byte. -/
theorem distinct (x y : Key 1)
    (h : signatureOf server.config (List.ofFn x) = signatureOf server.config (List.ofFn y)) : x = y := by
  have h := b64RawURLEncode_injective h
  have e : ∀ z : Key 1, List.ofFn z = [UInt8.ofNat (z 0).toNat] := fun z => by
    rw [UInt8.ofNat_toNat]; rfl
  have h : hmacSHA256 b!"key" (List.ofFn x) = hmacSHA256 b!"key" (List.ofFn y) := h
  rw [e x, e y] at h
  have := beginning_injective (i := (x 0).toNat) (j := (y 0).toNat) (UInt8.toNat_lt _) (UInt8.toNat_lt _)
    (congrArg (List.take 3) h)
  funext i
  rw [show i = 0 from Subsingleton.elim _ _]
  exact UInt8.toNat_inj.mp this

/-- Non-vacuity: the hypotheses of the bound are met, with keys of one byte. -/
example : Nat.card {tape : Tape 2 1 // ¬ Strangers server strategy tape.bytes [.first, .second]} * 256 ≤
    4 * Nat.card (Tape 2 1) :=
  C82_unguessable started rfl requests [.first, .second] distinct

/-- The guess may be right: with these random bytes the second party comes in with the token of the
first one. -/
example : ¬ Strangers server strategy (Tape.bytes (n := 2) (k := 1) fun _ _ => 7) [.first, .second] := by
  intro h
  refine h.secret _ (.tail _ (.head _)) _ (.head _) (by simp) guess.signatureString ?_ ⟨0, by omega, by decide +kernel⟩
  exact names _

theorem wrong {c : Call} (hc : c.coins = [8, 8]) : ¬ Draws server.config c guess.signatureString := by
  have key : ∀ b < 2, draw server.config c b = [8] := by
    intro b hb
    unfold draw
    rw [hc]
    have : b = 0 ∨ b = 1 := by omega
    rcases this with rfl | rfl <;> rfl
  rintro ⟨b, hb, e⟩
  rw [key b hb] at e
  exact absurd e (by decide +kernel)

/-- And with these it is wrong, so that the parties are strangers. -/
example : Strangers server strategy (Tape.bytes (n := 2) (k := 1) fun _ _ => 8) [.first, .second] := by
  refine C82_alone started requests _ _ fun me other hne x hx y hy sig hn hd => ?_
  obtain ⟨i, hi1, hi2, _⟩ := alone_mem hx
  cases me with
  | first =>
    rcases List.mem_cons.mp hx with rfl | hx
    · exact names_none _ _ hn
    · cases hx
  | second =>
    cases other with
    | second => exact hne rfl
    | first =>
      rcases List.mem_cons.mp hx with rfl | hx
      · have e0 := names_unique hn (names _)
        rw [e0] at hd
        obtain ⟨j, hj1, hj2, _, hj4⟩ := alone_mem hy
        match j, hj1, hj2 with
        | 0, hj1, _ => exact wrong (by rw [hj4, hj1]; decide) hd
        | 1, _, hj2 => cases hj2
      · cases hx

end StrangersDemo

end OAuth2

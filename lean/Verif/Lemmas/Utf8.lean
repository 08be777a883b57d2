import Verif.Spec.Utf8
import Verif.Lemmas.Basic

/-! Decoding and encoding of runes. -/

namespace OAuth2

open Spec

theorem inRange_iff (lo hi c : UInt8) :
    inRange lo hi c = true ↔ lo.toNat ≤ c.toNat ∧ c.toNat ≤ hi.toNat := by
  unfold inRange
  simp [UInt8.le_iff_toNat_le]

theorem inRange_false_iff (lo hi c : UInt8) :
    inRange lo hi c = false ↔ ¬ (lo.toNat ≤ c.toNat ∧ c.toNat ≤ hi.toNat) := by
  rw [← inRange_iff]; simp

theorem toNat_ofNat_lt {n : Nat} (h : n < 256) : (UInt8.ofNat n).toNat = n := by
  simp [UInt8.toNat_ofNat']; omega

theorem u8_of {n : Nat} {c : UInt8} (h : n = c.toNat) : UInt8.ofNat n = c := by subst h; simp

theorem encodeRune_length_pos (r : Nat) : 0 < (encodeRune r).length := by
  unfold encodeRune
  split
  · simp
  split
  · simp
  split
  · simp
  split <;> simp

theorem decodeRune_encodeRune {r : Nat} (h : Scalar r) (rest : Str) :
    decodeRune (encodeRune r ++ rest) = (r, (encodeRune r).length) := by
  unfold Scalar at h
  unfold encodeRune
  by_cases h1 : r < 0x80
  · rw [if_pos h1]
    have : UInt8.ofNat r < 0x80 := by
      rw [UInt8.lt_iff_toNat_lt, toNat_ofNat_lt (by omega)]; exact h1
    simp only [List.cons_append, List.nil_append, decodeRune, this, if_true, List.length_singleton]
    rw [toNat_ofNat_lt (by omega)]
  rw [if_neg h1]
  by_cases h2 : r < 0x800
  · rw [if_pos h2]
    have e0 := toNat_ofNat_lt (n := 0xC0 + r / 64) (by omega)
    have e1 := toNat_ofNat_lt (n := 0x80 + r % 64) (by omega)
    generalize UInt8.ofNat (0xC0 + r / 64) = b0 at e0
    generalize UInt8.ofNat (0x80 + r % 64) = b1 at e1
    have g0 : ¬ b0 < 0x80 := by
      rw [UInt8.lt_iff_toNat_lt, e0]; simp <;> omega
    have g1 : inRange 0xC2 0xDF b0 = true := by
      rw [inRange_iff, e0]; simp; omega
    have g2 : inRange 0x80 0xBF b1 = true := by
      rw [inRange_iff, e1]; simp; omega
    simp only [List.cons_append, List.nil_append, decodeRune, g0, g1, g2, if_true, if_false, e0, e1]
    simp; omega
  rw [if_neg h2]
  have h3 : ¬ ((0xD800 ≤ r ∧ r ≤ 0xDFFF) ∨ 0x10FFFF < r) := by omega
  rw [if_neg h3]
  by_cases h4 : r < 0x10000
  · rw [if_pos h4]
    have e0 := toNat_ofNat_lt (n := 0xE0 + r / 4096) (by omega)
    have e1 := toNat_ofNat_lt (n := 0x80 + r / 64 % 64) (by omega)
    have e2 := toNat_ofNat_lt (n := 0x80 + r % 64) (by omega)
    generalize UInt8.ofNat (0xE0 + r / 4096) = b0 at e0
    generalize UInt8.ofNat (0x80 + r / 64 % 64) = b1 at e1
    generalize UInt8.ofNat (0x80 + r % 64) = b2 at e2
    have g0 : ¬ b0 < 0x80 := by
      rw [UInt8.lt_iff_toNat_lt, e0]; simp <;> omega
    have g1 : inRange 0xC2 0xDF b0 = false := by
      rw [inRange_false_iff, e0]; simp <;> omega
    have g2 : inRange 0xE0 0xEF b0 = true := by
      rw [inRange_iff, e0]; simp; omega
    have g3 : inRange (if b0 = 0xE0 then 0xA0 else 0x80) (if b0 = 0xED then 0x9F else 0xBF) b1
        = true := by
      rw [inRange_iff]
      have i1 : b0 = 0xE0 ↔ r / 4096 = 0 := by
        rw [← UInt8.toNat_inj, e0]; simp <;> omega
      have i2 : b0 = 0xED ↔ r / 4096 = 13 := by
        rw [← UInt8.toNat_inj, e0]; simp <;> omega
      simp only [i1, i2, e1]
      constructor
      · split <;> simp <;> omega
      · split <;> simp <;> omega
    have g4 : inRange 0x80 0xBF b2 = true := by
      rw [inRange_iff, e2]; simp; omega
    simp only [List.cons_append, List.nil_append, decodeRune, g0, g1, g2, g3, g4, if_true, if_false,
      e0, e1, e2, Bool.false_eq_true, Bool.and_self]
    simp; omega
  · rw [if_neg h4]
    have e0 := toNat_ofNat_lt (n := 0xF0 + r / 262144) (by omega)
    have e1 := toNat_ofNat_lt (n := 0x80 + r / 4096 % 64) (by omega)
    have e2 := toNat_ofNat_lt (n := 0x80 + r / 64 % 64) (by omega)
    have e3 := toNat_ofNat_lt (n := 0x80 + r % 64) (by omega)
    generalize UInt8.ofNat (0xF0 + r / 262144) = b0 at e0
    generalize UInt8.ofNat (0x80 + r / 4096 % 64) = b1 at e1
    generalize UInt8.ofNat (0x80 + r / 64 % 64) = b2 at e2
    generalize UInt8.ofNat (0x80 + r % 64) = b3 at e3
    have g0 : ¬ b0 < 0x80 := by
      rw [UInt8.lt_iff_toNat_lt, e0]; simp <;> omega
    have g1 : inRange 0xC2 0xDF b0 = false := by
      rw [inRange_false_iff, e0]; simp <;> omega
    have g1' : inRange 0xE0 0xEF b0 = false := by
      rw [inRange_false_iff, e0]; simp <;> omega
    have g2 : inRange 0xF0 0xF4 b0 = true := by
      rw [inRange_iff, e0]; simp; omega
    have g3 : inRange (if b0 = 0xF0 then 0x90 else 0x80) (if b0 = 0xF4 then 0x8F else 0xBF) b1
        = true := by
      rw [inRange_iff]
      have i1 : b0 = 0xF0 ↔ r / 262144 = 0 := by
        rw [← UInt8.toNat_inj, e0]; simp <;> omega
      have i2 : b0 = 0xF4 ↔ r / 262144 = 4 := by
        rw [← UInt8.toNat_inj, e0]; simp <;> omega
      simp only [i1, i2, e1]
      constructor
      · split <;> simp <;> omega
      · split <;> simp <;> omega
    have g4 : inRange 0x80 0xBF b2 = true := by
      rw [inRange_iff, e2]; simp; omega
    have g5 : inRange 0x80 0xBF b3 = true := by
      rw [inRange_iff, e3]; simp; omega
    simp only [List.cons_append, List.nil_append, decodeRune, g0, g1, g1', g2, g3, g4, g5, if_true,
      if_false, e0, e1, e2, e3, Bool.false_eq_true, Bool.and_self]
    simp; omega

/-- A successful decoding step found an encoded scalar value at the front. -/
theorem decodeRune_cases (c : UInt8) (cs : Str) :
    (decodeRune (c :: cs) = (runeError, 1) ∧ ¬ c < 0x80) ∨
    ∃ r, Scalar r ∧ decodeRune (c :: cs) = (r, (encodeRune r).length) ∧
      c :: cs = encodeRune r ++ (c :: cs).drop (encodeRune r).length := by
  have cl := c.toNat_lt
  by_cases h0 : c < 0x80
  · right
    have h0' := UInt8.lt_iff_toNat_lt.mp h0
    simp at h0'
    refine ⟨c.toNat, Or.inl (by omega), ?_⟩
    simp only [decodeRune, h0, if_true, encodeRune, h0']
    simp
  have h0' : ¬ c.toNat < 128 := fun h => h0 (UInt8.lt_iff_toNat_lt.mpr h)
  by_cases h1 : inRange 0xC2 0xDF c = true
  · have h1' := (inRange_iff _ _ _).mp h1
    simp at h1'
    match cs with
    | [] => left; simp [decodeRune, h0, h1]
    | b1 :: t =>
      by_cases g1 : inRange 0x80 0xBF b1 = true
      · right
        have g1' := (inRange_iff _ _ _).mp g1
        simp at g1'
        have e : encodeRune ((c.toNat - 0xC0) * 64 + (b1.toNat - 0x80)) = [c, b1] := by
          unfold encodeRune
          rw [if_neg (by omega), if_pos (by omega)]
          exact List.cons_eq_cons.mpr ⟨u8_of (by omega), List.cons_eq_cons.mpr ⟨u8_of (by omega), rfl⟩⟩
        refine ⟨(c.toNat - 0xC0) * 64 + (b1.toNat - 0x80), Or.inl (by omega), ?_⟩
        rw [e]
        simp [decodeRune, h0, h1, g1]
      · left; simp [decodeRune, h0, h1, g1]
  by_cases h2 : inRange 0xE0 0xEF c = true
  · have h2' := (inRange_iff _ _ _).mp h2
    simp at h2'
    match cs with
    | [] => left; simp [decodeRune, h0, h1, h2]
    | [_] => left; simp [decodeRune, h0, h1, h2]
    | b1 :: b2 :: t =>
      by_cases g1 : (inRange (if c = 0xE0 then 0xA0 else 0x80) (if c = 0xED then 0x9F else 0xBF) b1
          && inRange 0x80 0xBF b2) = true
      · right
        have g1' := g1
        rw [Bool.and_eq_true, inRange_iff, inRange_iff] at g1'
        have i1 : c = 0xE0 ↔ c.toNat = 0xE0 := by rw [← UInt8.toNat_inj]; simp
        have i2 : c = 0xED ↔ c.toNat = 0xED := by rw [← UInt8.toNat_inj]; simp
        obtain ⟨⟨ga, gb⟩, gc, gd⟩ := g1'
        have ga' : 0x80 ≤ b1.toNat ∧ (c.toNat = 0xE0 → 0xA0 ≤ b1.toNat) := by
          simp only [i1] at ga
          split at ga <;> simp at ga <;> omega
        have gb' : b1.toNat ≤ 0xBF ∧ (c.toNat = 0xED → b1.toNat ≤ 0x9F) := by
          simp only [i2] at gb
          split at gb <;> simp at gb <;> omega
        simp at gc gd
        have e : encodeRune ((c.toNat - 0xE0) * 4096 + (b1.toNat - 0x80) * 64 + (b2.toNat - 0x80))
            = [c, b1, b2] := by
          unfold encodeRune
          rw [if_neg (by omega), if_neg (by omega), if_neg (by omega), if_pos (by omega)]
          exact List.cons_eq_cons.mpr ⟨u8_of (by omega), List.cons_eq_cons.mpr ⟨u8_of (by omega), List.cons_eq_cons.mpr ⟨u8_of (by omega), rfl⟩⟩⟩
        refine ⟨(c.toNat - 0xE0) * 4096 + (b1.toNat - 0x80) * 64 + (b2.toNat - 0x80), ?_, ?_⟩
        · unfold Scalar; omega
        rw [e]
        refine ⟨?_, by simp⟩
        have h1 : inRange 0xC2 0xDF c = false := by simpa using h1
        simp only [decodeRune, h0, h1, h2, g1, if_true, if_false, Bool.false_eq_true]
        rfl
      · left
        have h1 : inRange 0xC2 0xDF c = false := by simpa using h1
        refine ⟨?_, h0⟩
        simp only [decodeRune, h0, h1, h2, if_true, if_false, Bool.false_eq_true]
        rw [if_neg g1]
  by_cases h3 : inRange 0xF0 0xF4 c = true
  · have h3' := (inRange_iff _ _ _).mp h3
    simp at h3'
    match cs with
    | [] => left; simp [decodeRune, h0, h1, h2, h3]
    | [_] => left; simp [decodeRune, h0, h1, h2, h3]
    | [_, _] => left; simp [decodeRune, h0, h1, h2, h3]
    | b1 :: b2 :: b3 :: t =>
      by_cases g1 : (inRange (if c = 0xF0 then 0x90 else 0x80) (if c = 0xF4 then 0x8F else 0xBF) b1
          && inRange 0x80 0xBF b2 && inRange 0x80 0xBF b3) = true
      · right
        have g1' := g1
        rw [Bool.and_eq_true, Bool.and_eq_true, inRange_iff, inRange_iff, inRange_iff] at g1'
        have i1 : c = 0xF0 ↔ c.toNat = 0xF0 := by rw [← UInt8.toNat_inj]; simp
        have i2 : c = 0xF4 ↔ c.toNat = 0xF4 := by rw [← UInt8.toNat_inj]; simp
        obtain ⟨⟨⟨ga, gb⟩, gc, gd⟩, ge, gf⟩ := g1'
        have ga' : 0x80 ≤ b1.toNat ∧ (c.toNat = 0xF0 → 0x90 ≤ b1.toNat) := by
          simp only [i1] at ga
          split at ga <;> simp at ga <;> omega
        have gb' : b1.toNat ≤ 0xBF ∧ (c.toNat = 0xF4 → b1.toNat ≤ 0x8F) := by
          simp only [i2] at gb
          split at gb <;> simp at gb <;> omega
        simp at gc gd ge gf
        have e : encodeRune ((c.toNat - 0xF0) * 262144 + (b1.toNat - 0x80) * 4096 +
            (b2.toNat - 0x80) * 64 + (b3.toNat - 0x80)) = [c, b1, b2, b3] := by
          unfold encodeRune
          rw [if_neg (by omega), if_neg (by omega), if_neg (by omega), if_neg (by omega)]
          exact List.cons_eq_cons.mpr ⟨u8_of (by omega), List.cons_eq_cons.mpr ⟨u8_of (by omega), List.cons_eq_cons.mpr ⟨u8_of (by omega), List.cons_eq_cons.mpr ⟨u8_of (by omega), rfl⟩⟩⟩⟩
        refine ⟨(c.toNat - 0xF0) * 262144 + (b1.toNat - 0x80) * 4096 +
            (b2.toNat - 0x80) * 64 + (b3.toNat - 0x80), ?_, ?_⟩
        · unfold Scalar; omega
        rw [e]
        refine ⟨?_, by simp⟩
        have h1 : inRange 0xC2 0xDF c = false := by simpa using h1
        have h2 : inRange 0xE0 0xEF c = false := by simpa using h2
        simp only [decodeRune, h0, h1, h2, h3, g1, if_true, if_false, Bool.false_eq_true]
        rfl
      · left
        have h1 : inRange 0xC2 0xDF c = false := by simpa using h1
        have h2 : inRange 0xE0 0xEF c = false := by simpa using h2
        refine ⟨?_, h0⟩
        simp only [decodeRune, h0, h1, h2, h3, if_true, if_false, Bool.false_eq_true]
        rw [if_neg g1]
  · left
    simp [decodeRune, h0, h1, h2, h3]

theorem encodeRune_length_one {r : Nat} (h : (encodeRune r).length = 1) : r < 0x80 := by
  unfold encodeRune at h
  split at h
  · assumption
  split at h
  · simp at h
  split at h
  · simp at h
  split at h <;> simp at h

/-- A failed decoding step means that no encoded scalar value is at the front. -/
theorem decodeRune_bad {c : UInt8} {cs : Str} (h : decodeRune (c :: cs) = (runeError, 1)) :
    ∀ r rest, Scalar r → c :: cs ≠ encodeRune r ++ rest := by
  intro r rest hr he
  rw [he, decodeRune_encodeRune hr] at h
  have h1 : r = runeError := congrArg Prod.fst h
  have h2 := encodeRune_length_one (congrArg Prod.snd h)
  rw [h1] at h2
  revert h2; decide

/-- Replace invalid bytes, as the JSON encoder does; `n ≥ s.length`. -/
def sanitizeAux : Nat → Str → Str
  | 0, _ => []
  | _ + 1, [] => []
  | n + 1, c :: cs =>
    let (r, size) := decodeRune (c :: cs)
    if r = runeError ∧ size = 1 then [0xEF, 0xBF, 0xBD] ++ sanitizeAux n cs
    else (c :: cs).take size ++ sanitizeAux n ((c :: cs).drop size)

def sanitize (s : Str) : Str := sanitizeAux s.length s

theorem sanitizeAux_replaced (n : Nat) (s : Str) (h : s.length ≤ n) :
    Replaced s (sanitizeAux n s) := by
  induction n generalizing s with
  | zero =>
    have : s = [] := List.length_eq_zero_iff.mp (by omega)
    subst this; exact .nil
  | succ n ih =>
    cases s with
    | nil => exact .nil
    | cons c cs =>
      unfold sanitizeAux
      simp only [List.length_cons] at h
      rcases decodeRune_cases c cs with ⟨hd, _⟩ | ⟨r, hr, hd, he⟩
      · rw [hd]
        simp only [and_self, if_true]
        exact .bad (decodeRune_bad hd) (ih cs (by omega))
      · rw [hd]
        have hne : ¬ (r = runeError ∧ (encodeRune r).length = 1) := by
          rintro ⟨h1, h2⟩
          subst h1; revert h2; decide
        simp only [hne, if_false]
        have hpos := encodeRune_length_pos r
        have htake : (c :: cs).take (encodeRune r).length = encodeRune r := by
          rw [he]; simp
        rw [htake]
        have := Replaced.char hr (ih ((c :: cs).drop (encodeRune r).length) (by
          rw [List.length_drop]; simp only [List.length_cons]; omega))
        rw [← he] at this
        exact this

theorem sanitize_replaced (s : Str) : Replaced s (sanitize s) := sanitizeAux_replaced _ s (Nat.le_refl _)

theorem encodeRune_ne_nil (r : Nat) : encodeRune r ≠ [] := by
  intro h
  have := encodeRune_length_pos r
  rw [h] at this
  exact absurd this (by simp)

theorem replaced_unique {s t t' : Str} (h : Replaced s t) (h' : Replaced s t') : t = t' := by
  induction h generalizing t' with
  | nil =>
    generalize hs : ([] : Str) = s' at h'
    cases h' with
    | nil => rfl
    | char hr _ => exact absurd (List.append_eq_nil_iff.mp hs.symm).1 (encodeRune_ne_nil _)
    | bad => cases hs
  | @char r s t hr _ ih =>
    generalize hs : encodeRune r ++ s = s' at h'
    cases h' with
    | nil => exact absurd (List.append_eq_nil_iff.mp hs).1 (encodeRune_ne_nil _)
    | @char r' s2 t2 hr' h2 =>
      have d1 := decodeRune_encodeRune hr s
      rw [hs, decodeRune_encodeRune hr' s2] at d1
      have hrr : r' = r := congrArg Prod.fst d1
      subst hrr
      have := List.append_cancel_left hs
      subst this
      rw [ih h2]
    | bad hb _ => exact absurd hs.symm (hb r s hr)
  | @bad c s t hb _ ih =>
    generalize hs : c :: s = s' at h'
    cases h' with
    | nil => cases hs
    | @char r' s2 t2 hr' h2 => exact absurd hs (hb r' s2 hr')
    | bad _ h2 =>
      cases hs
      rw [ih h2]

theorem replaced_of_valid {s : Str} (h : ValidUTF8 s) : Replaced s s := by
  obtain ⟨rs, hrs, rfl⟩ := h
  induction rs with
  | nil => exact .nil
  | cons r rs ih =>
    rw [List.flatMap_cons]
    exact .char (hrs r (by simp)) (ih fun r h => hrs r (List.mem_cons_of_mem _ h))

theorem sanitize_of_valid {s : Str} (h : ValidUTF8 s) : sanitize s = s :=
  replaced_unique (sanitize_replaced s) (replaced_of_valid h)

theorem valid_append {a b : Str} (ha : ValidUTF8 a) (hb : ValidUTF8 b) : ValidUTF8 (a ++ b) := by
  obtain ⟨ra, ha, rfl⟩ := ha
  obtain ⟨rb, hb, rfl⟩ := hb
  refine ⟨ra ++ rb, ?_, by simp⟩
  intro r hr
  rcases List.mem_append.mp hr with h | h
  · exact ha r h
  · exact hb r h

theorem valid_of_ascii {s : Str} (h : ∀ c ∈ s, c < 0x80) : ValidUTF8 s := by
  refine ⟨s.map (·.toNat), ?_, ?_⟩
  · intro r hr
    obtain ⟨c, hc, rfl⟩ := List.mem_map.mp hr
    have := UInt8.lt_iff_toNat_lt.mp (h c hc)
    simp at this
    exact Or.inl (by omega)
  · induction s with
    | nil => rfl
    | cons c s ih =>
      have := UInt8.lt_iff_toNat_lt.mp (h c (by simp))
      simp at this
      have e : encodeRune c.toNat = [c] := by
        unfold encodeRune; rw [if_pos this]; simp
      rw [List.map_cons, List.flatMap_cons, e, ← ih fun c hc => h c (List.mem_cons_of_mem _ hc)]
      rfl

theorem sanitize_ascii {s : Str} (h : ∀ c ∈ s, c < 0x80) : sanitize s = s :=
  sanitize_of_valid (valid_of_ascii h)

/-- The result of replacing is valid. -/
theorem replaced_valid {s t : Str} (h : Replaced s t) : ValidUTF8 t := by
  induction h with
  | nil => exact ⟨[], by simp, rfl⟩
  | @char r _ _ hr _ ih =>
    refine valid_append ⟨[r], ?_, by simp⟩ ih
    intro r' h'; rw [List.mem_singleton.mp h']; exact hr
  | bad _ _ ih =>
    refine valid_append ⟨[0xFFFD], ?_, by decide⟩ ih
    intro r h; rw [List.mem_singleton.mp h]; exact Or.inr (by decide)

theorem sanitize_valid (s : Str) : ValidUTF8 (sanitize s) := replaced_valid (sanitize_replaced s)

theorem sanitize_idem (s : Str) : sanitize (sanitize s) = sanitize s :=
  sanitize_of_valid (sanitize_valid s)

end OAuth2

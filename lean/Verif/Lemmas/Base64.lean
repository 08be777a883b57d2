import Verif.Model.Base64
import Verif.Lemmas.Basic
import Verif.Spec.Base64

namespace OAuth2

theorem b64Val_b64Char (url : Bool) (n : Nat) (h : n < 64) :
    b64Val url (b64Char url n) = some n := by
  have key : ∀ u : Bool, ∀ i : Fin 64, b64Val u (b64Char u i.val) = some i.val := by
    decide +kernel
  exact key url ⟨n, h⟩

theorem b64Val_lt {url : Bool} {c : UInt8} {n : Nat} (h : b64Val url c = some n) : n < 64 := by
  have key : ∀ u : Bool, ∀ c : UInt8, ∀ n ∈ b64Val u c, n < 64 := by
    intro u; apply forall_u8; revert u; decide +kernel
  exact key url c n h

theorem b64Char_of_val {url : Bool} {c : UInt8} {n : Nat} (h : b64Val url c = some n) :
    b64Char url n = c := by
  have key : ∀ u : Bool, ∀ c : UInt8, ∀ n ∈ b64Val u c, b64Char u n = c := by
    intro u; apply forall_u8; revert u; decide +kernel
  exact key url c n h

/-- The sextets `b64Encode` writes. -/
def sextets : Str → List Nat
  | [] => []
  | [a] => [a.toNat / 4, a.toNat % 4 * 16]
  | [a, b] => [a.toNat / 4, a.toNat % 4 * 16 + b.toNat / 16, b.toNat % 16 * 4]
  | a :: b :: c :: rest =>
    a.toNat / 4 :: (a.toNat % 4 * 16 + b.toNat / 16) :: (b.toNat % 16 * 4 + c.toNat / 64) ::
    (c.toNat % 64) :: sextets rest

theorem sextets_lt (s : Str) : ∀ n ∈ sextets s, n < 64 := by
  fun_induction sextets s with
  | case1 => simp
  | case2 a =>
    have := a.toNat_lt
    simp; omega
  | case3 a b =>
    have := a.toNat_lt; have := b.toNat_lt
    simp; omega
  | case4 a b c rest ih =>
    have := a.toNat_lt; have := b.toNat_lt; have := c.toNat_lt
    simp only [List.mem_cons, forall_eq_or_imp]
    refine ⟨by omega, by omega, by omega, by omega, ih⟩

theorem b64Encode_eq_map (url : Bool) (s : Str) :
    b64Encode url [] s = (sextets s).map (b64Char url) := by
  fun_induction sextets s with
  | case1 => rfl
  | case2 => rfl
  | case3 => rfl
  | case4 a b c rest ih => simp [b64Encode, ih]

theorem b64Groups_sextets (s : Str) : b64Groups (sextets s) = some s := by
  fun_induction sextets s with
  | case1 => rfl
  | case2 a =>
    have := a.toNat_lt
    have h1 : a.toNat / 4 * 4 + a.toNat % 4 * 16 / 16 = a.toNat := by omega
    simp only [b64Groups, h1, u8_ofNat_toNat]
  | case3 a b =>
    have := a.toNat_lt; have := b.toNat_lt
    have h1 : a.toNat / 4 * 4 + (a.toNat % 4 * 16 + b.toNat / 16) / 16 = a.toNat := by omega
    have h2 : (a.toNat % 4 * 16 + b.toNat / 16) % 16 * 16 + b.toNat % 16 * 4 / 4 = b.toNat := by
      omega
    simp only [b64Groups, h1, h2, u8_ofNat_toNat]
  | case4 a b c rest ih =>
    have := a.toNat_lt; have := b.toNat_lt; have := c.toNat_lt
    have h1 : a.toNat / 4 * 4 + (a.toNat % 4 * 16 + b.toNat / 16) / 16 = a.toNat := by omega
    have h2 : (a.toNat % 4 * 16 + b.toNat / 16) % 16 * 16 + (b.toNat % 16 * 4 + c.toNat / 64) / 4
        = b.toNat := by omega
    have h3 : (b.toNat % 16 * 4 + c.toNat / 64) % 4 * 64 + c.toNat % 64 = c.toNat := by omega
    simp only [b64Groups, h1, h2, h3, ih, u8_ofNat_toNat, Option.map_some]

theorem mapM_some_map {α β γ : Type} (f : β → Option γ) (g : α → β) (h : α → γ) (l : List α)
    (H : ∀ a ∈ l, f (g a) = some (h a)) : (l.map g).mapM f = some (l.map h) := by
  induction l with
  | nil => rfl
  | cons a l ih =>
    simp only [List.map_cons, List.mapM_cons]
    rw [H a (by simp), ih fun x hx => H x (by simp [hx])]
    rfl

/-- Every character the encoder writes is in the alphabet. -/
def isB64Url (c : UInt8) : Bool :=
  inRange 65 90 c || inRange 97 122 c || inRange 48 57 c || c = 0x2D || c = 0x5F

theorem b64Char_alphabet (n : Nat) (h : n < 64) : isB64Url (b64Char true n) = true := by
  have key : ∀ i : Fin 64, isB64Url (b64Char true i.val) = true := by decide +kernel
  exact key ⟨n, h⟩

theorem encode_alphabet (s : Str) : ∀ c ∈ b64RawURLEncode s, isB64Url c = true := by
  unfold b64RawURLEncode
  rw [b64Encode_eq_map]
  intro c hc
  obtain ⟨n, hn, rfl⟩ := List.mem_map.mp hc
  exact b64Char_alphabet n (sextets_lt s n hn)

theorem dropNewlines_eq_self {s : Str} (h : ∀ c ∈ s, c ≠ 0x0A ∧ c ≠ 0x0D) : dropNewlines s = s := by
  unfold dropNewlines
  apply List.filter_eq_self.mpr
  intro c hc
  have := h c hc
  simp [this.1, this.2]

theorem isB64Url_no_newline : ∀ c : UInt8, isB64Url c = true → c ≠ 0x0A ∧ c ≠ 0x0D ∧ c ≠ 0x2E := by
  apply forall_u8; decide +kernel

theorem b64RawURL_roundtrip (s : Str) : b64RawURLDecode (b64RawURLEncode s) = some s := by
  unfold b64RawURLDecode
  rw [dropNewlines_eq_self fun c hc => ⟨(isB64Url_no_newline c (encode_alphabet s c hc)).1,
    (isB64Url_no_newline c (encode_alphabet s c hc)).2.1⟩]
  unfold b64RawURLEncode
  rw [b64Encode_eq_map]
  rw [mapM_some_map (b64Val true) (b64Char true) id (sextets s)
    fun n hn => b64Val_b64Char true n (sextets_lt s n hn)]
  simp [b64Groups_sextets]

theorem b64RawURLEncode_injective {a b : Str} (h : b64RawURLEncode a = b64RawURLEncode b) :
    a = b := by
  have h1 := b64RawURL_roundtrip a
  rw [h, b64RawURL_roundtrip b] at h1
  exact (Option.some.inj h1).symm

theorem sextets_length (s : Str) : (sextets s).length = (s.length * 4 + 2) / 3 := by
  fun_induction sextets s with
  | case1 => simp
  | case2 => simp
  | case3 => simp
  | case4 a b c rest ih => simp [ih]; omega

theorem b64RawURLEncode_length (s : Str) : (b64RawURLEncode s).length = (s.length * 4 + 2) / 3 := by
  unfold b64RawURLEncode; rw [b64Encode_eq_map]; simp [sextets_length]

/-! ### The bit-level specification -/

open Spec

theorem idxOf_eq_b64Val (c : UInt8) : alphabet.idxOf? c = b64Val true c := by
  have key : ∀ c : UInt8, alphabet.idxOf? c = b64Val true c := by
    apply forall_u8; decide +kernel
  exact key c

theorem bits_length (w n : Nat) : (bits w n).length = w := by
  induction w generalizing n with
  | zero => rfl
  | succ w ih => simp [bits, ih]

theorem bits_append (u v a b : Nat) (hb : b < 2 ^ v) :
    bits (u + v) (a * 2 ^ v + b) = bits u a ++ bits v b := by
  induction v generalizing b with
  | zero =>
    have : b = 0 := by simpa using hb
    simp [this, bits]
  | succ v ih =>
    have h1 : (a * 2 ^ (v + 1) + b) / 2 = a * 2 ^ v + b / 2 := by
      rw [Nat.pow_succ, ← Nat.mul_assoc]; omega
    have h2 : (a * 2 ^ (v + 1) + b) % 2 = b % 2 := by
      rw [Nat.pow_succ, ← Nat.mul_assoc]; omega
    have h3 : b / 2 < 2 ^ v := by rw [Nat.pow_succ] at hb; omega
    show bits (u + v) _ ++ _ = bits u a ++ (bits v (b / 2) ++ _)
    rw [h1, h2, ih _ h3, List.append_assoc]

theorem bits_split (u v n : Nat) : bits (u + v) n = bits u (n / 2 ^ v) ++ bits v (n % 2 ^ v) := by
  rw [← bits_append u v (n / 2 ^ v) (n % 2 ^ v) (Nat.mod_lt _ (Nat.two_pow_pos v))]
  rw [Nat.mul_comm, Nat.div_add_mod]

theorem bits_byte1 (a b : Nat) (ha : a < 64) (hb : b < 64) :
    bits 8 (UInt8.ofNat (a * 4 + b / 16)).toNat = bits 6 a ++ bits 2 (b / 16) := by
  rw [UInt8.toNat_ofNat_of_lt' (by show _ < 256; omega)]
  exact bits_append 6 2 a (b / 16) (by omega)

theorem bits_byte2 (b c : Nat) (hc : c < 64) :
    bits 8 (UInt8.ofNat (b % 16 * 16 + c / 4)).toNat = bits 4 (b % 16) ++ bits 4 (c / 4) := by
  rw [UInt8.toNat_ofNat_of_lt' (by show _ < 256; omega)]
  exact bits_append 4 4 (b % 16) (c / 4) (by omega)

theorem bits_byte3 (c d : Nat) (hd : d < 64) :
    bits 8 (UInt8.ofNat (c % 4 * 64 + d)).toNat = bits 2 (c % 4) ++ bits 6 d := by
  rw [UInt8.toNat_ofNat_of_lt' (by show _ < 256; omega)]
  exact bits_append 2 6 (c % 4) d hd

theorem bits_injective (w a b : Nat) (ha : a < 2 ^ w) (hb : b < 2 ^ w) (h : bits w a = bits w b) :
    a = b := by
  induction w generalizing a b with
  | zero => simp at ha hb; omega
  | succ w ih =>
    simp only [bits] at h
    obtain ⟨h1, h2⟩ := List.append_inj h (by simp [bits_length])
    rw [Nat.pow_succ] at ha hb
    have := ih (a / 2) (b / 2) (by omega) (by omega) h1
    have h2 : (a % 2 == 1) = (b % 2 == 1) := by simpa using h2
    rcases Nat.mod_two_eq_zero_or_one a with ha2 | ha2 <;>
      rcases Nat.mod_two_eq_zero_or_one b with hb2 | hb2 <;> simp [ha2, hb2] at h2 <;> omega

theorem bits8_injective {a b : UInt8} (h : bits 8 a.toNat = bits 8 b.toNat) : a = b :=
  u8_ext (bits_injective 8 _ _ a.toNat_lt b.toNat_lt h)

theorem flatMap_bits8_injective {a b : Str}
    (h : a.flatMap (fun x => bits 8 x.toNat) = b.flatMap (fun x => bits 8 x.toNat)) : a = b := by
  induction a generalizing b with
  | nil =>
    cases b with
    | nil => rfl
    | cons y ys =>
      have := congrArg List.length h
      simp [bits_length] at this
      omega
  | cons x xs ih =>
    cases b with
    | nil =>
      have := congrArg List.length h
      simp [bits_length] at this
    | cons y ys =>
      simp only [List.flatMap_cons] at h
      have := List.append_inj h (by simp [bits_length])
      rw [bits8_injective this.1, ih this.2]

/-- The decoder's grouping agrees with the bit-level reading. -/
theorem b64Groups_sound (l : List Nat) (hl : ∀ n ∈ l, n < 64) (d : Str)
    (h : b64Groups l = some d) :
    l.length % 4 ≠ 1 ∧ d.length = l.length * 6 / 8 ∧
    d.flatMap (fun b => bits 8 b.toNat) = (l.flatMap (bits 6)).take (8 * d.length) := by
  fun_induction b64Groups l generalizing d with
  | case1 => cases h; simp
  | case2 => cases h
  | case3 a b =>
    cases h
    have ha := hl a (by simp); have hb := hl b (by simp)
    refine ⟨by simp, by simp, ?_⟩
    have e : (bits 6 a ++ bits 2 (b / 16)).length = 8 := by simp [bits_length]
    simp only [List.flatMap_cons, List.flatMap_nil, List.append_nil, bits_byte1 a b ha hb,
      List.length_cons, List.length_nil, bits_split 2 4 b, ← List.append_assoc]
    simp only [Nat.reducePow]
    rw [List.take_append_of_le_length (by rw [e]; omega), List.take_of_length_le (by rw [e]; omega)]
  | case4 a b c =>
    cases h
    have ha := hl a (by simp); have hb := hl b (by simp); have hc := hl c (by simp)
    refine ⟨by simp, by simp, ?_⟩
    have e : (bits 6 a ++ bits 2 (b / 16) ++ bits 4 (b % 16) ++ bits 4 (c / 4)).length = 16 := by
      simp [bits_length]
    simp only [List.flatMap_cons, List.flatMap_nil, List.append_nil, bits_byte1 a b ha hb,
      bits_byte2 b c hc, List.length_cons, List.length_nil, bits_split 2 4 b, bits_split 4 2 c,
      ← List.append_assoc]
    simp only [Nat.reducePow]
    rw [List.take_append_of_le_length (by rw [e]; omega), List.take_of_length_le (by rw [e]; omega)]
  | case5 a b c d' rest ih =>
    obtain ⟨t, ht, rfl⟩ := Option.map_eq_some_iff.mp h
    have ha := hl a (by simp); have hb := hl b (by simp); have hc := hl c (by simp)
    have hd := hl d' (by simp)
    obtain ⟨h1, h2, h3⟩ := ih (fun n hn => hl n (by simp [hn])) t ht
    refine ⟨by simp only [List.length_cons]; omega, by simp only [List.length_cons]; omega, ?_⟩
    have e : (bits 6 a ++ bits 2 (b / 16) ++ bits 4 (b % 16) ++ bits 4 (c / 4) ++ bits 2 (c % 4) ++
      bits 6 d').length = 24 := by simp [bits_length]
    have e2 : 8 * (t.length + 1 + 1 + 1) = 24 + 8 * t.length := by omega
    simp only [List.flatMap_cons, bits_byte1 a b ha hb, bits_byte2 b c hc,
      bits_byte3 c d' hd, h3, List.length_cons, e2, bits_split 2 4 b, bits_split 4 2 c,
      ← List.append_assoc]
    simp only [Nat.reducePow]
    rw [List.take_append, e, List.take_of_length_le (l := _ ++ _) (by rw [e]; omega)]
    simp only [Nat.add_sub_cancel_left]

theorem b64Groups_total (l : List Nat) (h : l.length % 4 ≠ 1) : ∃ d, b64Groups l = some d := by
  fun_induction b64Groups l with
  | case1 => exact ⟨_, rfl⟩
  | case2 => simp at h
  | case3 => exact ⟨_, rfl⟩
  | case4 => exact ⟨_, rfl⟩
  | case5 a b c d rest ih =>
    obtain ⟨t, ht⟩ := ih (by simp only [List.length_cons] at h; omega)
    exact ⟨_, by rw [ht]; rfl⟩

theorem mapM_eq_some_iff {α β : Type} (f : α → Option β) (l : List α) (r : List β) :
    l.mapM f = some r ↔ l.map f = r.map some := by
  induction l generalizing r with
  | nil => cases r <;> simp
  | cons a l ih =>
    simp only [List.mapM_cons, List.map_cons]
    cases hfa : f a with
    | none => cases r <;> simp
    | some b =>
      cases r with
      | nil => cases hl : l.mapM f <;> simp
      | cons c r =>
        simp only [List.map_cons, List.cons.injEq, Option.some.injEq]
        rw [← ih]
        cases hl : l.mapM f <;> simp [eq_comm]

theorem decode_iff_spec (text data : Str) :
    b64RawURLDecode text = some data ↔ IsBase64Url text data := by
  have hmap : (withoutLineBreaks text).map (alphabet.idxOf? ·) = (dropNewlines text).map (b64Val true) := by
    unfold withoutLineBreaks dropNewlines
    apply List.map_congr_left
    intro c _
    exact idxOf_eq_b64Val c
  have hval : ∀ l : List Nat, (dropNewlines text).map (b64Val true) = l.map some → ∀ n ∈ l, n < 64 := by
    intro l hl n hn
    have : some n ∈ l.map some := List.mem_map.mpr ⟨n, hn, rfl⟩
    rw [← hl] at this
    obtain ⟨c, _, hc⟩ := List.mem_map.mp this
    exact b64Val_lt hc
  unfold b64RawURLDecode
  constructor
  · intro h
    cases hm : (dropNewlines text).mapM (b64Val true) with
    | none => simp [hm] at h
    | some l =>
      simp only [hm, bind, Option.bind_some] at h
      have hl := (mapM_eq_some_iff _ _ _).mp hm
      obtain ⟨h1, h2, h3⟩ := b64Groups_sound l (hval l hl) data h
      exact ⟨l, hmap.trans hl, h1, h2, h3⟩
  · rintro ⟨l, hl, h1, h2, h3⟩
    have hl' := hmap.symm.trans hl
    rw [(mapM_eq_some_iff _ _ _).mpr hl']
    simp only [bind, Option.bind_some]
    obtain ⟨d, hd⟩ := b64Groups_total l h1
    obtain ⟨_, h2', h3'⟩ := b64Groups_sound l (hval l hl') d hd
    rw [hd]
    have : d.length = data.length := by omega
    rw [this, ← h3] at h3'
    rw [flatMap_bits8_injective h3']

end OAuth2

import Verif.Spec.Form
import Verif.Lemmas.Http
import Verif.Lemmas.Url
import Verif.Lemmas.Bytes
import Verif.Lemmas.Base64

/-! Form bodies and basic authentication. -/

namespace OAuth2

open Spec

set_option linter.unusedSimpArgs false

/-! ### Standard base64 -/

/-- The characters `StdEncoding` writes. -/
def isB64Std (c : UInt8) : Bool := isAlnum c || c = 0x2B || c = 0x2F || c = 0x3D

theorem b64Char_std (n : Nat) (h : n < 64) :
    isB64Std (b64Char false n) = true ∧ b64Char false n ≠ 0x3D := by
  have key : ∀ i : Fin 64, isB64Std (b64Char false i.val) = true ∧ b64Char false i.val ≠ 0x3D := by
    decide +kernel
  exact key ⟨n, h⟩

theorem b64StdEncode_alphabet (s : Str) : ∀ c ∈ b64StdEncode s, isB64Std c = true := by
  unfold b64StdEncode
  fun_induction b64Encode false [0x3D] s with
  | case1 => simp
  | case2 a =>
    have := a.toNat_lt
    simp only [List.cons_append, List.nil_append, List.mem_cons, List.not_mem_nil, or_false,
      forall_eq_or_imp, forall_eq]
    exact ⟨(b64Char_std _ (by omega)).1, (b64Char_std _ (by omega)).1, by decide, by decide⟩
  | case3 a b =>
    have := a.toNat_lt; have := b.toNat_lt
    simp only [List.cons_append, List.nil_append, List.mem_cons, List.not_mem_nil, or_false,
      forall_eq_or_imp, forall_eq]
    exact ⟨(b64Char_std _ (by omega)).1, (b64Char_std _ (by omega)).1, (b64Char_std _ (by omega)).1,
      by decide⟩
  | case4 a b c rest ih =>
    have := a.toNat_lt; have := b.toNat_lt; have := c.toNat_lt
    simp only [List.mem_cons, forall_eq_or_imp]
    exact ⟨(b64Char_std _ (by omega)).1, (b64Char_std _ (by omega)).1, (b64Char_std _ (by omega)).1,
      (b64Char_std _ (by omega)).1, ih⟩

theorem b64StdGroups_encode (s : Str) : b64StdGroups (b64StdEncode s) = some s := by
  unfold b64StdEncode
  fun_induction b64Encode false [0x3D] s with
  | case1 => rfl
  | case2 a =>
    have h := b64Groups_sextets [a]
    have := a.toNat_lt
    simp only [sextets] at h
    simp only [List.cons_append, List.nil_append, b64StdGroups, and_self, if_true]
    rw [b64Val_b64Char _ _ (by omega), b64Val_b64Char _ _ (by omega)]
    exact h
  | case3 a b =>
    have h := b64Groups_sextets [a, b]
    have := a.toNat_lt; have := b.toNat_lt
    simp only [sextets] at h
    simp only [List.cons_append, List.nil_append, b64StdGroups, and_self, if_true, and_true]
    rw [if_neg (b64Char_std _ (by omega)).2, b64Val_b64Char _ _ (by omega),
      b64Val_b64Char _ _ (by omega), b64Val_b64Char _ _ (by omega)]
    exact h
  | case4 a b c rest ih =>
    have h := b64Groups_sextets [a, b, c]
    have := a.toNat_lt; have := b.toNat_lt; have := c.toNat_lt
    simp only [sextets] at h
    simp only [b64StdGroups]
    have hd : b64Char false (c.toNat % 64) ≠ 0x3D := (b64Char_std _ (by omega)).2
    rw [if_neg (fun h => hd h.2.1), if_neg (fun h => hd h.1), b64Val_b64Char _ _ (by omega),
      b64Val_b64Char _ _ (by omega), b64Val_b64Char _ _ (by omega), b64Val_b64Char _ _ (by omega), ih]
    simp only [Option.bind_eq_bind, Option.bind_some, h]
    rfl

theorem b64Std_roundtrip (s : Str) : b64StdDecode (b64StdEncode s) = some s := by
  unfold b64StdDecode
  have hn : ∀ c : UInt8, isB64Std c = true → c ≠ 0x0A ∧ c ≠ 0x0D := by
    apply forall_u8; decide +kernel
  rw [dropNewlines_eq_self fun c hc => hn c (b64StdEncode_alphabet s c hc)]
  exact b64StdGroups_encode s

theorem parseBasicAuth_encode (u p : Str) :
    parseBasicAuth (b!"Basic " ++ b64StdEncode (u ++ [0x3A] ++ p)) = cutByte 0x3A (u ++ 0x3A :: p) := by
  unfold parseBasicAuth
  have e1 : (b!"Basic " ++ b64StdEncode (u ++ [0x3A] ++ p)).take 6 = b!"Basic " := List.take_left' rfl
  have e2 : (b!"Basic " ++ b64StdEncode (u ++ [0x3A] ++ p)).drop 6 = b64StdEncode (u ++ [0x3A] ++ p) :=
    List.drop_left' rfl
  rw [if_neg (by simp), e1, e2, if_neg (by decide), b64Std_roundtrip]
  simp

/-! ### Form posts -/

theorem parsePostForm_formPost {r : Request} {form : Values} (h : FormPost r form) :
    parsePostForm r = (some form, false) := by
  obtain ⟨data, h1, h2, h3, h4⟩ := h.body
  change data.length ≤ maxFormSize at h3
  unfold parsePostForm
  have hct : r.header.get b!"Content-Type" ≠ [] := by
    intro e
    have := h.contentType
    rw [e] at this
    exact absurd this (by decide +kernel)
  simp only [h1, if_neg hct, h.contentType, if_true, h2, Bool.false_and, Bool.false_eq_true, if_false,
    h4, Nat.not_lt.mpr h3, gt_iff_lt, Bool.false_or]

theorem parseForm_formPost {r : Request} {form : Values} (h : FormPost r form) :
    r.parseForm = ({ r with postForm := some form, form := some (copyValues form (parseQuery r.rawQuery).1) }, false) := by
  unfold Request.parseForm
  simp only [h.fresh.1, h.fresh.2, h.method, true_or, if_true, parsePostForm_formPost h,
    Option.getD_some, h.query, Bool.false_or]

theorem basicAuth_congr {r r' : Request} (h : r.header = r'.header) : r.basicAuth = r'.basicAuth := by
  unfold Request.basicAuth; rw [h]

end OAuth2

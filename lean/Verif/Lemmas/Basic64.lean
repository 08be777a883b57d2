import Verif.Lemmas.Base64
import Verif.Lemmas.Encoding
/-
Padded base64, against the grammar in Verif/Spec/Encoding.lean.
-/

namespace OAuth2

open Spec

theorem standardIdxOf_eq_b64Val (c : UInt8) : standardAlphabet.idxOf? c = b64Val false c := by
  have key : ∀ c : UInt8, standardAlphabet.idxOf? c = b64Val false c := by
    apply forall_u8; decide +kernel
  exact key c

theorem b64Val_pad : b64Val false 0x3D = none := by decide +kernel

theorem b64StdGroups_iff (s d : Str) : b64StdGroups s = some d ↔
    ∃ (chars : Str) (pads : Nat) (l : List Nat), s = chars ++ List.replicate pads 0x3D ∧ pads ≤ 2 ∧
      (chars.length + pads) % 4 = 0 ∧ chars.mapM (b64Val false) = some l ∧ b64Groups l = some d := by
  constructor
  · intro h
    fun_induction b64StdGroups s generalizing d with
    | case1 => cases h; exact ⟨[], 0, [], rfl, by omega, rfl, rfl, rfl⟩
    | case2 a b c e rest hc =>
      obtain ⟨rfl, rfl, rfl⟩ := hc
      cases ha : b64Val false a <;> simp [ha] at h
      cases hb : b64Val false b <;> simp [hb] at h
      exact ⟨[a, b], 2, _, rfl, by omega, by simp, by simp [ha, hb], h⟩
    | case3 a b c e rest _ hc =>
      obtain ⟨rfl, rfl⟩ := hc
      cases ha : b64Val false a <;> simp [ha] at h
      cases hb : b64Val false b <;> simp [hb] at h
      cases hc : b64Val false c <;> simp [hc] at h
      exact ⟨[a, b, c], 1, _, rfl, by omega, by simp, by simp [ha, hb, hc], h⟩
    | case4 a b c e rest _ _ ih =>
      cases ha : b64Val false a <;> simp [ha] at h
      cases hb : b64Val false b <;> simp [hb] at h
      cases hc : b64Val false c <;> simp [hc] at h
      cases he : b64Val false e <;> simp [he] at h
      rename_i va vb vc ve
      cases hr : b64StdGroups rest with
      | none => simp [hr] at h
      | some t =>
        obtain ⟨chars, pads, l, rfl, h1, h2, h3, h4⟩ := ih t hr
        refine ⟨a :: b :: c :: e :: chars, pads, va :: vb :: vc :: ve :: l, rfl, h1, ?_, ?_, ?_⟩
        · simp only [List.length_cons]; omega
        · simp [ha, hb, hc, he, h3]
        · simp only [hr, b64Groups, Option.bind_some, Option.map_some, Option.some.injEq] at h
          rw [b64Groups, h4]
          simpa using h
    | case5 => cases h
  · rintro ⟨chars, pads, l, rfl, h1, h2, h3, h4⟩
    induction hn : chars.length using Nat.strongRecOn generalizing chars l d with
    | ind n ih =>
      match chars, hn with
      | [], _ =>
        have : pads = 0 := by simp at h2; omega
        subst this
        simp at h3; subst h3; cases h4; rfl
      | [a], _ => simp at h2; omega
      | [a, b], _ =>
        have : pads = 2 := by simp at h2; omega
        subst this
        cases ha : b64Val false a <;> simp [ha] at h3
        cases hb : b64Val false b <;> simp [hb] at h3
        subst h3
        simp [b64StdGroups, List.replicate, ha, hb, h4]
      | [a, b, c], _ =>
        have : pads = 1 := by simp at h2; omega
        subst this
        cases ha : b64Val false a <;> simp [ha] at h3
        cases hb : b64Val false b <;> simp [hb] at h3
        cases hc : b64Val false c <;> simp [hc] at h3
        subst h3
        have hne : c ≠ 0x3D := by rintro rfl; simp [b64Val_pad] at hc
        simp [b64StdGroups, List.replicate, ha, hb, hc, hne, h4]
      | a :: b :: c :: e :: rest, hn =>
        simp only [List.mapM_cons] at h3
        cases ha : b64Val false a <;> simp only [ha, bind, Option.bind_none, Option.bind_some, reduceCtorEq] at h3
        cases hb : b64Val false b <;> simp only [hb, Option.bind_none, Option.bind_some, reduceCtorEq] at h3
        cases hc : b64Val false c <;> simp only [hc, Option.bind_none, Option.bind_some, reduceCtorEq] at h3
        cases he : b64Val false e <;> simp only [he, Option.bind_none, Option.bind_some, reduceCtorEq] at h3
        cases hl' : rest.mapM (b64Val false) <;>
          simp only [hl', pure, Option.bind_none, Option.bind_some, reduceCtorEq, Option.some.injEq] at h3
        rename_i l'
        subst h3
        have hne : e ≠ 0x3D := by rintro rfl; simp [b64Val_pad] at he
        rw [b64Groups] at h4
        obtain ⟨t, ht, rfl⟩ := Option.map_eq_some_iff.mp h4
        simp only [List.length_cons] at h2 hn
        have := ih rest.length (by omega) t rest l' (by omega) hl' ht rfl
        simp [b64StdGroups, ha, hb, hc, he, hne, this, b64Groups]

theorem b64StdDecode_iff (text data : Str) : b64StdDecode text = some data ↔ IsBase64 text data := by
  have hmap : ∀ chars : Str, chars.map (standardAlphabet.idxOf? ·) = chars.map (b64Val false) :=
    fun chars => List.map_congr_left fun c _ => standardIdxOf_eq_b64Val c
  have hval : ∀ (chars : Str) (l : List Nat), chars.map (b64Val false) = l.map some →
      ∀ n ∈ l, n < 64 := by
    intro chars l hl n hn
    have : some n ∈ l.map some := List.mem_map.mpr ⟨n, hn, rfl⟩
    rw [← hl] at this
    obtain ⟨c, _, hc⟩ := List.mem_map.mp this
    exact b64Val_lt hc
  have hlines : withoutLineBreaks text = dropNewlines text := rfl
  show b64StdGroups (dropNewlines text) = some data ↔ _
  rw [b64StdGroups_iff]
  constructor
  · rintro ⟨chars, pads, l, h1, h2, h3, h4, h5⟩
    have hl := (mapM_eq_some_iff _ _ _).mp h4
    obtain ⟨_, h6, h7⟩ := b64Groups_sound l (hval _ l hl) data h5
    exact ⟨chars, pads, l, h1, h2, h3, (hmap _).trans hl, h6, h7⟩
  · rintro ⟨chars, pads, l, h1, h2, h3, h4, h6, h7⟩
    have hl := (hmap _).symm.trans h4
    have hlen : chars.length = l.length := by simpa using congrArg List.length hl
    obtain ⟨d, hd⟩ := b64Groups_total l (by omega)
    obtain ⟨_, h6', h7'⟩ := b64Groups_sound l (hval _ l hl) d hd
    have : d.length = data.length := by omega
    rw [this, ← h7] at h7'
    exact ⟨chars, pads, l, h1, h2, h3, (mapM_eq_some_iff _ _ _).mpr hl,
      by rw [hd, flatMap_bits8_injective h7']⟩

theorem namesUser_iff (header user password : Str) :
    NamesUser header user password ↔ BasicCredentials header user password := by
  simp only [NamesUser, BasicCredentials, b64StdDecode_iff]

end OAuth2

import Verif.Spec.Json
import Verif.Lemmas.JsonPrefix
import Verif.Lemmas.Extra
/-
The parser of JSON documents accepts exactly the texts of the grammar.
-/

namespace OAuth2
open Spec

/-! ### Strings -/

theorem hexDigit_iff (c : UInt8) (v : Nat) : HexDigit c v ↔ unhex c = some v := by
  unfold HexDigit Digit unhex
  have hl := c.toNat_lt
  simp only [UInt8.le_iff_toNat_le, UInt8.reduceToNat]
  split
  · simp only [Option.some.injEq]; omega
  · split
    · simp only [Option.some.injEq]; omega
    · split
      · simp only [Option.some.injEq]; omega
      · simp only [reduceCtorEq, iff_false]; omega

theorem hex4_iff (s : Str) (v : Nat) (r : Str) :
    hex4 s = some (v, r) ↔ ∃ u, UnicodeEscape u v ∧ 0x5C :: 0x75 :: s = u ++ r := by
  constructor
  · intro h
    match s, h with
    | a :: b :: c :: d :: rest, h =>
      unfold hex4 at h
      cases ha : unhex a <;> simp [ha] at h
      cases hb : unhex b <;> simp [hb] at h
      cases hc : unhex c <;> simp [hc] at h
      cases hd : unhex d <;> simp [hd] at h
      refine ⟨_, ⟨a, b, c, d, _, _, _, _, rfl, (hexDigit_iff _ _).mpr ha, (hexDigit_iff _ _).mpr hb,
        (hexDigit_iff _ _).mpr hc, (hexDigit_iff _ _).mpr hd, ?_⟩, by simp [h.2]⟩
      omega
  · rintro ⟨u, ⟨a, b, c, d, va, vb, vc, vd, rfl, ha, hb, hc, hd, rfl⟩, h⟩
    simp only [List.cons_append, List.nil_append, List.cons.injEq, true_and] at h
    subst h
    unfold hex4
    simp only [(hexDigit_iff _ _).mp ha, (hexDigit_iff _ _).mp hb, (hexDigit_iff _ _).mp hc,
      (hexDigit_iff _ _).mp hd]
    show some _ = some _
    congr 2
    omega

theorem getu4_iff (s : Str) (v : Nat) (r : Str) :
    getu4 s = some (v, r) ↔ ∃ u, UnicodeEscape u v ∧ s = u ++ r := by
  match s with
  | [] =>
    simp only [getu4, reduceCtorEq, false_iff]
    rintro ⟨u, ⟨a, b, c, d, va, vb, vc, vd, rfl, _⟩, h⟩
    simp at h
  | [x] =>
    simp only [getu4, reduceCtorEq, false_iff]
    rintro ⟨u, ⟨a, b, c, d, va, vb, vc, vd, rfl, _⟩, h⟩
    simp at h
  | x :: y :: rest =>
    rw [getu4_cons]
    split
    · rename_i hxy
      rw [hex4_iff, hxy.1, hxy.2]
    · rename_i hxy
      simp only [reduceCtorEq, false_iff]
      rintro ⟨u, ⟨a, b, c, d, va, vb, vc, vd, rfl, _⟩, h⟩
      simp only [List.cons_append, List.cons.injEq] at h
      exact hxy ⟨h.1, h.2.1⟩

theorem Spec.UnicodeEscape.no_quote {u : Str} {v : Nat} (h : UnicodeEscape u v) : (0x22 : UInt8) ∉ u := by
  obtain ⟨a, b, c, d, va, vb, vc, vd, rfl, ha, hb, hc, hd, -⟩ := h
  rw [hexDigit_iff] at ha hb hc hd
  have hq := unhex_quote
  intro hm
  simp only [List.mem_cons, List.not_mem_nil, or_false] at hm
  rcases hm with h | h | h | h | h | h
  · revert h; decide
  · revert h; decide
  all_goals
    subst h
    simp_all

theorem Spec.UnicodeEscape.le {u : Str} {v : Nat} (h : UnicodeEscape u v) : v ≤ 0xFFFF := by
  obtain ⟨a, b, c, d, va, vb, vc, vd, rfl, ha, hb, hc, hd, rfl⟩ := h
  have key : ∀ {c : UInt8} {v : Nat}, HexDigit c v → v ≤ 15 := by
    intro c v h
    unfold HexDigit Digit at h
    simp only [UInt8.le_iff_toNat_le, UInt8.reduceToNat] at h
    omega
  have := key ha
  have := key hb
  have := key hc
  have := key hd
  omega

theorem Spec.UnicodeEscape.cons {u : Str} {v : Nat} (h : UnicodeEscape u v) (t : Str) :
    ∃ s, u ++ t = 0x5C :: 0x75 :: s ∧ hex4 s = some (v, t) ∧ u.length = 6 := by
  obtain ⟨a, b, c, d, va, vb, vc, vd, rfl, h'⟩ := id h
  exact ⟨a :: b :: c :: d :: t, rfl, (hex4_iff _ _ _).mpr ⟨_, h, rfl⟩, rfl⟩

theorem split_quote {u t r rest : Str} (hu : (0x22 : UInt8) ∉ u)
    (h : t ++ 0x22 :: rest = u ++ r) : ∃ t', t = u ++ t' ∧ r = t' ++ 0x22 :: rest := by
  rcases List.append_eq_append_iff.mp h with ⟨x, h1, h2⟩ | ⟨x, h1, h2⟩
  · cases x with
    | nil =>
      refine ⟨[], by simpa using h1.symm, by simpa using h2.symm⟩
    | cons y ys =>
      simp only [List.cons_append, List.cons.injEq] at h2
      exact absurd (by rw [h1, ← h2.1]; simp) hu
  · exact ⟨x, h1, h2⟩

theorem encodeRune_small {r : Nat} (h : r < 0x80) : encodeRune r = [UInt8.ofNat r] := by
  unfold encodeRune
  rw [if_pos h]

theorem encodeRune_large {r : Nat} (h : 0x80 ≤ r) : ∀ c ∈ encodeRune r, 0x80 ≤ c.toNat := by
  unfold encodeRune
  rw [if_neg (by omega)]
  (repeat' split) <;>
  · simp only [List.mem_cons, List.not_mem_nil, or_false]
    rintro c hc
    (try rcases hc with rfl | rfl | rfl | rfl) <;> (try rcases hc with rfl | rfl | rfl) <;>
    (try rcases hc with rfl | rfl) <;>
    first
    | decide
    | simp only [UInt8.toNat_ofNat', UInt8.ofNat_add, UInt8.toNat_add]; omega

theorem scalar_of_escape {v : Nat} (hl : v ≤ 0xFFFF) :
    Scalar v ↔ ¬ (0xD800 ≤ v ∧ v < 0xE000) := by
  unfold Scalar
  omega

theorem high_or_low {v : Nat} : High v ∨ Low v ↔ 0xD800 ≤ v ∧ v < 0xE000 := by
  unfold High Low
  omega

theorem simpleEscape_iff : ∀ e x : UInt8, (e, x) ∈ shortEscapes ↔ simpleEscape e = some x := by
  intro e x
  unfold shortEscapes simpleEscape
  simp only [List.mem_cons, Prod.mk.injEq, List.not_mem_nil, or_false]
  constructor
  · rintro (⟨rfl, rfl⟩ | ⟨rfl, rfl⟩ | ⟨rfl, rfl⟩ | ⟨rfl, rfl⟩ | ⟨rfl, rfl⟩ | ⟨rfl, rfl⟩ |
      ⟨rfl, rfl⟩ | ⟨rfl, rfl⟩) <;> rfl
  · intro h
    split at h
    · rename_i he
      cases h
      rcases he with rfl | rfl | rfl <;> simp
    · (repeat' split at h) <;> simp_all

theorem runeError_bytes : encodeRune runeError = [0xEF, 0xBF, 0xBD] := by decide

/-- How the parser reads `\\uXXXX`. -/
theorem parseStr_escape {u : Str} {v : Nat} (h : UnicodeEscape u v) (n : Nat) (t : Str) :
    parseStr (n + 1) (u ++ t) =
      if 0xD800 ≤ v ∧ v < 0xE000 then
        match getu4 t with
        | some (r2, t') =>
          if v < 0xDC00 ∧ 0xDC00 ≤ r2 ∧ r2 < 0xE000 then
            (parseStr n t').map fun (a, t) =>
              (encodeRune ((v - 0xD800) * 1024 + (r2 - 0xDC00) + 0x10000) ++ a, t)
          else (parseStr n t).map fun (a, t) => (encodeRune runeError ++ a, t)
        | none => (parseStr n t).map fun (a, t) => (encodeRune runeError ++ a, t)
      else (parseStr n t).map fun (a, t) => (encodeRune v ++ a, t) := by
  obtain ⟨s, hs, h4, -⟩ := h.cons t
  rw [hs, parseStr.eq_def]
  simp only [h4]
  rw [if_neg (by decide), if_pos trivial, if_pos trivial]
  rfl

theorem parseStr_text {t s : Str} (h : StringText t s) : ∀ (fuel : Nat) (rest : Str),
    t.length < fuel → parseStr fuel (t ++ 0x22 :: rest) = some (s, rest) := by
  induction h with
  | nil =>
    intro fuel rest hf
    obtain ⟨f, rfl⟩ : ∃ f, fuel = f + 1 := ⟨fuel - 1, by omega⟩
    simp [parseStr]
  | @char r t s hr h20 h22 h5c _ ih =>
    intro fuel rest hf
    obtain ⟨f, rfl⟩ : ∃ f, fuel = f + 1 := ⟨fuel - 1, by omega⟩
    have hpos := encodeRune_length_pos r
    rw [List.length_append] at hf
    have ih := ih f rest (by omega)
    by_cases hs : r < 0x80
    · rw [encodeRune_small hs]
      have hn : (UInt8.ofNat r).toNat = r := toNat_ofNat_lt (by omega)
      have e1 : UInt8.ofNat r ≠ 0x22 := by rintro h; rw [h] at hn; exact h22 hn.symm
      have e2 : UInt8.ofNat r ≠ 0x5C := by rintro h; rw [h] at hn; exact h5c hn.symm
      have e3 : ¬ UInt8.ofNat r < 0x20 := by
        rw [UInt8.lt_iff_toNat_lt, hn]; simp only [UInt8.reduceToNat]; omega
      have e4 : UInt8.ofNat r < 0x80 := by
        rw [UInt8.lt_iff_toNat_lt, hn]; simp only [UInt8.reduceToNat]; omega
      simp only [List.cons_append, List.nil_append]
      rw [parseStr.eq_def]
      simp only [e1, e2, e3, e4, if_false, if_true, ih]
      rfl
    · have hall := encodeRune_large (r := r) (by omega)
      have hd := decodeRune_encodeRune hr (t ++ 0x22 :: rest)
      obtain ⟨c, cs, he⟩ : ∃ c cs, encodeRune r = c :: cs :=
        List.exists_cons_of_ne_nil (encodeRune_ne_nil r)
      have hc := hall c (by rw [he]; simp)
      have e1 : c ≠ 0x22 := by rintro rfl; revert hc; decide
      have e2 : c ≠ 0x5C := by rintro rfl; revert hc; decide
      have e3 : ¬ c < 0x20 := by
        rw [UInt8.lt_iff_toNat_lt]; simp only [UInt8.reduceToNat]; omega
      have e4 : ¬ c < 0x80 := by
        rw [UInt8.lt_iff_toNat_lt]; simp only [UInt8.reduceToNat]; omega
      have hdrop : (encodeRune r ++ (t ++ 0x22 :: rest)).drop (encodeRune r).length =
          t ++ 0x22 :: rest := by simp
      rw [List.append_assoc]
      rw [he] at hd hdrop ⊢
      simp only [List.cons_append] at hd hdrop ⊢
      rw [parseStr.eq_def]
      simp only [e1, e2, e3, e4, if_false, hd, hdrop, ih]
      simp [he]
  | @bad c t s hbad _ ih =>
    intro fuel rest hf
    obtain ⟨f, rfl⟩ : ∃ f, fuel = f + 1 := ⟨fuel - 1, by omega⟩
    rw [List.length_cons] at hf
    have ih := ih f rest (by omega)
    have hc : ¬ c < 0x80 := by
      intro hc
      have hn := UInt8.lt_iff_toNat_lt.mp hc
      simp only [UInt8.reduceToNat] at hn
      refine hbad c.toNat t (Or.inl (by omega)) ?_
      rw [encodeRune_small hn]
      simp
    have hd : decodeRune (c :: (t ++ 0x22 :: rest)) = (runeError, 1) := by
      rcases decodeRune_cases c (t ++ 0x22 :: rest) with ⟨h, -⟩ | ⟨r, hr, h, he⟩
      · exact h
      · exfalso
        have hq : (0x22 : UInt8) ∉ encodeRune r := by
          intro hm
          by_cases hs : r < 0x80
          · rw [encodeRune_small hs] at he
            simp only [List.cons_append, List.nil_append, List.cons.injEq] at he
            apply hc
            rw [he.1, UInt8.lt_iff_toNat_lt, toNat_ofNat_lt (by omega)]
            exact hs
          · exact absurd (encodeRune_large (r := r) (by omega) _ hm) (by decide)
        obtain ⟨t', h1, -⟩ := split_quote (t := c :: t) hq he
        exact hbad r t' hr h1
    have hn := mt UInt8.lt_iff_toNat_lt.mpr hc
    simp only [UInt8.reduceToNat] at hn
    have e1 : c ≠ 0x22 := by rintro rfl; exact hn (by decide)
    have e2 : c ≠ 0x5C := by rintro rfl; exact hn (by decide)
    have e3 : ¬ c < 0x20 := by
      rw [UInt8.lt_iff_toNat_lt]; simp only [UInt8.reduceToNat]; omega
    simp only [List.cons_append]
    rw [parseStr.eq_def]
    simp only [e1, e2, e3, hc, if_false, hd, List.drop_succ_cons, List.drop_zero, ih, runeError_bytes]
    rfl
  | @short e x t s hm _ ih =>
    intro fuel rest hf
    obtain ⟨f, rfl⟩ : ∃ f, fuel = f + 1 := ⟨fuel - 1, by omega⟩
    simp only [List.length_cons] at hf
    have ih := ih f rest (by omega)
    have hx := (simpleEscape_iff e x).mp hm
    have he : e ≠ 0x75 := by
      rintro rfl
      rw [show simpleEscape 0x75 = none from by decide] at hx
      cases hx
    simp only [List.cons_append]
    rw [parseStr.eq_def]
    simp only
    rw [if_neg (by decide), if_pos trivial]
    simp only [he, if_false, hx, ih]
    rfl
  | @unicode u t s v hu hv _ ih =>
    intro fuel rest hf
    obtain ⟨f, rfl⟩ : ∃ f, fuel = f + 1 := ⟨fuel - 1, by omega⟩
    obtain ⟨-, -, -, hl⟩ := hu.cons t
    rw [List.length_append] at hf
    rw [List.append_assoc, parseStr_escape hu, if_neg ((scalar_of_escape hu.le).mp hv),
      ih f rest (by omega)]
    rfl
  | @pair u u' t s v v' hu hu' hv hv' _ ih =>
    intro fuel rest hf
    obtain ⟨f, rfl⟩ : ∃ f, fuel = f + 1 := ⟨fuel - 1, by omega⟩
    obtain ⟨-, -, -, hl⟩ := hu.cons t
    rw [List.length_append, List.length_append] at hf
    rw [List.append_assoc, List.append_assoc, parseStr_escape hu,
      if_pos (high_or_low.mp (Or.inl hv)), (getu4_iff _ _ _).mpr ⟨u', hu', rfl⟩]
    simp only
    unfold High at hv
    unfold Low at hv'
    have hn : (v - 0xD800) * 1024 + (v' - 0xDC00) + 0x10000 =
        0x10000 + (v - 0xD800) * 0x400 + (v' - 0xDC00) := by omega
    rw [if_pos (by omega), ih f rest (by omega), hn]
    simp only [Option.map_some]
  | @lone u t s v hu hv hno _ ih =>
    intro fuel rest hf
    obtain ⟨f, rfl⟩ : ∃ f, fuel = f + 1 := ⟨fuel - 1, by omega⟩
    obtain ⟨-, -, -, hl⟩ := hu.cons t
    rw [List.length_append] at hf
    rw [List.append_assoc, parseStr_escape hu, if_pos (high_or_low.mp hv), ih f rest (by omega)]
    cases hg : getu4 (t ++ 0x22 :: rest) with
    | none => simp [runeError_bytes]
    | some p =>
      obtain ⟨v', r⟩ := p
      obtain ⟨u', hu', he⟩ := (getu4_iff _ _ _).mp hg
      obtain ⟨t', rfl, rfl⟩ := split_quote hu'.no_quote he
      have hv2 := high_or_low.mp hv
      simp only
      rw [if_neg (by
        rintro ⟨h1, h2, h3⟩
        exact hno ⟨⟨hv2.1, by omega⟩, u', v', t', hu', ⟨h2, by omega⟩, rfl⟩)]
      simp [runeError_bytes]

theorem text_of_parseStr (n : Nat) : ∀ (s a r : Str), parseStr n s = some (a, r) →
    ∃ t, s = t ++ 0x22 :: r ∧ StringText t a := by
  induction n with
  | zero => intro s a r h; simp [parseStr] at h
  | succ n ih =>
    intro s a r h
    cases s with
    | nil => simp [parseStr] at h
    | cons c cs =>
      have h0 := h
      rw [parseStr.eq_def] at h
      simp only at h
      split at h
      · rename_i hc
        cases h
        exact ⟨[], by rw [hc]; rfl, .nil⟩
      · rename_i hc22
        split at h
        · rename_i hc
          cases cs with
          | nil => cases h
          | cons e rest =>
            simp only at h
            split at h
            · rename_i he
              cases h4 : hex4 rest with
              | none => simp [h4] at h
              | some p =>
                obtain ⟨v, r1⟩ := p
                obtain ⟨u, hu, heq⟩ := (hex4_iff _ _ _).mp h4
                rw [hc, he, heq]
                rw [hc, he, heq, parseStr_escape hu] at h0
                split at h0
                · rename_i hsur
                  cases hg : getu4 r1 with
                  | none =>
                    simp only [hg] at h0
                    obtain ⟨⟨a', r'⟩, hp, hf⟩ := map_eq_some' h0
                    cases hf
                    obtain ⟨t, rfl, ht⟩ := ih _ _ _ hp
                    refine ⟨u ++ t, by simp, ?_⟩
                    rw [runeError_bytes]
                    refine .lone hu (high_or_low.mpr hsur) ?_ ht
                    rintro ⟨-, u', v', t', hu', -, rfl⟩
                    rw [(getu4_iff _ v' (t' ++ 0x22 :: r')).mpr ⟨u', hu', by simp⟩] at hg
                    cases hg
                  | some p =>
                    obtain ⟨v2, r2⟩ := p
                    simp only [hg] at h0
                    split at h0
                    · rename_i hpair
                      obtain ⟨⟨a', r'⟩, hp, hf⟩ := map_eq_some' h0
                      simp only [Prod.mk.injEq] at hf
                      obtain ⟨rfl, rfl⟩ := hf
                      obtain ⟨t, rfl, ht⟩ := ih _ _ _ hp
                      obtain ⟨u', hu', rfl⟩ := (getu4_iff _ _ _).mp hg
                      refine ⟨u ++ u' ++ t, by simp, ?_⟩
                      have := StringText.pair hu hu' ⟨hsur.1, by omega⟩ ⟨hpair.2.1, by omega⟩ ht
                      have hn : 0x10000 + (v - 0xD800) * 0x400 + (v2 - 0xDC00) =
                          (v - 0xD800) * 1024 + (v2 - 0xDC00) + 0x10000 := by omega
                      rw [hn] at this
                      exact this
                    · rename_i hpair
                      obtain ⟨⟨a', r'⟩, hp, hf⟩ := map_eq_some' h0
                      cases hf
                      obtain ⟨t, rfl, ht⟩ := ih _ _ _ hp
                      refine ⟨u ++ t, by simp, ?_⟩
                      rw [runeError_bytes]
                      refine .lone hu (high_or_low.mpr hsur) ?_ ht
                      rintro ⟨hh, u', v', t', hu', hlow, rfl⟩
                      rw [(getu4_iff _ v' (t' ++ 0x22 :: r')).mpr ⟨u', hu', by simp⟩] at hg
                      cases hg
                      unfold High at hh
                      unfold Low at hlow
                      exact hpair (by omega)
                · rename_i hsur
                  obtain ⟨⟨a', r'⟩, hp, hf⟩ := map_eq_some' h0
                  cases hf
                  obtain ⟨t, rfl, ht⟩ := ih _ _ _ hp
                  exact ⟨u ++ t, by simp, .unicode hu ((scalar_of_escape hu.le).mpr hsur) ht⟩
            · cases hx : simpleEscape e with
              | none => simp [hx] at h
              | some x =>
                simp only [hx] at h
                obtain ⟨⟨a', r'⟩, hp, hf⟩ := map_eq_some' h
                cases hf
                obtain ⟨t, rfl, ht⟩ := ih _ _ _ hp
                refine ⟨0x5C :: e :: t, by rw [hc]; rfl, .short ((simpleEscape_iff e x).mpr hx) ht⟩
        · rename_i hc5c
          split at h
          · cases h
          · rename_i hc20
            have hn20 := mt UInt8.lt_iff_toNat_lt.mpr hc20
            simp only [UInt8.reduceToNat] at hn20
            split at h
            · rename_i hc80
              have hn80 := UInt8.lt_iff_toNat_lt.mp hc80
              simp only [UInt8.reduceToNat] at hn80
              obtain ⟨⟨a', r'⟩, hp, hf⟩ := map_eq_some' h
              cases hf
              obtain ⟨t, rfl, ht⟩ := ih _ _ _ hp
              have := StringText.char (r := c.toNat) (Or.inl (by omega)) (by omega)
                (fun h => hc22 (UInt8.toNat_inj.mp h)) (fun h => hc5c (UInt8.toNat_inj.mp h)) ht
              rw [encodeRune_small hn80] at this
              refine ⟨c :: t, rfl, ?_⟩
              simpa using this
            · rename_i hc80
              have hn80 := mt UInt8.lt_iff_toNat_lt.mpr hc80
              simp only [UInt8.reduceToNat] at hn80
              rcases decodeRune_cases c cs with ⟨hd, -⟩ | ⟨rn, hr, hd, he⟩
              · simp only [hd, List.drop_succ_cons, List.drop_zero] at h
                obtain ⟨⟨a', r'⟩, hp, hf⟩ := map_eq_some' h
                cases hf
                obtain ⟨t, rfl, ht⟩ := ih _ _ _ hp
                refine ⟨c :: t, rfl, ?_⟩
                rw [runeError_bytes]
                refine .bad ?_ ht
                intro rn rest hr he
                refine decodeRune_bad hd rn (rest ++ 0x22 :: r') hr ?_
                rw [← List.append_assoc, ← he]
                rfl
              · simp only [hd] at h
                obtain ⟨⟨a', r'⟩, hp, hf⟩ := map_eq_some' h
                cases hf
                obtain ⟨t, hdrop, ht⟩ := ih _ _ _ hp
                have hbig : 0x80 ≤ rn := by
                  refine Nat.le_of_not_lt fun hs => ?_
                  rw [encodeRune_small (by omega)] at he
                  simp only [List.cons_append, List.nil_append, List.cons.injEq] at he
                  apply hn80
                  rw [he.1, toNat_ofNat_lt (by omega)]
                  omega
                refine ⟨encodeRune rn ++ t, ?_, .char hr (by omega) (by omega) (by omega) ht⟩
                rw [he, hdrop, List.append_assoc]

/-! ### Numbers -/

theorem digits_of_takeWhile (s : Str) : ∀ x ∈ s.takeWhile isDigit, Digit x := fun _ hx =>
  isDigit_digit (List.all_eq_true.mp List.all_takeWhile _ hx)

theorem text_of_numInt {s a r : Str} (h : numInt s = some (a, r)) : s = a ++ r ∧
    (a = b!"0" ∨ ∃ c cs, a = c :: cs ∧ c ≠ 0x30 ∧ Digit c ∧ ∀ x ∈ cs, Digit x) := by
  unfold numInt at h
  split at h
  · cases h
  · rename_i c cs
    split at h
    · rename_i hc
      cases h
      exact ⟨rfl, Or.inl (by rw [hc])⟩
    · rename_i hc
      split at h
      · rename_i hd
        cases h
        refine ⟨?_, Or.inr ⟨c, _, rfl, hc, isDigit_digit hd, digits_of_takeWhile cs⟩⟩
        simp
      · cases h

theorem text_of_numFrac {s a r : Str} (h : numFrac s = some (a, r)) : s = a ++ r ∧
    (a = [] ∨ ∃ ds, ds ≠ [] ∧ (∀ x ∈ ds, Digit x) ∧ a = b!"." ++ ds) := by
  unfold numFrac at h
  split at h
  · cases h
    exact ⟨rfl, Or.inl rfl⟩
  · rename_i c cs
    split at h
    · rename_i hc
      split at h
      · cases h
      · rename_i hne
        cases h
        refine ⟨by simp, Or.inr ⟨_, hne, digits_of_takeWhile cs, by rw [hc]; rfl⟩⟩
    · cases h
      exact ⟨rfl, Or.inl rfl⟩

theorem text_of_numExp {s a r : Str} (h : numExp s = some (a, r)) : s = a ++ r ∧
    (a = [] ∨ ∃ e sign ds : Str, (e = b!"e" ∨ e = b!"E") ∧
      (sign = [] ∨ sign = b!"+" ∨ sign = b!"-") ∧ ds ≠ [] ∧ (∀ x ∈ ds, Digit x) ∧
      a = e ++ sign ++ ds) := by
  unfold numExp at h
  split at h
  · cases h
    exact ⟨rfl, Or.inl rfl⟩
  · rename_i c cs
    split at h
    · rename_i hc
      have he : [c] = b!"e" ∨ [c] = b!"E" := by
        rcases hc with rfl | rfl
        · exact Or.inl rfl
        · exact Or.inr rfl
      cases cs with
      | nil => simp at h
      | cons x xs =>
        simp only at h
        by_cases hx : x = 0x2B ∨ x = 0x2D
        · simp only [hx, if_true] at h
          split at h
          · cases h
          · rename_i hne
            cases h
            refine ⟨by simp, Or.inr ⟨[c], [x], _, he, ?_, hne, digits_of_takeWhile xs, rfl⟩⟩
            rcases hx with rfl | rfl
            · exact Or.inr (Or.inl rfl)
            · exact Or.inr (Or.inr rfl)
        · simp only [hx, if_false] at h
          split at h
          · cases h
          · rename_i hne
            cases h
            exact ⟨by simp, Or.inr ⟨[c], [], _, he, Or.inl rfl, hne, digits_of_takeWhile (x :: xs),
              by simp⟩⟩
    · cases h
      exact ⟨rfl, Or.inl rfl⟩

theorem text_of_parseNum {s lit r : Str} (h : parseNum s = some (lit, r)) :
    s = lit ++ r ∧ NumberText lit := by
  have key : ∀ (sign s : Str), (sign = [] ∨ sign = b!"-") →
      (do let (i, s) ← numInt s
          let (f, s) ← numFrac s
          let (e, s) ← numExp s
          return (sign ++ i ++ f ++ e, s) : Option (Str × Str)) = some (lit, r) →
      sign ++ s = lit ++ r ∧ NumberText lit := by
    intro sign s hs h
    cases hi : numInt s with
    | none => simp [hi] at h
    | some p =>
      obtain ⟨i, s1⟩ := p
      cases hf : numFrac s1 with
      | none => simp [hi, hf] at h
      | some p =>
        obtain ⟨f, s2⟩ := p
        cases he : numExp s2 with
        | none => simp [hi, hf, he] at h
        | some p =>
          obtain ⟨e, s3⟩ := p
          simp [hi, hf, he] at h
          obtain ⟨rfl, rfl⟩ := h
          obtain ⟨rfl, h1⟩ := text_of_numInt hi
          obtain ⟨rfl, h2⟩ := text_of_numFrac hf
          obtain ⟨rfl, h3⟩ := text_of_numExp he
          exact ⟨by simp, sign, i, f, e, by simp, hs, h1, h2, h3⟩
  unfold parseNum at h
  cases s with
  | nil => simp [numInt] at h
  | cons c cs =>
    simp only at h
    by_cases hc : c = 0x2D
    · simp only [hc, if_true] at h
      have := key [c] cs (Or.inr (by rw [hc])) (by rw [hc]; exact h)
      exact this
    · simp only [hc, if_false] at h
      exact key [] (c :: cs) (Or.inl rfl) h

/-! ### White space -/

theorem isJsonWs_iff (c : UInt8) :
    isJsonWs c = true ↔ c = 0x20 ∨ c = 0x09 ∨ c = 0x0A ∨ c = 0x0D := by
  unfold isJsonWs
  simp [or_assoc]

theorem space_of_takeWhile (s : Str) : Space (s.takeWhile isJsonWs) := fun _ hx =>
  (isJsonWs_iff _).mp (List.all_eq_true.mp List.all_takeWhile _ hx)

theorem skipWs_split (s : Str) : ∃ a, Space a ∧ s = a ++ skipWs s :=
  ⟨_, space_of_takeWhile s, (List.takeWhile_append_dropWhile ..).symm⟩

theorem skipWs_space {a : Str} (h : Space a) (s : Str) : skipWs (a ++ s) = skipWs s := by
  unfold skipWs
  rw [List.dropWhile_append_of_pos fun x hx => (isJsonWs_iff x).mpr (h x hx)]

theorem skipWs_idem (s : Str) : skipWs (skipWs s) = skipWs s := by
  obtain ⟨a, ha, he⟩ := skipWs_split s
  have h := skipWs_space ha (skipWs s)
  rw [← he] at h
  exact h.symm

theorem parseValue_skip (n d : Nat) (s : Str) : parseValue n d (skipWs s) = parseValue n d s := by
  cases n with
  | zero => simp [parseValue]
  | succ n => rw [parseValue.eq_def, parseValue.eq_def (n + 1) d s]; simp only [skipWs_idem]

theorem parseElems_skip (n d : Nat) (s : Str) : parseElems n d (skipWs s) = parseElems n d s := by
  cases n with
  | zero => simp [parseElems]
  | succ n => rw [parseElems.eq_def, parseElems.eq_def (n + 1) d s]; simp only [parseValue_skip]

theorem parseMembers_skip (n d : Nat) (s : Str) :
    parseMembers n d (skipWs s) = parseMembers n d s := by
  cases n with
  | zero => simp [parseMembers]
  | succ n => rw [parseMembers.eq_def, parseMembers.eq_def (n + 1) d s]; simp only [skipWs_idem]

theorem parseValue_space {a : Str} (h : Space a) (n d : Nat) (s : Str) :
    parseValue n d (a ++ s) = parseValue n d s := by
  rw [← parseValue_skip, skipWs_space h, parseValue_skip]

theorem numEnd_space {b rest : Str} (hb : Space b) (hr : numEnd rest) : numEnd (b ++ rest) := by
  cases b with
  | nil => exact hr
  | cons c b =>
    refine numEnd_cons ?_ _
    rcases hb c (by simp) with rfl | rfl | rfl | rfl <;> decide

/-! ### What the grammar has, the parser accepts -/

theorem encodes_text (k : Nat) {t s : Str} (h : StringText t s) :
    Encodes k (b!"\"" ++ t ++ b!"\"") (.str s) := by
  refine Parses.encodes ?_ (by simp) k
  intro fuel d rest hf _
  obtain ⟨f, rfl⟩ : ∃ f, fuel = f + 1 := ⟨fuel - 1, by omega⟩
  simp only [List.cons_append, List.append_assoc, List.nil_append]
  rw [parseValue.eq_def]
  simp only
  rw [skipWs_cons (by decide)]
  have e1 : ¬ ((0x22 : UInt8) = 0x7B) := by decide
  have e2 : ¬ ((0x22 : UInt8) = 0x5B) := by decide
  simp only [e1, e2, if_false, if_true]
  rw [parseStr_text h _ rest (by simp; omega)]
  rfl

/-- The parser reads the elements, whatever follows the closing bracket. -/
def ReadsElements (k : Nat) (l : List JSON) (t : Str) : Prop :=
  ∀ fuel d rest, t.length < fuel → d + k ≤ maxDepth →
    parseElems fuel d (t ++ 0x5D :: rest) = some (l, rest)

/-- The parser reads the members, whatever follows the closing brace. -/
def ReadsMembers (k : Nat) (l : List (Str × JSON)) (t : Str) : Prop :=
  ∀ fuel d rest, t.length < fuel → d + k ≤ maxDepth →
    parseMembers fuel d (t ++ 0x7D :: rest) = some (l, rest)

/-- The parser reads the document with the white space in front of it; that after it is left. -/
def ReadsText (k : Nat) (v : JSON) (t : Str) : Prop :=
  t ≠ [] ∧ ∃ t' b, Space b ∧ t = t' ++ b ∧ ∀ fuel d rest, t.length ≤ fuel → d + k ≤ maxDepth →
    numEnd rest → parseValue fuel d (t ++ rest) = some (v, b ++ rest)

theorem readsText {k : Nat} {v : JSON} {a t b : Str} (ha : Space a) (h : Encodes k t v)
    (hb : Space b) : ReadsText k v (a ++ t ++ b) := by
  refine ⟨by simp [h.1], a ++ t, b, hb, rfl, fun fuel d rest hf hd hr => ?_⟩
  simp only [List.length_append] at hf
  rw [List.append_assoc, List.append_assoc, parseValue_space ha]
  exact h.2 fuel d (b ++ rest) (by omega) hd (numEnd_space hb hr)

theorem parseValue_start {n d : Nat} {s : Str} {x : JSON × Str} (h : parseValue n d s = some x) :
    ∃ c cs, skipWs s = c :: cs ∧ c ≠ 0x5D := by
  cases n with
  | zero => simp [parseValue] at h
  | succ n =>
    rw [parseValue.eq_def] at h
    simp only at h
    cases hs : skipWs s with
    | nil => simp only [hs] at h; exact nomatch h
    | cons c cs =>
      refine ⟨c, cs, rfl, ?_⟩
      rintro rfl
      rw [hs] at h
      simp [parseNum, numInt, isDigit, inRange] at h

theorem parseElems_start {n d : Nat} {s : Str} {x : List JSON × Str}
    (h : parseElems n d s = some x) : ∃ c cs, skipWs s = c :: cs ∧ c ≠ 0x5D := by
  cases n with
  | zero => simp [parseElems] at h
  | succ n =>
    rw [parseElems.eq_def] at h
    simp only at h
    cases hv : parseValue n d s with
    | none => simp only [hv] at h; exact nomatch h
    | some x => exact parseValue_start hv

theorem parseMembers_start {n d : Nat} {s : Str} {x : List (Str × JSON) × Str}
    (h : parseMembers n d s = some x) : ∃ cs, skipWs s = 0x22 :: cs := by
  cases n with
  | zero => simp [parseMembers] at h
  | succ n =>
    rw [parseMembers.eq_def] at h
    simp only at h
    cases hs : skipWs s with
    | nil => simp only [hs] at h; exact nomatch h
    | cons c cs =>
      simp only [hs] at h
      by_cases hc : c = 0x22
      · exact ⟨cs, by rw [hc]⟩
      · rw [if_pos hc] at h; exact nomatch h

theorem readsElements_one {k : Nat} {v : JSON} {t : Str} (h : ReadsText k v t) :
    ReadsElements k [v] t := by
  intro fuel d rest hf hd
  obtain ⟨f, rfl⟩ : ∃ f, fuel = f + 1 := ⟨fuel - 1, by omega⟩
  obtain ⟨-, t', b, hb, -, hp⟩ := h
  rw [parseElems.eq_def]
  simp only [hp f d (0x5D :: rest) (by omega) hd (numEnd_cons (by decide) rest), skipWs_space hb]
  rw [skipWs_cons (by decide)]
  simp

theorem readsElements_more {k : Nat} {v : JSON} {t ts : Str} {l : List JSON} (h : ReadsText k v t)
    (hl : ReadsElements k l ts) : ReadsElements k (v :: l) (t ++ b!"," ++ ts) := by
  intro fuel d rest hf hd
  obtain ⟨f, rfl⟩ : ∃ f, fuel = f + 1 := ⟨fuel - 1, by omega⟩
  obtain ⟨-, t', b, hb, -, hp⟩ := h
  simp only [List.length_append, List.length_cons, List.length_nil] at hf
  simp only [List.append_assoc, List.cons_append, List.nil_append]
  rw [parseElems.eq_def]
  simp only [hp f d (0x2C :: (ts ++ 0x5D :: rest)) (by omega) hd (numEnd_cons (by decide) _),
    skipWs_space hb]
  rw [skipWs_cons (by decide)]
  have e1 : ¬ ((0x2C : UInt8) = 0x5D) := by decide
  simp only [e1, if_false, if_true]
  rw [hl f d rest (by omega) hd]
  rfl

theorem parseMembers_member {k : Nat} {v : JSON} {key kt a b t : Str} (ha : Space a)
    (hk : StringText kt key) (hb : Space b) (h : ReadsText k v t) (f d : Nat) (rest : Str)
    (hf : t.length ≤ f) (hd : d + k ≤ maxDepth) (hr : numEnd rest) :
    parseMembers (f + 1) d (a ++ b!"\"" ++ kt ++ b!"\"" ++ b ++ b!":" ++ t ++ rest) =
      match skipWs rest with
      | [] => none
      | e :: s5 =>
        if e = 0x7D then some ([(key, v)], s5)
        else if e = 0x2C then (parseMembers f d s5).map fun (l, r) => ((key, v) :: l, r)
        else none := by
  obtain ⟨-, t', b', hb', -, hp⟩ := h
  simp only [List.append_assoc, List.cons_append, List.nil_append]
  rw [parseMembers.eq_def]
  simp only [skipWs_space ha]
  rw [skipWs_cons (by decide)]
  simp only [ne_eq, not_true, if_false]
  rw [parseStr_text hk _ _ (by simp; omega)]
  simp only [skipWs_space hb]
  rw [skipWs_cons (by decide)]
  simp only [not_true, if_false]
  rw [hp f d rest hf hd hr]
  simp only [skipWs_space hb']
  rfl

theorem readsMembers_one {k : Nat} {v : JSON} {key kt a b t : Str} (ha : Space a)
    (hk : StringText kt key) (hb : Space b) (h : ReadsText k v t) :
    ReadsMembers k [(key, v)] (a ++ b!"\"" ++ kt ++ b!"\"" ++ b ++ b!":" ++ t) := by
  intro fuel d rest hf hd
  obtain ⟨f, rfl⟩ : ∃ f, fuel = f + 1 := ⟨fuel - 1, by omega⟩
  simp only [List.length_append] at hf
  rw [parseMembers_member ha hk hb h f d _ (by omega) hd (numEnd_cons (by decide) rest),
    skipWs_cons (by decide)]
  simp

theorem readsMembers_more {k : Nat} {v : JSON} {key kt a b t ts : Str} {l : List (Str × JSON)}
    (ha : Space a) (hk : StringText kt key) (hb : Space b) (h : ReadsText k v t)
    (hl : ReadsMembers k l ts) :
    ReadsMembers k ((key, v) :: l)
      (a ++ b!"\"" ++ kt ++ b!"\"" ++ b ++ b!":" ++ t ++ b!"," ++ ts) := by
  intro fuel d rest hf hd
  obtain ⟨f, rfl⟩ : ∃ f, fuel = f + 1 := ⟨fuel - 1, by omega⟩
  simp only [List.length_append, List.length_cons, List.length_nil] at hf
  rw [List.append_assoc, List.append_assoc _ b!"," _,
    parseMembers_member ha hk hb h f d _ (by omega) hd
      (show numEnd (b!"," ++ _) from numEnd_cons (by decide) _)]
  simp only [List.cons_append, List.nil_append]
  rw [skipWs_cons (by decide)]
  have e1 : ¬ ((0x2C : UInt8) = 0x7D) := by decide
  simp only [e1, if_false, if_true]
  rw [hl f d rest (by omega) hd]
  rfl

theorem encodes_open {k : Nat} {w : Str} (hw : Space w) :
    Encodes (k + 1) (b!"[" ++ w ++ b!"]") (.arr []) := by
  refine ⟨by simp, fun fuel d rest hf hd _ => ?_⟩
  simp only [List.length_append, List.length_cons] at hf
  obtain ⟨f, rfl⟩ : ∃ f, fuel = f + 1 := ⟨fuel - 1, by omega⟩
  have e1 : ¬ ((0x5B : UInt8) = 0x7B) := by decide
  have hmax : ¬ maxDepth ≤ d := by omega
  simp only [List.cons_append, List.nil_append, List.append_assoc]
  rw [parseValue.eq_def]
  simp only
  rw [skipWs_cons (by decide)]
  simp only [e1, hmax, if_false, if_true, skipWs_space hw]
  rw [skipWs_cons (by decide)]
  simp

/-- The parser reads the object, whatever follows. -/
def ReadsObject (k : Nat) (l : List (Str × JSON)) (t : Str) : Prop :=
  t ≠ [] ∧ ∀ fuel d rest, t.length ≤ fuel → d + k ≤ maxDepth →
    parseValue fuel d (t ++ rest) = some (.obj l, rest)

theorem ReadsObject.encodes {k : Nat} {l : List (Str × JSON)} {t : Str} (h : ReadsObject k l t) :
    Encodes k t (.obj l) := ⟨h.1, fun fuel d rest hf hd _ => h.2 fuel d rest hf hd⟩

theorem reads_openObj {k : Nat} {w : Str} (hw : Space w) :
    ReadsObject (k + 1) [] (b!"{" ++ w ++ b!"}") := by
  refine ⟨by simp, fun fuel d rest hf hd => ?_⟩
  simp only [List.length_append, List.length_cons] at hf
  obtain ⟨f, rfl⟩ : ∃ f, fuel = f + 1 := ⟨fuel - 1, by omega⟩
  have hmax : ¬ maxDepth ≤ d := by omega
  simp only [List.cons_append, List.nil_append, List.append_assoc]
  rw [parseValue.eq_def]
  simp only
  rw [skipWs_cons (by decide)]
  simp only [hmax, if_false, if_true, skipWs_space hw]
  rw [skipWs_cons (by decide)]
  simp

theorem encodes_elements {k : Nat} {l : List JSON} {t : Str} (h : ReadsElements k l t) :
    Encodes (k + 1) (b!"[" ++ t ++ b!"]") (.arr l) := by
  refine ⟨by simp, fun fuel d rest hf hd _ => ?_⟩
  simp only [List.length_append, List.length_cons, List.length_nil] at hf
  obtain ⟨f, rfl⟩ : ∃ f, fuel = f + 1 := ⟨fuel - 1, by omega⟩
  have e1 : ¬ ((0x5B : UInt8) = 0x7B) := by decide
  have hmax : ¬ maxDepth ≤ d := by omega
  have hp := h f (d + 1) rest (by omega) (by omega)
  obtain ⟨c, cs, hs, hc⟩ := parseElems_start hp
  rw [← parseElems_skip, hs] at hp
  simp only [List.cons_append, List.nil_append, List.append_assoc]
  rw [parseValue.eq_def]
  simp only
  rw [skipWs_cons (by decide)]
  simp only [e1, hmax, if_false, if_true, hs, hc, hp]
  rfl

theorem reads_members {k : Nat} {l : List (Str × JSON)} {t : Str} (h : ReadsMembers k l t) :
    ReadsObject (k + 1) l (b!"{" ++ t ++ b!"}") := by
  refine ⟨by simp, fun fuel d rest hf hd => ?_⟩
  simp only [List.length_append, List.length_cons, List.length_nil] at hf
  obtain ⟨f, rfl⟩ : ∃ f, fuel = f + 1 := ⟨fuel - 1, by omega⟩
  have e1 : ¬ ((0x22 : UInt8) = 0x7D) := by decide
  have hmax : ¬ maxDepth ≤ d := by omega
  have hp := h f (d + 1) rest (by omega) (by omega)
  obtain ⟨cs, hs⟩ := parseMembers_start hp
  rw [← parseMembers_skip, hs] at hp
  simp only [List.cons_append, List.nil_append, List.append_assoc]
  rw [parseValue.eq_def]
  simp only
  rw [skipWs_cons (by decide)]
  simp only [e1, hmax, if_false, if_true, hs, hp]
  rfl

mutual
theorem Spec.JsonText.reads {n : Nat} {v : JSON} {t : Str} : JsonText n v t → ReadsText n v t
  | .mk ha h hb => readsText ha (Spec.JsonValue.reads h) hb

theorem Spec.JsonValue.reads {n : Nat} {v : JSON} {t : Str} : JsonValue n v t → Encodes n t v
  | .null => encodes_null n
  | .true => encodes_bool n Bool.true
  | .false => encodes_bool n Bool.false
  | .num h => encodes_num n h
  | .str h => encodes_text n h
  | .empty hw => encodes_open hw
  | .arr h => encodes_elements (Spec.JsonElements.reads h)
  | .emptyObj hw => (reads_openObj hw).encodes
  | .obj h => (reads_members (Spec.JsonMembers.reads h)).encodes

theorem Spec.JsonElements.reads {n : Nat} {l : List JSON} {t : Str} :
    JsonElements n l t → ReadsElements n l t
  | .one h => readsElements_one (Spec.JsonText.reads h)
  | .more h hl => readsElements_more (Spec.JsonText.reads h) (Spec.JsonElements.reads hl)

theorem Spec.JsonMembers.reads {n : Nat} {l : List (Str × JSON)} {t : Str} :
    JsonMembers n l t → ReadsMembers n l t
  | .one ha hk hb h => readsMembers_one ha hk hb (Spec.JsonText.reads h)
  | .more ha hk hb h hl =>
    readsMembers_more ha hk hb (Spec.JsonText.reads h) (Spec.JsonMembers.reads hl)
end

theorem Spec.JsonValue.readsObject {n : Nat} {l : List (Str × JSON)} {t : Str}
    (h : JsonValue n (.obj l) t) : ReadsObject n l t := by
  cases h with
  | emptyObj hw => exact reads_openObj hw
  | obj h => exact reads_members h.reads

/-! ### What the parser accepts, the grammar has -/

/-- What the parser does at nesting depth `d` with this much fuel is in the grammar. -/
def SoundAt (n d : Nat) : Prop :=
  (∀ s v r, parseValue n d s = some (v, r) →
    ∃ a t, Space a ∧ JsonValue (maxDepth - d) v t ∧ s = a ++ t ++ r) ∧
  (∀ s l r, parseElems n d s = some (l, r) →
    ∃ t, JsonElements (maxDepth - d) l t ∧ s = t ++ b!"]" ++ r) ∧
  (∀ s l r, parseMembers n d s = some (l, r) →
    ∃ t, JsonMembers (maxDepth - d) l t ∧ s = t ++ b!"}" ++ r)

theorem sound_value {n d : Nat} (h : SoundAt n (d + 1)) (s : Str) (v : JSON) (r : Str)
    (hp : parseValue (n + 1) d s = some (v, r)) :
    ∃ a t, Space a ∧ JsonValue (maxDepth - d) v t ∧ s = a ++ t ++ r := by
  obtain ⟨a, ha, hs⟩ := skipWs_split s
  suffices hg : ∃ t, JsonValue (maxDepth - d) v t ∧ skipWs s = t ++ r by
    obtain ⟨t, ht, he⟩ := hg
    exact ⟨a, t, ha, ht, by rw [List.append_assoc, ← he]; exact hs⟩
  rw [parseValue.eq_def] at hp
  simp only at hp
  cases hc : skipWs s with
  | nil => simp only [hc] at hp; exact nomatch hp
  | cons c cs =>
    simp only [hc] at hp
    obtain ⟨w, hw, hcs⟩ := skipWs_split cs
    split at hp
    · rename_i h1
      subst h1
      split at hp
      · exact nomatch hp
      · rename_i hd
        rw [show maxDepth - d = (maxDepth - (d + 1)) + 1 from by omega]
        cases hx : skipWs cs with
        | nil => simp only [hx] at hp; exact nomatch hp
        | cons x xs =>
          simp only [hx] at hp
          split at hp
          · rename_i h2
            subst h2
            cases hp
            exact ⟨_, .emptyObj hw, by rw [hcs, hx]; simp⟩
          · obtain ⟨⟨l, r'⟩, hm, he⟩ := map_eq_some' hp
            cases he
            rw [← hx, parseMembers_skip] at hm
            obtain ⟨t, ht, he⟩ := h.2.2 _ _ _ hm
            exact ⟨_, .obj ht, by rw [he]; simp⟩
    split at hp
    · rename_i h1
      subst h1
      split at hp
      · exact nomatch hp
      · rename_i hd
        rw [show maxDepth - d = (maxDepth - (d + 1)) + 1 from by omega]
        cases hx : skipWs cs with
        | nil => simp only [hx] at hp; exact nomatch hp
        | cons x xs =>
          simp only [hx] at hp
          split at hp
          · rename_i h2
            subst h2
            cases hp
            exact ⟨_, .empty hw, by rw [hcs, hx]; simp⟩
          · obtain ⟨⟨l, r'⟩, hm, he⟩ := map_eq_some' hp
            cases he
            rw [← hx, parseElems_skip] at hm
            obtain ⟨t, ht, he⟩ := h.2.1 _ _ _ hm
            exact ⟨_, .arr ht, by rw [he]; simp⟩
    split at hp
    · rename_i h1
      subst h1
      obtain ⟨⟨u, r'⟩, hm, he⟩ := map_eq_some' hp
      cases he
      obtain ⟨t, he, ht⟩ := text_of_parseStr _ _ _ _ hm
      exact ⟨_, .str ht, by rw [he]; simp⟩
    split at hp
    · rename_i h1
      subst h1
      obtain ⟨r', hm, he⟩ := map_eq_some' hp
      cases he
      exact ⟨_, .true, by rw [(stripPrefix_some_iff _ _ _).mp hm]; simp⟩
    split at hp
    · rename_i h1
      subst h1
      obtain ⟨r', hm, he⟩ := map_eq_some' hp
      cases he
      exact ⟨_, .false, by rw [(stripPrefix_some_iff _ _ _).mp hm]; simp⟩
    split at hp
    · rename_i h1
      subst h1
      obtain ⟨r', hm, he⟩ := map_eq_some' hp
      cases he
      exact ⟨_, .null, by rw [(stripPrefix_some_iff _ _ _).mp hm]; simp⟩
    · obtain ⟨⟨u, r'⟩, hm, he⟩ := map_eq_some' hp
      cases he
      obtain ⟨he, ht⟩ := text_of_parseNum hm
      exact ⟨_, .num ht, he⟩

theorem sound_elems {n d : Nat} (h : SoundAt n d) (s : Str) (l : List JSON) (r : Str)
    (hp : parseElems (n + 1) d s = some (l, r)) :
    ∃ t, JsonElements (maxDepth - d) l t ∧ s = t ++ b!"]" ++ r := by
  rw [parseElems.eq_def] at hp
  simp only at hp
  cases hv : parseValue n d s with
  | none => simp only [hv] at hp; exact nomatch hp
  | some x =>
    obtain ⟨v, s1⟩ := x
    simp only [hv] at hp
    obtain ⟨a, t, ha, ht, he⟩ := h.1 _ _ _ hv
    obtain ⟨b, hb, hs1⟩ := skipWs_split s1
    cases hs : skipWs s1 with
    | nil => simp only [hs] at hp; exact nomatch hp
    | cons e s2 =>
      simp only [hs] at hp
      split at hp
      · rename_i h1
        subst h1
        cases hp
        exact ⟨_, .one (.mk ha ht hb), by rw [he, hs1, hs]; simp⟩
      split at hp
      · rename_i h1
        subst h1
        obtain ⟨⟨l', r'⟩, hm, he'⟩ := map_eq_some' hp
        cases he'
        obtain ⟨ts, hts, he2⟩ := h.2.1 _ _ _ hm
        exact ⟨_, .more (.mk ha ht hb) hts, by rw [he, hs1, hs, he2]; simp⟩
      · exact nomatch hp

theorem sound_members {n d : Nat} (h : SoundAt n d) (s : Str) (l : List (Str × JSON)) (r : Str)
    (hp : parseMembers (n + 1) d s = some (l, r)) :
    ∃ t, JsonMembers (maxDepth - d) l t ∧ s = t ++ b!"}" ++ r := by
  obtain ⟨a, ha, hsa⟩ := skipWs_split s
  rw [parseMembers.eq_def] at hp
  simp only at hp
  cases hq : skipWs s with
  | nil => simp only [hq] at hp; exact nomatch hp
  | cons q s1 =>
    simp only [hq] at hp
    split at hp
    · exact nomatch hp
    rename_i h1
    have h1 := Decidable.of_not_not h1
    subst h1
    cases hk : parseStr (s1.length + 1) s1 with
    | none => simp only [hk] at hp; exact nomatch hp
    | some x =>
      obtain ⟨k, s2⟩ := x
      simp only [hk] at hp
      obtain ⟨kt, hs1, hkt⟩ := text_of_parseStr _ _ _ _ hk
      obtain ⟨b, hb, hs2⟩ := skipWs_split s2
      cases hc : skipWs s2 with
      | nil => simp only [hc] at hp; exact nomatch hp
      | cons c s3 =>
        simp only [hc] at hp
        split at hp
        · exact nomatch hp
        rename_i h1
        have h1 := Decidable.of_not_not h1
        subst h1
        cases hv : parseValue n d s3 with
        | none => simp only [hv] at hp; exact nomatch hp
        | some x =>
          obtain ⟨v, s4⟩ := x
          simp only [hv] at hp
          obtain ⟨a', t, ha', ht, hs3⟩ := h.1 _ _ _ hv
          obtain ⟨b', hb', hs4⟩ := skipWs_split s4
          cases hs : skipWs s4 with
          | nil => simp only [hs] at hp; exact nomatch hp
          | cons e s5 =>
            simp only [hs] at hp
            split at hp
            · rename_i h1
              subst h1
              cases hp
              exact ⟨_, .one ha hkt hb (.mk ha' ht hb'), by
                rw [hsa, hq, hs1, hs2, hc, hs3, hs4, hs]; simp⟩
            split at hp
            · rename_i h1
              subst h1
              obtain ⟨⟨l', r'⟩, hm, he'⟩ := map_eq_some' hp
              cases he'
              obtain ⟨ts, hts, he2⟩ := h.2.2 _ _ _ hm
              exact ⟨_, .more ha hkt hb (.mk ha' ht hb') hts, by
                rw [hsa, hq, hs1, hs2, hc, hs3, hs4, hs, he2]; simp⟩
            · exact nomatch hp

theorem sound (n : Nat) : ∀ d, SoundAt n d := by
  induction n with
  | zero => exact fun d => ⟨by simp [parseValue], by simp [parseElems], by simp [parseMembers]⟩
  | succ n ih =>
    exact fun d => ⟨sound_value (ih (d + 1)), sound_elems (ih d), sound_members (ih d)⟩

/-- The parser accepts the documents of the grammar and no others. -/
theorem parseJSON_iff (s : Str) (v : JSON) : parseJSON s = some v ↔ JsonText maxDepth v s := by
  unfold parseJSON
  constructor
  · intro h
    cases hv : parseValue (s.length + 1) 0 s with
    | none => simp only [hv] at h; exact nomatch h
    | some x =>
      obtain ⟨w, r⟩ := x
      simp only [hv] at h
      split at h
      · rename_i hr
        cases h
        obtain ⟨a, t, ha, ht, he⟩ := (sound _ 0).1 _ _ _ hv
        obtain ⟨b, hb, hb'⟩ := skipWs_split r
        rw [hr, List.append_nil] at hb'
        rw [he, hb']
        exact .mk ha ht hb
      · exact nomatch h
  · intro h
    obtain ⟨-, t, b, hb, he, hp⟩ := h.reads
    have := hp (s.length + 1) 0 [] (by omega) (by omega) (fun _ _ h => nomatch h)
    rw [List.append_nil, List.append_nil] at this
    have hw : skipWs b = [] := by
      have := skipWs_space hb []
      rw [List.append_nil] at this
      rw [this]; rfl
    simp only [this, hw, if_true]

/-- The parser reads the first object of a text, whatever follows. -/
theorem parseValue_object_iff (s : Str) (l : List (Str × JSON)) :
    (∃ rest, parseValue (s.length + 1) 0 s = some (.obj l, rest)) ↔
      ∃ a t rest, Space a ∧ JsonValue maxDepth (.obj l) t ∧ s = a ++ t ++ rest := by
  constructor
  · rintro ⟨rest, h⟩
    obtain ⟨a, t, ha, ht, he⟩ := (sound _ 0).1 _ _ _ h
    exact ⟨a, t, rest, ha, ht, he⟩
  · rintro ⟨a, t, rest, ha, ht, rfl⟩
    refine ⟨rest, ?_⟩
    rw [List.append_assoc, parseValue_space ha]
    exact ht.readsObject.2 _ 0 rest (by simp only [List.length_append]; omega) (by omega)

end OAuth2

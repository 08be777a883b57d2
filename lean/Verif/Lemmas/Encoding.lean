import Verif.Lemmas.UrlString
import Verif.Lemmas.JsonGrammar
import Verif.Spec.Encoding

set_option linter.unusedSimpArgs false

namespace OAuth2

open Spec

/-! ### Escapes -/

theorem queryUnescape_iff (t s : Str) : queryUnescape t = some s ↔ FormText t s := by
  unfold queryUnescape
  constructor
  · refine unescape_ind (mode := .queryComponent) (P := FormText) .nil ?_ ?_ ?_ t s
    · intro h l rest out hv lv h1 h2 _ _ ih
      rw [Nat.mul_comm]
      exact .escape ((hexDigit_iff _ _).mpr h1) ((hexDigit_iff _ _).mpr h2) ih
    · intro rest out ih; exact .space ih
    · intro c rest out h1 h2 _ ih; exact .byte h1 h2 ih
  · intro h
    induction h with
    | nil => exact unescape_nil _
    | space _ ih => rw [unescape.eq_def]; simp [ih]
    | escape h1 h2 _ ih =>
      rw [unescape_pct_eq, (hexDigit_iff _ _).mp h1, (hexDigit_iff _ _).mp h2, ih]
      simp [Nat.mul_comm]
    | byte h1 h2 _ ih =>
      rw [unescape.eq_def]
      simp [h1, h2, ih]

/-- `unescape` in the modes that leave `+` alone. -/
theorem unescape_iff {mode : EncMode} {plain escaped : UInt8 → Prop} (hm : mode ≠ .queryComponent)
    (hplain : ∀ c, c ≠ 0x25 → (plain c ↔ c = 0x2B ∨
      ¬ ((mode = .host ∨ mode = .zone) ∧ c < 0x80 ∧ shouldEscape c mode = true)))
    (hesc : ∀ h l hv lv, unhex h = some hv → unhex l = some lv →
      (escaped (UInt8.ofNat (16 * hv + lv)) ↔
        ¬ (mode = .host ∧ hv < 8 ∧ ¬ (h = 0x32 ∧ l = 0x35)) ∧
        ¬ (mode = .zone ∧ ¬ (h = 0x32 ∧ l = 0x35) ∧ UInt8.ofNat (16 * hv + lv) ≠ 0x20 ∧
          shouldEscape (UInt8.ofNat (16 * hv + lv)) .host = true)))
    (t s : Str) : unescape mode t = some s ↔ Percent plain escaped t s := by
  constructor
  · refine unescape_ind (mode := mode) (P := Percent plain escaped) .nil ?_ ?_ ?_ t s
    · intro h l rest out hv lv h1 h2 h3 h4 ih
      rw [Nat.mul_comm] at h4 ⊢
      exact .escape ((hexDigit_iff _ _).mpr h1) ((hexDigit_iff _ _).mpr h2)
        ((hesc h l hv lv h1 h2).mpr ⟨h3, h4⟩) ih
    · intro rest out ih
      rw [if_neg hm]
      exact .byte (by decide) ((hplain _ (by decide)).mpr (Or.inl rfl)) ih
    · intro c rest out h1 h2 h3 ih
      exact .byte h1 ((hplain _ h1).mpr (Or.inr h3)) ih
  · intro h
    induction h with
    | nil => exact unescape_nil _
    | @escape h l a b t s h1 h2 h3 _ ih =>
      have e1 := (hexDigit_iff _ _).mp h1
      have e2 := (hexDigit_iff _ _).mp h2
      obtain ⟨h4, h5⟩ := (hesc h l a b e1 e2).mp h3
      rw [unescape_pct_eq, e1, e2, ih]
      simp only [Option.map_some]
      rw [Nat.mul_comm a 16, if_neg, if_neg]
      · simp only [Bool.and_eq_true, Bool.not_eq_true', Bool.and_eq_false_iff, decide_eq_true_eq,
          decide_eq_false_iff_not, not_and] at h5 ⊢
        intro ⟨⟨ha, hb⟩, hc⟩ hd
        exact h5 ha (fun x y => hb.elim (fun n => n x) (fun n => n y)) hc hd
      · simp only [Bool.and_eq_true, Bool.not_eq_true', Bool.and_eq_false_iff, decide_eq_true_eq,
          decide_eq_false_iff_not, not_and] at h4 ⊢
        intro ⟨ha, hb⟩ hc
        exact h4 ha hb (fun x y => hc.elim (fun n => n x) (fun n => n y))
    | @byte c t s h1 h2 _ ih =>
      rw [unescape.eq_def]
      simp only [h1, if_false, ih, Option.map_some]
      by_cases hp : c = 0x2B
      · simp [hp, hm]
      · rw [if_neg hp, if_neg]
        rcases (hplain c h1).mp h2 with h | h
        · exact absurd h hp
        · simpa [and_assoc] using h

theorem unescape_any {mode : EncMode} (h : mode = .path ∨ mode = .userPassword ∨ mode = .fragment)
    (t s : Str) : unescape mode t = some s ↔ AnyPercent t s := by
  refine unescape_iff ?_ ?_ ?_ t s
  · rcases h with rfl | rfl | rfl <;> decide
  · intro c; rcases h with rfl | rfl | rfl <;> simp
  · intro c; rcases h with rfl | rfl | rfl <;> simp

theorem hostByte_iff : ∀ c : UInt8, HostByte c ↔ shouldEscape c .host = false := by
  unfold HostByte Alnum
  apply forall_u8; decide +kernel

theorem hostPlain_iff : ∀ c : UInt8, c ≠ 0x25 → ((0x80 ≤ c ∨ HostByte c) ↔ c = 0x2B ∨
    ¬ (c < 0x80 ∧ shouldEscape c .host = true)) := by
  unfold HostByte Alnum
  apply forall_u8; decide +kernel

theorem unhex_byte : ∀ h : UInt8, ∀ l : UInt8, ∀ hv lv, unhex h = some hv → unhex l = some lv →
    (0x80 ≤ UInt8.ofNat (16 * hv + lv) ↔ ¬ hv < 8) ∧
    (UInt8.ofNat (16 * hv + lv) = 0x25 ↔ h = 0x32 ∧ l = 0x35) := by
  have key : ∀ h : UInt8, ∀ hv, unhex h = some hv → hv < 16 ∧ (hv = 2 ↔ h = 0x32) ∧ (hv = 5 ↔ h = 0x35) := by
    have : ∀ h : UInt8, ((unhex h).all fun hv => hv < 16 ∧ (hv = 2 ↔ h = 0x32) ∧ (hv = 5 ↔ h = 0x35)) = true := by
      apply forall_u8; decide +kernel
    intro h hv e
    have := this h
    rw [e] at this
    simpa using this
  intro h l hv lv e1 e2
  obtain ⟨a1, a2, _⟩ := key h hv e1
  obtain ⟨b1, _, b3⟩ := key l lv e2
  rw [← a2, ← b3]
  have : (UInt8.ofNat (16 * hv + lv)).toNat = 16 * hv + lv := by
    rw [UInt8.toNat_ofNat']; omega
  rw [UInt8.le_iff_toNat_le, ← UInt8.toNat_inj, this]
  simp
  omega

theorem unescape_host_iff (t s : Str) : unescape .host t = some s ↔ HostText t s := by
  refine unescape_iff (by decide) ?_ ?_ t s
  · intro c hc; rw [hostPlain_iff c hc]; simp
  · intro h l hv lv h1 h2
    obtain ⟨h3, h4⟩ := unhex_byte h l hv lv h1 h2
    rw [h3, h4]
    clear h3 h4
    generalize UInt8.ofNat (16 * hv + lv) = v
    generalize (h = 0x32 ∧ l = 0x35) = q
    by_cases p : hv < 8 <;> by_cases q <;> simp_all

theorem unescape_zone_iff (t s : Str) : unescape .zone t = some s ↔ ZoneText t s := by
  refine unescape_iff (by decide) ?_ ?_ t s
  · intro c hc; rw [hostPlain_iff c hc, shouldEscape_zone]; simp
  · intro h l hv lv h1 h2
    obtain ⟨h3, h4⟩ := unhex_byte h l hv lv h1 h2
    rw [h4, hostByte_iff]
    clear h3 h4
    generalize UInt8.ofNat (16 * hv + lv) = v
    generalize (h = 0x32 ∧ l = 0x35) = q
    cases shouldEscape v .host <;> by_cases v = 0x20 <;> by_cases q <;> simp_all

/-! ### Forms -/

theorem splitByte_before {sep : UInt8} {a : Str} (t : Str) (h : sep ∉ a) {x : Str} {l : List Str}
    (ht : splitByte sep t = x :: l) : splitByte sep (a ++ t) = (a ++ x) :: l := by
  induction a with
  | nil => exact ht
  | cons c cs ih =>
    simp only [List.mem_cons, not_or] at h
    simp only [List.cons_append, splitByte]
    rw [if_neg (Ne.symm h.1), ih h.2]

theorem splitPairs_single {p : Str} (hp : ∀ c ∈ p, ¬ Separator c) : splitPairs p = [p] := by
  unfold splitPairs
  rw [splitByte_no_sep fun h => hp _ h (Or.inl rfl)]
  simp [splitByte_no_sep fun h => hp _ h (Or.inr rfl)]

theorem splitPairs_cons {p : Str} (hp : ∀ c ∈ p, ¬ Separator c) {c : UInt8} (hc : Separator c) (t : Str) :
    splitPairs (p ++ [c] ++ t) = p :: splitPairs t := by
  have h1 : (0x26 : UInt8) ∉ p := fun h => hp _ h (Or.inl rfl)
  have h2 : (0x3B : UInt8) ∉ p := fun h => hp _ h (Or.inr rfl)
  unfold splitPairs
  rw [List.append_assoc]
  rcases hc with rfl | rfl
  · rw [List.singleton_append, splitByte_append _ h1, List.flatMap_cons, splitByte_no_sep h2]
    rfl
  · cases ht : splitByte 0x26 t with
    | nil => exact absurd ht (splitByte_ne_nil _ _)
    | cons x l =>
      rw [← List.append_assoc, splitByte_before t _ ht]
      · rw [List.flatMap_cons, List.flatMap_cons, List.append_assoc, List.singleton_append,
          splitByte_append _ h2]
        rfl
      · simp only [List.mem_append, List.mem_singleton, not_or]
        exact ⟨h1, by decide⟩

theorem parsePair_field {p : Str} {f : Str × Str} (h : FormField p f) (acc : Values × Bool) :
    parsePair acc p = (acc.1.add f.1 f.2, acc.2) := by
  unfold parsePair
  cases h with
  | @value k v name value h1 h2 h3 =>
    rw [if_neg (by simp), List.append_assoc, List.singleton_append, cutByte_append _ h1]
    simp only [Option.getD_some, (queryUnescape_iff _ _).mpr h2, (queryUnescape_iff _ _).mpr h3]
  | @name _ name h0 h1 h2 =>
    rw [if_neg h0, (cutByte_none_iff _ _).mpr h1]
    simp only [Option.getD_none, (queryUnescape_iff _ _).mpr h2]
    rfl

theorem parsePair_ok {p : Str} {acc : Values × Bool} (h : (parsePair acc p).2 = false) :
    p = [] ∨ ∃ f, FormField p f := by
  by_cases h0 : p = []
  · exact Or.inl h0
  · refine Or.inr ?_
    unfold parsePair at h
    rw [if_neg h0] at h
    cases hc : cutByte 0x3D p with
    | none =>
      rw [hc] at h
      simp only [Option.getD_none] at h
      split at h
      · rename_i k x h1 _
        exact ⟨_, .name h0 ((cutByte_none_iff _ _).mp hc) ((queryUnescape_iff _ _).mp h1)⟩
      · cases h
    | some kx =>
      obtain ⟨k, x⟩ := kx
      rw [hc] at h
      simp only [Option.getD_some] at h
      obtain ⟨e, hk⟩ := (cutByte_some_iff _ _ _ _).mp hc
      split at h
      · rename_i k' x' h1 h2
        refine ⟨(k', x'), ?_⟩
        rw [e, ← List.singleton_append, ← List.append_assoc]
        exact .value hk ((queryUnescape_iff _ _).mp h1) ((queryUnescape_iff _ _).mp h2)
      · cases h

theorem parsePair_error {p : Str} {acc : Values × Bool} (h : acc.2 = true) :
    (parsePair acc p).2 = true := by
  unfold parsePair
  split
  · exact h
  · split
    split
    · exact h
    · rfl

theorem foldl_error {l : List Str} {acc : Values × Bool} (h : acc.2 = true) :
    (l.foldl parsePair acc).2 = true := by
  induction l generalizing acc with
  | nil => exact h
  | cons p l ih => exact ih (parsePair_error h)

theorem parsePair_nil (acc : Values × Bool) : parsePair acc [] = acc := rfl

theorem foldl_formData {t : Str} {fs : List (Str × Str)} (h : FormData t fs) (acc : Values × Bool) :
    (splitPairs t).foldl parsePair acc = (fs.foldl (fun v f => v.add f.1 f.2) acc.1, acc.2) := by
  induction h generalizing acc with
  | empty => rfl
  | last h1 h2 => rw [splitPairs_single h1]; simp [parsePair_field h2]
  | @skip c t fs h1 _ ih =>
    have : splitPairs (c :: t) = [] :: splitPairs t := splitPairs_cons (p := []) (by simp) h1 t
    rw [this, List.foldl_cons, parsePair_nil, ih]
  | field h1 h2 h3 _ ih =>
    rw [splitPairs_cons h1 h3, List.foldl_cons, parsePair_field h2, ih]
    rfl

instance (c : UInt8) : Decidable (Separator c) := by unfold Separator; infer_instance

theorem formData_exists (n : Nat) (t : Str) (hn : t.length ≤ n) (acc : Values × Bool)
    (h : ((splitPairs t).foldl parsePair acc).2 = false) : ∃ fs, FormData t fs := by
  induction n generalizing t acc with
  | zero =>
    have : t = [] := List.length_eq_zero_iff.mp (by omega)
    subst this
    exact ⟨[], .empty⟩
  | succ n ih =>
    have hsplit := List.takeWhile_append_dropWhile (p := fun c => !decide (Separator c)) (l := t)
    have hp : ∀ c ∈ t.takeWhile (fun c => !decide (Separator c)), ¬ Separator c := by
      intro c hc
      have := List.all_eq_true.mp (List.all_takeWhile (l := t) (p := fun c => !decide (Separator c))) c hc
      simpa using this
    generalize hpe : t.takeWhile (fun c => !decide (Separator c)) = p at hsplit hp
    cases hr : t.dropWhile (fun c => !decide (Separator c)) with
    | nil =>
      rw [hr, List.append_nil] at hsplit
      subst hsplit
      rw [splitPairs_single hp] at h
      simp only [List.foldl_cons, List.foldl_nil] at h
      rcases parsePair_ok h with rfl | ⟨f, hf⟩
      · exact ⟨[], .empty⟩
      · exact ⟨[f], .last hp hf⟩
    | cons c rest =>
      rw [hr] at hsplit
      have hc : Separator c := by
        have := List.head?_dropWhile_not (fun c => !decide (Separator c)) t
        rw [hr] at this
        simpa using this
      have hsplit : t = p ++ [c] ++ rest := by simpa using hsplit.symm
      subst hsplit
      rw [splitPairs_cons hp hc, List.foldl_cons] at h
      obtain ⟨fs, hfs⟩ := ih rest (by simp at hn; omega) _ h
      have hpk : (parsePair acc p).2 = false := by
        cases e : (parsePair acc p).2 with
        | false => rfl
        | true => rw [foldl_error e] at h; cases h
      rcases parsePair_ok hpk with rfl | ⟨f, hf⟩
      · exact ⟨fs, .skip hc hfs⟩
      · exact ⟨f :: fs, .field hp hf hc hfs⟩

/-- A query can be parsed iff it is a form. -/
theorem parseQuery_ok_iff (t : Str) : (parseQuery t).2 = false ↔ ∃ fs, FormData t fs := by
  constructor
  · exact fun h => formData_exists _ t (Nat.le_refl _) _ h
  · rintro ⟨fs, h⟩
    unfold parseQuery
    rw [foldl_formData h]

/-- And then its values are those of its fields. -/
theorem parseQuery_all {t : Str} {fs : List (Str × Str)} (h : FormData t fs) (k : Str) :
    (parseQuery t).1.all k = valuesOf fs k := by
  unfold parseQuery valuesOf
  rw [foldl_formData h, Values.all_foldl_add]
  rfl

end OAuth2

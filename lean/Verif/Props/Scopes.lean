import Verif.Model.Scope
import Verif.Lemmas.Trim
import Verif.Spec.Scope
/-
C06, C07: scopes.
-/

namespace OAuth2

open Spec

theorem items_ofItems (l : List Str) : (Scope.ofItems l).items = l := by
  unfold Scope.ofItems Scope.items
  by_cases h : l = [] <;> simp [h]

/-- **C06.** `ParseScope` returns exactly the nonempty trimmed texts between spaces, in order, and
nil if there are none. -/
theorem C06_parse (str : Str) :
    ScopeItems str (Scope.parse str).items ∧
    (Scope.parse str = none ↔ (Scope.parse str).items = []) := by
  constructor
  · refine ⟨splitByte 0x20 str, (splitByte 0x20 str).map trimSpace, splitByte_ne_nil _ _,
      (joinStr_splitByte _ _).symm, splitByte_parts _ _, by simp, ?_, ?_⟩
    · intro p hp
      rw [List.zip_map_right, List.mem_map] at hp
      obtain ⟨⟨a, b⟩, hab, rfl⟩ := hp
      have : a = b := by
        rw [List.zip_eq_zipWith, List.zipWith_self] at hab
        simp at hab
        obtain ⟨x, _, rfl, rfl⟩ := hab
        rfl
      subst this
      exact trimSpace_spec a
    · rw [Scope.parse, items_ofItems]
  · rw [Scope.parse, items_ofItems]
    unfold Scope.ofItems
    constructor
    · intro h
      split at h
      · assumption
      · cases h
    · intro h; rw [if_pos h]

/-- The specification determines the items, so `C06_parse` fixes the result of `ParseScope`. -/
theorem C06_parse_unique (str : Str) (items : List Str) :
    ScopeItems str items ↔ (Scope.parse str).items = items := by
  constructor
  · rintro ⟨segs, ts, hne, rfl, hns, hlen, htrim, rfl⟩
    rw [Scope.parse, items_ofItems, splitByte_joinStr hne hns]
    congr 1
    refine List.ext_getElem (by simpa using hlen) ?_
    intro n h1 h2
    rw [List.getElem_map]
    have hn : n < segs.length := by simpa using h1
    refine (isTrimOf_unique (htrim (segs[n], ts[n]) ?_)).symm
    rw [List.mem_iff_getElem]
    exact ⟨n, by rw [List.length_zip]; omega, by simp⟩
  · rintro rfl
    exact (C06_parse str).1

/-- **C06.** Every item of a parsed scope is clean: nonempty, without spaces, trimmed. -/
theorem C06_clean (str : Str) : ∀ i ∈ (Scope.parse str).items, CleanItem i := by
  intro i hi
  rw [Scope.parse, items_ofItems, List.mem_filter] at hi
  obtain ⟨hm, hne⟩ := hi
  obtain ⟨g, hg, rfl⟩ := List.mem_map.mp hm
  refine ⟨by simpa using hne, ?_, trimSpace_trimmed g⟩
  intro h
  exact splitByte_parts _ _ g hg (trimSpace_sublist g _ h)

/-- **C06.** Parsing the printed form of a list of clean items returns the list. -/
theorem C06_roundtrip (l : List Str) (h : ∀ i ∈ l, CleanItem i) :
    (Scope.parse (Scope.string (some l))).items = l := by
  rw [Scope.parse, items_ofItems]
  show List.filter (· ≠ []) ((splitByte 0x20 (joinStr [0x20] l)).map trimSpace) = l
  by_cases hl : l = []
  · subst hl; decide
  · rw [splitByte_joinStr hl fun p hp => (h p hp).2.1]
    have : l.map trimSpace = l := by
      conv => rhs; rw [← List.map_id l]
      exact List.map_congr_left fun i hi => trimSpace_eq_self (h i hi).2.2
    rw [this, List.filter_eq_self]
    intro i hi
    simpa using (h i hi).1

/-- **C06.** Printing a parsed scope and parsing it again is the identity. -/
theorem C06_idempotent (str : Str) : Scope.parse (Scope.string (Scope.parse str)) = Scope.parse str := by
  have h := C06_roundtrip _ (C06_clean str)
  have e : Scope.string (some (Scope.parse str).items) = Scope.string (Scope.parse str) := rfl
  rw [e] at h
  have hof : ∀ s, Scope.parse s = Scope.ofItems (Scope.parse s).items := by
    intro s; rw [Scope.parse, items_ofItems]
  rw [hof, h, ← hof]

theorem parse_string_of_clean {s : Scope} (h : CleanScope s) : Scope.parse s.string = s := by
  cases s with
  | none => decide
  | some l =>
    obtain ⟨h1, h2⟩ := h l rfl
    have := C06_roundtrip l h2
    rw [Scope.parse, items_ofItems] at this
    rw [Scope.parse, this, Scope.ofItems, if_neg h1]

theorem parse_clean (str : Str) : CleanScope (Scope.parse str) := by
  intro l hl
  have h := C06_clean str
  rw [hl] at h
  refine ⟨?_, h⟩
  rintro rfl
  rw [Scope.parse, Scope.ofItems] at hl
  split at hl
  · cases hl
  · rename_i h; exact h (Option.some.inj hl)

/-- Hypotheses of `C06_roundtrip`: items with punctuation and non-ASCII bytes are clean. -/
example : Scope.parse b!"  foo \t https://a.b/c?d  bär " =
    some [b!"foo", b!"https://a.b/c?d", b!"bär"] := by decide +kernel

example : CleanItem b!"foo" := by
  have := C06_clean b!"foo"
  exact this _ (by decide +kernel)

/-- **C07.** `Includes` is inclusion of the sets of items. -/
theorem C07_includes (a b : Scope) : a.includes b = true ↔ ∀ i, i ∈ b.items → i ∈ a.items := by
  simp [Scope.includes, Scope.containsStr, List.all_eq_true, List.any_eq_true]

/-- **C07.** `Contains` is membership, `Empty` is having no items. -/
theorem C07_contains (a : Scope) (i : Str) : a.containsStr i = true ↔ i ∈ a.items := by
  simp [Scope.containsStr]

theorem C07_empty (a : Scope) : a.empty = true ↔ ∀ i, i ∉ a.items := by
  simp [Scope.empty, List.eq_nil_iff_forall_not_mem]

/-- **C07.** Inclusion is reflexive and transitive. -/
theorem C07_refl (a : Scope) : a.includes a = true := (C07_includes a a).mpr fun _ h => h

theorem C07_trans (a b c : Scope) (hab : a.includes b = true) (hbc : b.includes c = true) :
    a.includes c = true :=
  (C07_includes a c).mpr fun i h => (C07_includes a b).mp hab i ((C07_includes b c).mp hbc i h)

/-- **C07.** Order and repetition do not matter: scopes with the same items include the same
scopes and are included in the same scopes. -/
theorem C07_same_items (a a' b b' : Scope) (ha : ∀ i, i ∈ a.items ↔ i ∈ a'.items)
    (hb : ∀ i, i ∈ b.items ↔ i ∈ b'.items) : a.includes b = a'.includes b' := by
  rw [Bool.eq_iff_iff, C07_includes, C07_includes]
  exact ⟨fun h i hi => (ha i).mp (h i ((hb i).mpr hi)),
    fun h i hi => (ha i).mpr (h i ((hb i).mp hi))⟩

/-- **C07.** The missing and the empty scope are included in every scope. -/
theorem C07_empty_included (a : Scope) : a.includes none = true ∧ a.includes (some []) = true := by
  constructor <;> simp [C07_includes, Scope.items]

example : Scope.includes (some [b!"a", b!"b", b!"a"]) (some [b!"b", b!"a", b!"b"]) = true ∧
    Scope.includes (some [b!"a"]) (some [b!"a", b!"b"]) = false := by decide

end OAuth2

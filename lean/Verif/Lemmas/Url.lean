import Verif.Lemmas.Map
import Verif.Lemmas.Bytes

namespace OAuth2

/-! ### Escaping -/

theorem unhex_hexUpper (n : Nat) (h : n < 16) : unhex (hexUpper n) = some n := by
  have : ∀ n : Fin 16, unhex (hexUpper n.val) = some n.val := by decide +kernel
  exact this ⟨n, h⟩

theorem byte_of_nibbles (c : UInt8) : UInt8.ofNat (c.toNat / 16 * 16 + c.toNat % 16) = c := by
  rw [Nat.div_add_mod' c.toNat 16, u8_ofNat_toNat]

theorem unescape_pct (mode : EncMode) (c : UInt8) (rest : Str)
    (hh : mode ≠ .host) (hz : mode ≠ .zone) :
    unescape mode (0x25 :: hexUpper (c.toNat / 16) :: hexUpper (c.toNat % 16) :: rest) =
      (unescape mode rest).map (c :: ·) := by
  have hc : c.toNat < 256 := c.toNat_lt
  rw [unescape]
  simp only [unhex_hexUpper _ (show c.toNat / 16 < 16 by omega),
    unhex_hexUpper _ (show c.toNat % 16 < 16 by omega), byte_of_nibbles]
  simp [hh, hz]

theorem unescape_plain {mode : EncMode} {c : UInt8} (rest : Str) (h1 : c ≠ 0x25) (h2 : c ≠ 0x2B)
    (hh : mode ≠ .host) (hz : mode ≠ .zone) :
    unescape mode (c :: rest) = (unescape mode rest).map (c :: ·) := by
  rw [unescape.eq_def]
  simp [h1, h2, hh, hz]

/-- Unescaping undoes escaping in every mode but those for hosts. -/
theorem unescape_escape (mode : EncMode) (hh : mode ≠ .host) (hz : mode ≠ .zone) (s : Str) :
    unescape mode (escape mode s) = some s := by
  induction s with
  | nil => simp [escape, unescape]
  | cons c cs ih =>
    rw [escape]
    split
    · rename_i h
      obtain ⟨rfl, rfl⟩ := h
      rw [unescape.eq_def]
      simp [ih]
    · rename_i hsp
      split
      · rw [unescape_pct mode c _ hh hz, ih]; rfl
      · rename_i hne
        have h25 : c ≠ 0x25 := by
          rintro rfl
          cases mode <;> first | exact hne rfl | exact absurd rfl hh | exact absurd rfl hz
        by_cases hp : c = 0x2B
        · subst hp
          have hq : mode ≠ .queryComponent := by rintro rfl; exact hne rfl
          rw [unescape.eq_def]
          simp [ih, hq]
        · rw [unescape_plain _ h25 hp hh hz, ih]; rfl

theorem queryUnescape_queryEscape (s : Str) : queryUnescape (queryEscape s) = some s :=
  unescape_escape _ (by decide) (by decide) s

/-- The bytes `QueryEscape` writes. -/
def isQueryEsc (c : UInt8) : Bool := isAlnum c || b!"-_.~%+".contains c

theorem isQueryEsc_hex (n : Nat) (h : n < 16) : isQueryEsc (hexUpper n) = true := by
  have : ∀ n : Fin 16, isQueryEsc (hexUpper n.val) = true := by decide +kernel
  exact this ⟨n, h⟩

theorem queryEscape_alphabet (s : Str) : ∀ c ∈ queryEscape s, isQueryEsc c = true := by
  unfold queryEscape
  induction s with
  | nil => simp [escape]
  | cons c cs ih =>
    have hc : c.toNat < 256 := c.toNat_lt
    rw [escape]
    split
    · intro d hd
      rcases List.mem_cons.mp hd with rfl | hd
      · decide
      · exact ih d hd
    · split
      · intro d hd
        simp only [List.mem_cons] at hd
        rcases hd with rfl | rfl | rfl | hd
        · decide
        · exact isQueryEsc_hex _ (by omega)
        · exact isQueryEsc_hex _ (by omega)
        · exact ih d hd
      · rename_i hne
        intro d hd
        rcases List.mem_cons.mp hd with rfl | hd
        · have : ∀ d : UInt8, ¬ shouldEscape d .queryComponent = true → isQueryEsc d = true :=
            forall_u8 (by decide +kernel)
          exact this d hne
        · exact ih d hd

theorem isQueryEsc_not_special : ∀ c : UInt8, isQueryEsc c = true →
    c ≠ 0x26 ∧ c ≠ 0x3B ∧ c ≠ 0x3D ∧ c ≠ 0x23 ∧ c ≠ 0x3F ∧ c ≠ 0x20 ∧ ¬ (c < 0x20) ∧ c ≠ 0x7F :=
  forall_u8 (by decide +kernel)

theorem not_mem_queryEscape (s : Str) (c : UInt8) (h : isQueryEsc c = false) : c ∉ queryEscape s := by
  intro hc
  rw [queryEscape_alphabet s c hc] at h
  cases h

/-! ### Form encoding -/

theorem splitByte_singleton (sep : UInt8) (s : Str) (h : sep ∉ s) : splitByte sep s = [s] :=
  splitByte_no_sep h

/-- One encoded pair. -/
def encPair (p : Str × Str) : Str := queryEscape p.1 ++ [0x3D] ++ queryEscape p.2

theorem encPair_no (p : Str × Str) (c : UInt8) (h : isQueryEsc c = false) (he : c ≠ 0x3D) :
    c ∉ encPair p := by
  unfold encPair
  simp only [List.mem_append, List.mem_singleton, not_or]
  exact ⟨⟨not_mem_queryEscape _ _ h, he⟩, not_mem_queryEscape _ _ h⟩

theorem encPair_ne_nil (p : Str × Str) : encPair p ≠ [] := by
  unfold encPair; simp

theorem parsePair_encPair (acc : Values × Bool) (p : Str × Str) :
    parsePair acc (encPair p) = (acc.1.add p.1 p.2, acc.2) := by
  unfold parsePair
  rw [if_neg (encPair_ne_nil p)]
  have : cutByte 0x3D (encPair p) = some (queryEscape p.1, queryEscape p.2) := by
    unfold encPair
    rw [List.append_assoc]
    exact cutByte_append _ (not_mem_queryEscape _ _ (by decide))
  simp [this, queryUnescape_queryEscape]

theorem splitPairs_join (l : List (Str × Str)) (h : l ≠ []) :
    splitPairs (joinStr [0x26] (l.map encPair)) = l.map encPair := by
  unfold splitPairs
  rw [splitByte_joinStr (by simpa using h)]
  · rw [List.flatMap_map]
    conv => rhs; rw [← List.flatMap_singleton' (l.map encPair), List.flatMap_map]
    congr 1
    funext p
    exact splitByte_no_sep (encPair_no p _ (by decide) (by decide))
  · intro s hs
    obtain ⟨p, _, rfl⟩ := List.mem_map.mp hs
    exact encPair_no p _ (by decide) (by decide)

theorem foldl_parsePair (l : List (Str × Str)) (acc : Values × Bool) :
    (l.map encPair).foldl parsePair acc = (l.foldl (fun v p => v.add p.1 p.2) acc.1, acc.2) := by
  induction l generalizing acc with
  | nil => rfl
  | cons p l ih =>
    simp only [List.map_cons, List.foldl_cons, parsePair_encPair]
    rw [ih]

/-- Parsing encoded pairs adds them one by one and reports no error. -/
theorem parseQuery_join (l : List (Str × Str)) :
    parseQuery (joinStr [0x26] (l.map encPair)) = (l.foldl (fun v p => Values.add v p.1 p.2) [], false) := by
  by_cases h : l = []
  · subst h; decide
  · unfold parseQuery
    rw [splitPairs_join l h, foldl_parsePair]

namespace Values

theorem all_add (v : Values) (k x j : Str) :
    (v.add k x).all j = if j = k then v.all k ++ [x] else v.all j := by
  unfold add all
  rw [GoMap.get?_set]
  by_cases h : j = k <;> simp [h]

theorem get_eq (v : Values) (k : Str) : v.get k = (v.all k).headD [] := by
  unfold get all
  cases h : GoMap.get? v k with
  | none => rfl
  | some l => cases l <;> rfl

theorem nodup_add {v : Values} (h : v.keys.Nodup) (k x : Str) : (v.add k x).keys.Nodup :=
  GoMap.nodup_set h k _

theorem all_foldl_add (l : List (Str × Str)) (v : Values) (k : Str) :
    (l.foldl (fun v p => v.add p.1 p.2) v).all k =
      v.all k ++ (l.filter (fun p => p.1 = k)).map (·.2) := by
  induction l generalizing v with
  | nil => simp
  | cons p l ih =>
    rw [List.foldl_cons, ih, all_add]
    by_cases h : k = p.1
    · subst h; simp
    · have : ¬ p.1 = k := fun e => h e.symm
      simp [h, this]

theorem nodup_foldl_add (l : List (Str × Str)) {v : Values} (h : v.keys.Nodup) :
    (l.foldl (fun v p => v.add p.1 p.2) v).keys.Nodup := by
  induction l generalizing v with
  | nil => exact h
  | cons p l ih => exact ih (nodup_add h _ _)

/-- The pairs `Encode` writes, in order. -/
def pairs (v : Values) : List (Str × Str) :=
  (sortStrings v.keys).flatMap fun k => (v.all k).map fun x => (k, x)

theorem encode_eq (v : Values) : v.encode = joinStr [0x26] (v.pairs.map encPair) := by
  unfold encode pairs encodeKey
  rw [List.map_flatMap]
  congr 2
  funext k
  rw [List.map_map]
  rfl

theorem pairs_filter {v : Values} (h : v.keys.Nodup) (k : Str) :
    (v.pairs.filter (fun p => p.1 = k)).map (·.2) = v.all k := by
  have aux : ∀ l : List Str, l.Nodup →
      ((l.flatMap fun k => (v.all k).map fun x => (k, x)).filter (fun p => p.1 = k)).map (·.2) =
        if k ∈ l then v.all k else [] := by
    intro l hl
    induction l with
    | nil => simp
    | cons j l ih =>
      have hj := List.nodup_cons.mp hl
      rw [List.flatMap_cons, List.filter_append, List.map_append, ih hj.2]
      by_cases hjk : j = k
      · subst hjk
        have : List.filter (fun p : Str × Str => decide (p.1 = j))
            (List.map (fun x => (j, x)) (v.all j)) = List.map (fun x => (j, x)) (v.all j) := by
          rw [List.filter_eq_self]
          intro p hp
          obtain ⟨x, _, rfl⟩ := List.mem_map.mp hp
          simp
        rw [this]
        simp [hj.1, Function.comp_def]
      · have : List.filter (fun p : Str × Str => decide (p.1 = k))
            (List.map (fun x => (j, x)) (v.all j)) = [] := by
          rw [List.filter_eq_nil_iff]
          intro p hp
          obtain ⟨x, _, rfl⟩ := List.mem_map.mp hp
          simp [hjk]
        rw [this]
        have hkj : ¬ k = j := fun e => hjk e.symm
        simp [hkj]
  unfold pairs
  rw [aux _ ((sortStrings_perm _).nodup_iff.mpr h)]
  split
  · rfl
  · rename_i hk
    have : k ∉ v.keys := fun h => hk ((sortStrings_perm _).mem_iff.mpr h)
    unfold all
    rw [(GoMap.get?_eq_none_iff v k).mpr this]
    rfl

end Values

/-- **Form encoding round trip**: parsing what `Encode` wrote reports no error and gives every
key its values, in order. -/
theorem parseQuery_encode {v : Values} (h : v.keys.Nodup) :
    (parseQuery v.encode).2 = false ∧ ∀ k, (parseQuery v.encode).1.all k = v.all k := by
  rw [Values.encode_eq, parseQuery_join]
  refine ⟨rfl, fun k => ?_⟩
  simp only
  rw [Values.all_foldl_add, Values.pairs_filter h]
  rfl

theorem parseQuery_encode_get {v : Values} (h : v.keys.Nodup) (k : Str) :
    (parseQuery v.encode).1.get k = v.get k := by
  rw [Values.get_eq, Values.get_eq, (parseQuery_encode h).2]

theorem parsePair_nodup {acc : Values × Bool} (h : acc.1.keys.Nodup) (s : Str) :
    (parsePair acc s).1.keys.Nodup := by
  unfold parsePair
  split
  · exact h
  · split
    split
    · exact Values.nodup_add h _ _
    · exact h

theorem parseQuery_nodup (q : Str) : (parseQuery q).1.keys.Nodup := by
  unfold parseQuery
  generalize splitPairs q = l
  suffices ∀ acc : Values × Bool, acc.1.keys.Nodup → (l.foldl parsePair acc).1.keys.Nodup from
    this _ List.nodup_nil
  induction l with
  | nil => exact fun _ h => h
  | cons s l ih => exact fun acc h => ih _ (parsePair_nodup h s)

theorem joinStr_mem {sep : Str} {l : List Str} {c : UInt8} (h : c ∈ joinStr sep l) :
    c ∈ sep ∨ ∃ s ∈ l, c ∈ s := by
  induction l with
  | nil => simp [joinStr] at h
  | cons x l ih =>
    cases l with
    | nil => exact Or.inr ⟨x, by simp, h⟩
    | cons y l =>
      simp only [joinStr, List.mem_append] at h
      rcases h with (h | h) | h
      · exact Or.inr ⟨x, by simp, h⟩
      · exact Or.inl h
      · rcases ih h with h | ⟨s, hs, hc⟩
        · exact Or.inl h
        · exact Or.inr ⟨s, List.mem_cons_of_mem _ hs, hc⟩

/-- The bytes of an encoded form. -/
theorem encode_alphabet' (v : Values) : ∀ c ∈ v.encode, isQueryEsc c = true ∨ c = 0x26 ∨ c = 0x3D := by
  intro c hc
  rw [Values.encode_eq] at hc
  rcases joinStr_mem hc with h | ⟨s, hs, hc⟩
  · simp at h; exact Or.inr (Or.inl h)
  · obtain ⟨p, _, rfl⟩ := List.mem_map.mp hs
    unfold encPair at hc
    simp only [List.mem_append, List.mem_singleton] at hc
    rcases hc with (hc | rfl) | hc
    · exact Or.inl (queryEscape_alphabet _ _ hc)
    · exact Or.inr (Or.inr rfl)
    · exact Or.inl (queryEscape_alphabet _ _ hc)

end OAuth2

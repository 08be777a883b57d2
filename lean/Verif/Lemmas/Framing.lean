import Verif.Lemmas.WireServe
import Verif.Spec.Framing

/-!
What `net/http` reads from a connection was in order: heads, chunks and lengths, both ways.
-/

namespace OAuth2

open Spec Rfc7230
open Rfc7235 (Token Blank Tchar)

/-! ### Lines -/

theorem blank_eq (c : UInt8) : Rfc7230.blank c = isWsp c := rfl

theorem white_eq (c : UInt8) : white c = isASCIISpace c := rfl

theorem trim_eq (s : Str) : trim s = trimBy isASCIISpace s := rfl

theorem readLine_iff (s l rest : Str) :
    readLine s = some (l, rest) ↔ ∃ a, s = a ++ rest ∧ Line a l := by
  constructor
  · intro h
    obtain ⟨⟨p, r⟩, h1, h2⟩ := Option.map_eq_some_iff.mp h
    cases h2
    obtain ⟨e, hn⟩ := (cutByte_some_iff _ _ _ _).mp h1
    refine ⟨p ++ [0x0A], by rw [e]; simp, ?_⟩
    by_cases hc : p.getLast? = some 0x0D
    · have hp : p = p.dropLast ++ [0x0D] := by
        have hne : p ≠ [] := by rintro rfl; cases hc
        have := List.dropLast_concat_getLast hne
        rw [List.getLast?_eq_some_getLast hne] at hc
        rw [← Option.some.inj hc]
        exact this.symm
      unfold dropCR
      rw [if_pos hc]
      have : Line (p.dropLast ++ CRLF) p.dropLast := .crlf fun hm => hn ((List.dropLast_sublist p).subset hm)
      have e2 : p ++ [0x0A] = p.dropLast ++ CRLF := by
        conv => lhs; rw [hp]
        simp [CRLF]
      rw [e2]
      exact this
    · unfold dropCR
      rw [if_neg hc]
      exact .lf hn hc
  · rintro ⟨a, rfl, h⟩
    cases h with
    | crlf h => exact readLine_crlf h rest
    | lf h hc =>
      unfold readLine
      rw [show l ++ [0x0A] ++ rest = l ++ 0x0A :: rest by simp, cutByte_append rest h]
      simp [dropCR, hc]

theorem readBlock_sound {n : Nat} {s rest : Str} {ls : List Str} (h : readBlock n s = some (ls, rest)) :
    ∃ a, s = a ++ rest ∧ Lines a ls := by
  induction n generalizing s ls with
  | zero => cases h
  | succ n ih =>
    unfold readBlock at h
    cases hl : readLine s with
    | none => rw [hl] at h; cases h
    | some p =>
      obtain ⟨l, r⟩ := p
      rw [hl] at h
      obtain ⟨a, rfl, ha⟩ := (readLine_iff _ _ _).mp hl
      simp only at h
      by_cases h0 : l = []
      · subst h0
        rw [if_pos rfl] at h
        cases h
        exact ⟨a, rfl, .nil ha⟩
      · rw [if_neg h0] at h
        obtain ⟨⟨ls', r'⟩, h1, h2⟩ := Option.map_eq_some_iff.mp h
        cases h2
        obtain ⟨b, rfl, hb⟩ := ih h1
        exact ⟨a ++ b, by simp, .cons ha h0 hb⟩

theorem line_ne_nil {a l : Str} (h : Line a l) : a ≠ [] := by
  cases h <;> simp [CRLF]

theorem readBlock_complete {a : Str} {ls : List Str} (h : Lines a ls) :
    ls.length < a.length ∧ ∀ n rest, ls.length < n → readBlock n (a ++ rest) = some (ls, rest) := by
  induction h with
  | nil he =>
    refine ⟨List.length_pos_iff.mpr (line_ne_nil he), fun n rest hn => ?_⟩
    obtain ⟨n, rfl⟩ := Nat.exists_eq_succ_of_ne_zero (Nat.ne_of_gt hn)
    unfold readBlock
    rw [(readLine_iff _ _ _).mpr ⟨_, rfl, he⟩]
    rfl
  | @cons a l s ls ha h0 _ ih =>
    have := List.length_pos_iff.mpr (line_ne_nil ha)
    refine ⟨by simp only [List.length_cons, List.length_append]; have := ih.1; omega, fun n rest hn => ?_⟩
    obtain ⟨n, rfl⟩ := Nat.exists_eq_succ_of_ne_zero (Nat.ne_of_gt (Nat.lt_of_le_of_lt (Nat.zero_le _) hn))
    unfold readBlock
    rw [List.append_assoc, (readLine_iff _ _ _).mpr ⟨_, rfl, ha⟩]
    simp only [if_neg h0]
    rw [ih.2 n rest (by simpa using hn)]
    rfl

/-! ### Fields -/

/-- Text without such bytes at its end. -/
def endTrim (p : UInt8 → Bool) (s : Str) : Str := (s.reverse.dropWhile p).reverse

theorem right_eq (s : Str) : right s = endTrim isWsp s := rfl

theorem endTrim_keep {p : UInt8 → Bool} {c : UInt8} (hc : p c = false) (a e : Str) :
    endTrim p (a ++ c :: e) = a ++ c :: endTrim p e := by
  unfold endTrim
  rw [List.reverse_append, List.reverse_cons]
  have key : ∀ x y : Str, (x ++ [c] ++ y).dropWhile p = x.dropWhile p ++ [c] ++ y := by
    intro x y
    induction x with
    | nil => rw [List.nil_append]; exact List.dropWhile_cons_of_neg (by simp [hc])
    | cons d x ih =>
      by_cases hd : p d = true
      · rw [List.cons_append, List.cons_append, List.dropWhile_cons_of_pos hd,
          List.dropWhile_cons_of_pos hd, ih]
      · rw [List.cons_append, List.cons_append, List.dropWhile_cons_of_neg hd,
          List.dropWhile_cons_of_neg hd]
        rfl
  rw [key]
  simp

theorem endTrim_white {p : UInt8 → Bool} {w : Str} (hw : ∀ c ∈ w, p c = true) (a : Str) :
    endTrim p (a ++ w) = endTrim p a := by
  unfold endTrim
  rw [List.reverse_append, dropWhile_all (by intro d hd; exact hw d (List.mem_reverse.mp hd))]

theorem endTrim_split (p : UInt8 → Bool) (s : Str) :
    ∃ w, s = endTrim p s ++ w ∧ ∀ c ∈ w, p c = true := by
  refine ⟨(s.reverse.takeWhile p).reverse, ?_, ?_⟩
  · unfold endTrim
    rw [← List.reverse_append, List.takeWhile_append_dropWhile, List.reverse_reverse]
  · intro c hc
    exact List.all_eq_true.mp List.all_takeWhile c (List.mem_reverse.mp hc)

theorem trimBy_end {p : UInt8 → Bool} {s : Str} (h : ∀ c, s.head? = some c → p c = false) :
    trimBy p s = endTrim p s := by
  unfold trimBy
  rw [dropWhile_head h]
  rfl

/-- What lines that continue another add to it. -/
def folds (more : List Str) : Str := more.flatMap fun m => [0x20] ++ strip m

theorem unfoldLines_more {more : List Str} (h : ∀ m ∈ more, ∃ b s, m = b :: s ∧ Rfc7230.blank b = true)
    (ls : List Str) :
    unfoldLines (more ++ ls) = (folds more ++ (unfoldLines ls).1, (unfoldLines ls).2) := by
  induction more with
  | nil => rfl
  | cons m more ih =>
    obtain ⟨b, s, rfl, hb⟩ := h m (.head _)
    have hb' : (List.head? (b :: s)).any isWsp = true := hb
    have ih := ih fun m hm => h m (.tail _ hm)
    generalize hq : unfoldLines ls = q at ih ⊢
    rw [List.cons_append]
    unfold unfoldLines
    rw [ih]
    simp only [hb', if_true, folds, List.flatMap_cons, List.append_assoc]
    rfl

theorem canonicalKey_nil_iff (k : Str) : canonicalKey k = [] ↔ k = [] := by
  have := congrArg List.length (lower_canonicalKey k)
  simp only [List.length_map] at this
  rw [← List.length_eq_zero_iff, this, List.length_eq_zero_iff]

/-- What is stored of the fields of a head. -/
def store (h : Header) (fields : List (Str × Str)) : Header :=
  (fields.filter fun f => f.1 ≠ []).foldl putField h

theorem store_cons (h : Header) (f : Str × Str) (fields : List (Str × Str)) :
    store h (f :: fields) = store (if f.1 = [] then h else putField h f) fields := by
  unfold store
  by_cases h0 : f.1 = []
  · rw [if_pos h0, List.filter_cons_of_neg (by simpa using h0)]
  · rw [if_neg h0, List.filter_cons_of_pos (by simpa using h0)]
    rfl

/-- One field with the lines that continue it. -/
theorem readField_line {k v : Str} {more : List Str} (hk : (0x3A : UInt8) ∉ k)
    (hf : ∀ b, (k ++ [0x3A]).head? = some b → Rfc7230.blank b = false) (h : Header) :
    readField h (k ++ [0x3A] ++ v, trimBy isWsp (k ++ [0x3A] ++ v) ++ folds more) =
      some (if k = [] then h else putField h (k, unfolded v more)) := by
  have hh : ∀ c, (k ++ [0x3A] ++ v).head? = some c → isWsp c = false := by
    intro c hc
    refine hf c ?_
    rw [List.head?_append] at hc
    cases k with
    | nil => exact hc
    | cons d k => exact hc
  have e : trimBy isWsp (k ++ [0x3A] ++ v) ++ folds more = k ++ 0x3A :: (right v ++ folds more) := by
    rw [trimBy_end hh, show k ++ [0x3A] ++ v = k ++ 0x3A :: v by simp, endTrim_keep (by decide), right_eq]
    simp
  unfold readField
  rw [e]
  have hc : (k ++ [0x3A] ++ v).contains 0x3A = true := by simp
  simp only [hc, Bool.not_true, Bool.false_eq_true, if_false, cutByte_append _ hk, canonicalKey_nil_iff]
  by_cases h0 : k = []
  · simp [h0]
  · simp only [if_neg h0]
    rfl

theorem unfoldLines_complete {ls : List Str} {fields : List (Str × Str)} (h : Folded ls fields) :
    (unfoldLines ls).1 = [] ∧ ∀ hd, (unfoldLines ls).2.foldlM readField hd = some (store hd fields) := by
  induction h with
  | nil => exact ⟨rfl, fun hd => rfl⟩
  | @cons k v more ls l hk hf hm _ ih =>
    have hn : ((k ++ [0x3A] ++ v).head?.any isWsp) = false := by
      cases k with
      | nil => rfl
      | cons c k => exact hf c rfl
    unfold unfoldLines
    simp only [unfoldLines_more hm, ih.1, List.append_nil, hn, Bool.false_eq_true, if_false, true_and]
    intro hd
    rw [List.foldlM_cons, readField_line hk hf]
    simp only [Option.bind_eq_bind, Option.bind_some]
    rw [ih.2, store_cons]

theorem unfoldLines_sound (ls : List Str) (hd hd' : Header)
    (h : (unfoldLines ls).2.foldlM readField hd = some hd') :
    ∃ more rest fields, ls = more ++ rest ∧ (∀ m ∈ more, ∃ b s, m = b :: s ∧ Rfc7230.blank b = true) ∧
      Folded rest fields ∧ hd' = store hd fields := by
  induction ls generalizing hd with
  | nil =>
    cases h
    exact ⟨[], [], [], rfl, by simp, .nil, rfl⟩
  | cons l ls ih =>
    unfold unfoldLines at h
    by_cases hl : l.head?.any isWsp = true
    · simp only [hl, if_true] at h
      obtain ⟨more, rest, fields, rfl, h2, h3, h4⟩ := ih hd h
      refine ⟨l :: more, rest, fields, rfl, ?_, h3, h4⟩
      intro m hm
      rcases List.mem_cons.mp hm with rfl | hm
      · cases m with
        | nil => cases hl
        | cons b s => exact ⟨b, s, rfl, hl⟩
      · exact h2 m hm
    · simp only [hl, Bool.false_eq_true, if_false, List.foldlM_cons, Option.bind_eq_bind] at h
      obtain ⟨hd1, h1, h2⟩ := Option.bind_eq_some_iff.mp h
      obtain ⟨more, rest, fields, rfl, m1, m2, m3⟩ := ih hd1 h2
      have hc : (0x3A : UInt8) ∈ l := by
        by_cases hc : l.contains 0x3A = true
        · simpa using hc
        · unfold readField at h1
          simp only [hc, Bool.not_false, if_true] at h1
          cases h1
      obtain ⟨⟨k, v⟩, hkv⟩ : ∃ p, cutByte 0x3A l = some p := by
        cases e : cutByte 0x3A l with
        | none => exact absurd hc ((cutByte_none_iff _ _).mp e)
        | some p => exact ⟨p, rfl⟩
      obtain ⟨e, hk⟩ := (cutByte_some_iff _ _ _ _).mp hkv
      have e' : l = k ++ [0x3A] ++ v := by rw [e]; simp
      subst e'
      have hf : ∀ b, (k ++ [0x3A]).head? = some b → Rfc7230.blank b = false := by
        intro b hb
        cases k with
        | nil => cases hb; rfl
        | cons c k =>
          cases hb
          exact Bool.eq_false_iff.mpr hl
      obtain ⟨hr, -⟩ := unfoldLines_complete m2
      simp only [unfoldLines_more m1, hr, List.append_nil] at h1
      rw [readField_line hk hf] at h1
      cases h1
      refine ⟨[], _, (k, unfolded v more) :: fields, rfl, by simp, .cons hk hf m1 m2, ?_⟩
      rw [m3, store_cons]

/-- A head is read if it is in order, and to where it ends. -/
theorem readHead_iff (s rest : Str) (h : Header) :
    readHead s = some (h, rest) ↔ ∃ a fields, s = a ++ rest ∧ Head a fields ∧ h = store [] fields := by
  constructor
  · intro hh
    unfold readHead at hh
    obtain ⟨⟨ls, r⟩, h1, h2⟩ := Option.bind_eq_some_iff.mp hh
    obtain ⟨a, rfl, ha⟩ := readBlock_sound h1
    simp only at h2
    split at h2
    · cases h2
    · rename_i h0
      obtain ⟨h', h3, h4⟩ := Option.bind_eq_some_iff.mp h2
      cases h4
      obtain ⟨more, ls', fields, rfl, m1, m2, m3⟩ := unfoldLines_sound ls [] _ h3
      rw [unfoldLines_more m1] at h0
      have hm : more = [] := by
        cases more with
        | nil => rfl
        | cons m more => exact absurd (by simp [folds]) h0
      subst hm
      exact ⟨a, fields, rfl, ⟨_, ha, m2⟩, m3⟩
  · rintro ⟨a, fields, rfl, ⟨ls, h1, h2⟩, rfl⟩
    obtain ⟨c1, c2⟩ := readBlock_complete h1
    obtain ⟨u1, u2⟩ := unfoldLines_complete h2
    unfold readHead
    rw [c2 _ rest (by simp only [List.length_append]; omega)]
    simp only [Option.bind_eq_bind, Option.bind_some, u1, u2]
    rfl

/-! ### The header that is read -/

/-- Under the key of a name stand the values of the fields of that name. -/
theorem get?_store (fields : List (Str × Str)) {name : Str} (hn : Token name) :
    GoMap.get? (store [] fields) (canonicalKey name) =
      if named fields name = [] then none else some (named fields name) := by
  have e : ((fields.filter fun f => f.1 ≠ []).filter fun f => canonicalKey f.1 = canonicalKey name) =
      fields.filter fun f => SameName f.1 name := by
    rw [List.filter_filter]
    refine List.filter_congr fun f _ => ?_
    have h1 : canonicalKey f.1 = canonicalKey name ↔ SameName f.1 name := by
      rw [eq_comm, canonicalKey_eq_iff hn]
      exact ⟨Eq.symm, Eq.symm⟩
    have h2 : SameName f.1 name → f.1 ≠ [] := by
      intro h e
      have := congrArg List.length h
      rw [e, List.length_map, List.length_map] at this
      exact hn.1 (List.length_eq_zero_iff.mp this.symm)
    simp only [h1]
    by_cases hs : SameName f.1 name <;> simp [hs, h2]
  unfold store
  rw [get?_foldl_putField, e]
  unfold named
  simp only [List.map_eq_nil_iff]
  split <;> simp [GoMap.get?_nil]

/-! ### Chunks -/

theorem hexDigit_unhex : ∀ (b : UInt8) (d : Nat), unhex b = some d → HexDigit b d := by
  have key : ∀ b : UInt8, match unhex b with
      | none => True
      | some d => (0x30 ≤ b ∧ b ≤ 0x39 ∧ d = b.toNat - 0x30) ∨ (0x41 ≤ b ∧ b ≤ 0x46 ∧ d = b.toNat - 0x41 + 10) ∨
          (0x61 ≤ b ∧ b ≤ 0x66 ∧ d = b.toNat - 0x61 + 10) := by
    intro b
    have : ∀ b : UInt8, (match unhex b with
      | none => true
      | some d => decide ((0x30 ≤ b ∧ b ≤ 0x39 ∧ d = b.toNat - 0x30) ∨
          (0x41 ≤ b ∧ b ≤ 0x46 ∧ d = b.toNat - 0x41 + 10) ∨
          (0x61 ≤ b ∧ b ≤ 0x66 ∧ d = b.toNat - 0x61 + 10))) = true := by
      apply forall_u8 (P := fun b : UInt8 => (match unhex b with
        | none => true
        | some d => decide ((0x30 ≤ b ∧ b ≤ 0x39 ∧ d = b.toNat - 0x30) ∨
          (0x41 ≤ b ∧ b ≤ 0x46 ∧ d = b.toNat - 0x41 + 10) ∨
          (0x61 ≤ b ∧ b ≤ 0x66 ∧ d = b.toNat - 0x61 + 10))) = true)
      decide +kernel
    have := this b
    cases h : unhex b with
    | none => trivial
    | some d => rw [h] at this; exact of_decide_eq_true this
  intro b d h
  have := key b
  rw [h] at this
  rcases this with ⟨h1, h2, rfl⟩ | ⟨h1, h2, rfl⟩ | ⟨h1, h2, rfl⟩
  · exact .digit h1 h2
  · exact .upper h1 h2
  · exact .lower h1 h2

theorem hex_parseHex (k : Nat) : ∀ (s : Str) (n : Nat), s.length = k → parseHex 0 s = some n → Hex s n := by
  induction k with
  | zero =>
    intro s n hs h
    rw [List.length_eq_zero_iff.mp hs] at h ⊢
    cases h
    exact .nil
  | succ k ih =>
    intro s n hs h
    have hne : s ≠ [] := by rintro rfl; cases hs
    have e := List.dropLast_concat_getLast hne
    rw [← e, parseHex_append] at h
    obtain ⟨m, h1, h2⟩ := Option.bind_eq_some_iff.mp h
    obtain ⟨d, h3, rfl⟩ := Option.map_eq_some_iff.mp h2
    rw [← e]
    exact .snoc (ih _ _ (by simp [hs]) h1) (hexDigit_unhex _ _ h3)

theorem chunkSize_eq (line : Str) : chunkSize line =
    (let digits := ((cutByte 0x3B (endTrim isASCIISpace line)).getD (endTrim isASCIISpace line, [])).1
     if digits.length ≤ 16 then parseHex 0 digits else none) := rfl

theorem chunkSize_sound {line : Str} {n : Nat} (hl : (0x0A : UInt8) ∉ line) (h : chunkSize line = some n) :
    SizeLine (line ++ [0x0A]) n := by
  obtain ⟨w, e, hw⟩ := endTrim_split isASCIISpace line
  have hw' : ∀ b ∈ w, white b = true ∧ b ≠ 0x0A := fun b hb =>
    ⟨hw b hb, fun e' => hl (by rw [e]; exact List.mem_append_right _ (e' ▸ hb))⟩
  rw [chunkSize_eq] at h
  cases hc : cutByte 0x3B (endTrim isASCIISpace line) with
  | none =>
    rw [hc] at h
    simp only [Option.getD_none] at h
    by_cases h16 : (endTrim isASCIISpace line).length ≤ 16
    · rw [if_pos h16] at h
      have := SizeLine.mk (ext := []) (w := w) h16 (hex_parseHex _ _ _ rfl h) (.inl rfl) (by simp) hw'
      rw [List.append_nil, ← e] at this
      exact this
    · rw [if_neg h16] at h; cases h
  | some p =>
    obtain ⟨d, x⟩ := p
    rw [hc] at h
    simp only [Option.getD_some] at h
    obtain ⟨e2, -⟩ := (cutByte_some_iff _ _ _ _).mp hc
    by_cases h16 : d.length ≤ 16
    · rw [if_pos h16] at h
      have hx : (0x0A : UInt8) ∉ 0x3B :: x := by
        intro hm
        apply hl
        rw [e, e2]
        exact List.mem_append_left _ (List.mem_append_right _ hm)
      have := SizeLine.mk (ext := 0x3B :: x) (w := w) h16 (hex_parseHex _ _ _ rfl h) (.inr rfl) hx hw'
      rw [← e2, ← e] at this
      exact this
    · rw [if_neg h16] at h; cases h

theorem chunkSize_complete {a : Str} {n : Nat} (h : SizeLine a n) :
    ∃ line, a = line ++ [0x0A] ∧ (0x0A : UInt8) ∉ line ∧ chunkSize line = some n := by
  obtain ⟨h1, h2, h3, h4, h5⟩ := h
  rename_i digits ext w
  obtain ⟨p, q⟩ := parseHex_hex h2
  have hf := fun c hc => hexDigit_facts c (q c hc)
  have hd : (0x3B : UInt8) ∉ digits := fun hm => (hf _ hm).2.1 rfl
  refine ⟨digits ++ ext ++ w, rfl, ?_, ?_⟩
  · intro hm
    rcases List.mem_append.mp hm with hm | hm
    · rcases List.mem_append.mp hm with hm | hm
      · exact (hf _ hm).2.2 rfl
      · exact h4 hm
    · exact (h5 _ hm).2 rfl
  · rw [chunkSize_eq, endTrim_white (p := isASCIISpace) (fun c hc => (h5 c hc).1)]
    cases ext with
    | nil =>
      have : endTrim isASCIISpace (digits ++ []) = digits := by
        rw [List.append_nil]
        unfold endTrim
        rw [dropWhile_head, List.reverse_reverse]
        intro c hc
        rw [List.head?_reverse] at hc
        exact (hf c (List.mem_of_getLast? hc)).1
      rw [this, (cutByte_none_iff 0x3B digits).mpr hd]
      simp [h1, p]
    | cons c ext =>
      rcases h3 with h3 | h3
      · cases h3
      · cases h3
        rw [endTrim_keep (by decide), cutByte_append _ hd]
        simp [h1, p]

theorem readChunks_sound {n : Nat} {s body rest : Str} (h : readChunks n s = (body, false, rest)) :
    ∃ text, s = text ++ rest ∧ Chunked text body := by
  induction n generalizing s body with
  | zero => cases h
  | succ n ih =>
    unfold readChunks at h
    cases hc : cutByte 0x0A s with
    | none => rw [hc] at h; cases h
    | some p =>
      obtain ⟨line, r⟩ := p
      rw [hc] at h
      obtain ⟨rfl, hn⟩ := (cutByte_some_iff _ _ _ _).mp hc
      simp only at h
      cases hs : chunkSize line with
      | none => rw [hs] at h; cases h
      | some size =>
        rw [hs] at h
        have hl := chunkSize_sound hn hs
        cases size with
        | zero =>
          simp only at h
          cases hr : readHead r with
          | none => rw [hr] at h; cases h
          | some p =>
            obtain ⟨hd, r'⟩ := p
            rw [hr] at h
            cases h
            obtain ⟨a, fields, rfl, ha, -⟩ := (readHead_iff _ _ _).mp hr
            exact ⟨line ++ [0x0A] ++ a, by simp, .last hl ha⟩
        | succ m =>
          simp only at h
          by_cases hle : r.length < m + 1
          · rw [if_pos hle] at h; cases h
          · rw [if_neg hle] at h
            cases hp : stripPrefix crlf (r.drop (m + 1)) with
            | none => rw [hp] at h; cases h
            | some r' =>
              rw [hp] at h
              simp only [Prod.mk.injEq] at h
              obtain ⟨h1, h2, h3⟩ := h
              obtain ⟨text, e, ht⟩ := ih (s := r') (body := (readChunks n r').1)
                (by rw [← h2, ← h3])
              have e2 := (stripPrefix_some_iff _ _ _).mp hp
              have hlen : (r.take (m + 1)).length = m + 1 := by
                rw [List.length_take]; omega
              refine ⟨line ++ [0x0A] ++ r.take (m + 1) ++ CRLF ++ text, ?_, ?_⟩
              · have e3 : r = r.take (m + 1) ++ (CRLF ++ (text ++ rest)) := by
                  conv => lhs; rw [← List.take_append_drop (m + 1) r, e2, e]
                  rfl
                conv => lhs; rw [e3]
                simp
              · rw [← h1]
                refine .chunk (by rw [hlen]; exact hl) ?_ ht
                intro e0
                rw [e0] at hlen
                cases hlen

theorem readChunks_complete {s body : Str} (h : Chunked s body) :
    ∃ k, k ≤ s.length ∧ ∀ n rest, k < n → readChunks n (s ++ rest) = (body, false, rest) := by
  induction h with
  | @last a trailer fields ha ht =>
    refine ⟨0, Nat.zero_le _, ?_⟩
    intro n rest hn
    obtain ⟨n, rfl⟩ := Nat.exists_eq_succ_of_ne_zero (Nat.ne_of_gt hn)
    obtain ⟨line, rfl, c1, c2⟩ := chunkSize_complete ha
    have hr := (readHead_iff (trailer ++ rest) rest _).mpr ⟨_, _, rfl, ht, rfl⟩
    simp only [readChunks]
    rw [show line ++ [0x0A] ++ trailer ++ rest = line ++ 0x0A :: (trailer ++ rest) by simp,
      cutByte_append _ c1]
    simp only [c2, hr]
  | @chunk a data s body ha hd _ ih =>
    obtain ⟨k, hk, ih⟩ := ih
    refine ⟨k + 1, by simp only [List.length_append, CRLF, List.length_cons]; omega, ?_⟩
    intro n rest hn
    obtain ⟨n, rfl⟩ := Nat.exists_eq_succ_of_ne_zero (Nat.ne_of_gt (Nat.lt_of_le_of_lt (Nat.zero_le _) hn))
    obtain ⟨line, rfl, c1, c2⟩ := chunkSize_complete ha
    have e : line ++ [0x0A] ++ data ++ CRLF ++ s ++ rest =
        line ++ 0x0A :: (data ++ (CRLF ++ (s ++ rest))) := by simp
    have hl : data.length ≠ 0 := fun e => hd (List.length_eq_zero_iff.mp e)
    obtain ⟨m, hm⟩ := Nat.exists_eq_succ_of_ne_zero hl
    have hx := ih n rest (by omega)
    simp only [readChunks]
    rw [e, cutByte_append _ c1]
    simp only [c2]
    rw [hm]
    rw [← hm, if_neg (by simp only [List.length_append]; omega), List.drop_left,
      show stripPrefix crlf (CRLF ++ (s ++ rest)) = some (s ++ rest) from stripPrefix_append CRLF _]
    simp only [hx, List.take_left]

/-! ### The body -/

theorem isChunked_iff (s : Str) : isChunked s = true ↔ ChunkedName s := by
  unfold isChunked ChunkedName
  rw [Bool.or_eq_true, Bool.and_eq_true, Bool.and_eq_true]
  simp only [decide_eq_true_eq]
  refine or_congr Iff.rfl ⟨?_, ?_⟩
  · rintro ⟨⟨h1, h2⟩, h3⟩
    refine ⟨s.take 4, s.drop 7, ?_, h1, h3⟩
    rw [← h2, List.append_assoc, show s.drop 7 = (s.drop 4).drop 3 by rw [List.drop_drop],
      List.take_append_drop, List.take_append_drop]
  · rintro ⟨a, c, rfl, h1, h2⟩
    have hl : a.length = 4 := by simpa [SameName] using congrArg List.length h1
    have e1 : (a ++ [0xE2, 0x84, 0xAA] ++ c).take 4 = a := by
      rw [List.append_assoc, ← hl, List.take_left]
    have e2 : (a ++ [0xE2, 0x84, 0xAA] ++ c).drop 4 = [0xE2, 0x84, 0xAA] ++ c := by
      rw [List.append_assoc, ← hl, List.drop_left]
    have e3 : (a ++ [0xE2, 0x84, 0xAA] ++ c).drop 7 = c := by
      rw [show (7 : Nat) = 4 + 3 from rfl, ← List.drop_drop, e2]; rfl
    rw [e1, e2, e3]
    exact ⟨⟨h1, rfl⟩, h2⟩

theorem digits_parseContentLength {s : Str} {n : Nat} (h : parseContentLength s = some n) :
    s ≠ [] ∧ (∀ b ∈ s, 0x30 ≤ b ∧ b ≤ 0x39) ∧ n = decimal s ∧ n < 2 ^ 63 := by
  unfold parseContentLength at h
  split at h
  · rename_i hc
    cases h
    refine ⟨hc.1, fun b hb => ?_, rfl, hc.2.2⟩
    have := List.all_eq_true.mp hc.2.1 b hb
    simpa [inRange] using this
  · cases h

theorem token_te : Token b!"Transfer-Encoding" := token_of_decide (by decide) (by decide)
theorem token_cl : Token b!"Content-Length" := token_of_decide (by decide) (by decide)
theorem token_host : Token b!"Host" := token_of_decide (by decide) (by decide)

/-- The fields that say how long a body is, as they are stored. -/
theorem get?_lengths (fields : List (Str × Str)) :
    GoMap.get? (fixPragma (store [] fields)) b!"Transfer-Encoding" =
      (if named fields b!"Transfer-Encoding" = [] then none else some (named fields b!"Transfer-Encoding")) ∧
    GoMap.get? (fixPragma (store [] fields)) b!"Content-Length" =
      (if named fields b!"Content-Length" = [] then none else some (named fields b!"Content-Length")) := by
  constructor
  · rw [get?_fixPragma _ (by decide), ← get?_store fields token_te]
    rfl
  · rw [get?_fixPragma _ (by decide), ← get?_store fields token_cl]
    rfl

/-- Reading a body as its fields say it is delimited. -/
theorem bodyLength_sound {request : Bool} {fields : List (Str × Str)} {h' : Header} {len : BodyLength}
    (h : bodyLength request (fixPragma (store [] fields)) = some (h', len)) :
    (∀ s body rest, readBody len s = (body, false, rest) →
      ∃ text, s = text ++ rest ∧ Framed request fields text body rest) ∧
    ∀ key, key ≠ b!"Transfer-Encoding" → key ≠ b!"Content-Length" →
      GoMap.get? h' key = GoMap.get? (fixPragma (store [] fields)) key := by
  obtain ⟨hte, hcl⟩ := get?_lengths fields
  generalize fixPragma (store [] fields) = m at h hte hcl
  unfold bodyLength at h
  rw [hte] at h
  by_cases t0 : named fields b!"Transfer-Encoding" = []
  · rw [if_pos t0] at h
    simp only at h
    have none_case : ∀ s body rest, (∀ v ∈ named fields b!"Content-Length", trim v = []) →
        readBody (if request = true then .fixed 0 else .toEnd) s = (body, false, rest) →
        ∃ text, s = text ++ rest ∧ Framed request fields text body rest := by
      intro s body rest hv hb
      cases request with
      | true =>
        simp only [if_true, readBody, List.take_zero, List.drop_zero] at hb
        cases hb
        exact ⟨[], rfl, .none rfl t0 hv⟩
      | false =>
        simp only [Bool.false_eq_true, if_false, readBody] at hb
        cases hb
        exact ⟨_, (List.append_nil _).symm, .toEnd rfl t0 hv⟩
    have del_case : ∀ key, key ≠ b!"Transfer-Encoding" → key ≠ b!"Content-Length" →
        GoMap.get? (m.del b!"Content-Length") key = GoMap.get? m key :=
      fun key _ k2 => GoMap.get?_del_of_ne _ k2
    rw [hcl] at h
    by_cases c0 : named fields b!"Content-Length" = []
    · rw [if_pos c0] at h
      simp only [Option.getD_none, List.map_nil] at h
      cases h
      exact ⟨fun s body rest => none_case s body rest (by rw [c0]; simp), del_case⟩
    · rw [if_neg c0] at h
      simp only [Option.getD_some] at h
      obtain ⟨v, vs, hv⟩ : ∃ v vs, named fields b!"Content-Length" = v :: vs := by
        cases e : named fields b!"Content-Length" with
        | nil => exact absurd e c0
        | cons v vs => exact ⟨v, vs, rfl⟩
      rw [hv, List.map_cons] at h
      simp only at h
      by_cases ha : (vs.map (trimBy isASCIISpace)).all (· = trimBy isASCIISpace v) = true
      · rw [ha] at h
        simp only [Bool.not_true, Bool.false_eq_true, if_false] at h
        have hall : ∀ x ∈ named fields b!"Content-Length", trim x = trimBy isASCIISpace v := by
          intro x hx
          rw [hv] at hx
          rcases List.mem_cons.mp hx with rfl | hx
          · rfl
          · exact of_decide_eq_true (List.all_eq_true.mp ha _ (List.mem_map.mpr ⟨x, hx, rfl⟩))
        by_cases e0 : trimBy isASCIISpace v = []
        · rw [if_pos e0] at h
          cases h
          exact ⟨fun s body rest => none_case s body rest (by rw [e0] at hall; exact hall), del_case⟩
        · rw [if_neg e0] at h
          cases hp : parseContentLength (trimBy isASCIISpace v) with
          | none => rw [hp] at h; cases h
          | some n =>
            rw [hp] at h
            obtain ⟨d1, d2, d3, d4⟩ := digits_parseContentLength hp
            cases h
            constructor
            · intro s body rest hb
              simp only [readBody, Prod.mk.injEq] at hb
              obtain ⟨rfl, b2, rfl⟩ := hb
              have hlen : (s.take n).length = n := by
                have : ¬ s.length < n := of_decide_eq_false b2
                rw [List.length_take]; omega
              exact ⟨s.take n, (List.take_append_drop n s).symm,
                .length t0 c0 hall d1 d2 (by rw [hlen, d3]) (by rw [hlen]; exact d4)⟩
            · intro key k1 k2
              split
              · rfl
              · rw [GoMap.get?_set, if_neg k2]
      · rw [Bool.eq_false_iff.mpr ha] at h
        simp at h
  · rw [if_neg t0] at h
    cases ht : named fields b!"Transfer-Encoding" with
    | nil => exact absurd ht t0
    | cons te more =>
      rw [ht] at h
      cases more with
      | cons a b => cases h
      | nil =>
        simp only at h
        by_cases hi : isChunked (trimBy isASCIISpace te) = true
        · rw [if_pos hi] at h
          cases h
          constructor
          · intro s body rest hb
            obtain ⟨text, e, hx⟩ := readChunks_sound (n := s.length + 1) hb
            exact ⟨text, e, .chunked ht ((isChunked_iff _).mp hi) hx⟩
          · intro key k1 k2
            rw [GoMap.get?_del_of_ne _ k2, GoMap.get?_del_of_ne _ k1]
        · rw [if_neg hi] at h; cases h

theorem bodyLength_complete {request : Bool} {fields : List (Str × Str)} {text body rest : Str}
    (hf : Framed request fields text body rest) :
    ∃ h' len, bodyLength request (fixPragma (store [] fields)) = some (h', len) ∧
      readBody len (text ++ rest) = (body, false, rest) ∧
      ∀ e ∈ h', e ∈ fixPragma (store [] fields) ∨
        ∃ v ∈ named fields b!"Content-Length", e = (b!"Content-Length", [trim v]) := by
  obtain ⟨hte, hcl⟩ := get?_lengths fields
  generalize fixPragma (store [] fields) = m at hte hcl
  have hmem : ∀ (m : Header) (k : Str), ∀ e ∈ m.del k, e ∈ m := fun m k e he => (List.mem_filter.mp he).1
  have none_case : named fields b!"Transfer-Encoding" = [] →
      (∀ v ∈ named fields b!"Content-Length", trim v = []) →
      bodyLength request m = some (m.del b!"Content-Length", if request then .fixed 0 else .toEnd) := by
    intro t0 hv
    unfold bodyLength
    rw [hte, if_pos t0, hcl]
    by_cases c0 : named fields b!"Content-Length" = []
    · rw [if_pos c0]; rfl
    · rw [if_neg c0]
      cases e : named fields b!"Content-Length" with
      | nil => exact absurd e c0
      | cons v vs =>
        rw [e] at hv
        have h1 : trimBy isASCIISpace v = [] := hv v (.head _)
        have h2 : (vs.map (trimBy isASCIISpace)).all (· = []) = true := by
          rw [List.all_eq_true]
          intro x hx
          obtain ⟨y, hy, rfl⟩ := List.mem_map.mp hx
          exact decide_eq_true (hv y (.tail _ hy))
        simp only [Option.getD_some, List.map_cons, h1, h2, Bool.not_true, Bool.false_eq_true, if_false,
          if_true]
  cases hf with
  | @chunked coding _ _ _ h1 h2 h3 =>
    refine ⟨(m.del b!"Transfer-Encoding").del b!"Content-Length", .chunked, ?_, ?_, ?_⟩
    · unfold bodyLength
      rw [hte, h1, if_neg (by simp)]
      simp only [show isChunked (trimBy isASCIISpace coding) = true from (isChunked_iff _).mpr h2, if_true]
    · obtain ⟨k, hk, hr⟩ := readChunks_complete h3
      exact hr _ rest (by simp only [List.length_append]; omega)
    · exact fun e he => .inl (hmem _ _ e (hmem _ _ e he))
  | @length digits _ _ h1 h0 h2 h3 h4 h5 h6 =>
    cases e : named fields b!"Content-Length" with
    | nil => exact absurd e h0
    | cons v vs =>
      rw [e] at h2
      have hv : trimBy isASCIISpace v = digits := h2 v (.head _)
      have ha : (vs.map (trimBy isASCIISpace)).all (· = digits) = true := by
        rw [List.all_eq_true]
        intro x hx
        obtain ⟨y, hy, rfl⟩ := List.mem_map.mp hx
        exact decide_eq_true (h2 y (.tail _ hy))
      refine ⟨if vs.map (trimBy isASCIISpace) = [] then m else GoMap.set m b!"Content-Length" [digits],
        .fixed text.length, ?_, by simp [readBody], ?_⟩
      · unfold bodyLength
        rw [hte, if_pos h1, hcl, e, if_neg (by simp)]
        simp only [Option.getD_some, List.map_cons, hv, ha, Bool.not_true, Bool.false_eq_true, if_false,
          if_neg h3, parseContentLength_digits h3 h4 (by omega), h5]
      · intro x hx
        split at hx
        · exact .inl hx
        · rcases List.mem_cons.mp hx with rfl | hx
          · exact .inr ⟨v, .head _, by rw [trim_eq, hv]⟩
          · exact .inl (List.mem_filter.mp hx).1
  | none h0 h1 h2 =>
    refine ⟨_, _, none_case h1 h2, ?_, fun e he => .inl (hmem _ _ e he)⟩
    rw [h0]; simp [readBody]
  | toEnd h0 h1 h2 =>
    refine ⟨_, _, none_case h1 h2, ?_, fun e he => .inl (hmem _ _ e he)⟩
    rw [h0]; simp [readBody]

end OAuth2

import Verif.Model.Json
import Verif.Lemmas.Utf8
import Verif.Lemmas.Bytes

set_option linter.unusedSimpArgs false

/-! Encoding and parsing JSON strings, numbers and objects. -/

namespace OAuth2

open Spec

/-! ### Strings -/

theorem jsonEscByte_cases : ∀ c : UInt8, c < 0x80 → htmlSafe c = false →
    (∃ e, jsonEscByte c = [0x5C, e] ∧ e ≠ 0x75 ∧ simpleEscape e = some c) ∨
    (jsonEscByte c = b!"\\u00" ++ [hexLower (c.toNat / 16), hexLower (c.toNat % 16)] ∧
      unhex (hexLower (c.toNat / 16)) = some (c.toNat / 16) ∧
      unhex (hexLower (c.toNat % 16)) = some (c.toNat % 16)) := by
  have h : ∀ c : UInt8, c < 0x80 → htmlSafe c = false →
      ((jsonEscByte c).length = 2 ∧ (jsonEscByte c).head? = some 0x5C ∧
        (jsonEscByte c).getLast? ≠ some 0x75 ∧
        ((jsonEscByte c).getLast?.bind simpleEscape) = some c) ∨
      (jsonEscByte c = b!"\\u00" ++ [hexLower (c.toNat / 16), hexLower (c.toNat % 16)] ∧
        unhex (hexLower (c.toNat / 16)) = some (c.toNat / 16) ∧
        unhex (hexLower (c.toNat % 16)) = some (c.toNat % 16)) :=
    forall_u8 (by decide +kernel)
  intro c h1 h2
  rcases h c h1 h2 with ⟨g1, g2, g3, g4⟩ | g
  · left
    match hj : jsonEscByte c, g1 with
    | [a, e], _ =>
      rw [hj] at g2 g3 g4
      simp at g2 g3 g4
      exact ⟨e, by rw [g2], g3, g4⟩
  · exact Or.inr g

theorem htmlSafe_facts : ∀ c : UInt8, htmlSafe c = true →
    c ≠ 0x22 ∧ c ≠ 0x5C ∧ ¬ c < 0x20 ∧ c < 0x80 := forall_u8 (by decide +kernel)

theorem parseStr_u {n : Nat} {a b c d : UInt8} {va vb vc vd : Nat} {rest : Str}
    (ha : unhex a = some va) (hb : unhex b = some vb) (hc : unhex c = some vc)
    (hd : unhex d = some vd)
    (hs : ((va * 16 + vb) * 16 + vc) * 16 + vd < 0xD800 ∨ 0xE000 ≤ ((va * 16 + vb) * 16 + vc) * 16 + vd) :
    parseStr (n + 1) (0x5C :: 0x75 :: a :: b :: c :: d :: rest) =
      (parseStr n rest).map fun (x, t) =>
        (encodeRune (((va * 16 + vb) * 16 + vc) * 16 + vd) ++ x, t) := by
  rw [parseStr.eq_def]
  have e1 : ¬ ((0x5C : UInt8) = 0x22) := by decide
  simp only [e1, if_false, if_true, hex4, ha, hb, hc, hd, Option.bind_eq_bind, Option.bind_some]
  simp only [Option.pure_def]
  rw [if_neg (by omega)]

theorem parseStr_jsonEsc (n : Nat) : ∀ (s : Str) (fuel : Nat) (rest : Str), s.length ≤ n →
    s.length < fuel →
    parseStr fuel (jsonEscAux n s ++ 0x22 :: rest) = some (sanitizeAux n s, rest) := by
  induction n with
  | zero =>
    intro s fuel rest h hf
    have : s = [] := List.length_eq_zero_iff.mp (by omega)
    subst this
    obtain ⟨f, rfl⟩ : ∃ f, fuel = f + 1 := ⟨fuel - 1, by simp at hf; omega⟩
    simp [jsonEscAux, sanitizeAux, parseStr]
  | succ n ih =>
    intro s fuel rest h hf
    obtain ⟨f, rfl⟩ : ∃ f, fuel = f + 1 := ⟨fuel - 1, by omega⟩
    cases s with
    | nil => simp [jsonEscAux, sanitizeAux, parseStr]
    | cons c cs =>
      simp only [List.length_cons] at h hf
      have ihc := ih cs f rest (by omega) (by omega)
      by_cases hc : c < 0x80
      · -- ASCII
        have hdec : decodeRune (c :: cs) = (c.toNat, 1) := by simp [decodeRune, hc]
        have hne : c.toNat ≠ runeError := by
          have := c.toNat_lt
          unfold runeError; omega
        have hsan : sanitizeAux (n + 1) (c :: cs) = c :: sanitizeAux n cs := by
          rw [sanitizeAux]
          simp only [hdec, hne, false_and, if_false]
          rfl
        have hcn := UInt8.lt_iff_toNat_lt.mp hc
        simp at hcn
        have henc : encodeRune c.toNat = [c] := by
          unfold encodeRune; rw [if_pos hcn]; simp
        rw [hsan]
        by_cases hs : htmlSafe c = true
        · obtain ⟨h1, h2, h3, h4⟩ := htmlSafe_facts c hs
          have hesc : jsonEscAux (n + 1) (c :: cs) = c :: jsonEscAux n cs := by
            simp [jsonEscAux, hc, hs]
          rw [hesc, List.cons_append, parseStr.eq_def]
          simp only [h1, h2, h3, h4, if_false, if_true, ihc]
          rfl
        · have hs : htmlSafe c = false := by simpa using hs
          have hesc : jsonEscAux (n + 1) (c :: cs) = jsonEscByte c ++ jsonEscAux n cs := by
            simp [jsonEscAux, hc, hs]
          rw [hesc]
          rcases jsonEscByte_cases c hc hs with ⟨e, he, hu, hse⟩ | ⟨he, hu1, hu2⟩
          · rw [he]
            simp only [List.cons_append, List.nil_append]
            rw [parseStr.eq_def]
            have e1 : ¬ ((0x5C : UInt8) = 0x22) := by decide
            simp only [e1, if_false, if_true, hu, hse, ihc]
            rfl
          · rw [he]
            simp only [List.cons_append, List.nil_append]
            rw [parseStr_u (va := 0) (vb := 0) (by decide) (by decide) hu1 hu2
              (by omega), ihc]
            have : ((0 * 16 + 0) * 16 + c.toNat / 16) * 16 + c.toNat % 16 = c.toNat := by omega
            rw [this, henc]
            rfl
      · -- not ASCII
        rcases decodeRune_cases c cs with ⟨hd, _⟩ | ⟨r, hr, hd, he⟩
        · have hesc : jsonEscAux (n + 1) (c :: cs) = b!"\\ufffd" ++ jsonEscAux n cs := by
            rw [jsonEscAux]
            simp only [hc, if_false, hd, and_self, if_true]
          have hsan : sanitizeAux (n + 1) (c :: cs) = [0xEF, 0xBF, 0xBD] ++ sanitizeAux n cs := by
            rw [sanitizeAux]
            simp only [hd, and_self, if_true]
          rw [hesc, hsan]
          simp only [List.cons_append, List.nil_append]
          rw [parseStr_u (va := 15) (vb := 15) (vc := 15) (vd := 13) (by decide) (by decide)
            (by decide) (by decide) (by decide), ihc]
          rfl
        · have hpos := encodeRune_length_pos r
          have hne : ¬ (r = runeError ∧ (encodeRune r).length = 1) := by
            rintro ⟨h1, h2⟩
            subst h1; revert h2; decide
          have htake : (c :: cs).take (encodeRune r).length = encodeRune r := by
            rw [he]; simp
          obtain ⟨ds, hds⟩ : ∃ ds, (c :: cs).drop (encodeRune r).length = ds := ⟨_, rfl⟩
          have hdl : ds.length ≤ cs.length := by
            rw [← hds, List.length_drop]; simp only [List.length_cons]; omega
          have ihd := ih ds f rest (by omega) (by omega)
          have hsan : sanitizeAux (n + 1) (c :: cs) = encodeRune r ++ sanitizeAux n ds := by
            rw [sanitizeAux]
            simp only [hd, hne, if_false, htake, hds]
          rw [hsan]
          by_cases h28 : r = 0x2028 ∨ r = 0x2029
          · have hesc : jsonEscAux (n + 1) (c :: cs) =
                b!"\\u202" ++ [hexLower (r % 16)] ++ jsonEscAux n ds := by
              rw [jsonEscAux]
              simp only [hc, if_false, hd, hne, h28, if_true, hds]
            rw [hesc]
            simp only [List.cons_append, List.nil_append]
            rw [parseStr_u (va := 2) (vb := 0) (vc := 2) (vd := r % 16) (by decide) (by decide)
              (by decide) (by rcases h28 with rfl | rfl <;> decide)
              (by rcases h28 with rfl | rfl <;> decide), ihd]
            have : ((2 * 16 + 0) * 16 + 2) * 16 + r % 16 = r := by omega
            rw [this]
            rfl
          · have hesc : jsonEscAux (n + 1) (c :: cs) = encodeRune r ++ jsonEscAux n ds := by
              rw [jsonEscAux]
              simp only [hc, if_false, hd, hne, h28, hds, htake]
            rw [hesc, List.append_assoc]
            have hdec := decodeRune_encodeRune hr (jsonEscAux n ds ++ 0x22 :: rest)
            have hdrop : (encodeRune r ++ (jsonEscAux n ds ++ 0x22 :: rest)).drop
                (encodeRune r).length = jsonEscAux n ds ++ 0x22 :: rest := by simp
            have hcons : ∃ t, encodeRune r ++ (jsonEscAux n ds ++ 0x22 :: rest) = c :: t := by
              cases hx : encodeRune r with
              | nil => exact absurd hx (encodeRune_ne_nil r)
              | cons x xs =>
                rw [hx] at he
                have := (List.cons.inj he).1
                exact ⟨xs ++ (jsonEscAux n ds ++ 0x22 :: rest), by rw [this]; rfl⟩
            obtain ⟨t, ht⟩ := hcons
            rw [ht] at hdec hdrop ⊢
            have hge : ¬ c.toNat < 128 := fun h => hc (UInt8.lt_iff_toNat_lt.mpr h)
            have g1 : c ≠ 0x22 := by rintro rfl; exact hge (by decide)
            have g2 : c ≠ 0x5C := by rintro rfl; exact hge (by decide)
            have g3 : ¬ c < 0x20 := by
              intro h
              have := UInt8.lt_iff_toNat_lt.mp h
              simp at this
              omega
            rw [parseStr.eq_def]
            simp only [g1, g2, g3, hc, if_false, hdec, hdrop, ihd]
            rfl

/-! ### Numbers -/

theorem digitChar_byte {n : Nat} (h : n < 10) :
    UInt8.ofNat (Nat.digitChar n).toNat = UInt8.ofNat (48 + n) := by
  have : ∀ n : Fin 10, UInt8.ofNat (Nat.digitChar n.val).toNat = UInt8.ofNat (48 + n.val) := by
    decide
  exact this ⟨n, h⟩

theorem natDigits_lt {n : Nat} (h : n < 10) : natDigits n = [UInt8.ofNat (48 + n)] := by
  unfold natDigits
  rw [Nat.toDigits_of_lt_base h]
  simp only [List.map_cons, List.map_nil, digitChar_byte h]

theorem natDigits_ge {n : Nat} (h : 10 ≤ n) :
    natDigits n = natDigits (n / 10) ++ [UInt8.ofNat (48 + n % 10)] := by
  unfold natDigits
  rw [Nat.toDigits_of_base_le (by decide) h, List.map_append]
  simp only [List.map_cons, List.map_nil, digitChar_byte (Nat.mod_lt n (by decide))]

theorem isDigit_ofNat {n : Nat} (h : n < 10) : isDigit (UInt8.ofNat (48 + n)) = true := by
  unfold isDigit
  rw [inRange_iff, toNat_ofNat_lt (by omega)]
  simp; omega

theorem digitsVal_append (a : Str) (c : UInt8) :
    digitsVal (a ++ [c]) = digitsVal a * 10 + (c.toNat - 48) := by
  unfold digitsVal; simp

/-- What is known about the decimal digits of a number. -/
theorem natDigits_spec (n : Nat) :
    (∀ c ∈ natDigits n, isDigit c = true) ∧ digitsVal (natDigits n) = n ∧
    (∃ c cs, natDigits n = c :: cs ∧ (n ≠ 0 → c ≠ 0x30)) ∧ (n = 0 → natDigits n = [0x30]) := by
  induction n using Nat.strongRecOn with
  | _ n ih =>
    by_cases h : n < 10
    · rw [natDigits_lt h]
      refine ⟨?_, ?_, ⟨_, [], rfl, ?_⟩, ?_⟩
      · intro c hc
        rw [List.mem_singleton.mp hc]
        exact isDigit_ofNat h
      · have : ∀ n : Fin 10, digitsVal [UInt8.ofNat (48 + n.val)] = n.val := by decide
        exact this ⟨n, h⟩
      · have : ∀ n : Fin 10, n.val ≠ 0 → UInt8.ofNat (48 + n.val) ≠ 0x30 := by decide
        exact this ⟨n, h⟩
      · rintro rfl; decide
    · have h' : 10 ≤ n := by omega
      rw [natDigits_ge h']
      obtain ⟨i1, i2, ⟨c, cs, i3, i4⟩, _⟩ := ih (n / 10) (by omega)
      have hm : n % 10 < 10 := Nat.mod_lt _ (by decide)
      refine ⟨?_, ?_, ⟨c, cs ++ [UInt8.ofNat (48 + n % 10)], by rw [i3]; rfl,
        fun _ => i4 (by omega)⟩, by omega⟩
      · intro d hd
        rcases List.mem_append.mp hd with hd | hd
        · exact i1 d hd
        · rw [List.mem_singleton.mp hd]; exact isDigit_ofNat hm
      · rw [digitsVal_append, i2, toNat_ofNat_lt (by omega)]; omega

/-- The text that follows a number in an object or an array does not continue it. -/
def numEnd (rest : Str) : Prop :=
  ∀ c t, rest = c :: t → isDigit c = false ∧ c ≠ 0x2E ∧ c ≠ 0x65 ∧ c ≠ 0x45

theorem takeWhile_end {ds rest : Str} (hd : ∀ c ∈ ds, isDigit c = true) (he : numEnd rest) :
    (ds ++ rest).takeWhile isDigit = ds ∧ (ds ++ rest).dropWhile isDigit = rest := by
  induction ds with
  | nil =>
    cases rest with
    | nil => exact ⟨rfl, rfl⟩
    | cons c t =>
      have := (he c t rfl).1
      simp [List.takeWhile_cons, List.dropWhile_cons, this]
  | cons d ds ih =>
    have := hd d (by simp)
    obtain ⟨i1, i2⟩ := ih fun c hc => hd c (List.mem_cons_of_mem _ hc)
    rw [List.cons_append, List.takeWhile_cons, List.dropWhile_cons]
    simp [this, i1, i2]

theorem numFrac_end {rest : Str} (he : numEnd rest) : numFrac rest = some ([], rest) := by
  cases rest with
  | nil => rfl
  | cons c t =>
    have := (he c t rfl).2.1
    simp [numFrac, this]

theorem numExp_end {rest : Str} (he : numEnd rest) : numExp rest = some ([], rest) := by
  cases rest with
  | nil => rfl
  | cons c t =>
    have := (he c t rfl).2.2
    simp [numExp, this]

theorem numInt_natDigits (n : Nat) {rest : Str} (he : numEnd rest) :
    numInt (natDigits n ++ rest) = some (natDigits n, rest) := by
  obtain ⟨h1, _, ⟨c, cs, h3, h4⟩, h5⟩ := natDigits_spec n
  by_cases hn : n = 0
  · rw [h5 hn]
    simp [numInt]
  · have hc := h4 hn
    have hcd : isDigit c = true := h1 c (by rw [h3]; simp)
    have hcs : ∀ d ∈ cs, isDigit d = true := fun d hd => h1 d (by rw [h3]; simp [hd])
    obtain ⟨t1, t2⟩ := takeWhile_end hcs he
    rw [h3]
    simp [numInt, hc, hcd, t1, t2]

theorem isDigit_not_minus {c : UInt8} (h : isDigit c = true) : c ≠ 0x2D := by
  rintro rfl; revert h; decide

theorem parseNum_itoa (i : Int) {rest : Str} (he : numEnd rest) :
    parseNum (itoa i ++ rest) = some (itoa i, rest) := by
  cases i with
  | ofNat n =>
    obtain ⟨h1, _, ⟨c, cs, h3, _⟩, _⟩ := natDigits_spec n
    have hc : c ≠ 0x2D := isDigit_not_minus (h1 c (by rw [h3]; simp))
    have := numInt_natDigits n he
    unfold itoa parseNum
    simp only [h3] at this ⊢
    simp only [List.cons_append, hc, if_false] at this ⊢
    simp [this, numFrac_end he, numExp_end he]
  | negSucc n =>
    have := numInt_natDigits (n + 1) he
    unfold itoa parseNum
    simp only [List.cons_append, if_true]
    simp [this, numFrac_end he, numExp_end he]

/-- Go's `int64`. -/
def isInt64 (i : Int) : Prop := -9223372036854775808 ≤ i ∧ i < 9223372036854775808

theorem parseInt64_itoa {i : Int} (h : isInt64 i) : parseInt64 (itoa i) = some i := by
  unfold isInt64 at h
  cases i with
  | ofNat n =>
    obtain ⟨h1, h2, ⟨c, cs, h3, _⟩, _⟩ := natDigits_spec n
    have hc : c ≠ 0x2D := isDigit_not_minus (h1 c (by rw [h3]; simp))
    have hall : (natDigits n).all isDigit = true := List.all_eq_true.mpr h1
    unfold itoa parseInt64
    simp only [h3] at hall h2 ⊢
    have hlt : n < 9223372036854775808 := by
      have := h.2
      simp only [Int.ofNat_eq_natCast] at this
      omega
    simp only [hc, if_false, h2, hall, hlt, and_self, if_true]
    rfl
  | negSucc n =>
    obtain ⟨h1, h2, ⟨c, cs, h3, _⟩, _⟩ := natDigits_spec (n + 1)
    have hall : (natDigits (n + 1)).all isDigit = true := List.all_eq_true.mpr h1
    have hne : natDigits (n + 1) ≠ [] := by rw [h3]; simp
    unfold itoa parseInt64
    have hle : n + 1 ≤ 9223372036854775808 := by
      have := h.1
      omega
    simp only [if_true, hall, h2, hne, ne_eq, not_false_eq_true, and_self, hle]
    rfl

/-! ### Values and objects -/

/-- The text is parsed as the document from the front of anything that can follow a member. -/
def Parses (text : Str) (j : JSON) : Prop :=
  ∀ fuel d rest, 0 < fuel → numEnd rest → parseValue fuel d (text ++ rest) = some (j, rest)

/-- The text is an encoding of the document, which is nested no deeper than `k`. -/
def Encodes (k : Nat) (text : Str) (j : JSON) : Prop :=
  text ≠ [] ∧ ∀ fuel d rest, text.length ≤ fuel → d + k ≤ maxDepth → numEnd rest →
    parseValue fuel d (text ++ rest) = some (j, rest)

theorem Parses.encodes {text : Str} {j : JSON} (h : Parses text j) (hne : text ≠ []) (k : Nat) :
    Encodes k text j := by
  refine ⟨hne, fun fuel d rest hf _ hr => h fuel d rest ?_ hr⟩
  have := List.length_pos_iff.mpr hne
  omega

theorem Encodes.mono {k k' : Nat} {text : Str} {j : JSON} (h : Encodes k text j) (hk : k ≤ k') :
    Encodes k' text j := ⟨h.1, fun fuel d rest hf hd => h.2 fuel d rest hf (by omega)⟩

theorem skipWs_cons {c : UInt8} (h : isJsonWs c = false) (cs : Str) : skipWs (c :: cs) = c :: cs := by
  unfold skipWs
  rw [List.dropWhile_cons]
  simp [h]

theorem parses_string (s : Str) : Parses (jsonString s) (.str (sanitize s)) := by
  intro fuel d rest hf _
  obtain ⟨f, rfl⟩ : ∃ f, fuel = f + 1 := ⟨fuel - 1, by omega⟩
  unfold jsonString
  simp only [List.cons_append, List.append_assoc, List.nil_append]
  rw [parseValue.eq_def]
  simp only
  rw [skipWs_cons (by decide)]
  have e1 : ¬ ((0x22 : UInt8) = 0x7B) := by decide
  have e2 : ¬ ((0x22 : UInt8) = 0x5B) := by decide
  simp only [e1, e2, if_false, if_true]
  have : s.length < (jsonEscAux s.length s ++ 0x22 :: rest).length + 1 := by
    have : ∀ n s, s.length ≤ n → s.length ≤ (jsonEscAux n s).length := by
      intro n
      induction n with
      | zero => intro s h; omega
      | succ n ih =>
        intro s h
        cases s with
        | nil => simp
        | cons c cs =>
          simp only [List.length_cons] at h
          have ihc := ih cs (by omega)
          by_cases hc : c < 0x80
          · have hl : 1 ≤ (if htmlSafe c then [c] else jsonEscByte c).length := by
              split
              · simp
              · unfold jsonEscByte
                (repeat' split) <;> simp
            simp only [jsonEscAux, hc, if_true, List.length_append, List.length_cons]
            omega
          · rcases decodeRune_cases c cs with ⟨hd, _⟩ | ⟨r, hr, hd, he⟩
            · rw [jsonEscAux]
              simp only [hc, if_false, hd, and_self, if_true, List.length_append, List.length_cons,
                List.length_nil]
              omega
            · have hne : ¬ (r = runeError ∧ (encodeRune r).length = 1) := by
                rintro ⟨h1, h2⟩
                subst h1; revert h2; decide
              have hpos := encodeRune_length_pos r
              have hle4 : (encodeRune r).length ≤ 4 := by
                unfold encodeRune; (repeat' split) <;> simp
              have ihd := ih ((c :: cs).drop (encodeRune r).length) (by
                rw [List.length_drop]; simp only [List.length_cons]; omega)
              rw [List.length_drop] at ihd
              simp only [List.length_cons] at ihd
              rw [jsonEscAux]
              simp only [hc, if_false, hd, hne]
              split
              · simp only [List.length_append, List.length_cons, List.length_nil]; omega
              · simp only [List.length_append, List.length_cons, List.length_take]; omega
    have := this s.length s (Nat.le_refl _)
    simp only [List.length_append, List.length_cons]
    omega
  rw [parseStr_jsonEsc s.length s _ rest (Nat.le_refl _) this]
  rfl

theorem itoa_head (i : Int) : ∃ c cs, itoa i = c :: cs ∧ (c = 0x2D ∨ isDigit c = true) := by
  cases i with
  | ofNat n =>
    obtain ⟨h1, _, ⟨c, cs, h3, _⟩, _⟩ := natDigits_spec n
    exact ⟨c, cs, h3, Or.inr (h1 c (by rw [h3]; simp))⟩
  | negSucc n => exact ⟨_, _, rfl, Or.inl rfl⟩

theorem numStart_facts : ∀ c : UInt8, c = 0x2D ∨ isDigit c = true → isJsonWs c = false ∧
    c ≠ 0x7B ∧ c ≠ 0x5B ∧ c ≠ 0x22 ∧ c ≠ 0x74 ∧ c ≠ 0x66 ∧ c ≠ 0x6E :=
  forall_u8 (by decide +kernel)

theorem parses_int (i : Int) : Parses (itoa i) (.num (itoa i)) := by
  intro fuel d rest hf hr
  obtain ⟨f, rfl⟩ : ∃ f, fuel = f + 1 := ⟨fuel - 1, by omega⟩
  obtain ⟨c, cs, hc, hcd⟩ := itoa_head i
  obtain ⟨h0, h1, h2, h3, h4, h5, h6⟩ := numStart_facts c hcd
  have hn := parseNum_itoa i hr
  rw [hc] at hn ⊢
  rw [parseValue.eq_def]
  simp only [List.cons_append] at hn ⊢
  rw [skipWs_cons h0]
  simp only [h1, h2, h3, h4, h5, h6, if_false, hn]
  rfl

theorem parses_bool (b : Bool) : Parses (if b then b!"true" else b!"false") (.bool b) := by
  intro fuel d rest hf _
  obtain ⟨f, rfl⟩ : ∃ f, fuel = f + 1 := ⟨fuel - 1, by omega⟩
  cases b
  · simp only [Bool.false_eq_true, if_false, List.cons_append, List.nil_append]
    rw [parseValue.eq_def]
    simp only
    rw [skipWs_cons (by decide)]
    simp [stripPrefix]
  · simp only [if_true, List.cons_append, List.nil_append]
    rw [parseValue.eq_def]
    simp only
    rw [skipWs_cons (by decide)]
    simp [stripPrefix]

theorem parses_null : Parses b!"null" .null := by
  intro fuel d rest hf _
  obtain ⟨f, rfl⟩ : ∃ f, fuel = f + 1 := ⟨fuel - 1, by omega⟩
  simp only [List.cons_append, List.nil_append]
  rw [parseValue.eq_def]
  simp only
  rw [skipWs_cons (by decide)]
  simp [stripPrefix]

theorem encodes_string (k : Nat) (s : Str) : Encodes k (jsonString s) (.str (sanitize s)) :=
  (parses_string s).encodes (by simp [jsonString]) k

theorem encodes_int (k : Nat) (i : Int) : Encodes k (itoa i) (.num (itoa i)) := by
  refine (parses_int i).encodes ?_ k
  obtain ⟨c, cs, hc, -⟩ := itoa_head i
  rw [hc]
  exact List.cons_ne_nil _ _

theorem encodes_bool (k : Nat) (b : Bool) :
    Encodes k (if b then b!"true" else b!"false") (.bool b) :=
  (parses_bool b).encodes (by cases b <;> decide) k

theorem encodes_null (k : Nat) : Encodes k b!"null" .null := parses_null.encodes (by decide) k

/-- One member: the key, the encoded value and the document it encodes. -/
structure Member where
  key : Str
  text : Str
  doc : JSON

theorem numEnd_cons {c : UInt8} (h : isDigit c = false ∧ c ≠ 0x2E ∧ c ≠ 0x65 ∧ c ≠ 0x45) (t : Str) :
    numEnd (c :: t) := by
  intro c' t' he
  cases he
  exact h

theorem parseMembers_join (ms : List Member) (hms : ms ≠ []) {k : Nat}
    (henc : ∀ m ∈ ms, Encodes k m.text m.doc) (fuel d : Nat)
    (hf : (joinStr [0x2C] (ms.map fun m => jsonString m.key ++ [0x3A] ++ m.text)).length < fuel)
    (hd : d + k ≤ maxDepth) (rest : Str) :
    parseMembers fuel d (joinStr [0x2C] (ms.map fun m => jsonString m.key ++ [0x3A] ++ m.text) ++
      0x7D :: rest) = some (ms.map fun m => (sanitize m.key, m.doc), rest) := by
  induction ms generalizing fuel with
  | nil => exact absurd rfl hms
  | cons m ms ih =>
    obtain ⟨f, rfl⟩ : ∃ f, fuel = f + 1 := ⟨fuel - 1, by omega⟩
    have hf1 : m.text.length ≤ f := by
      cases ms <;>
        simp only [List.map_cons, List.map_nil, joinStr, List.length_append, List.length_cons] at hf <;>
        omega
    -- reading one member in front of `c :: tail`
    have one : ∀ (c : UInt8) (tail : Str), (c = 0x2C ∨ c = 0x7D) →
        parseMembers (f + 1) d (jsonString m.key ++ [0x3A] ++ m.text ++ c :: tail) =
          if c = 0x7D then some ([(sanitize m.key, m.doc)], tail)
          else (parseMembers f d tail).map fun (l, r) => ((sanitize m.key, m.doc) :: l, r) := by
      intro c tail hc
      have hend : numEnd (c :: tail) := numEnd_cons (by rcases hc with rfl | rfl <;> decide) tail
      have hws : isJsonWs c = false := by rcases hc with rfl | rfl <;> decide
      rw [parseMembers.eq_def]
      simp only [jsonString, List.cons_append, List.append_assoc, List.nil_append]
      rw [skipWs_cons (by decide)]
      simp only [ne_eq, not_true, if_false]
      have hk := parses_string m.key 1 0 ([0x3A] ++ (m.text ++ c :: tail)) (by decide)
        (numEnd_cons (by decide) _)
      unfold jsonString at hk
      rw [parseValue.eq_def] at hk
      simp only [List.cons_append, List.append_assoc, List.nil_append] at hk
      rw [skipWs_cons (by decide)] at hk
      have e1 : ¬ ((0x22 : UInt8) = 0x7B) := by decide
      have e2 : ¬ ((0x22 : UInt8) = 0x5B) := by decide
      simp only [e1, e2, if_false, if_true] at hk
      cases hp : parseStr ((jsonEscAux m.key.length m.key ++ 0x22 :: 0x3A :: (m.text ++ c :: tail)).length
          + 1) (jsonEscAux m.key.length m.key ++ 0x22 :: 0x3A :: (m.text ++ c :: tail)) with
      | none => rw [hp] at hk; cases hk
      | some x =>
        obtain ⟨a, r⟩ := x
        rw [hp] at hk
        simp only [Option.map_some, Option.some.injEq, Prod.mk.injEq, JSON.str.injEq] at hk
        obtain ⟨rfl, rfl⟩ := hk
        simp only
        rw [skipWs_cons (by decide)]
        simp only [ne_eq, not_true, if_false]
        rw [(henc m (by simp)).2 f d (c :: tail) hf1 hd hend]
        simp only
        rw [skipWs_cons hws]
        simp only
        rcases hc with rfl | rfl
        · have e3 : ¬ ((0x2C : UInt8) = 0x7D) := by decide
          simp only [e3, if_false, if_true]
        · simp only [if_true]
    cases ms with
    | nil =>
      simp only [List.map_cons, List.map_nil, joinStr]
      rw [one 0x7D rest (Or.inr rfl), if_pos rfl]
    | cons m2 ms =>
      simp only [List.map_cons, joinStr, List.append_assoc, List.cons_append, List.nil_append] at ih ⊢
      have := one 0x2C (joinStr [0x2C] ((jsonString m2.key ++ ([0x3A] ++ m2.text)) ::
        ms.map fun m => jsonString m.key ++ ([0x3A] ++ m.text)) ++ 0x7D :: rest) (Or.inl rfl)
      simp only [List.append_assoc, List.cons_append, List.nil_append] at this
      rw [this, if_neg (by decide), ih (by simp) (fun m hm => henc m (List.mem_cons_of_mem _ hm)) f
        (by
          simp only [List.map_cons, joinStr, List.length_append, List.length_cons,
            List.append_assoc, List.nil_append, List.cons_append] at hf ⊢
          omega)]
      rfl

/-- **Objects**: parsing an encoded object, with a newline behind it as `Encoder.Encode` writes,
gives the members. -/
theorem parseJSON_object (ms : List Member) (hms : ms ≠ [])
    (henc : ∀ m ∈ ms, Encodes 9999 m.text m.doc) :
    parseJSON (jsonObject (ms.map fun m => (m.key, m.text)) ++ [0x0A]) =
      some (.obj (ms.map fun m => (sanitize m.key, m.doc))) := by
  obtain ⟨J, hJ⟩ : ∃ J, joinStr [0x2C] (ms.map fun m => jsonString m.key ++ [0x3A] ++ m.text) = J :=
    ⟨_, rfl⟩
  have hobj : jsonObject (ms.map fun m => (m.key, m.text)) ++ [0x0A] = 0x7B :: (J ++ [0x7D, 0x0A]) := by
    unfold jsonObject
    rw [List.map_map, ← hJ]
    simp [Function.comp_def]
  rw [hobj]
  unfold parseJSON
  rw [parseValue.eq_def]
  simp only
  rw [skipWs_cons (by decide)]
  have hmax : ¬ maxDepth ≤ 0 := by decide
  simp only [if_true, hmax, if_false]
  obtain ⟨m, ms', rfl⟩ := List.exists_cons_of_ne_nil hms
  have hx : ∃ xs, J ++ [0x7D, 0x0A] = 0x22 :: xs := by
    rw [← hJ]
    cases ms' <;> simp [joinStr, jsonString]
  obtain ⟨xs, hxs⟩ := hx
  have hskip : skipWs (J ++ [0x7D, 0x0A]) = 0x22 :: xs := by
    rw [hxs]; exact skipWs_cons (by decide) xs
  rw [hskip]
  have e1 : ¬ ((0x22 : UInt8) = 0x7D) := by decide
  simp only [e1, if_false]
  rw [← hxs, ← hJ, parseMembers_join _ (by simp) henc _ _ (by
    rw [hJ]; simp only [List.length_cons, List.length_append, List.length_nil]; omega) (by decide)]
  rfl

end OAuth2

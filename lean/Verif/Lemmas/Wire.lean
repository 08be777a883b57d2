import Verif.Model.Wire
import Verif.Spec.Wire
import Verif.Lemmas.Basic
import Verif.Lemmas.Bytes
import Verif.Lemmas.Map
import Verif.Lemmas.Http
import Verif.Lemmas.Json
import Verif.Lemmas.Sort

/-!
Reading and writing messages of HTTP/1.1.
-/

namespace OAuth2

open Rfc7230
open Rfc7235 (Token Tchar Blank)

/-! ### Bytes -/

theorem tchar_iff : ∀ c : UInt8, Tchar c ↔ validHeaderFieldByte c = true := by
  apply forall_u8 (P := fun c => Tchar c ↔ validHeaderFieldByte c = true)
  decide +kernel

theorem tchar_facts : ∀ c : UInt8, Tchar c → isWsp c = false ∧ c ≠ 0x3A ∧ c ≠ 0x0A ∧ c ≠ 0x0D ∧
    c ≠ 0x20 := by
  apply forall_u8 (P := fun c => Tchar c → isWsp c = false ∧ c ≠ 0x3A ∧ c ≠ 0x0A ∧ c ≠ 0x0D ∧ c ≠ 0x20)
  decide +kernel

theorem lower_eq (c : UInt8) : Rfc7230.lower c = lowerByte c := rfl

theorem isWsp_iff (c : UInt8) : isWsp c = true ↔ c = 0x20 ∨ c = 0x09 := by
  simp [isWsp]

theorem isWsp_false_iff (c : UInt8) : isWsp c = false ↔ c ≠ 0x20 ∧ c ≠ 0x09 := by
  simp [isWsp]

theorem case_facts : ∀ c : UInt8, validHeaderFieldByte (lowerByte c) = validHeaderFieldByte c ∧
    upperByte (lowerByte c) = upperByte c ∧ lowerByte (lowerByte c) = lowerByte c ∧
    lowerByte (upperByte c) = lowerByte c ∧ (lowerByte c = 0x2D ↔ c = 0x2D) := by
  apply forall_u8 (P := fun c => validHeaderFieldByte (lowerByte c) = validHeaderFieldByte c ∧
    upperByte (lowerByte c) = upperByte c ∧ lowerByte (lowerByte c) = lowerByte c ∧
    lowerByte (upperByte c) = lowerByte c ∧ (lowerByte c = 0x2D ↔ c = 0x2D))
  decide +kernel

/-! ### Names of fields -/

theorem canonicalAux_lower (up : Bool) (s : Str) :
    canonicalAux up (s.map lowerByte) = canonicalAux up s := by
  induction s generalizing up with
  | nil => rfl
  | cons c s ih =>
    obtain ⟨-, h2, h3, -, h5⟩ := case_facts c
    simp only [List.map_cons, canonicalAux, h2, h3]
    rw [ih]
    simp only [h5]

theorem lower_canonicalAux (up : Bool) (s : Str) :
    (canonicalAux up s).map lowerByte = s.map lowerByte := by
  induction s generalizing up with
  | nil => rfl
  | cons c s ih =>
    obtain ⟨-, -, h3, h4, -⟩ := case_facts c
    simp only [List.map_cons, canonicalAux, ih]
    cases up <;> simp [h3, h4]

theorem lower_canonicalKey (s : Str) : (canonicalKey s).map lowerByte = s.map lowerByte := by
  unfold canonicalKey
  split
  · exact lower_canonicalAux _ _
  · rfl

theorem valid_of_sameName {a b : Str} (h : SameName a b) (ha : a.all validHeaderFieldByte = true) :
    b.all validHeaderFieldByte = true := by
  have key : ∀ s : Str, (s.map lowerByte).all validHeaderFieldByte = s.all validHeaderFieldByte := by
    intro s
    rw [List.all_map]
    congr 1
    funext c
    exact (case_facts c).1
  rw [← key] at ha ⊢
  have h' : a.map lowerByte = b.map lowerByte := h
  rw [← h']; exact ha

theorem token_valid {k : Str} (h : Token k) : k.all validHeaderFieldByte = true :=
  List.all_eq_true.mpr fun c hc => (tchar_iff c).mp (h.2 c hc)

/-- Names are the same but for the case of letters if Go stores them under the same key. -/
theorem canonicalKey_eq_iff {a b : Str} (ha : Token a) :
    canonicalKey a = canonicalKey b ↔ SameName a b := by
  have va := token_valid ha
  constructor
  · intro h
    have := congrArg (List.map lowerByte) h
    rw [lower_canonicalKey, lower_canonicalKey] at this
    exact this
  · intro h
    have vb := valid_of_sameName h va
    unfold canonicalKey
    rw [if_pos va, if_pos vb, ← canonicalAux_lower, ← canonicalAux_lower true b]
    exact congrArg _ h

theorem canonicalKey_ne_nil {k : Str} (h : Token k) : canonicalKey k ≠ [] := by
  intro e
  have := congrArg List.length (lower_canonicalKey k)
  rw [e] at this
  simp only [List.map_nil, List.length_nil, List.length_map] at this
  exact h.1 (List.length_eq_zero_iff.mp this.symm)

/-! ### Lines -/

theorem dropCR_append (a : Str) : dropCR (a ++ [0x0D]) = a := by
  unfold dropCR
  simp

theorem readLine_crlf {a : Str} (h : (0x0A : UInt8) ∉ a) (rest : Str) :
    readLine (a ++ CRLF ++ rest) = some (a, rest) := by
  unfold readLine
  have e : a ++ CRLF ++ rest = (a ++ [0x0D]) ++ 0x0A :: rest := by simp [CRLF]
  rw [e, cutByte_append rest (by simp [h])]
  simp [dropCR_append]

theorem dropWhile_all {p : UInt8 → Bool} {w s : Str} (hw : ∀ c ∈ w, p c = true) :
    (w ++ s).dropWhile p = s.dropWhile p := by
  induction w with
  | nil => rfl
  | cons c w ih =>
    rw [List.cons_append, List.dropWhile_cons_of_pos (hw c (.head _))]
    exact ih fun d hd => hw d (.tail _ hd)

theorem dropWhile_head {p : UInt8 → Bool} {s : Str} (h : ∀ c, s.head? = some c → p c = false) :
    s.dropWhile p = s := by
  cases s with
  | nil => rfl
  | cons c s => rw [List.dropWhile_cons_of_neg (by simp [h c rfl])]

/-- Trimming removes what it should, and no more. -/
theorem trimBy_append {p : UInt8 → Bool} {w x w' : Str} (hw : ∀ c ∈ w, p c = true)
    (hw' : ∀ c ∈ w', p c = true) (h1 : ∀ c, x.head? = some c → p c = false)
    (h2 : ∀ c, x.getLast? = some c → p c = false) : trimBy p (w ++ x ++ w') = x := by
  unfold trimBy
  rw [List.append_assoc, dropWhile_all hw]
  cases x with
  | nil =>
    have : ([] ++ w').dropWhile p = [] := by
      rw [List.nil_append]
      have := dropWhile_all (s := []) hw'
      simpa using this
    rw [this]; rfl
  | cons c x =>
    rw [dropWhile_head (s := c :: x ++ w') (by intro d hd; exact h1 d hd), List.reverse_append,
      dropWhile_all (by intro d hd; exact hw' d (List.mem_reverse.mp hd)), dropWhile_head,
      List.reverse_reverse]
    intro d hd
    rw [List.head?_reverse] at hd
    exact h2 d hd

/-- What is stored when a field has been read. -/
def putField (h : Header) (f : Str × Str) : Header :=
  GoMap.set h (canonicalKey f.1) ((GoMap.get? h (canonicalKey f.1)).getD [] ++ [f.2])

theorem blank_wsp {w : Str} (h : Blank w) : ∀ c ∈ w, isWsp c = true :=
  fun c hc => (isWsp_iff c).mpr (h c hc)

theorem field_line {k w v w' : Str} (hk : Token k) (hw : Blank w) (hv : Value v) (hw' : Blank w') :
    (0x0A : UInt8) ∉ k ++ [0x3A] ++ w ++ v ++ w' ∧ k ++ [0x3A] ++ w ++ v ++ w' ≠ [] ∧
    (k ++ [0x3A] ++ w ++ v ++ w').head?.any isWsp = false ∧
    ∀ h, readField h (k ++ [0x3A] ++ w ++ v ++ w', trimBy isWsp (k ++ [0x3A] ++ w ++ v ++ w')) =
      some (putField h (k, v)) := by
  obtain ⟨c, ks, rfl⟩ := List.exists_cons_of_ne_nil hk.1
  have hk' : ∀ d ∈ c :: ks, isWsp d = false ∧ d ≠ 0x3A ∧ d ≠ 0x0A ∧ d ≠ 0x0D ∧ d ≠ 0x20 :=
    fun d hd => tchar_facts d (hk.2 d hd)
  have hblank : ∀ w : Str, Blank w → (0x0A : UInt8) ∉ w := by
    intro w hb hm
    rcases hb _ hm with h | h <;> exact absurd h (by decide)
  refine ⟨?_, by simp, ?_, ?_⟩
  · simp only [List.mem_append, not_or]
    exact ⟨⟨⟨⟨fun hm => (hk' _ hm).2.2.1 rfl, by decide⟩, hblank _ hw⟩, fun hm => (hv.line _ hm).2 rfl⟩,
      hblank _ hw'⟩
  · simp [(hk' c (.head _)).1]
  · intro h
    have hcolon : (0x3A : UInt8) ∉ c :: ks := fun hm => (hk' _ hm).2.1 rfl
    have hkey := canonicalKey_ne_nil hk
    have key : ∃ t, cutByte 0x3A (trimBy isWsp (c :: ks ++ [0x3A] ++ w ++ v ++ w')) =
        some (c :: ks, t) ∧ t.dropWhile isWsp = v := by
      by_cases hv0 : v = []
      · subst hv0
        refine ⟨[], ?_, rfl⟩
        have := trimBy_append (p := isWsp) (w := []) (x := c :: ks ++ [0x3A]) (w' := w ++ w')
          (by simp) (by
            intro d hd
            rcases List.mem_append.mp hd with hd | hd
            · exact blank_wsp hw d hd
            · exact blank_wsp hw' d hd)
          (by intro d hd; cases hd; exact (hk' c (.head _)).1)
          (by intro d hd; rw [List.getLast?_concat] at hd; cases hd; decide)
        rw [show c :: ks ++ [0x3A] ++ w ++ [] ++ w' = [] ++ (c :: ks ++ [0x3A]) ++ (w ++ w') by simp, this]
        exact cutByte_append [] hcolon
      · refine ⟨w ++ v, ?_, ?_⟩
        · have := trimBy_append (p := isWsp) (w := []) (x := c :: ks ++ [0x3A] ++ w ++ v) (w' := w')
            (by simp) (blank_wsp hw')
            (by intro d hd; cases hd; exact (hk' c (.head _)).1)
            (by
              intro d hd
              rw [List.getLast?_append, List.getLast?_eq_some_getLast hv0] at hd
              rw [Option.some_or] at hd
              rw [← List.getLast?_eq_some_getLast hv0] at hd
              exact (isWsp_false_iff d).mpr (hv.last d hd))
          rw [show c :: ks ++ [0x3A] ++ w ++ v ++ w' = [] ++ (c :: ks ++ [0x3A] ++ w ++ v) ++ w' by simp,
            this, show c :: ks ++ [0x3A] ++ w ++ v = (c :: ks) ++ 0x3A :: (w ++ v) by simp]
          exact cutByte_append _ hcolon
        · rw [dropWhile_all (blank_wsp hw),
            dropWhile_head fun d hd => (isWsp_false_iff d).mpr (hv.first d hd)]
    obtain ⟨t, ht, hd⟩ := key
    unfold readField
    rw [if_neg (by simp), ht]
    simp only [if_neg hkey, hd]
    rfl

/-- Fields are read back from their text. -/
theorem readBlock_fields {s : Str} {l : List (Str × Str)} (h : Fields s l) :
    ∃ lines ps, (∀ n rest, lines.length < n → readBlock n (s ++ CRLF ++ rest) = some (lines, rest)) ∧
      unfoldLines lines = ([], ps) ∧ (∀ h0, ps.foldlM readField h0 = some (l.foldl putField h0)) ∧
      lines.length ≤ s.length := by
  induction h with
  | nil =>
    refine ⟨[], [], ?_, rfl, fun _ => rfl, Nat.le_refl _⟩
    intro n rest hn
    obtain ⟨n, rfl⟩ := Nat.exists_eq_succ_of_ne_zero (Nat.ne_of_gt hn)
    have := readLine_crlf (a := []) (by simp) rest
    simp only [readBlock]
    rw [this]
    simp
  | @cons k w v w' s l hk hw hv hw' _ ih =>
    obtain ⟨lines, ps, h1, h2, h3, h4⟩ := ih
    obtain ⟨f1, f2, f3, f4⟩ := field_line hk hw hv hw'
    refine ⟨(k ++ [0x3A] ++ w ++ v ++ w') :: lines,
      (k ++ [0x3A] ++ w ++ v ++ w', trimBy isWsp (k ++ [0x3A] ++ w ++ v ++ w')) :: ps, ?_, ?_, ?_, ?_⟩
    · intro n rest hn
      obtain ⟨n, rfl⟩ := Nat.exists_eq_succ_of_ne_zero (Nat.ne_of_gt (Nat.lt_of_le_of_lt (Nat.zero_le _) hn))
      have := readLine_crlf f1 (s ++ CRLF ++ rest)
      simp only [readBlock]
      rw [show k ++ [0x3A] ++ w ++ v ++ w' ++ CRLF ++ s ++ CRLF ++ rest =
        k ++ [0x3A] ++ w ++ v ++ w' ++ CRLF ++ (s ++ CRLF ++ rest) by simp, this]
      simp only [if_neg f2, h1 n rest (by simpa using hn)]
      rfl
    · simp only [unfoldLines, h2, f3, List.append_nil]
      rfl
    · intro h0
      rw [List.foldlM_cons, f4]
      exact h3 _
    · simp only [List.length_cons, List.length_append, CRLF]
      omega

theorem readHead_fields {s : Str} {l : List (Str × Str)} (h : Fields s l) (rest : Str) :
    readHead (s ++ CRLF ++ rest) = some (l.foldl putField [], rest) := by
  obtain ⟨lines, ps, h1, h2, h3, h4⟩ := readBlock_fields h
  unfold readHead
  rw [h1 _ rest (by simp; omega)]
  simp only [Option.bind_eq_bind, Option.bind_some, h2, h3]
  rfl

/-! ### The header that is read -/

theorem get?_putField (h : Header) (f : Str × Str) (key : Str) :
    GoMap.get? (putField h f) key =
      if canonicalKey f.1 = key then some ((GoMap.get? h key).getD [] ++ [f.2]) else GoMap.get? h key := by
  unfold putField
  rw [GoMap.get?_set]
  by_cases e : canonicalKey f.1 = key
  · subst e; simp
  · rw [if_neg e, if_neg (fun e' => e e'.symm)]

theorem get?_foldl_putField (l : List (Str × Str)) (h : Header) (key : Str) :
    GoMap.get? (l.foldl putField h) key =
      if (l.filter fun f => canonicalKey f.1 = key) = [] then GoMap.get? h key
      else some ((GoMap.get? h key).getD [] ++ (l.filter fun f => canonicalKey f.1 = key).map (·.2)) := by
  induction l generalizing h with
  | nil => simp
  | cons f l ih =>
    rw [List.foldl_cons, ih, get?_putField]
    by_cases e : canonicalKey f.1 = key
    · simp only [e, if_true, List.filter_cons, decide_true, Option.getD_some]
      by_cases h0 : (l.filter fun f => canonicalKey f.1 = key) = [] <;> simp [h0]
    · have : (f :: l).filter (fun f => canonicalKey f.1 = key) = l.filter fun f => canonicalKey f.1 = key :=
        List.filter_cons_of_neg (by simpa using e)
      rw [this, if_neg e]

theorem fields_tokens {s : Str} {l : List (Str × Str)} (h : Fields s l) :
    ∀ f ∈ l, Token f.1 ∧ Value f.2 := by
  induction h with
  | nil => intro f hf; cases hf
  | cons hk _ hv _ _ ih =>
    intro f hf
    rcases List.mem_cons.mp hf with rfl | hf
    · exact ⟨hk, hv⟩
    · exact ih f hf

theorem filter_named {l : List (Str × Str)} (h : ∀ f ∈ l, Token f.1) (name : Str) :
    (l.filter fun f => canonicalKey f.1 = canonicalKey name) = l.filter fun f => SameName f.1 name := by
  refine List.filter_congr fun f hf => ?_
  have := canonicalKey_eq_iff (b := name) (h f hf)
  simp only [this]

/-- Under the key of a name stand the values of the fields of that name. -/
theorem get?_read {l : List (Str × Str)} (h : ∀ f ∈ l, Token f.1) (name : Str) :
    GoMap.get? (l.foldl putField []) (canonicalKey name) =
      if named l name = [] then none else some (named l name) := by
  rw [get?_foldl_putField, filter_named h]
  unfold named
  simp only [List.map_eq_nil_iff]
  split <;> simp [GoMap.get?_nil]

theorem all_read {l : List (Str × Str)} (h : ∀ f ∈ l, Token f.1) (name : Str) :
    Header.all (l.foldl putField []) name = named l name := by
  unfold Header.all
  rw [get?_read h]
  split
  · rename_i e; rw [e]; rfl
  · rfl

/-! ### Chunks -/

theorem hexDigit_facts : ∀ c : UInt8, (unhex c).isSome = true → isASCIISpace c = false ∧ c ≠ 0x3B ∧
    c ≠ 0x0A := by
  apply forall_u8 (P := fun c => (unhex c).isSome = true → isASCIISpace c = false ∧ c ≠ 0x3B ∧ c ≠ 0x0A)
  decide +kernel

theorem unhex_hexDigit {b : UInt8} {d : Nat} (h : HexDigit b d) : unhex b = some d := by
  cases h with
  | digit h1 h2 => simp [unhex, h1, h2]
  | upper h1 h2 =>
    have a1 : ¬ (48 ≤ b ∧ b ≤ 57) := fun h => by
      have := UInt8.le_iff_toNat_le.mp h1; have := UInt8.le_iff_toNat_le.mp h.2
      simp at *; omega
    have a2 : ¬ (97 ≤ b ∧ b ≤ 102) := fun h => by
      have := UInt8.le_iff_toNat_le.mp h2; have := UInt8.le_iff_toNat_le.mp h.1
      simp at *; omega
    unfold unhex
    rw [if_neg a1, if_neg a2, if_pos ⟨h1, h2⟩]
    have := UInt8.le_iff_toNat_le.mp h1
    simp at *; omega
  | lower h1 h2 =>
    have a1 : ¬ (48 ≤ b ∧ b ≤ 57) := fun h => by
      have := UInt8.le_iff_toNat_le.mp h1; have := UInt8.le_iff_toNat_le.mp h.2
      simp at *; omega
    unfold unhex
    rw [if_neg a1, if_pos ⟨h1, h2⟩]
    have := UInt8.le_iff_toNat_le.mp h1
    simp at *; omega

theorem parseHex_append (n : Nat) (s : Str) (b : UInt8) :
    parseHex n (s ++ [b]) = (parseHex n s).bind fun m => (unhex b).map fun d => m * 16 + d := by
  induction s generalizing n with
  | nil =>
    simp only [List.nil_append, parseHex]
    cases unhex b <;> rfl
  | cons c s ih =>
    simp only [List.cons_append, parseHex]
    cases unhex c with
    | none => rfl
    | some d => exact ih _

theorem parseHex_hex {s : Str} {n : Nat} (h : Hex s n) :
    parseHex 0 s = some n ∧ ∀ c ∈ s, (unhex c).isSome = true := by
  induction h with
  | nil => exact ⟨rfl, fun c hc => by cases hc⟩
  | snoc _ hd ih =>
    have hu := unhex_hexDigit hd
    refine ⟨by rw [parseHex_append, ih.1, hu]; rfl, fun c hc => ?_⟩
    rcases List.mem_append.mp hc with hc | hc
    · exact ih.2 c hc
    · rw [List.mem_singleton.mp hc, hu]; rfl

theorem chunkSize_hex {size : Str} {n : Nat} (h1 : size.length ≤ 16) (h : Hex size n) :
    (0x0A : UInt8) ∉ size ++ [0x0D] ∧ chunkSize (size ++ [0x0D]) = some n := by
  obtain ⟨p, q⟩ := parseHex_hex h
  have hf := fun c hc => hexDigit_facts c (q c hc)
  refine ⟨?_, ?_⟩
  · simp only [List.mem_append, List.mem_singleton, not_or]
    exact ⟨fun hm => (hf _ hm).2.2 rfl, by decide⟩
  · unfold chunkSize
    have ht : ((size ++ [0x0D]).reverse.dropWhile isASCIISpace).reverse = size := by
      rw [List.reverse_append, dropWhile_all (by decide), dropWhile_head, List.reverse_reverse]
      intro c hc
      rw [List.head?_reverse] at hc
      exact (hf c (List.mem_of_getLast? hc)).1
    simp only [ht]
    rw [(cutByte_none_iff 0x3B size).mpr fun hm => (hf _ hm).2.1 rfl]
    simp [h1, p]

/-- A body in chunks is read back from its text. -/
theorem readChunks_chunks {s body : Str} (h : Chunks s body) :
    ∃ k, k ≤ s.length ∧ ∀ n rest, k < n → readChunks n (s ++ rest) = (body, false, rest) := by
  induction h with
  | @last size h0 h1 hz =>
    refine ⟨0, Nat.zero_le _, ?_⟩
    intro n rest hn
    obtain ⟨n, rfl⟩ := Nat.exists_eq_succ_of_ne_zero (Nat.ne_of_gt hn)
    obtain ⟨c1, c2⟩ := chunkSize_hex h1 hz
    have e : size ++ CRLF ++ CRLF ++ rest = (size ++ [0x0D]) ++ 0x0A :: (CRLF ++ rest) := by simp [CRLF]
    have hr : readHead (CRLF ++ rest) = some ([], rest) := readHead_fields .nil rest
    simp only [readChunks]
    rw [e, cutByte_append _ c1]
    simp only [c2, hr]
  | @chunk size data s body h0 h1 hs hd _ ih =>
    obtain ⟨k, hk, ih⟩ := ih
    refine ⟨k + 1, by simp only [List.length_append, CRLF, List.length_cons]; omega, ?_⟩
    intro n rest hn
    obtain ⟨n, rfl⟩ := Nat.exists_eq_succ_of_ne_zero (Nat.ne_of_gt (Nat.lt_of_le_of_lt (Nat.zero_le _) hn))
    obtain ⟨c1, c2⟩ := chunkSize_hex h1 hs
    have e : size ++ CRLF ++ data ++ CRLF ++ s ++ rest =
        (size ++ [0x0D]) ++ 0x0A :: (data ++ (CRLF ++ (s ++ rest))) := by simp [CRLF]
    have hl : data.length ≠ 0 := fun e => hd (List.length_eq_zero_iff.mp e)
    obtain ⟨m, hm⟩ := Nat.exists_eq_succ_of_ne_zero hl
    have hx := ih n rest (by omega)
    simp only [readChunks]
    rw [e, cutByte_append _ c1]
    simp only [c2]
    rw [hm]
    rw [← hm, if_neg (by simp only [List.length_append]; omega), List.drop_left,
      show stripPrefix crlf (CRLF ++ (s ++ rest)) = some (s ++ rest) from stripPrefix_append CRLF _]
    simp only [hx, List.take_left]

/-! ### The body -/

theorem name_ne {name key : Str} (hk : Token key) (hc : canonicalKey key = key)
    (h : ¬ SameName name key) : canonicalKey name ≠ key := by
  intro e
  rw [← hc] at e
  exact h (((canonicalKey_eq_iff hk).mp e.symm).symm)

theorem get?_fixPragma (h : Header) {key : Str} (hk : key ≠ b!"Cache-Control") :
    GoMap.get? (fixPragma h) key = GoMap.get? h key := by
  unfold fixPragma
  split
  · rw [GoMap.get?_set, if_neg hk]
  · rfl

theorem value_trim {v : Str} (hv : Value v) : trimBy isASCIISpace v = v := by
  have hs : ∀ c : UInt8, (c ≠ 0x20 ∧ c ≠ 0x09) → (c ≠ 0x0D ∧ c ≠ 0x0A) → isASCIISpace c = false := by
    intro c h1 h2
    simp [isASCIISpace, h1, h2]
  have := trimBy_append (p := isASCIISpace) (w := []) (x := v) (w' := []) (by simp) (by simp)
    (fun c hc => hs c (hv.first c hc) (hv.line c (List.mem_of_mem_head? hc)))
    (fun c hc => hs c (hv.last c hc) (hv.line c (List.mem_of_getLast? hc)))
  simpa using this

theorem mem_named {l : List (Str × Str)} {name v : Str} (h : v ∈ named l name) : ∃ f ∈ l, f.2 = v := by
  unfold named at h
  obtain ⟨f, hf, rfl⟩ := List.mem_map.mp h
  exact ⟨f, (List.mem_filter.mp hf).1, rfl⟩

theorem parseContentLength_digits {digits : Str} (h0 : digits ≠ [])
    (hd : ∀ b ∈ digits, 0x30 ≤ b ∧ b ≤ 0x39) (hn : decimal digits < 2 ^ 63) :
    parseContentLength digits = some (decimal digits) := by
  unfold parseContentLength
  rw [if_pos]
  · rfl
  · refine ⟨h0, ?_, hn⟩
    rw [List.all_eq_true]
    intro c hc
    have := hd c hc
    simp [inRange, this]

/-- The body of a message is delimited as it should. -/
theorem bodyLength_read {request : Bool} {l : List (Str × Str)} {s body : Str}
    (hl : ∀ f ∈ l, Token f.1 ∧ Value f.2) (hb : Body request l s body) :
    ∃ h' len, bodyLength request (fixPragma (l.foldl putField [])) = some (h', len) ∧
      (∀ rest, readBody len (s ++ rest) = (body, false, rest)) ∧
      (∀ e ∈ h', e ∈ fixPragma (l.foldl putField [])) ∧
      ∀ key, key ≠ b!"Transfer-Encoding" → key ≠ b!"Content-Length" →
        GoMap.get? h' key = GoMap.get? (fixPragma (l.foldl putField [])) key := by
  have ht : ∀ f ∈ l, Token f.1 := fun f hf => (hl f hf).1
  have hte := get?_fixPragma (l.foldl putField []) (key := b!"Transfer-Encoding") (by decide)
  have hcl := get?_fixPragma (l.foldl putField []) (key := b!"Content-Length") (by decide)
  rw [show b!"Transfer-Encoding" = canonicalKey b!"Transfer-Encoding" by decide, get?_read ht] at hte
  rw [show b!"Content-Length" = canonicalKey b!"Content-Length" by decide, get?_read ht] at hcl
  rw [show canonicalKey b!"Transfer-Encoding" = b!"Transfer-Encoding" by decide] at hte
  rw [show canonicalKey b!"Content-Length" = b!"Content-Length" by decide] at hcl
  generalize fixPragma (l.foldl putField []) = h at hte hcl
  have hmem : ∀ (m : Header) (k : Str), ∀ e ∈ m.del k, e ∈ m := fun m k e he => (List.mem_filter.mp he).1
  cases hb with
  | @chunked coding _ _ h1 h2 h3 =>
    rw [h1, if_neg (by simp)] at hte
    have hv : Value coding := by
      obtain ⟨f, hf, rfl⟩ := mem_named (l := l) (name := b!"Transfer-Encoding") (v := coding) (by rw [h1]; simp)
      exact (hl f hf).2
    have he : isChunked (trimBy isASCIISpace coding) = true := by
      rw [value_trim hv, isChunked, Bool.or_eq_true]
      exact .inl (decide_eq_true h2)
    refine ⟨(h.del b!"Transfer-Encoding").del b!"Content-Length", .chunked, ?_, ?_, ?_, ?_⟩
    · unfold bodyLength
      rw [hte]
      simp only [he, if_true]
    · intro rest
      obtain ⟨k, hk, hr⟩ := readChunks_chunks h3
      exact hr _ rest (by simp only [List.length_append]; omega)
    · exact fun e he => hmem _ _ e (hmem _ _ e he)
    · intro key k1 k2
      rw [GoMap.get?_del_of_ne _ k2, GoMap.get?_del_of_ne _ k1]
  | @length digits _ h1 h2 h3 h4 h5 h6 =>
    rw [h1, if_pos rfl] at hte
    rw [h2, if_neg (by simp)] at hcl
    have hv : Value digits := by
      obtain ⟨f, hf, rfl⟩ := mem_named (l := l) (name := b!"Content-Length") (v := digits) (by rw [h2]; simp)
      exact (hl f hf).2
    refine ⟨h, .fixed s.length, ?_, ?_, fun e he => he, fun _ _ _ => rfl⟩
    · unfold bodyLength
      rw [hte, hcl]
      simp only [Option.getD_some, List.map_cons, List.map_nil, value_trim hv, List.all_nil,
        Bool.not_true, Bool.false_eq_true, if_false, if_neg h3,
        parseContentLength_digits h3 h4 (by omega), h5, if_true]
    · intro rest
      simp [readBody]
  | none h0 h1 h2 =>
    rw [h1, if_pos rfl] at hte
    rw [h2, if_pos rfl] at hcl
    refine ⟨h.del b!"Content-Length", .fixed 0, ?_, ?_, hmem _ _, ?_⟩
    · unfold bodyLength
      rw [hte, hcl, h0]
      rfl
    · intro rest
      simp [readBody]
    · intro key _ k2
      rw [GoMap.get?_del_of_ne _ k2]

/-! ### Messages -/

/-- The first line of a message and its end. -/
theorem readLine_start {start : Str} (h : ∀ b ∈ start, b ≠ 0x0D ∧ b ≠ 0x0A) (rest : Str) :
    readLine (start ++ CRLF ++ rest) = some (start, rest) :=
  readLine_crlf (fun hm => (h _ hm).2 rfl) rest

theorem digits_no_space {code : Str} (h : ∀ b ∈ code, (0x30 : UInt8) ≤ b ∧ b ≤ 0x39) :
    (0x20 : UInt8) ∉ code := by
  intro hm
  have := (h _ hm).1
  revert this; decide

/-- Every response in the grammar is read. -/
theorem readResponse_text {bytes : Str} {m : Message} {code reason : Str} (h : Text false bytes m)
    (hs : StatusLine m.start code reason) (rest : Str) :
    ∃ res, readResponse (bytes ++ rest) = some (res, rest) ∧ res.statusCode = decimal code ∧
      res.status = code ++ [0x20] ++ reason ∧ res.body = m.body ∧ res.bodyErr = false ∧
      ∀ key, key ≠ b!"Transfer-Encoding" → key ≠ b!"Content-Length" →
        GoMap.get? res.header key = GoMap.get? (fixPragma (m.fields.foldl putField [])) key := by
  obtain ⟨h0, h1, h2, h3⟩ := h
  rename_i head body
  subst h0
  obtain ⟨s1, s2, s3⟩ := hs
  obtain ⟨h', len, b1, b2, -, b4⟩ := bodyLength_read (fields_tokens h2) h3
  have hsp := digits_no_space s3
  have hline := readLine_start h1 (head ++ CRLF ++ (body ++ rest))
  have hne : code ≠ [] := by rintro rfl; cases s2
  have c1 : cutByte 0x20 m.start = some (b!"HTTP/1.1", code ++ 0x20 :: reason) := by
    rw [s1]
    have := cutByte_append (sep := 0x20) (a := b!"HTTP/1.1") (code ++ 0x20 :: reason) (by decide)
    rw [← this]
    simp
  have c2 : (code ++ 0x20 :: reason).dropWhile (· = 0x20) = code ++ 0x20 :: reason := by
    refine dropWhile_head fun c hc => ?_
    rw [List.head?_append, List.head?_eq_some_head hne, Option.some_or] at hc
    have : c ∈ code := by cases hc; exact List.head_mem hne
    exact decide_eq_false fun e => hsp (e ▸ this)
  have c3 : cutByte 0x20 (code ++ 0x20 :: reason) = some (code, reason) := cutByte_append _ hsp
  have c4 : code.all (inRange 48 57) = true := by
    rw [List.all_eq_true]
    intro c hc
    simp [inRange, s3 c hc]
  refine ⟨{ statusCode := digitsVal code, status := code ++ 0x20 :: reason, header := h',
            body := m.body, bodyErr := false }, ?_, rfl, by simp, rfl, rfl, b4⟩
  have hcond : ¬ (b!"HTTP/1.1" ≠ b!"HTTP/1.1" ∨ code.length ≠ 3 ∨ (!code.all (inRange 48 57)) = true) := by
    simp [s2, c4]
  unfold readResponse
  rw [show m.start ++ CRLF ++ head ++ CRLF ++ body ++ rest =
    m.start ++ CRLF ++ (head ++ CRLF ++ (body ++ rest)) by simp, hline]
  simp only [Option.bind_eq_bind, Option.bind_some, c1, c2, c3, Option.getD_some]
  rw [if_neg hcond, readHead_fields h2]
  simp only [Option.bind_some, b1, b2]
  rfl

theorem valid_canonicalKey {k : Str} (h : Token k) : validFieldName (canonicalKey k) = true := by
  have hk : Token k := h
  have : (canonicalKey k).all validHeaderFieldByte = true := by
    refine valid_of_sameName (a := k) ?_ (token_valid hk)
    exact (lower_canonicalKey k).symm
  unfold validFieldName
  rw [this]
  simp [canonicalKey_ne_nil hk]

theorem validFieldValue_printable {v : Str} (h : Printable v) : validFieldValue v = true := by
  unfold validFieldValue
  rw [List.all_eq_true]
  have key : ∀ c : UInt8, (c = 0x09 ∨ (0x20 ≤ c ∧ c ≠ 0x7F)) →
      (!(decide (c < 0x20) || decide (c = 0x7F)) || decide (c = 0x20) || decide (c = 0x09)) = true := by
    apply forall_u8 (P := fun c => (c = 0x09 ∨ (0x20 ≤ c ∧ c ≠ 0x7F)) →
      (!(decide (c < 0x20) || decide (c = 0x7F)) || decide (c = 0x20) || decide (c = 0x09)) = true)
    decide +kernel
  exact fun c hc => key c (h c hc)

theorem validHost_text {h : Str} (hh : HostText h) : validHost h = true := by
  unfold validHost
  rw [List.all_eq_true]
  have key : ∀ c : UInt8,
      c ∈ b!"!$%&()*+,-.:;='[]_~0123456789ABCDEFGHIJKLMNOPQRSTUVWXYZabcdefghijklmnopqrstuvwxyz" →
      (isAlnum c || b!"!$%&()*+,-.:;='[]_~".contains c) = true := by
    apply forall_u8 (P := fun c =>
      c ∈ b!"!$%&()*+,-.:;='[]_~0123456789ABCDEFGHIJKLMNOPQRSTUVWXYZabcdefghijklmnopqrstuvwxyz" →
      (isAlnum c || b!"!$%&()*+,-.:;='[]_~".contains c) = true)
    decide +kernel
  exact fun c hc => key c (hh c hc)

/-- What may be in a header that was read. -/
theorem read_sendable {l : List (Str × Str)} (hl : ∀ f ∈ l, Token f.1 ∧ Printable f.2) :
    ∀ e ∈ fixPragma (l.foldl putField []), validFieldName e.1 = true ∧ e.2.all validFieldValue = true := by
  have step : ∀ (l : List (Str × Str)) (h : Header), (∀ f ∈ l, Token f.1 ∧ Printable f.2) →
      (∀ e ∈ h, validFieldName e.1 = true ∧ e.2.all validFieldValue = true) →
      ∀ e ∈ l.foldl putField h, validFieldName e.1 = true ∧ e.2.all validFieldValue = true := by
    intro l
    induction l with
    | nil => exact fun h _ hh => hh
    | cons f l ih =>
      intro h hl hh
      refine ih _ (fun g hg => hl g (.tail _ hg)) ?_
      obtain ⟨hk, hv⟩ := hl f (.head _)
      intro e he
      unfold putField at he
      rcases List.mem_cons.mp he with rfl | he
      · refine ⟨valid_canonicalKey hk, ?_⟩
        simp only [List.all_append, List.all_cons, validFieldValue_printable hv, List.all_nil,
          Bool.and_true]
        cases hg : GoMap.get? h (canonicalKey f.1) with
        | none => rfl
        | some vs => exact (hh _ (GoMap.get?_some_mem hg)).2
      · exact hh e (List.mem_filter.mp he).1
  intro e he
  unfold fixPragma at he
  split at he
  · rcases List.mem_cons.mp he with rfl | he
    · decide
    · exact step l [] hl (by simp) e (List.mem_filter.mp he).1
  · exact step l [] hl (by simp) e he

/-- Every request in the grammar is read. -/
theorem readRequest_text {bytes : Str} {m : Message} {method target host : Str} {u : URL}
    (h : Text true bytes m) (hs : RequestLine m.start method target)
    (hu : parseRequestURI target = some u) (hp : ∀ f ∈ m.fields, Printable f.2)
    (hh : named m.fields b!"Host" = [host]) (ht : HostText host) (rest : Str) :
    ∃ hd, readRequest (bytes ++ rest) =
        some ({ method := method, path := u.path, rawQuery := u.rawQuery, header := hd,
                body := some m.body }, rest) ∧
      ∀ key, key ≠ b!"Transfer-Encoding" → key ≠ b!"Content-Length" → key ≠ b!"Host" →
        GoMap.get? hd key = GoMap.get? (fixPragma (m.fields.foldl putField [])) key := by
  obtain ⟨h0, h1, h2, h3⟩ := h
  rename_i head body
  subst h0
  obtain ⟨s1, s2, s3⟩ := hs
  have hf := fields_tokens h2
  obtain ⟨h', len, b1, b2, b3, b4⟩ := bodyLength_read hf h3
  have hline := readLine_start h1 (head ++ CRLF ++ (body ++ rest))
  have hm : (0x20 : UInt8) ∉ method := fun hm => (tchar_facts _ (s2.2 _ hm)).2.2.2.2 rfl
  have c1 : cutByte 0x20 m.start = some (method, target ++ b!" HTTP/1.1") := by
    rw [s1, show method ++ [0x20] ++ target ++ b!" HTTP/1.1" = method ++ 0x20 :: (target ++ b!" HTTP/1.1") by simp]
    exact cutByte_append _ hm
  have c2 : cutByte 0x20 (target ++ b!" HTTP/1.1") = some (target, b!"HTTP/1.1") :=
    cutByte_append b!"HTTP/1.1" s3
  have c3 : GoMap.get? h' b!"Host" = some [host] := by
    rw [b4 _ (by decide) (by decide), get?_fixPragma _ (by decide),
      show b!"Host" = canonicalKey b!"Host" by decide, get?_read (fun f hf' => (hf f hf').1)]
    rw [hh]
    rfl
  have c4 : h'.sendable = true := by
    unfold Header.sendable
    rw [List.all_eq_true]
    intro e he
    have := read_sendable (fun f hf' => ⟨(hf f hf').1, hp f hf'⟩) e (b3 e he)
    rw [this.1, this.2]; rfl
  have c5 : validFieldName method = true := by
    unfold validFieldName
    rw [token_valid s2]
    simp [s2.1]
  refine ⟨h'.del b!"Host", ?_, ?_⟩
  · have hcond : ¬ ((!validFieldName method) = true ∨ b!"HTTP/1.1" ≠ b!"HTTP/1.1") := by simp [c5]
    have hcond' : ¬ ((!validHost host) = true ∨ (!h'.sendable) = true) := by
      simp [validHost_text ht, c4]
    unfold readRequest
    rw [show m.start ++ CRLF ++ head ++ CRLF ++ body ++ rest =
      m.start ++ CRLF ++ (head ++ CRLF ++ (body ++ rest)) by simp, hline]
    simp only [Option.bind_eq_bind, Option.bind_some, c1, c2]
    rw [if_neg hcond, hu]
    simp only [Option.bind_some]
    rw [readHead_fields h2]
    simp only [Option.bind_some, b1, c3]
    rw [if_neg hcond', b2]
    rfl
  · intro key k1 k2 k3
    rw [GoMap.get?_del_of_ne _ k3, b4 _ k1 k2]

end OAuth2

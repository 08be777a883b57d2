import Verif.Spec.Carry
import Verif.Lemmas.Wire
import Verif.Lemmas.UrlString

/-!
What is written on a connection is a message of RFC 7230.
-/

namespace OAuth2

open Rfc7230
open Rfc7235 (Token Tchar Blank)

theorem crlf_eq : crlf = CRLF := rfl

/-! ### Values -/

theorem dropWhile_sub {p : UInt8 → Bool} {s : Str} {c : UInt8} (h : c ∈ s.dropWhile p) : c ∈ s :=
  (List.dropWhile_suffix p).subset h

theorem dropWhile_first {p : UInt8 → Bool} {s : Str} {c : UInt8} (h : (s.dropWhile p).head? = some c) :
    p c = false := by
  induction s with
  | nil => cases h
  | cons d s ih =>
    rw [List.dropWhile_cons] at h
    split at h
    · exact ih h
    · cases h; rename_i hd; simpa using hd

theorem trimBy_sub {p : UInt8 → Bool} {s : Str} {c : UInt8} (h : c ∈ trimBy p s) : c ∈ s := by
  unfold trimBy at h
  exact dropWhile_sub (List.mem_reverse.mp (dropWhile_sub (List.mem_reverse.mp h)))

theorem trimBy_last {p : UInt8 → Bool} {s : Str} {c : UInt8} (h : (trimBy p s).getLast? = some c) :
    p c = false := by
  unfold trimBy at h
  rw [List.getLast?_reverse] at h
  exact dropWhile_first h

theorem trimBy_first {p : UInt8 → Bool} {s : Str} {c : UInt8} (h : (trimBy p s).head? = some c) :
    p c = false := by
  have hp : trimBy p s <+: s.dropWhile p := by
    unfold trimBy
    have := (List.dropWhile_suffix p (l := (s.dropWhile p).reverse))
    rw [← List.reverse_prefix] at this
    simpa using this
  obtain ⟨t, ht⟩ := hp
  cases he : trimBy p s with
  | nil => rw [he] at h; cases h
  | cons d ds =>
    rw [he] at h ht
    cases h
    exact dropWhile_first (s := s) (by rw [← ht]; rfl)

theorem newlineToSpace_line (v : Str) : ∀ c ∈ newlineToSpace v, c ≠ 0x0D ∧ c ≠ 0x0A := by
  intro c hc
  unfold newlineToSpace at hc
  obtain ⟨d, -, rfl⟩ := List.mem_map.mp hc
  split
  · decide
  · rename_i h
    simp only [not_or] at h
    exact ⟨h.2, h.1⟩

/-- Whatever was stored, what is written is a value. -/
theorem cleanValue_value (v : Str) : Value (cleanValue v) := by
  have hs : ∀ c : UInt8, isASCIISpace c = false → c ≠ 0x20 ∧ c ≠ 0x09 := by
    intro c h
    simp [isASCIISpace] at h
    exact ⟨h.1.1.1, h.1.1.2⟩
  exact ⟨fun c hc => newlineToSpace_line v c (trimBy_sub hc), fun c hc => hs c (trimBy_first hc),
    fun c hc => hs c (trimBy_last hc)⟩

theorem cleanValue_of_value {v : Str} (h : Value v) : cleanValue v = v := by
  have : newlineToSpace v = v := by
    unfold newlineToSpace
    have e : v.map id = v := List.map_id v
    refine Eq.trans (List.map_congr_left fun c hc => ?_) e
    have := h.line c hc
    simp [this.1, this.2]
  unfold cleanValue
  rw [this, value_trim h]

theorem cleanValue_printable {v : Str} (h : Printable v) : Printable (cleanValue v) := by
  intro c hc
  obtain ⟨d, hd, rfl⟩ := List.mem_map.mp (trimBy_sub hc)
  split
  · exact .inr (by decide)
  · exact h d hd

/-! ### Fields -/

theorem Fields.append {a b : Str} {l l' : List (Str × Str)} (h : Fields a l) (h' : Fields b l') :
    Fields (a ++ b) (l ++ l') := by
  induction h with
  | nil => exact h'
  | cons hk hw hv hw' _ ih =>
    have := Fields.cons hk hw hv hw' ih
    simpa only [List.append_assoc, List.cons_append] using this

theorem fieldLine_fields {k v : Str} (hk : Token k) (hv : Value v) : Fields (fieldLine k v) [(k, v)] := by
  have := Fields.cons (w := [0x20]) (w' := []) hk (by intro c hc; simp at hc; exact .inl hc) hv (by intro c hc; cases hc) .nil
  unfold fieldLine
  have e : b!": " = [0x3A] ++ [0x20] := rfl
  rw [e]
  simpa only [List.append_assoc, List.append_nil, crlf_eq] using this

theorem flatMap_fields {α : Type} {text : α → Str} {fields : α → List (Str × Str)} {l : List α}
    (h : ∀ a ∈ l, Fields (text a) (fields a)) : Fields (l.flatMap text) (l.flatMap fields) := by
  induction l with
  | nil => exact .nil
  | cons a l ih =>
    rw [List.flatMap_cons, List.flatMap_cons]
    exact Fields.append (h a (.head _)) (ih fun b hb => h b (.tail _ hb))

/-- The fields written for a header. -/
def Header.fields (h : Header) (exclude : List Str) : List (Str × Str) :=
  ((sortStrings h.keys).filter fun k => !exclude.contains k).flatMap fun k =>
    ((GoMap.get? h k).getD []).map fun v => (k, cleanValue v)

theorem text_fields {h : Header} (hk : ∀ k ∈ h.keys, Token k) (exclude : List Str) :
    Fields (h.text exclude) (h.fields exclude) := by
  unfold Header.text Header.fields
  refine flatMap_fields fun k hk' => ?_
  have hk'' : Token k :=
    hk k ((sortStrings_perm _).mem_iff.mp (List.mem_filter.mp hk').1)
  rw [← List.flatMap_singleton' (List.map _ _), List.flatMap_map]
  exact flatMap_fields fun v _ => fieldLine_fields hk'' (cleanValue_value v)

theorem named_append (l l' : List (Str × Str)) (name : Str) :
    named (l ++ l') name = named l name ++ named l' name := by
  simp [named]

theorem named_singleton (k v name : Str) :
    named [(k, v)] name = if SameName k name then [v] else [] := by
  unfold named
  by_cases h : SameName k name
  · simp [h]
  · simp [h]

theorem named_nil (name : Str) : named [] name = [] := rfl

theorem named_flatMap {α : Type} (f : α → List (Str × Str)) (l : List α) (name : Str) :
    named (l.flatMap f) name = l.flatMap fun a => named (f a) name := by
  induction l with
  | nil => rfl
  | cons a l ih => rw [List.flatMap_cons, List.flatMap_cons, named_append, ih]

theorem flatMap_single {α β : Type} [DecidableEq α] {l : List α} (hn : l.Nodup) (a : α) (x : List β) :
    (l.flatMap fun b => if b = a then x else []) = if a ∈ l then x else [] := by
  induction l with
  | nil => rfl
  | cons b l ih =>
    rw [List.flatMap_cons, ih hn.of_cons]
    by_cases h : b = a
    · subst h
      have : b ∉ l := (List.nodup_cons.mp hn).1
      simp [this]
    · have : a ≠ b := fun e => h e.symm
      simp [h, this]

/-- The values written under a name are those stored under it, cleaned. -/
theorem named_fields {h : Header} (hn : h.keys.Nodup)
    (hk : ∀ k ∈ h.keys, Token k ∧ canonicalKey k = k) (exclude : List Str) (name : Str) :
    named (h.fields exclude) name =
      if canonicalKey name ∈ exclude then [] else (h.all name).map cleanValue := by
  unfold Header.fields
  rw [named_flatMap]
  have hmem : ∀ k ∈ (sortStrings h.keys).filter fun k => !exclude.contains k, k ∈ h.keys ∧ k ∉ exclude := by
    intro k hk'
    obtain ⟨h1, h2⟩ := List.mem_filter.mp hk'
    exact ⟨(sortStrings_perm _).mem_iff.mp h1, by simpa using h2⟩
  have hnd : ((sortStrings h.keys).filter fun k => !exclude.contains k).Nodup :=
    (((sortStrings_perm h.keys).nodup_iff).mpr hn).filter _
  have e : ∀ k ∈ (sortStrings h.keys).filter fun k => !exclude.contains k,
      named (((GoMap.get? h k).getD []).map fun v => (k, cleanValue v)) name =
        if k = canonicalKey name then (h.all name).map cleanValue else [] := by
    intro k hk'
    obtain ⟨t, c⟩ := hk k (hmem k hk').1
    have hs : SameName k name ↔ k = canonicalKey name := by
      rw [← canonicalKey_eq_iff t, c]
    unfold named
    by_cases hq : SameName k name
    · rw [if_pos (hs.mp hq)]
      unfold Header.all
      rw [← hs.mp hq]
      have : ∀ l : List Str, ((l.map fun v => (k, cleanValue v)).filter
          (fun f => decide (SameName f.1 name))).map (·.2) = l.map cleanValue := by
        intro l
        induction l with
        | nil => rfl
        | cons v l ih =>
          simp [hq] at ih ⊢
          exact ih
      exact this _
    · rw [if_neg (fun e => hq (hs.mpr e))]
      have : ∀ l : List Str, ((l.map fun v => (k, cleanValue v)).filter
          (fun f => decide (SameName f.1 name))).map (·.2) = [] := by
        intro l
        induction l with
        | nil => rfl
        | cons v l ih => simp [hq] at ih ⊢
      exact this _
  rw [show ((List.filter (fun k => !exclude.contains k) (sortStrings h.keys)).flatMap fun a =>
      named (((GoMap.get? h a).getD []).map fun v => (a, cleanValue v)) name) =
    (List.filter (fun k => !exclude.contains k) (sortStrings h.keys)).flatMap fun k =>
      if k = canonicalKey name then (h.all name).map cleanValue else [] from ?_]
  · rw [flatMap_single hnd]
    by_cases h1 : canonicalKey name ∈ exclude
    · rw [if_pos h1, if_neg fun hm => (hmem _ hm).2 h1]
    · rw [if_neg h1]
      by_cases h2 : canonicalKey name ∈ h.keys
      · rw [if_pos]
        rw [List.mem_filter]
        exact ⟨(sortStrings_perm _).mem_iff.mpr h2, by simpa using h1⟩
      · rw [if_neg fun hm => h2 (hmem _ hm).1]
        unfold Header.all
        rw [(GoMap.get?_eq_none_iff _ _).mpr h2]
        rfl
  · rw [List.flatMap_def, List.flatMap_def]
    congr 1
    exact List.map_congr_left e

/-! ### Numbers -/

theorem hexChar : ∀ d : Fin 16, HexDigit (UInt8.ofNat (Nat.digitChar d.val).toNat) d.val := by
  intro d
  rcases Nat.lt_or_ge d.val 10 with h | h
  · have e : ∀ d : Fin 16, d.val < 10 → (0x30 : UInt8) ≤ UInt8.ofNat (Nat.digitChar d.val).toNat ∧
        UInt8.ofNat (Nat.digitChar d.val).toNat ≤ 0x39 ∧
        (UInt8.ofNat (Nat.digitChar d.val).toNat).toNat - 0x30 = d.val := by decide
    obtain ⟨h1, h2, h3⟩ := e d h
    have := HexDigit.digit h1 h2
    rwa [h3] at this
  · have e : ∀ d : Fin 16, 10 ≤ d.val → (0x61 : UInt8) ≤ UInt8.ofNat (Nat.digitChar d.val).toNat ∧
        UInt8.ofNat (Nat.digitChar d.val).toNat ≤ 0x66 ∧
        (UInt8.ofNat (Nat.digitChar d.val).toNat).toNat - 0x61 + 10 = d.val := by decide
    obtain ⟨h1, h2, h3⟩ := e d h
    have := HexDigit.lower h1 h2
    rwa [h3] at this

theorem hexDigits_hex (n : Nat) : Hex (hexDigits n) n ∧ hexDigits n ≠ [] := by
  induction n using Nat.strongRecOn with
  | _ n ih =>
    unfold hexDigits
    by_cases h : n < 16
    · rw [Nat.toDigits_of_lt_base h]
      refine ⟨?_, by simp⟩
      have := Hex.snoc .nil (hexChar ⟨n, h⟩)
      simpa using this
    · rw [Nat.toDigits_of_base_le (by decide) (by omega), List.map_append]
      refine ⟨?_, by simp⟩
      have := Hex.snoc (ih (n / 16) (by omega)).1 (hexChar ⟨n % 16, Nat.mod_lt _ (by decide)⟩)
      have e : n / 16 * 16 + n % 16 = n := by omega
      simp only [e] at this
      exact this

theorem hexDigits_length (k : Nat) : ∀ n, n < 16 ^ (k + 1) → (hexDigits n).length ≤ k + 1 := by
  induction k with
  | zero =>
    intro n h
    unfold hexDigits
    rw [Nat.toDigits_of_lt_base (by simpa using h)]
    simp
  | succ k ih =>
    intro n h
    by_cases h' : n < 16
    · unfold hexDigits
      rw [Nat.toDigits_of_lt_base h']
      simp
    · have := ih (n / 16) (by rw [Nat.pow_succ] at h; omega)
      unfold hexDigits at this ⊢
      rw [Nat.toDigits_of_base_le (by decide) (by omega)]
      simp only [List.length_map, List.length_append, List.length_cons, List.length_nil] at this ⊢
      omega

theorem natDigits_decimal (n : Nat) : natDigits n ≠ [] ∧ (∀ b ∈ natDigits n, (0x30 : UInt8) ≤ b ∧ b ≤ 0x39) ∧
    decimal (natDigits n) = n := by
  obtain ⟨h1, h2, ⟨c, cs, h3, -⟩, -⟩ := natDigits_spec n
  refine ⟨by rw [h3]; simp, fun b hb => ?_, h2⟩
  have := h1 b hb
  simpa [isDigit, inRange] using this

theorem chunkedText_chunks {l : List Str} (h : ∀ c ∈ l, c ≠ [] ∧ c.length < 2 ^ 64) :
    Chunks (chunkedText l) l.flatten := by
  induction l with
  | nil =>
    have : Hex b!"0" 0 := (hexDigits_hex 0).1
    exact Chunks.last (by decide) (by decide) this
  | cons c l ih =>
    have ih := ih fun d hd => h d (.tail _ hd)
    obtain ⟨h1, h2⟩ := h c (.head _)
    have := Chunks.chunk (hexDigits_hex c.length).2 (hexDigits_length 15 _ (by omega))
      (hexDigits_hex c.length).1 h1 ih
    have e : chunkedText (c :: l) =
        hexDigits c.length ++ CRLF ++ c ++ CRLF ++ chunkedText l := by
      unfold chunkedText
      rw [List.flatMap_cons, crlf_eq]
      simp only [List.append_assoc]
    rw [e, List.flatten_cons]
    exact this

/-! ### Responses -/

theorem statusTexts_line : ∀ p ∈ statusTexts, ∀ b ∈ p.2, b ≠ 0x0D ∧ b ≠ 0x0A := by decide +kernel

theorem digits_line {s : Str} (h : ∀ b ∈ s, (0x30 : UInt8) ≤ b ∧ b ≤ 0x39) :
    ∀ b ∈ s, b ≠ 0x0D ∧ b ≠ 0x0A := by
  intro b hb
  have := (h b hb).1
  constructor <;> rintro rfl <;> revert this <;> decide

theorem wire_lookup_mem {l : List (Nat × Str)} {n : Nat} {t : Str} (h : l.lookup n = some t) : (n, t) ∈ l := by
  induction l with
  | nil => cases h
  | cons p l ih =>
    obtain ⟨k, v⟩ := p
    rw [List.lookup_cons] at h
    split at h
    · rename_i e
      simp at e; subst e; cases h; exact .head _
    · exact .tail _ (ih h)

/-- The first line of a response. -/
theorem statusLine_spec {code : Nat} (h1 : 100 ≤ code) (h2 : code ≤ 999) :
    ∃ reason, StatusLine (b!"HTTP/1.1 " ++ statusLine code) (natDigits code) reason ∧
      statusLine code = natDigits code ++ [0x20] ++ reason ∧
      ∀ b ∈ b!"HTTP/1.1 " ++ statusLine code, b ≠ 0x0D ∧ b ≠ 0x0A := by
  have hlen : (natDigits code).length = 3 := by
    have : ∀ n : Fin 1000, 100 ≤ n.val → (natDigits n.val).length = 3 := by decide +kernel
    exact this ⟨code, by omega⟩ h1
  obtain ⟨d0, d1, d2⟩ := natDigits_decimal code
  have hcode : itoa (code : Int) = natDigits code := rfl
  refine ⟨match statusTexts.lookup code with
    | some text => text
    | none => b!"status code " ++ itoa code, ⟨?_, hlen, d1⟩, rfl, ?_⟩
  · simp only [statusLine, List.append_assoc]
    rfl
  · intro b hb
    rcases List.mem_append.mp hb with hb | hb
    · exact (by decide : ∀ b ∈ b!"HTTP/1.1 ", b ≠ 0x0D ∧ b ≠ 0x0A) b hb
    · unfold statusLine at hb
      rcases List.mem_append.mp hb with hb | hb
      · rcases List.mem_append.mp hb with hb | hb
        · exact digits_line d1 b hb
        · exact (by decide : ∀ b ∈ [(0x20 : UInt8)], b ≠ 0x0D ∧ b ≠ 0x0A) b hb
      · revert hb
        split
        · rename_i t ht
          exact fun hb => statusTexts_line _ (wire_lookup_mem ht) b hb
        · intro hb
          rcases List.mem_append.mp hb with hb | hb
          · exact (by decide : ∀ b ∈ b!"status code ", b ≠ 0x0D ∧ b ≠ 0x0A) b hb
          · exact digits_line d1 b hb

theorem cleanValue_cleaned (v : Str) : Cleaned v (cleanValue v) := by
  refine ⟨cleanValue_value v, ?_⟩
  have e : v.map (fun c => if c = 0x0D ∨ c = 0x0A then 0x20 else c) = newlineToSpace v := by
    unfold newlineToSpace
    congr 1
    funext c
    simp only [or_comm]
  rw [e]
  have hb : ∀ c ∈ newlineToSpace v, isASCIISpace c = true → c = 0x20 ∨ c = 0x09 := by
    intro c hc h
    have := newlineToSpace_line v c hc
    simpa [isASCIISpace, this.1, this.2] using h
  generalize hs : newlineToSpace v = s at *
  have e1 := List.takeWhile_append_dropWhile (p := isASCIISpace) (l := s)
  have e2 := List.takeWhile_append_dropWhile (p := isASCIISpace) (l := (s.dropWhile isASCIISpace).reverse)
  refine ⟨s.takeWhile isASCIISpace,
    ((s.dropWhile isASCIISpace).reverse.takeWhile isASCIISpace).reverse, ?_, ?_, ?_⟩
  · intro c hc
    exact hb c ((List.takeWhile_prefix _).subset hc) (List.all_eq_true.mp List.all_takeWhile c hc)
  · intro c hc
    have hc := List.mem_reverse.mp hc
    refine hb c ?_ (List.all_eq_true.mp List.all_takeWhile c hc)
    exact dropWhile_sub (List.mem_reverse.mp ((List.takeWhile_prefix _).subset hc))
  · unfold cleanValue
    rw [hs]
    unfold trimBy
    have e3 := congrArg List.reverse e2
    rw [List.reverse_append, List.reverse_reverse] at e3
    rw [List.append_assoc, e3, e1]

theorem each_map {α β : Type} {R : α → β → Prop} {f : α → β} (h : ∀ a, R a (f a)) (l : List α) :
    Each R l (l.map f) := by
  induction l with
  | nil => exact .nil
  | cons a l ih => exact .cons (h a) ih

/-- A blank is not a letter of a decimal number. -/
theorem natDigits_value (n : Nat) : Value (natDigits n) := by
  obtain ⟨-, h, -⟩ := natDigits_decimal n
  have hb : ∀ b : UInt8, 0x30 ≤ b → b ≠ 0x20 ∧ b ≠ 0x09 := by
    intro b hb
    constructor <;> rintro rfl <;> revert hb <;> decide
  exact ⟨digits_line h, fun b hm => hb b (h b (List.mem_of_mem_head? hm)).1,
    fun b hm => hb b (h b (List.mem_of_getLast? hm)).1⟩

/-- The fields of a response on the wire. -/
def responseFields (x : Shipping) (res : Response) : List (Str × Str) :=
  let small : Bool := res.body.length ≤ bufferBeforeChunking
  res.header.fields [] ++ [(b!"Date", x.date)] ++
  (if small then [(b!"Content-Length", natDigits res.body.length)] else []) ++
  (if GoMap.get? res.header b!"Content-Type" = none ∧ res.body ≠ [] then
    [(b!"Content-Type", x.sniff res.body)] else []) ++
  (if x.close then [(b!"Connection", b!"close")] else []) ++
  (if small then [] else [(b!"Transfer-Encoding", b!"chunked")])

theorem Fields.ite {p : Prop} [Decidable p] {a b : Str} {l l' : List (Str × Str)}
    (h : p → Fields a l) (h' : ¬ p → Fields b l') :
    Fields (if p then a else b) (if p then l else l') := by
  split
  · exact h ‹_›
  · exact h' ‹_›

theorem token_of_decide {k : Str} (h0 : k ≠ []) (h : k.all validHeaderFieldByte = true) : Token k :=
  ⟨h0, fun c hc => (tchar_iff c).mpr (List.all_eq_true.mp h c hc)⟩

theorem named_ite {p : Prop} [Decidable p] (l l' : List (Str × Str)) (name : Str) :
    named (if p then l else l') name = if p then named l name else named l' name := by
  split <;> rfl

/-- The values of a name in a response on the wire. -/
theorem named_response {x : Shipping} {res : Response} (hg : Given res) (name : Str) :
    named (responseFields x res) name =
      (res.header.all name).map cleanValue ++
      (if SameName b!"Date" name then [x.date] else []) ++
      (if res.body.length ≤ bufferBeforeChunking then
        (if SameName b!"Content-Length" name then [natDigits res.body.length] else []) else []) ++
      (if GoMap.get? res.header b!"Content-Type" = none ∧ res.body ≠ [] then
        (if SameName b!"Content-Type" name then [x.sniff res.body] else []) else []) ++
      (if x.close then (if SameName b!"Connection" name then [b!"close"] else []) else []) ++
      (if res.body.length ≤ bufferBeforeChunking then [] else
        (if SameName b!"Transfer-Encoding" name then [b!"chunked"] else [])) := by
  unfold responseFields
  simp only [named_append, named_ite, named_singleton, named_nil, decide_eq_true_eq]
  rw [named_fields hg.header.once hg.header.name]
  simp only [List.not_mem_nil, if_false]

theorem all_own {h : Header} {k : Str} (hk : k ∉ h.keys) (hc : canonicalKey k = k) : h.all k = [] := by
  unfold Header.all
  rw [hc, (GoMap.get?_eq_none_iff _ _).mpr hk]
  rfl

/-- What the server writes is a message. -/
theorem responseText_text {x : Shipping} {res : Response} (hg : Given res) (hx : Ships x res.body) :
    Text false (responseText x res)
      ⟨b!"HTTP/1.1 " ++ statusLine res.statusCode, responseFields x res, res.body⟩ := by
  obtain ⟨reason, -, -, hline⟩ := statusLine_spec (code := res.statusCode)
    (Nat.le_trans (by decide) hg.status.1) hg.status.2.1
  have hhead : Fields (res.header.text [] ++ fieldLine b!"Date" x.date ++
      (if (decide (res.body.length ≤ bufferBeforeChunking)) = true then
        fieldLine b!"Content-Length" (natDigits res.body.length) else []) ++
      (if GoMap.get? res.header b!"Content-Type" = none ∧ res.body ≠ [] then
        fieldLine b!"Content-Type" (x.sniff res.body) else []) ++
      (if x.close then fieldLine b!"Connection" b!"close" else []) ++
      (if (decide (res.body.length ≤ bufferBeforeChunking)) = true then [] else
        fieldLine b!"Transfer-Encoding" b!"chunked")) (responseFields x res) := by
    unfold responseFields
    have t : ∀ {k : Str}, k ≠ [] → k.all validHeaderFieldByte = true → Token k := token_of_decide
    have v1 : Value b!"close" := ⟨by decide, by decide, by decide⟩
    have v2 : Value b!"chunked" := ⟨by decide, by decide, by decide⟩
    refine Fields.append (Fields.append (Fields.append (Fields.append (Fields.append
      (text_fields (fun k hk => (hg.header.name k hk).1) []) ?_) ?_) ?_) ?_) ?_
    · exact fieldLine_fields (t (by decide) (by decide)) hx.date
    · exact Fields.ite (fun _ => fieldLine_fields (t (by decide) (by decide)) (natDigits_value _))
        fun _ => .nil
    · exact Fields.ite (fun _ => fieldLine_fields (t (by decide) (by decide)) hx.sniff) fun _ => .nil
    · exact Fields.ite (fun _ => fieldLine_fields (t (by decide) (by decide)) v1) fun _ => .nil
    · exact Fields.ite (fun _ => .nil) fun _ => fieldLine_fields (t (by decide) (by decide)) v2
  have hbody : Body false (responseFields x res)
      (if (decide (res.body.length ≤ bufferBeforeChunking)) = true then res.body
        else chunkedText (x.chunks res.body)) res.body := by
    have hte : res.header.all b!"Transfer-Encoding" = [] :=
      all_own (fun hm => hg.own _ hm (by decide)) (by decide)
    have hcl : res.header.all b!"Content-Length" = [] :=
      all_own (fun hm => hg.own _ hm (by decide)) (by decide)
    have f1 : ¬ SameName b!"Date" b!"Transfer-Encoding" := by decide
    have f2 : ¬ SameName b!"Content-Length" b!"Transfer-Encoding" := by decide
    have f3 : ¬ SameName b!"Content-Type" b!"Transfer-Encoding" := by decide
    have f4 : ¬ SameName b!"Connection" b!"Transfer-Encoding" := by decide
    have g1 : ¬ SameName b!"Date" b!"Content-Length" := by decide
    have g3 : ¬ SameName b!"Content-Type" b!"Content-Length" := by decide
    have g4 : ¬ SameName b!"Connection" b!"Content-Length" := by decide
    have g5 : ¬ SameName b!"Transfer-Encoding" b!"Content-Length" := by decide
    by_cases hs : res.body.length ≤ bufferBeforeChunking
    · rw [if_pos (by simpa using hs)]
      obtain ⟨d0, d1, d2⟩ := natDigits_decimal res.body.length
      refine Body.length (digits := natDigits res.body.length) ?_ ?_ d0 d1 d2 hg.size
      · rw [named_response hg, hte]
        simp [f1, f2, f3, f4, hs]
      · rw [named_response hg, hcl]
        simp only [g1, g3, g4, g5, hs, if_true, if_false, List.map_nil, List.nil_append, ite_self,
          List.append_nil]
        exact if_pos rfl
    · rw [if_neg (by simpa using hs)]
      refine Body.chunked (coding := b!"chunked") ?_ rfl ?_
      · rw [named_response hg, hte]
        simp only [f1, f2, f3, f4, hs, if_false, List.map_nil, List.nil_append, ite_self]
        exact if_pos rfl
      · have hc := hx.chunks
        have : ∀ c ∈ x.chunks res.body, c ≠ [] ∧ c.length < 2 ^ 64 := by
          intro c hm
          refine ⟨hc.2 c hm, ?_⟩
          have h1 : c.length ≤ (x.chunks res.body).flatten.length :=
            (List.sublist_flatten_of_mem hm).length_le
          rw [hc.1] at h1
          have := hg.size
          omega
        have := chunkedText_chunks this
        rwa [hc.1] at this
  have := Text.mk (request := false) (m := ⟨b!"HTTP/1.1 " ++ statusLine res.statusCode,
    responseFields x res, res.body⟩) rfl hline hhead hbody
  unfold responseText
  simp only [crlf_eq]
  simpa only [List.append_assoc] using this

/-! ### Requests -/

/-- Whether a length is announced. -/
abbrev hasLength (r : Request) : Prop :=
  r.body.getD [] ≠ [] ∨ r.method = b!"POST" ∨ r.method = b!"PUT" ∨ r.method = b!"PATCH"

/-- The fields of a request on the wire. -/
def sentFields (x : Sending) (r : Request) : List (Str × Str) :=
  [(b!"Host", x.host)] ++ [(b!"User-Agent", b!"Go-http-client/1.1")] ++
  (if hasLength r then [(b!"Content-Length", natDigits (r.body.getD []).length)] else []) ++
  r.header.fields requestFields ++
  (if x.gzip then [(b!"Accept-Encoding", b!"gzip")] else [])

theorem named_sent {x : Sending} {r : Request} (hk : Kept r.header) (name : Str) :
    named (sentFields x r) name =
      (if SameName b!"Host" name then [x.host] else []) ++
      (if SameName b!"User-Agent" name then [b!"Go-http-client/1.1"] else []) ++
      (if hasLength r then
        (if SameName b!"Content-Length" name then [natDigits (r.body.getD []).length] else []) else []) ++
      (if canonicalKey name ∈ requestFields then [] else (r.header.all name).map cleanValue) ++
      (if x.gzip then (if SameName b!"Accept-Encoding" name then [b!"gzip"] else []) else []) := by
  unfold sentFields
  simp only [named_append, named_ite, named_singleton, named_nil]
  rw [named_fields hk.once hk.name]

theorem hostText_value {h : Str} (hh : HostText h) : Value h ∧ Printable h := by
  have key : ∀ c : UInt8,
      c ∈ b!"!$%&()*+,-.:;='[]_~0123456789ABCDEFGHIJKLMNOPQRSTUVWXYZabcdefghijklmnopqrstuvwxyz" →
      (c ≠ 0x0D ∧ c ≠ 0x0A) ∧ (c ≠ 0x20 ∧ c ≠ 0x09) ∧ (0x20 ≤ c ∧ c ≠ 0x7F) := by
    apply forall_u8 (P := fun c =>
      c ∈ b!"!$%&()*+,-.:;='[]_~0123456789ABCDEFGHIJKLMNOPQRSTUVWXYZabcdefghijklmnopqrstuvwxyz" →
      (c ≠ 0x0D ∧ c ≠ 0x0A) ∧ (c ≠ 0x20 ∧ c ≠ 0x09) ∧ (0x20 ≤ c ∧ c ≠ 0x7F))
    decide +kernel
  exact ⟨⟨fun b hb => (key b (hh b hb)).1, fun b hb => (key b (hh b (List.mem_of_mem_head? hb))).2.1,
    fun b hb => (key b (hh b (List.mem_of_getLast? hb))).2.1⟩, fun b hb => .inr (key b (hh b hb)).2.2⟩

theorem sent_printable {x : Sending} {r : Request} {target : Str} (ha : Asked x target r) :
    ∀ f ∈ sentFields x r, Printable f.2 := by
  intro f hf
  unfold sentFields at hf
  simp only [List.mem_append] at hf
  have dig : ∀ n, Printable (natDigits n) := by
    intro n b hb
    have h1 := ((natDigits_decimal n).2.1 b hb)
    refine .inr ?_
    have key : ∀ c : UInt8, 0x30 ≤ c ∧ c ≤ 0x39 → 0x20 ≤ c ∧ c ≠ 0x7F := by
      apply forall_u8 (P := fun c => 0x30 ≤ c ∧ c ≤ 0x39 → 0x20 ≤ c ∧ c ≠ 0x7F)
      decide +kernel
    exact key b h1
  rcases hf with (((hf | hf) | hf) | hf) | hf
  · rw [List.mem_singleton.mp hf]; exact (hostText_value ha.host).2
  · rw [List.mem_singleton.mp hf]
    exact (by decide : ∀ b ∈ b!"Go-http-client/1.1", b = 0x09 ∨ (0x20 ≤ b ∧ b ≠ 0x7F))
  · split at hf
    · rw [List.mem_singleton.mp hf]; exact dig _
    · cases hf
  · unfold Header.fields at hf
    obtain ⟨k, -, hf⟩ := List.mem_flatMap.mp hf
    obtain ⟨v, hv, rfl⟩ := List.mem_map.mp hf
    refine cleanValue_printable ?_
    cases hg : GoMap.get? r.header k with
    | none => rw [hg] at hv; cases hv
    | some vs =>
      rw [hg] at hv
      exact ha.printable _ (GoMap.get?_some_mem hg) v hv
  · split at hf
    · rw [List.mem_singleton.mp hf]
      exact (by decide : ∀ b ∈ b!"gzip", b = 0x09 ∨ (0x20 ≤ b ∧ b ≠ 0x7F))
    · cases hf

/-- What a client writes is a message. -/
theorem requestText_text {x : Sending} {r : Request} {target : Str} (ha : Asked x target r) :
    Text true (requestText x target r)
        ⟨r.method ++ [0x20] ++ target ++ b!" HTTP/1.1", sentFields x r, r.body.getD []⟩ ∧
      RequestLine (r.method ++ [0x20] ++ target ++ b!" HTTP/1.1") r.method target ∧
      named (sentFields x r) b!"Host" = [x.host] := by
  have big : ∀ c : UInt8, 0x20 < c → c ≠ 0x0D ∧ c ≠ 0x0A ∧ c ≠ 0x20 := by
    apply forall_u8 (P := fun c => 0x20 < c → c ≠ 0x0D ∧ c ≠ 0x0A ∧ c ≠ 0x20)
    decide +kernel
  have hline : ∀ b ∈ r.method ++ [0x20] ++ target ++ b!" HTTP/1.1", b ≠ 0x0D ∧ b ≠ 0x0A := by
    intro b hb
    simp only [List.mem_append] at hb
    rcases hb with ((hb | hb) | hb) | hb
    · have := tchar_facts b (ha.method.2 b hb)
      exact ⟨this.2.2.2.1, this.2.2.1⟩
    · exact (by decide : ∀ b ∈ [(0x20 : UInt8)], b ≠ 0x0D ∧ b ≠ 0x0A) b hb
    · have := big b (ha.target b hb).1
      exact ⟨this.1, this.2.1⟩
    · exact (by decide : ∀ b ∈ b!" HTTP/1.1", b ≠ 0x0D ∧ b ≠ 0x0A) b hb
  have t : ∀ {k : Str}, k ≠ [] → k.all validHeaderFieldByte = true → Token k := token_of_decide
  have v1 : Value b!"Go-http-client/1.1" := ⟨by decide, by decide, by decide⟩
  have v2 : Value b!"gzip" := ⟨by decide, by decide, by decide⟩
  have hhead : Fields (fieldLine b!"Host" x.host ++ fieldLine b!"User-Agent" b!"Go-http-client/1.1" ++
      (if hasLength r then fieldLine b!"Content-Length" (natDigits (r.body.getD []).length) else []) ++
      r.header.text requestFields ++
      (if x.gzip then fieldLine b!"Accept-Encoding" b!"gzip" else [])) (sentFields x r) := by
    unfold sentFields
    refine Fields.append (Fields.append (Fields.append (Fields.append ?_ ?_) ?_)
      (text_fields (fun k hk => (ha.header.name k hk).1) _)) ?_
    · exact fieldLine_fields (t (by decide) (by decide)) (hostText_value ha.host).1
    · exact fieldLine_fields (t (by decide) (by decide)) v1
    · exact Fields.ite (fun _ => fieldLine_fields (t (by decide) (by decide)) (natDigits_value _))
        fun _ => .nil
    · exact Fields.ite (fun _ => fieldLine_fields (t (by decide) (by decide)) v2) fun _ => .nil
  have f1 : ¬ SameName b!"Host" b!"Transfer-Encoding" := by decide
  have f2 : ¬ SameName b!"User-Agent" b!"Transfer-Encoding" := by decide
  have f3 : ¬ SameName b!"Content-Length" b!"Transfer-Encoding" := by decide
  have f4 : ¬ SameName b!"Accept-Encoding" b!"Transfer-Encoding" := by decide
  have f5 : canonicalKey b!"Transfer-Encoding" ∈ requestFields := by decide
  have g1 : ¬ SameName b!"Host" b!"Content-Length" := by decide
  have g2 : ¬ SameName b!"User-Agent" b!"Content-Length" := by decide
  have g3 : SameName b!"Content-Length" b!"Content-Length" := rfl
  have g4 : ¬ SameName b!"Accept-Encoding" b!"Content-Length" := by decide
  have g5 : canonicalKey b!"Content-Length" ∈ requestFields := by decide
  have k1 : SameName b!"Host" b!"Host" := rfl
  have k2 : ¬ SameName b!"User-Agent" b!"Host" := by decide
  have k3 : ¬ SameName b!"Content-Length" b!"Host" := by decide
  have k4 : ¬ SameName b!"Accept-Encoding" b!"Host" := by decide
  have k5 : canonicalKey b!"Host" ∈ requestFields := by decide
  have hte : named (sentFields x r) b!"Transfer-Encoding" = [] := by
    rw [named_sent ha.header]
    simp only [f1, f2, f3, f4, f5, if_false, if_true, ite_self, List.append_nil]
  have hcl : named (sentFields x r) b!"Content-Length" =
      if hasLength r then [natDigits (r.body.getD []).length] else [] := by
    rw [named_sent ha.header]
    simp only [g1, g2, g4, g5, if_false, if_true, ite_self, List.append_nil, List.nil_append]
    rw [if_pos g3]
  have hbody : Body true (sentFields x r) (r.body.getD []) (r.body.getD []) := by
    by_cases hl : hasLength r
    · rw [if_pos hl] at hcl
      obtain ⟨d0, d1, d2⟩ := natDigits_decimal (r.body.getD []).length
      exact Body.length hte hcl d0 d1 d2 ha.body
    · rw [if_neg hl] at hcl
      have : r.body.getD [] = [] := Decidable.not_not.mp fun h => hl (.inl h)
      rw [this]
      exact Body.none rfl hte hcl
  refine ⟨?_, ⟨rfl, ha.method, fun hm => (big _ (ha.target _ hm).1).2.2 rfl⟩, ?_⟩
  · have := Text.mk (request := true) (m := ⟨r.method ++ [0x20] ++ target ++ b!" HTTP/1.1",
      sentFields x r, r.body.getD []⟩) rfl hline hhead hbody
    unfold requestText
    simp only [crlf_eq]
    simpa only [List.append_assoc] using this
  · rw [named_sent ha.header]
    simp only [k2, k3, k4, k5, if_false, if_true, ite_self, List.append_nil]
    rw [if_pos k1]

/-! ### There and back -/

theorem message_fields {request : Bool} {bytes : Str} {m : Message} (h : Text request bytes m) :
    ∀ f ∈ m.fields, Token f.1 ∧ Value f.2 := by
  obtain ⟨_, _, hf, _⟩ := h
  exact fields_tokens hf

/-- What is found under a name in a head that was read. -/
theorem all_fixed {l : List (Str × Str)} {h : Header} (hl : ∀ f ∈ l, Token f.1) {name : Str}
    (hg : GoMap.get? h (canonicalKey name) = GoMap.get? (fixPragma (l.foldl putField [])) (canonicalKey name))
    (hc : SameName name b!"Cache-Control" → named l name ≠ [] ∨ named l b!"Pragma" = []) :
    h.all name = named l name := by
  have hread : GoMap.get? (l.foldl putField []) (canonicalKey name) =
      if named l name = [] then none else some (named l name) := get?_read hl name
  have hfix : GoMap.get? (fixPragma (l.foldl putField [])) (canonicalKey name) =
      GoMap.get? (l.foldl putField []) (canonicalKey name) := by
    by_cases hcc : canonicalKey name = b!"Cache-Control"
    · have hs : SameName name b!"Cache-Control" := by
        refine ((canonicalKey_eq_iff (a := b!"Cache-Control") (b := name)
          (token_of_decide (by decide) (by decide))).mp ?_).symm
        rw [hcc]; decide
      unfold fixPragma
      rw [if_neg]
      rintro ⟨h1, h2⟩
      rcases hc hs with hn | hp
      · rw [hcc, h2, if_neg hn] at hread
        cases hread
      · have : Header.get (l.foldl putField []) b!"Pragma" = [] := by
          unfold Header.get
          rw [get?_read hl, if_pos hp]
        rw [this] at h1
        cases h1
    · exact get?_fixPragma _ hcc
  unfold Header.all
  rw [hg, hfix, hread]
  split
  · rename_i e; rw [e]; rfl
  · rfl

theorem not_sameName {name own : Str} (h : ¬ SameName name own) : ¬ SameName own name :=
  fun e => h e.symm

theorem canonical_own {name own : Str} (h : ¬ SameName name own) (ho : own ≠ [])
    (hv : own.all validHeaderFieldByte = true) (hc : canonicalKey own = own) : canonicalKey name ≠ own :=
  name_ne (token_of_decide ho hv) hc h

/-- A response arrives as it was sent. -/
theorem response_arrives {x : Shipping} {res : Response} (hg : Given res) (hx : Ships x res.body)
    (rest : Str) : ∃ got, readResponse (responseText x res ++ rest) = some (got, rest) ∧ Arrived res got := by
  have ht := responseText_text hg hx
  obtain ⟨reason, hs, hst, -⟩ := statusLine_spec (code := res.statusCode)
    (Nat.le_trans (by decide) hg.status.1) hg.status.2.1
  obtain ⟨got, h1, h2, h3, h4, h5, h6⟩ := readResponse_text ht hs rest
  refine ⟨got, h1, ?_, ?_, h4, h5, ?_⟩
  · rw [h2, (natDigits_decimal _).2.2]
  · rw [h3, hst]
  · intro name ho hct hcc
    have hl : ∀ f ∈ responseFields x res, Token f.1 := fun f hm => (message_fields ht f hm).1
    have n1 : ¬ SameName b!"Date" name := not_sameName (ho _ (by simp))
    have n2 : ¬ SameName b!"Content-Length" name := not_sameName (ho _ (by simp))
    have n3 : ¬ SameName b!"Connection" name := not_sameName (ho _ (by simp))
    have n4 : ¬ SameName b!"Transfer-Encoding" name := not_sameName (ho _ (by simp))
    have hnamed : ∀ name, ¬ SameName b!"Date" name → ¬ SameName b!"Content-Length" name →
        ¬ SameName b!"Connection" name → ¬ SameName b!"Transfer-Encoding" name →
        (SameName name b!"Content-Type" → res.header.all name ≠ [] ∨ res.body = []) →
        named (responseFields x res) name = (res.header.all name).map cleanValue := by
      intro name n1 n2 n3 n4 hct
      rw [named_response hg]
      simp only [n1, n2, n3, n4, if_false, ite_self, List.append_nil]
      suffices hno : ¬ ((GoMap.get? res.header b!"Content-Type" = none ∧ res.body ≠ []) ∧
          SameName b!"Content-Type" name) by
        split
        · rename_i hcond
          rw [if_neg fun hsame => hno ⟨hcond, hsame⟩, List.append_nil]
        · rw [List.append_nil]
      rintro ⟨hcond, hsame⟩
      have hk : canonicalKey name = b!"Content-Type" := by
        rw [← (canonicalKey_eq_iff (a := b!"Content-Type") (b := name)
          (token_of_decide (by decide) (by decide))).mpr hsame]
        decide
      rcases hct hsame.symm with h | h
      · apply h
        unfold Header.all
        rw [hk, hcond.1]
        rfl
      · exact hcond.2 h
    have hall : got.header.all name = named (responseFields x res) name := by
      refine all_fixed hl (h6 _ ?_ ?_) ?_
      · exact canonical_own (ho _ (by simp)) (by decide) (by decide) (by decide)
      · exact canonical_own (ho _ (by simp)) (by decide) (by decide) (by decide)
      · intro hs
        rcases hcc hs with h | h
        · left
          rw [hnamed name n1 n2 n3 n4 hct]
          simpa using h
        · right
          rw [hnamed b!"Pragma" (by decide) (by decide) (by decide) (by decide)
            (fun h => absurd h (by decide)), h]
          rfl
    rw [hall, hnamed name n1 n2 n3 n4 hct]
    exact each_map cleanValue_cleaned _

/-- A request arrives as it was sent. -/
theorem request_reaches {x : Sending} {r : Request} {target : Str} {u : URL} (ha : Asked x target r)
    (hu : parseRequestURI target = some u) (rest : Str) :
    ∃ got, readRequest (requestText x target r ++ rest) = some (got, rest) ∧ Reached r target got := by
  obtain ⟨ht, hs, hh⟩ := requestText_text ha
  obtain ⟨hd, h1, h2⟩ := readRequest_text (u := u) ht hs hu (sent_printable ha) hh ha.host rest
  refine ⟨_, h1, rfl, ⟨u, hu, rfl, rfl⟩, rfl, rfl, ⟨rfl, rfl⟩, ?_⟩
  intro name ho hcc
  have hl : ∀ f ∈ sentFields x r, Token f.1 := fun f hm => (message_fields ht f hm).1
  have hnamed : ∀ name, ¬ SameName b!"Host" name → ¬ SameName b!"User-Agent" name →
      ¬ SameName b!"Content-Length" name → ¬ SameName b!"Accept-Encoding" name →
      named (sentFields x r) name = (r.header.all name).map cleanValue := by
    intro name n1 n2 n3 n4
    rw [named_sent ha.header]
    simp only [n1, n2, n3, n4, if_false, ite_self, List.append_nil, List.nil_append]
    split
    · rename_i hm
      have : canonicalKey name ∉ r.header.keys := by
        intro hk
        refine ha.own _ hk ?_
        have key : ∀ k ∈ requestFields, k ∈ [b!"Host", b!"User-Agent", b!"Content-Length",
            b!"Transfer-Encoding", b!"Trailer", b!"Accept-Encoding"] := by decide
        exact key _ hm
      unfold Header.all
      rw [(GoMap.get?_eq_none_iff _ _).mpr this]
      rfl
    · rfl
  have n := fun own (h : own ∈ [b!"Host", b!"User-Agent", b!"Content-Length", b!"Transfer-Encoding",
      b!"Accept-Encoding"]) => not_sameName (ho own h)
  have hme := hnamed name (n _ (by simp)) (n _ (by simp)) (n _ (by simp)) (n _ (by simp))
  have hall : Header.all hd name = named (sentFields x r) name := by
    refine all_fixed hl (h2 _ ?_ ?_ ?_) ?_
    · exact canonical_own (ho _ (by simp)) (by decide) (by decide) (by decide)
    · exact canonical_own (ho _ (by simp)) (by decide) (by decide) (by decide)
    · exact canonical_own (ho _ (by simp)) (by decide) (by decide) (by decide)
    · intro hs
      rcases hcc hs with h | h
      · left
        rw [hme]
        simpa using h
      · right
        rw [hnamed b!"Pragma" (by decide) (by decide) (by decide) (by decide), h]
        rfl
  show Each Cleaned (r.header.all name) (Header.all hd name)
  rw [hall, hme]
  exact each_map cleanValue_cleaned _

/-- Messages that can be read one by one can be read in a row. -/
theorem readMany_row {α β : Type} {read : Str → Option (β × Str)} {text : α → Str} {R : α → β → Prop}
    {l : List α} (h : ∀ a ∈ l, ∀ rest, ∃ b, read (text a ++ rest) = some (b, rest) ∧ R a b) (rest : Str) :
    ∃ got, readMany read l.length (l.flatMap text ++ rest) = some (got, rest) ∧ Each R l got := by
  induction l with
  | nil => exact ⟨[], rfl, .nil⟩
  | cons a l ih =>
    obtain ⟨got, h1, h2⟩ := ih fun b hb => h b (.tail _ hb)
    obtain ⟨b, h3, h4⟩ := h a (.head _) (l.flatMap text ++ rest)
    refine ⟨b :: got, ?_, .cons h4 h2⟩
    rw [List.length_cons, readMany, List.flatMap_cons, List.append_assoc, h3]
    simp only [h1]
    rfl

/-! ### The target of a request -/

theorem splitQuery_join' (a q : Str) (f : Bool) (ha : (0x3F : UInt8) ∉ a) :
    splitQuery (a ++ if f = true ∨ q ≠ [] then 0x3F :: q else []) = (a, q, if q = [] then f else false) := by
  have := splitQuery_join a q (if q = [] then f else false) ha (by by_cases h : q = [] <;> simp [h])
  rw [← this]
  congr 2
  by_cases h : q = [] <;> simp [h]

theorem escape_path_visible (s : Str) : ∀ c ∈ escape .path s, c ≠ 0x3F ∧ 0x20 < c ∧ c ≠ 0x7F := by
  have hx : ∀ n : Fin 16, ∀ c, c = hexUpper n.val → c ≠ 0x3F ∧ 0x20 < c ∧ c ≠ 0x7F := by
    intro n c hc; subst hc; revert n; decide +kernel
  have hp : ∀ c : UInt8, shouldEscape c .path = false → c ≠ 0x3F ∧ 0x20 < c ∧ c ≠ 0x7F :=
    forall_u8 (by decide +kernel)
  induction s with
  | nil => simp [escape]
  | cons c cs ih =>
    have hc : c.toNat < 256 := c.toNat_lt
    intro d hd
    rw [escape] at hd
    have hsp : ¬ (c = 0x20 ∧ EncMode.path = .queryComponent) := by rintro ⟨_, h⟩; cases h
    rw [if_neg hsp] at hd
    split at hd
    · simp only [List.mem_cons] at hd
      rcases hd with rfl | rfl | rfl | hd
      · decide
      · exact hx ⟨c.toNat / 16, by omega⟩ _ rfl
      · exact hx ⟨c.toNat % 16, by omega⟩ _ rfl
      · exact ih d hd
    · rename_i h
      rcases List.mem_cons.mp hd with rfl | hd
      · exact hp _ (by simpa using h)
      · exact ih d hd

theorem escapedPath_unescape {u : URL} (h : ∀ p ∈ [u.path, u.rawPath], p = [] ∨ ∃ t, p = 0x2F :: t) :
    unescape .path u.escapedPath = some u.path ∧
    (∀ c ∈ u.escapedPath, c ≠ 0x3F ∧ 0x20 < c ∧ c ≠ 0x7F) ∧
    (u.escapedPath = [] ∧ u.path = [] ∨ ∃ t, u.escapedPath = 0x2F :: t) := by
  have hpath := h u.path (by simp)
  have hraw := h u.rawPath (by simp)
  have hv : ∀ c : UInt8, (b!"!$&'()*+,;=:@[]%".contains c || !shouldEscape c .path) = true →
      c ≠ 0x3F ∧ 0x20 < c ∧ c ≠ 0x7F := forall_u8 (by decide +kernel)
  unfold URL.escapedPath
  split
  · rename_i h
    obtain ⟨h1, h2, h3⟩ := h
    refine ⟨h3, ?_, .inr (hraw.resolve_left h1)⟩
    intro c hc
    unfold validEncodedPath at h2
    rw [List.all_eq_true] at h2
    exact hv c (h2 c hc)
  · rw [if_neg]
    · refine ⟨unescape_escape .path (by decide) (by decide) _, escape_path_visible _, ?_⟩
      rcases hpath with h | ⟨t, h⟩
      · rw [h]; exact .inl ⟨rfl, rfl⟩
      · rw [h]
        refine .inr ⟨escape .path t, ?_⟩
        rw [escape]
        rw [if_neg (by decide), if_neg (by decide)]
    · rcases hpath with h | ⟨t, h⟩ <;> rw [h] <;> simp

/-- The target of a request to a URL has its path and its query. -/
theorem target_spec {u : URL} (ha : Address u) :
    (∀ b ∈ u.requestURI, 0x20 < b ∧ b ≠ 0x7F) ∧
    ∃ u', parseRequestURI u.requestURI = some u' ∧ u'.rawQuery = u.rawQuery ∧
      u'.path = if u.path = [] then [0x2F] else u.path := by
  obtain ⟨e1, e2, e3⟩ := escapedPath_unescape ha.path.2
  obtain ⟨p, t, hp, ht, hpu, hpv, hpp⟩ : ∃ p t, (if u.escapedPath = [] then [0x2F] else u.escapedPath) = p ∧
      p = 0x2F :: t ∧ unescape .path p = some (if u.path = [] then [0x2F] else u.path) ∧
      (∀ c ∈ p, c ≠ 0x3F ∧ 0x20 < c ∧ c ≠ 0x7F) ∧ True := by
    rcases e3 with ⟨h1, h2⟩ | ⟨t, h⟩
    · refine ⟨[0x2F], [], by rw [if_pos h1], rfl, ?_, by decide, trivial⟩
      rw [if_pos h2]; decide
    · refine ⟨u.escapedPath, t, by rw [if_neg (by rw [h]; simp)], h, ?_, e2, trivial⟩
      rw [e1, if_neg]
      intro h0
      rw [h, h0, unescape_slash (by decide) (by decide)] at e1
      cases hx : unescape .path t <;> rw [hx] at e1 <;> cases e1
  have huri : u.requestURI = p ++ (if u.forceQuery = true ∨ u.rawQuery ≠ [] then 0x3F :: u.rawQuery else []) := by
    unfold URL.requestURI
    rw [if_pos ha.path.1, hp]
  have hvis : ∀ b ∈ u.requestURI, 0x20 < b ∧ b ≠ 0x7F := by
    intro b hb
    rw [huri] at hb
    rcases List.mem_append.mp hb with hb | hb
    · exact (hpv b hb).2
    · split at hb
      · rcases List.mem_cons.mp hb with rfl | hb
        · decide
        · exact ha.query b hb
      · cases hb
  refine ⟨hvis, ?_⟩
  have hctl : containsCTL u.requestURI = false := by
    rw [containsCTL_false_iff]
    intro c hc
    have := hvis c hc
    refine ⟨?_, this.2⟩
    have key : ∀ c : UInt8, 0x20 < c → ¬ c < 0x20 := by
      apply forall_u8 (P := fun c => 0x20 < c → ¬ c < 0x20)
      decide +kernel
    exact key c this.1
  obtain ⟨t', htt⟩ : ∃ t', u.requestURI = 0x2F :: t' := by rw [huri, ht]; exact ⟨_, rfl⟩
  have hsplit : ∃ f, splitQuery u.requestURI = (p, u.rawQuery, f) := by
    rw [huri]
    refine ⟨_, splitQuery_join' p u.rawQuery u.forceQuery fun hm => (hpv _ hm).1 rfl⟩
  obtain ⟨f, hsplit⟩ := hsplit
  unfold parseRequestURI parseRaw
  rw [hctl]
  simp only [Bool.false_eq_true, if_false]
  rw [if_neg (by rw [htt]; simp), if_neg (by rw [htt]; simp), htt, getScheme_slash, ← htt]
  simp only
  rw [show lowerStr [] = [] from rfl, hsplit]
  have hpre : hasPrefix [0x2F] p = true := by rw [hasPrefix_slash]; exact ⟨t, ht⟩
  simp only [hpre]
  simp
  unfold setPath
  rw [hpu]
  exact ⟨_, rfl, rfl, rfl⟩

end OAuth2

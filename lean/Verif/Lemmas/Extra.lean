import Verif.Lemmas.FloatText
import Verif.Lemmas.Sort
import Verif.Spec.Extra
/-
Encoding values of type `interface{}` and reading them back.
-/

namespace OAuth2

open Spec

/-! ### Numbers -/

theorem numExp_text {exp rest : Str} (hr : numEnd rest)
    (h : exp = [] ∨ ∃ e sign ds : Str, (e = b!"e" ∨ e = b!"E") ∧
      (sign = [] ∨ sign = b!"+" ∨ sign = b!"-") ∧ ds ≠ [] ∧ (∀ x ∈ ds, Digit x) ∧
      exp = e ++ sign ++ ds) :
    numExp (exp ++ rest) = some (exp, rest) ∧
      ∀ c t, exp ++ rest = c :: t → isDigit c = false ∧ c ≠ 0x2E := by
  rcases h with rfl | ⟨e, sign, ds, he, hs, hne, hds, rfl⟩
  · exact ⟨numExp_end hr, fun c t h => ⟨(hr c t h).1, (hr c t h).2.1⟩⟩
  obtain ⟨h1, h2⟩ := digits_end hds fun c t h => (hr c t h).1
  refine ⟨?_, ?_⟩
  · obtain ⟨d, ds', rfl⟩ := List.exists_cons_of_ne_nil hne
    have hd : ¬ (d = 0x2B ∨ d = 0x2D) := by
      have := digit_facts d (digit_isDigit (hds d (by simp)))
      rintro (h | h)
      · exact this.2.2.1 h
      · exact this.1 h
    simp only [List.cons_append] at h1 h2
    rcases he with rfl | rfl <;> rcases hs with rfl | rfl | rfl <;>
      simp [numExp, hd, h1, h2]
  · intro c t h
    rcases he with rfl | rfl
    · simp only [List.cons_append, List.nil_append, List.cons.injEq] at h
      rw [← h.1]; decide
    · simp only [List.cons_append, List.nil_append, List.cons.injEq] at h
      rw [← h.1]; decide

theorem numFrac_text {frac rest : Str}
    (hr : ∀ c t, rest = c :: t → isDigit c = false ∧ c ≠ 0x2E)
    (h : frac = [] ∨ ∃ ds, ds ≠ [] ∧ (∀ x ∈ ds, Digit x) ∧ frac = b!"." ++ ds) :
    numFrac (frac ++ rest) = some (frac, rest) ∧
      ∀ c t, frac ++ rest = c :: t → isDigit c = false := by
  rcases h with rfl | ⟨ds, hne, hds, rfl⟩
  · refine ⟨?_, fun c t h => (hr c t h).1⟩
    cases rest with
    | nil => rfl
    | cons c t => simp [numFrac, (hr c t rfl).2]
  · obtain ⟨h1, h2⟩ := digits_end hds fun c t h => (hr c t h).1
    refine ⟨?_, ?_⟩
    · simp [numFrac, h1, h2, hne]
    · intro c t h
      simp only [List.cons_append, List.nil_append, List.cons.injEq] at h
      rw [← h.1]; decide

theorem numInt_text {int rest : Str} (hr : ∀ c t, rest = c :: t → isDigit c = false)
    (h : int = b!"0" ∨ ∃ c cs, int = c :: cs ∧ c ≠ 0x30 ∧ Digit c ∧ ∀ x ∈ cs, Digit x) :
    numInt (int ++ rest) = some (int, rest) ∧
      ∃ c cs, int = c :: cs ∧ isDigit c = true := by
  rcases h with rfl | ⟨c, cs, rfl, h0, hc, hcs⟩
  · exact ⟨by simp [numInt], _, _, rfl, by decide⟩
  · obtain ⟨h1, h2⟩ := digits_end hcs hr
    exact ⟨by simp [numInt, h0, digit_isDigit hc, h1, h2], _, _, rfl, digit_isDigit hc⟩

theorem parseNum_text {lit rest : Str} (h : NumberText lit) (hr : numEnd rest) :
    parseNum (lit ++ rest) = some (lit, rest) ∧
      ∃ c cs, lit = c :: cs ∧ (c = 0x2D ∨ isDigit c = true) := by
  obtain ⟨sign, int, frac, exp, rfl, hs, hi, hf, he⟩ := h
  obtain ⟨e1, e2⟩ := numExp_text hr he
  obtain ⟨f1, f2⟩ := numFrac_text e2 hf
  obtain ⟨i1, c, cs, rfl, hc⟩ := numInt_text f2 hi
  have hm := (digit_facts c hc).1
  rcases hs with rfl | rfl
  · refine ⟨?_, c, cs ++ frac ++ exp, by simp, Or.inr hc⟩
    unfold parseNum
    simp only [List.nil_append, List.cons_append, List.append_assoc] at i1 ⊢
    simp [hm, i1, f1, e1]
  · refine ⟨?_, 0x2D, c :: cs ++ frac ++ exp, by simp, Or.inl rfl⟩
    unfold parseNum
    simp only [List.nil_append, List.cons_append, List.append_assoc] at i1 ⊢
    simp [i1, f1, e1]

theorem encodes_num (k : Nat) {lit : Str} (h : NumberText lit) : Encodes k lit (.num lit) := by
  refine Parses.encodes ?_ ?_ k
  · intro fuel d rest hf hr
    obtain ⟨f, rfl⟩ : ∃ f, fuel = f + 1 := ⟨fuel - 1, by omega⟩
    obtain ⟨hn, c, cs, rfl, hc⟩ := parseNum_text h hr
    obtain ⟨h0, h1, h2, h3, h4, h5, h6⟩ := numStart_facts c hc
    rw [parseValue.eq_def]
    simp only [List.cons_append] at hn ⊢
    rw [skipWs_cons h0]
    simp only [h1, h2, h3, h4, h5, h6, if_false, hn]
    rfl
  · obtain ⟨-, c, cs, rfl, -⟩ := parseNum_text h (rest := []) (by intro c t h; cases h)
    exact List.cons_ne_nil _ _

/-! ### Arrays and objects -/

theorem parseElems_join (ts : List (Str × JSON)) (hts : ts ≠ []) {k : Nat}
    (henc : ∀ t ∈ ts, Encodes k t.1 t.2) (fuel d : Nat)
    (hf : (joinStr [0x2C] (ts.map (·.1))).length < fuel) (hd : d + k ≤ maxDepth) (rest : Str) :
    parseElems fuel d (joinStr [0x2C] (ts.map (·.1)) ++ 0x5D :: rest) =
      some (ts.map (·.2), rest) := by
  induction ts generalizing fuel with
  | nil => exact absurd rfl hts
  | cons t ts ih =>
    obtain ⟨f, rfl⟩ : ∃ f, fuel = f + 1 := ⟨fuel - 1, by omega⟩
    have hf1 : t.1.length ≤ f := by
      cases ts <;>
        simp only [List.map_cons, List.map_nil, joinStr, List.length_append, List.length_cons] at hf <;>
        omega
    have one : ∀ (c : UInt8) (tail : Str), (c = 0x2C ∨ c = 0x5D) →
        parseElems (f + 1) d (t.1 ++ c :: tail) =
          if c = 0x5D then some ([t.2], tail)
          else (parseElems f d tail).map fun (l, r) => (t.2 :: l, r) := by
      intro c tail hc
      have hend : numEnd (c :: tail) := numEnd_cons (by rcases hc with rfl | rfl <;> decide) tail
      have hws : isJsonWs c = false := by rcases hc with rfl | rfl <;> decide
      rw [parseElems.eq_def]
      simp only
      rw [(henc t (by simp)).2 f d (c :: tail) hf1 hd hend]
      simp only
      rw [skipWs_cons hws]
      simp only
      rcases hc with rfl | rfl
      · have e3 : ¬ ((0x2C : UInt8) = 0x5D) := by decide
        simp only [e3, if_false, if_true]
      · simp only [if_true]
    cases ts with
    | nil =>
      simp only [List.map_cons, List.map_nil, joinStr]
      rw [one 0x5D rest (Or.inr rfl), if_pos rfl]
    | cons t2 ts =>
      simp only [List.map_cons, joinStr, List.append_assoc, List.cons_append, List.nil_append] at ih ⊢
      rw [one 0x2C _ (Or.inl rfl), if_neg (by decide),
        ih (by simp) (fun m hm => henc m (List.mem_cons_of_mem _ hm)) f (by
          simp only [List.map_cons, joinStr, List.length_append, List.length_cons,
            List.append_assoc, List.nil_append, List.cons_append] at hf ⊢
          omega)]
      rfl

theorem skipWs_head {s : Str} {c : UInt8} {cs : Str} (h : skipWs s = c :: cs) : isJsonWs c = false := by
  unfold skipWs at h
  have := List.head_dropWhile_not isJsonWs (l := s) (by rw [h]; simp)
  simpa [h] using this

/-- White space in front of a value does not matter; so its first byte is not `]`. -/
theorem Encodes.start {k : Nat} {text : Str} {j : JSON} (h : Encodes k text j) (hk : k ≤ maxDepth)
    (rest : Str) : ∃ c cs, skipWs (text ++ rest) = c :: cs ∧ c ≠ 0x5D ∧
      ∀ n d, parseElems n d (c :: cs) = parseElems n d (text ++ rest) := by
  cases hs : skipWs text with
  | nil =>
    have := h.2 (text.length) 0 [] (by simp) (by omega) (by intro c t h; cases h)
    have hp := List.length_pos_iff.mpr h.1
    obtain ⟨f, hf⟩ : ∃ f, text.length = f + 1 := ⟨text.length - 1, by omega⟩
    rw [hf, parseValue.eq_def] at this
    simp only [List.append_nil, hs] at this
    cases this
  | cons c cs =>
    have hw := skipWs_head hs
    have hsk : skipWs (text ++ rest) = c :: (cs ++ rest) := by
      unfold skipWs at hs ⊢
      rw [List.dropWhile_append, hs]
      simp
    refine ⟨c, cs ++ rest, hsk, ?_, ?_⟩
    · have := h.2 (text.length) 0 [] (by simp) (by omega) (by intro c t h; cases h)
      have hp := List.length_pos_iff.mpr h.1
      obtain ⟨f, hf⟩ : ∃ f, text.length = f + 1 := ⟨text.length - 1, by omega⟩
      rw [hf, parseValue.eq_def] at this
      simp only [List.append_nil, hs] at this
      rintro rfl
      simp [parseNum, numInt, isDigit, inRange] at this
    · intro n d
      have hv : ∀ n, parseValue n d (c :: (cs ++ rest)) = parseValue n d (text ++ rest) := by
        intro n
        cases n with
        | zero => simp [parseValue]
        | succ n =>
          rw [parseValue.eq_def, parseValue.eq_def _ _ (text ++ rest)]
          simp only [hsk, skipWs_cons hw]
      cases n with
      | zero => simp [parseElems]
      | succ n =>
        rw [parseElems.eq_def, parseElems.eq_def _ _ (text ++ rest)]
        simp only [hv]

theorem encodes_array (ts : List (Str × JSON)) {k : Nat} (henc : ∀ t ∈ ts, Encodes k t.1 t.2) :
    Encodes (k + 1) ([0x5B] ++ joinStr [0x2C] (ts.map (·.1)) ++ [0x5D]) (.arr (ts.map (·.2))) := by
  refine ⟨by simp, fun fuel d rest hf hd hr => ?_⟩
  obtain ⟨f, rfl⟩ : ∃ f, fuel = f + 1 := ⟨fuel - 1, by
    simp only [List.length_append, List.length_cons] at hf; omega⟩
  have e1 : ¬ ((0x5B : UInt8) = 0x7B) := by decide
  have hmax : ¬ maxDepth ≤ d := by omega
  simp only [List.cons_append, List.nil_append, List.append_assoc]
  rw [parseValue.eq_def]
  simp only
  rw [skipWs_cons (by decide)]
  simp only [e1, if_false, if_true, hmax]
  cases ts with
  | nil =>
    simp only [List.map_nil, joinStr, List.nil_append]
    rw [skipWs_cons (by decide)]
    simp
  | cons t ts =>
    have hj : ∃ r, joinStr [0x2C] ((t :: ts).map (·.1)) ++ 0x5D :: rest = t.1 ++ r := by
      cases ts with
      | nil => exact ⟨_, rfl⟩
      | cons t2 ts =>
        simp only [List.map_cons, joinStr, List.append_assoc]
        exact ⟨_, rfl⟩
    obtain ⟨r, hr'⟩ := hj
    obtain ⟨c, cs, h1, h2, h3⟩ := (henc t (by simp)).start (by omega) r
    rw [hr', h1]
    simp only [h2, if_false]
    rw [h3, ← hr', parseElems_join _ (by simp) henc _ _ (by
      simp only [List.length_append, List.length_cons, List.length_nil] at hf; omega) (by omega)]
    rfl

theorem encodes_object (ms : List Member) {k : Nat} (henc : ∀ m ∈ ms, Encodes k m.text m.doc) :
    Encodes (k + 1) (jsonObject (ms.map fun m => (m.key, m.text)))
      (.obj (ms.map fun m => (sanitize m.key, m.doc))) := by
  refine ⟨by simp [jsonObject], fun fuel d rest hf hd hr => ?_⟩
  obtain ⟨J, hJ⟩ : ∃ J, joinStr [0x2C] (ms.map fun m => jsonString m.key ++ [0x3A] ++ m.text) = J :=
    ⟨_, rfl⟩
  have hobj : jsonObject (ms.map fun m => (m.key, m.text)) = 0x7B :: (J ++ [0x7D]) := by
    unfold jsonObject
    rw [List.map_map, ← hJ]
    simp [Function.comp_def]
  rw [hobj] at hf ⊢
  obtain ⟨f, rfl⟩ : ∃ f, fuel = f + 1 := ⟨fuel - 1, by
    simp only [List.length_cons] at hf; omega⟩
  have hmax : ¬ maxDepth ≤ d := by omega
  simp only [List.cons_append, List.nil_append, List.append_assoc]
  rw [parseValue.eq_def]
  simp only
  rw [skipWs_cons (by decide)]
  simp only [if_false, if_true, hmax]
  cases ms with
  | nil =>
    simp only [List.map_nil, joinStr] at hJ
    subst hJ
    simp only [List.nil_append]
    rw [skipWs_cons (by decide)]
    simp
  | cons m ms =>
    have hx : ∃ xs, J ++ 0x7D :: rest = 0x22 :: xs := by
      rw [← hJ]
      cases ms <;> simp [joinStr, jsonString]
    obtain ⟨xs, hxs⟩ := hx
    have hskip : skipWs (J ++ 0x7D :: rest) = 0x22 :: xs := by
      rw [hxs]; exact skipWs_cons (by decide) xs
    rw [hskip]
    have e1 : ¬ ((0x22 : UInt8) = 0x7D) := by decide
    simp only [e1, if_false]
    rw [← hxs, ← hJ, parseMembers_join _ (by simp) henc _ _ (by
      rw [hJ]; simp only [List.length_cons, List.length_append, List.length_nil] at hf; omega)
      (by omega)]
    rfl

/-! ### Values -/

mutual
/-- The document a value is encoded as. -/
def GoVal.doc : GoVal → JSON
  | .null => .null
  | .bool b => .bool b
  | .num f => .num f.text
  | .int i => .num (itoa i)
  | .str s => .str (sanitize s)
  | .arr l => .arr (GoVal.docs l)
  | .obj l => .obj (GoVal.docEntries l)
  | .other => .null

def GoVal.docs : List GoVal → List JSON
  | [] => []
  | v :: l => v.doc :: GoVal.docs l

def GoVal.docEntries : List (Str × GoVal) → List (Str × JSON)
  | [] => []
  | (k, v) :: l => (sanitize k, v.doc) :: GoVal.docEntries l
end

theorem sortBy_sorted {α : Type} {le : α → α → Bool} {l : List α}
    (h : l.Pairwise fun a b => le a b = true) : sortBy le l = l := by
  induction l with
  | nil => rfl
  | cons x l ih =>
    rw [List.pairwise_cons] at h
    rw [sortBy, ih h.2]
    cases l with
    | nil => rfl
    | cons y l => rw [insertBy, if_pos (h.1 y (by simp))]

theorem representable_encodes {n : Nat} {v : GoVal} (h : Representable n v) :
    ∃ text, v.json = some text ∧ Encodes n text v.doc := by
  induction h with
  | null => exact ⟨_, by rw [GoVal.json], by rw [GoVal.doc]; exact encodes_null _⟩
  | bool b => exact ⟨_, by rw [GoVal.json], by rw [GoVal.doc]; exact encodes_bool _ b⟩
  | num f => exact ⟨_, by rw [GoVal.json], by rw [GoVal.doc]; exact encodes_num _ f.text_number⟩
  | int _ _ => exact ⟨_, by rw [GoVal.json], by rw [GoVal.doc]; exact encodes_num _ (itoa_number _)⟩
  | str s => exact ⟨_, by rw [GoVal.json], by rw [GoVal.doc]; exact encodes_string _ s⟩
  | @arr n l hl ih =>
    have : ∃ ts : List (Str × JSON), GoVal.elems l = some (ts.map (·.1)) ∧
        GoVal.docs l = ts.map (·.2) ∧ ∀ t ∈ ts, Encodes n t.1 t.2 := by
      clear hl
      induction l with
      | nil => exact ⟨[], by rw [GoVal.elems]; rfl, by rw [GoVal.docs]; rfl, by simp⟩
      | cons v l ihl =>
        obtain ⟨t, h1, h2⟩ := ih v (by simp)
        obtain ⟨ts, h3, h4, h5⟩ := ihl fun w hw => ih w (List.mem_cons_of_mem _ hw)
        refine ⟨(t, v.doc) :: ts, by rw [GoVal.elems, h1, h3]; rfl, by rw [GoVal.docs, h4]; rfl, ?_⟩
        intro t' ht'
        rcases List.mem_cons.mp ht' with rfl | ht'
        · exact h2
        · exact h5 t' ht'
    obtain ⟨ts, h1, h2, h3⟩ := this
    exact ⟨_, by rw [GoVal.json, h1]; rfl, by rw [GoVal.doc, h2]; exact encodes_array ts h3⟩
  | @obj n l hk hl ih =>
    have : ∃ ms : List Member, GoVal.entries l = some (ms.map fun m => (m.key, m.text)) ∧
        GoVal.docEntries l = ms.map (fun m => (sanitize m.key, m.doc)) ∧
        (ms.map Member.key = l.map (·.1)) ∧ ∀ m ∈ ms, Encodes n m.text m.doc := by
      clear hl hk
      induction l with
      | nil => exact ⟨[], by rw [GoVal.entries]; rfl, by rw [GoVal.docEntries]; rfl, rfl, by simp⟩
      | cons e l ihl =>
        obtain ⟨k, v⟩ := e
        obtain ⟨t, h1, h2⟩ := ih (k, v) (by simp)
        obtain ⟨ts, h3, h4, h5, h6⟩ := ihl fun w hw => ih w (List.mem_cons_of_mem _ hw)
        refine ⟨⟨k, t, v.doc⟩ :: ts, by rw [GoVal.entries, h1, h3]; rfl,
          by rw [GoVal.docEntries, h4]; rfl, by simp [h5], ?_⟩
        intro t' ht'
        rcases List.mem_cons.mp ht' with rfl | ht'
        · exact h2
        · exact h6 t' ht'
    obtain ⟨ms, h1, h2, h3, h4⟩ := this
    have hs : sortBy (fun a b => strLe a.1 b.1) (ms.map fun m => (m.key, m.text)) =
        ms.map fun m => (m.key, m.text) := by
      apply sortBy_sorted
      have : (l.map (·.1)).Pairwise fun a b => strLe a b = true := by
        rw [List.pairwise_map]
        exact hk.imp fun h => h.1
      rw [← h3, List.pairwise_map] at this
      rw [List.pairwise_map]
      exact this
    exact ⟨_, by rw [GoVal.json, h1, Option.map_some, hs], by
      rw [GoVal.doc, h2]; exact encodes_object ms h4⟩

theorem entries_inOrder {l : List (Str × GoVal)} (hu : ∀ e ∈ l, sanitize e.1 = e.1)
    (hk : KeysInOrder l) :
    JSON.entries (GoVal.docEntries l) = l.map fun e => (e.1, e.2.doc.value) := by
  induction l with
  | nil => rw [GoVal.docEntries, JSON.entries]; rfl
  | cons e l ih =>
    obtain ⟨k, v⟩ := e
    rw [KeysInOrder, List.pairwise_cons] at hk
    rw [GoVal.docEntries, JSON.entries, ih (fun w hw => hu w (List.mem_cons_of_mem _ hw)) hk.2]
    have h1 := hu (k, v) (by simp)
    simp only at h1
    simp only [h1]
    rw [if_neg (by
      simp only [List.any_eq_true, decide_eq_true_eq, not_exists, not_and]
      intro x hx he
      obtain ⟨y, hy, rfl⟩ := List.mem_map.mp hx
      exact (hk.1 y hy).2 he.symm)]
    cases l with
    | nil => rfl
    | cons y l => rw [List.map_cons, insertBy, if_pos (hk.1 y (by simp)).1]; rfl

/-- What is written for a value can be read. -/
theorem readable_doc {n : Nat} {v : GoVal} (h : Representable n v) : v.doc.readable = true := by
  induction h with
  | null => rw [GoVal.doc, JSON.readable] <;> simp
  | bool b => rw [GoVal.doc, JSON.readable] <;> simp
  | num f => rw [GoVal.doc, JSON.readable, f.parse_text]; rfl
  | int h1 h2 =>
    obtain ⟨f, hf, -⟩ := F64.parse_integer h1 h2
    rw [GoVal.doc, JSON.readable, hf]; rfl
  | str s => rw [GoVal.doc, JSON.readable] <;> simp
  | @arr n l hl ih =>
    rw [GoVal.doc, JSON.readable]
    clear hl
    induction l with
    | nil => rw [GoVal.docs, JSON.readableElems]
    | cons v l ihl =>
      rw [GoVal.docs, JSON.readableElems, ih v (by simp), ihl fun w hw => ih w (List.mem_cons_of_mem _ hw)]
      rfl
  | @obj n l hk hl ih =>
    rw [GoVal.doc, JSON.readable]
    clear hl hk
    induction l with
    | nil => rw [GoVal.docEntries, JSON.readableMembers]
    | cons v l ihl =>
      rw [GoVal.docEntries, JSON.readableMembers, ih v (by simp),
        ihl fun w hw => ih w (List.mem_cons_of_mem _ hw)]
      rfl

/-- What a value is read as. -/
theorem value_doc {n : Nat} {v : GoVal} (h : Representable n v) (hv : ValidText v) :
    Arrives v v.doc.value := by
  induction h with
  | null => rw [GoVal.doc, JSON.value]; exact .null
  | bool b => rw [GoVal.doc, JSON.value]; exact .bool b
  | num f => rw [GoVal.doc, JSON.value, f.parse_text]; exact .num f
  | int h1 h2 =>
    obtain ⟨f, hf, hn, hs⟩ := F64.parse_integer h1 h2
    rw [GoVal.doc, JSON.value, hf]
    exact .int hn hs
  | str s =>
    cases hv with
    | str hs => rw [GoVal.doc, JSON.value, sanitize_of_valid hs]; exact .str s
  | @arr n l hl ih =>
    cases hv with
    | arr hv =>
      rw [GoVal.doc, JSON.value]
      refine .arr ?_
      clear hl
      induction l with
      | nil => rw [GoVal.docs, JSON.values]; exact .nil
      | cons v l ihl =>
        rw [GoVal.docs, JSON.values]
        exact .cons (ih v (by simp) (hv v (by simp)))
          (ihl (fun w hw => ih w (List.mem_cons_of_mem _ hw))
            (fun w hw => hv w (List.mem_cons_of_mem _ hw)))
  | @obj n l hk hl ih =>
    cases hv with
    | obj h1 h2 =>
      rw [GoVal.doc, JSON.value]
      refine .obj ?_
      rw [entries_inOrder (fun e he => sanitize_of_valid (h1 e he)) hk]
      clear hl hk h1
      induction l with
      | nil => exact .nil
      | cons e l ihl =>
        exact .cons (ih e (by simp) (h2 e (by simp)))
          (ihl (fun w hw => ih w (List.mem_cons_of_mem _ hw))
            (fun w hw => h2 w (List.mem_cons_of_mem _ hw)))

/-- Without integers nothing is rounded. -/
theorem Spec.Arrives.eq {v v' : GoVal} (h : Arrives v v') (hi : ¬ HasInteger v) : v' = v := by
  refine Arrives.rec (motive_1 := fun v v' _ => ¬ HasInteger v → v' = v)
    (motive_2 := fun l l' _ => (∀ v ∈ l, ¬ HasInteger v) → l' = l)
    (motive_3 := fun l l' _ => (∀ e ∈ l, ¬ HasInteger e.2) → l' = l)
    (fun _ => rfl) (fun _ _ => rfl) (fun _ _ => rfl) (fun _ _ h => absurd (.int _) h) (fun _ _ => rfl)
    (fun _ ih h => by rw [ih fun v hv hi => h (.arr hv hi)])
    (fun _ ih h => by rw [ih fun v hv hi => h (.obj hv hi)])
    (fun _ => rfl)
    (fun _ _ ih ihl h => by
      rw [ih (h _ (by simp)), ihl fun v hv => h v (List.mem_cons_of_mem _ hv)])
    (fun _ => rfl)
    (fun _ _ ih ihl h => by
      rw [ih (h _ List.mem_cons_self), ihl fun v hv => h v (List.mem_cons_of_mem _ hv)])
    h hi

theorem json_inexpressible {v : GoVal} (h : Inexpressible v) : v.json = none := by
  induction h with
  | other => rw [GoVal.json]
  | @arr l v hm _ ih =>
    rw [GoVal.json]
    have : GoVal.elems l = none := by
      induction l with
      | nil => cases hm
      | cons w l ihl =>
        rw [GoVal.elems]
        rcases List.mem_cons.mp hm with rfl | hm
        · rw [ih]
        · rw [ihl hm]
          cases w.json <;> rfl
    rw [this]; rfl
  | @obj l e hm _ ih =>
    rw [GoVal.json]
    have : GoVal.entries l = none := by
      induction l with
      | nil => cases hm
      | cons w l ihl =>
        obtain ⟨k, w⟩ := w
        rw [GoVal.entries]
        rcases List.mem_cons.mp hm with rfl | hm
        · rw [ih]
        · rw [ihl hm]
          cases w.json <;> rfl
    rw [this]; rfl

end OAuth2

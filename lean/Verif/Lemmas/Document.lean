import Verif.Lemmas.JsonGrammar
import Verif.Lemmas.Sort
import Verif.Spec.Document
import Verif.Props.Scopes
import Verif.Props.Truncation
/-
The decoding of structs in the model and the documents of the specification.
-/

namespace OAuth2

open Spec

/-! ### Names -/

/-- The letters of the member names of /repo. -/
def lowerName (f : Str) : Prop := ∀ c ∈ f, (0x61 ≤ c ∧ c ≤ 0x7A) ∨ c = 0x5F

instance (f : Str) : Decidable (lowerName f) := inferInstanceAs (Decidable (∀ c ∈ f, _))

theorem foldKey_cons {c : UInt8} (h1 : c ≠ 0xC5) (h2 : c ≠ 0xE2) (k : Str) :
    foldKey (c :: k) = lowerByte c :: foldKey k := by
  rw [foldKey.eq_def]
  split
  · rename_i h; cases h; exact absurd rfl h1
  · rename_i h; cases h; exact absurd rfl h2
  · rename_i h; cases h; rfl
  · rename_i h; cases h

theorem lowerByte_lower : ∀ c : UInt8, (0x61 ≤ c ∧ c ≤ 0x7A) ∨ c = 0x5F →
    lowerByte c = c ∧ c ≠ 0xC5 ∧ c ≠ 0xE2 := by
  apply forall_u8; decide +kernel

theorem lowerByte_upper : ∀ c : UInt8, 0x61 ≤ c → c ≤ 0x7A →
    lowerByte (c - 0x20) = c ∧ c - 0x20 ≠ 0xC5 ∧ c - 0x20 ≠ 0xE2 := by
  apply forall_u8; decide +kernel

theorem lowerByte_eq : ∀ c : UInt8, lowerByte c = c ∨
    0x61 ≤ lowerByte c ∧ lowerByte c ≤ 0x7A ∧ c = lowerByte c - 0x20 := by
  apply forall_u8; decide +kernel

theorem folded_of_foldKey (k : Str) : Folded k (foldKey k) := by
  induction k using foldKey.induct with
  | case1 rest ih => rw [foldKey.eq_def]; exact Folded.longS ih
  | case2 rest ih => rw [foldKey.eq_def]; exact Folded.kelvin ih
  | case3 c rest h1 h2 ih =>
    rw [foldKey.eq_3 _ _ h1 h2]
    rcases lowerByte_eq c with h | ⟨h, h', he⟩
    · rw [h]; exact .same c ih
    · have := Folded.upper (lowerByte c) h h' ih
      rw [← he] at this
      exact this
  | case4 => rw [foldKey.eq_def]; exact .nil

theorem Spec.Folded.foldKey {k f : Str} (h : Folded k f) (hf : lowerName f) : foldKey k = f := by
  induction h with
  | nil => rfl
  | same c h ih =>
    obtain ⟨h1, h2, h3⟩ := lowerByte_lower c (hf c (by simp))
    rw [foldKey_cons h2 h3, h1, ih fun d hd => hf d (List.mem_cons_of_mem _ hd)]
  | upper c hc hc' h ih =>
    obtain ⟨h1, h2, h3⟩ := lowerByte_upper c hc hc'
    rw [foldKey_cons h2 h3, h1, ih fun d hd => hf d (List.mem_cons_of_mem _ hd)]
  | @longS k f h ih =>
    show OAuth2.foldKey (0xC5 :: 0xBF :: k) = 0x73 :: f
    rw [foldKey.eq_def]
    simp only
    rw [ih fun d hd => hf d (List.mem_cons_of_mem _ hd)]
  | @kelvin k f h ih =>
    show OAuth2.foldKey (0xE2 :: 0x84 :: 0xAA :: k) = 0x6B :: f
    rw [foldKey.eq_def]
    simp only
    rw [ih fun d hd => hf d (List.mem_cons_of_mem _ hd)]

theorem folded_refl (f : Str) : Folded f f := by
  induction f with
  | nil => exact .nil
  | cons c f ih => exact .same c ih

theorem folded_iff {k f : Str} (hf : lowerName f) : Folded k f ↔ foldKey k = f :=
  ⟨fun h => h.foldKey hf, fun h => h ▸ folded_of_foldKey k⟩

theorem selectField_iff {fields : List Str} (hf : ∀ f ∈ fields, lowerName f) (k f : Str) :
    selectField fields k = some f ↔ f ∈ fields ∧ Folded k f := by
  unfold selectField
  split
  · rename_i hk
    have hk : k ∈ fields := by simpa using hk
    constructor
    · intro h; cases h; exact ⟨hk, folded_refl k⟩
    · rintro ⟨h1, h2⟩
      have := (folded_refl k).foldKey (hf k hk)
      rw [h2.foldKey (hf f h1)] at this
      rw [this]
  · constructor
    · intro h
      have h1 := List.mem_of_find?_eq_some h
      have h2 := List.find?_some h
      simp only [decide_eq_true_eq] at h2
      rw [(folded_refl f).foldKey (hf f h1)] at h2
      exact ⟨h1, (folded_iff (hf f h1)).mpr h2.symm⟩
    · rintro ⟨h1, h2⟩
      have h2 := h2.foldKey (hf f h1)
      cases hg : fields.find? fun f => decide (foldKey f = foldKey k) with
      | none =>
        rw [List.find?_eq_none] at hg
        have := hg f h1
        rw [(folded_refl f).foldKey (hf f h1), h2] at this
        simp at this
      | some g =>
        have g1 := List.mem_of_find?_eq_some hg
        have g2 := List.find?_some hg
        simp only [decide_eq_true_eq] at g2
        rw [(folded_refl g).foldKey (hf g g1), h2] at g2
        rw [g2]

/-! ### Numbers -/

theorem digit_byte : ∀ c : UInt8, isDigit c = true →
    c.toNat - 48 < 10 ∧ UInt8.ofNat (48 + (c.toNat - 48)) = c := by
  apply forall_u8; decide +kernel

theorem natDigits_digitsVal (n : Nat) : ∀ (c : UInt8) (cs : Str), cs.length = n →
    (c = 0x30 → cs = []) → (∀ x ∈ c :: cs, isDigit x = true) →
    natDigits (digitsVal (c :: cs)) = c :: cs := by
  induction n with
  | zero =>
    intro c cs hn h hd
    have : cs = [] := by simpa using hn
    subst this
    obtain ⟨h1, h2⟩ := digit_byte c (hd c (by simp))
    have : digitsVal [c] = c.toNat - 48 := by simp [digitsVal]
    rw [this, natDigits_lt h1, h2]
  | succ n ih =>
    intro c cs hn h hd
    have hne : cs ≠ [] := by rintro rfl; simp at hn
    obtain ⟨d, hcs⟩ : ∃ d, cs = cs.dropLast ++ [d] :=
      ⟨cs.getLast hne, (List.dropLast_concat_getLast hne).symm⟩
    generalize cs.dropLast = is at hcs
    subst hcs
    have hc : c ≠ 0x30 := fun e => by simp [h e] at hne
    have hi := ih c is (by simpa using hn) (fun e => absurd e hc) fun x hx => hd x (by
      rcases List.mem_cons.mp hx with rfl | hx <;> simp [*])
    obtain ⟨h1, h2⟩ := digit_byte d (hd d (by simp))
    have hv : digitsVal (c :: (is ++ [d])) = digitsVal (c :: is) * 10 + (d.toNat - 48) :=
      digitsVal_append (c :: is) d
    have hpos : digitsVal (c :: is) ≠ 0 := by
      intro e
      rw [e] at hi
      have := (natDigits_spec 0).2.2.2 rfl
      rw [this] at hi
      cases hi
      exact hc rfl
    rw [hv, natDigits_ge (by omega)]
    rw [show (digitsVal (c :: is) * 10 + (d.toNat - 48)) / 10 = digitsVal (c :: is) from by omega,
      show (digitsVal (c :: is) * 10 + (d.toNat - 48)) % 10 = d.toNat - 48 from by omega, hi, h2]
    rfl

theorem digits_all {lit : Str} (h : NumberText lit) {sign ds : Str} (hl : lit = sign ++ ds)
    (hs : sign = [] ∨ sign = b!"-") (hd : ds ≠ [] ∧ ∀ x ∈ ds, isDigit x = true) :
    ∃ c cs, ds = c :: cs ∧ (c = 0x30 → cs = []) := by
  have hnd : ∀ c, isDigit c = true → c ≠ 0x2D ∧ c ≠ 0x2E ∧ c ≠ 0x65 ∧ c ≠ 0x45 := by
    apply forall_u8; decide +kernel
  obtain ⟨sign', int, frac, exp, he, hs', hi, hf, hx⟩ := h
  have hmem : ∀ x ∈ lit, x = 0x2D ∨ isDigit x = true := by
    rw [hl]
    intro x hx
    rcases List.mem_append.mp hx with hx | hx
    · rcases hs with rfl | rfl
      · simp at hx
      · exact Or.inl (List.mem_singleton.mp hx)
    · exact Or.inr (hd.2 x hx)
  have hf0 : frac = [] := by
    rcases hf with hf | ⟨ds', _, _, rfl⟩
    · exact hf
    · rcases hmem 0x2E (by rw [he]; simp) with h | h
      · exact absurd h (by decide)
      · exact absurd rfl (hnd _ h).2.1
  have hx0 : exp = [] := by
    rcases hx with hx | ⟨e, sg, ds', he', _, _, _, rfl⟩
    · exact hx
    · rcases he' with rfl | rfl
      · rcases hmem 0x65 (by rw [he]; simp) with h | h
        · exact absurd h (by decide)
        · exact absurd rfl (hnd _ h).2.2.1
      · rcases hmem 0x45 (by rw [he]; simp) with h | h
        · exact absurd h (by decide)
        · exact absurd rfl (hnd _ h).2.2.2
  subst hf0 hx0
  rw [List.append_nil, List.append_nil] at he
  have hi' : ∃ c cs, int = c :: cs ∧ (c = 0x30 → cs = []) ∧ c ≠ 0x2D := by
    rcases hi with rfl | ⟨c, cs, rfl, hc, hdc, _⟩
    · exact ⟨_, _, rfl, fun _ => rfl, by decide⟩
    · refine ⟨c, cs, rfl, fun e => absurd e hc, ?_⟩
      rintro rfl
      exact absurd hdc (by unfold Digit; decide)
  obtain ⟨c, cs, rfl, hz, hcm⟩ := hi'
  obtain ⟨d, ds', rfl⟩ : ∃ d ds', ds = d :: ds' := by
    cases ds with
    | nil => exact absurd rfl hd.1
    | cons d ds' => exact ⟨d, ds', rfl⟩
  have hdm := (hnd d (hd.2 d (by simp))).1
  rw [hl] at he
  rcases hs with rfl | rfl <;> rcases hs' with rfl | rfl
  · cases he; exact ⟨_, _, rfl, hz⟩
  · cases he; exact absurd rfl hdm
  · simp only [List.cons_append, List.nil_append, List.cons.injEq] at he
    exact absurd he.1.symm hcm
  · cases he; exact ⟨_, _, rfl, hz⟩

theorem parseInt64_iff {lit : Str} (h : NumberText lit) (i : Int) :
    parseInt64 lit = some i ↔ Integer (.num lit) i := by
  constructor
  · intro hp
    unfold parseInt64 at hp
    cases lit with
    | nil => exact nomatch hp
    | cons c cs =>
      simp only at hp
      split at hp
      · rename_i hc
        subst hc
        split at hp
        · rename_i hcond
          obtain ⟨h1, h2, h3⟩ := hcond
          cases hp
          have hd := List.all_eq_true.mp h2
          obtain ⟨d, ds, rfl, hz⟩ := digits_all h (sign := b!"-") rfl (Or.inr rfl) ⟨h1, hd⟩
          have hn := natDigits_digitsVal _ d ds rfl hz hd
          refine ⟨?_, by omega, by omega⟩
          cases hv : digitsVal (d :: ds) with
          | zero =>
            rw [hv, (natDigits_spec 0).2.2.2 rfl] at hn
            cases hn
            exact Or.inr ⟨rfl, rfl⟩
          | succ k =>
            left
            rw [hv] at hn
            show _ = JSON.num (itoa (Int.negSucc k))
            rw [itoa, hn]
        · exact nomatch hp
      · split at hp
        · rename_i hcond
          obtain ⟨h2, h3⟩ := hcond
          cases hp
          have hd := List.all_eq_true.mp h2
          obtain ⟨d, ds, he, hz⟩ := digits_all h (sign := []) rfl (Or.inl rfl) ⟨by simp, hd⟩
          cases he
          have hn := natDigits_digitsVal _ c cs rfl hz hd
          refine ⟨Or.inl ?_, by omega, by omega⟩
          show _ = JSON.num (itoa (Int.ofNat (digitsVal (c :: cs))))
          rw [itoa, hn]
        · exact nomatch hp
  · rintro ⟨he | ⟨he, rfl⟩, h1, h2⟩
    · cases he
      exact parseInt64_itoa ⟨h1, by omega⟩
    · cases he
      decide

theorem member_text {n : Nat} : ∀ {l : List (Str × JSON)} {t : Str}, JsonMembers n l t →
    ∀ m ∈ l, ∃ t, JsonText n m.2 t
  | _, _, .one _ _ _ h => fun m hm => by
    rw [List.mem_singleton.mp hm]; exact ⟨_, h⟩
  | _, _, .more _ _ _ h hl => fun m hm => by
    rcases List.mem_cons.mp hm with rfl | hm
    · exact ⟨_, h⟩
    · exact member_text hl m hm

theorem element_text {n : Nat} : ∀ {l : List JSON} {t : Str}, JsonElements n l t →
    ∀ v ∈ l, ∃ t, JsonText n v t
  | _, _, .one h => fun m hm => by
    rw [List.mem_singleton.mp hm]; exact ⟨_, h⟩
  | _, _, .more h hl => fun m hm => by
    rcases List.mem_cons.mp hm with rfl | hm
    · exact ⟨_, h⟩
    · exact element_text hl m hm

/-- The numbers in the document are numbers. -/
def Numbered (v : JSON) : Prop := ∀ lit, HasNumber lit v → NumberText lit

theorem numbered_of_text {n : Nat} {v : JSON} {t : Str} (h : JsonText n v t) : Numbered v := by
  intro lit hl
  induction hl generalizing n t with
  | num =>
    cases h with
    | mk _ h _ => cases h with
      | num h => exact h
  | arr hv _ ih =>
    cases h with
    | mk _ h _ => cases h with
      | empty => simp at hv
      | arr h =>
        obtain ⟨t, ht⟩ := element_text h _ hv
        exact ih ht
  | obj hv _ ih =>
    cases h with
    | mk _ h _ => cases h with
      | emptyObj => simp at hv
      | obj h =>
        obtain ⟨t, ht⟩ := member_text h _ hv
        exact ih ht

theorem numbered_of_value {n : Nat} {v : JSON} {t : Str} (h : JsonValue n v t) : Numbered v :=
  numbered_of_text (.mk (a := []) (b := []) (fun _ h => nomatch h) h (fun _ h => nomatch h))

/-- The numbers among the values are numbers. -/
def wellNumbered (l : List (Str × JSON)) : Prop := Numbered (.obj l)

theorem wellNumbered_of_text {n : Nat} {l : List (Str × JSON)} {t : Str}
    (h : JsonText n (.obj l) t) : wellNumbered l := numbered_of_text h

theorem wellNumbered.num {l : List (Str × JSON)} (h : wellNumbered l) {m : Str × JSON} (hm : m ∈ l) :
    ∀ lit, m.2 = .num lit → NumberText lit :=
  fun lit he => h lit (.obj hm (by rw [he]; exact .num))

theorem wellNumbered.member {l : List (Str × JSON)} (h : wellNumbered l) {m : Str × JSON}
    (hm : m ∈ l) : Numbered m.2 := fun lit hl => h lit (.obj hm hl)

theorem wellNumbered.tail {m : Str × JSON} {l : List (Str × JSON)} (h : wellNumbered (m :: l)) :
    wellNumbered l := by
  intro lit hl
  cases hl with
  | obj hm hv => exact h lit (.obj (List.mem_cons_of_mem _ hm) hv)

theorem wellNumbered.init {l l' : List (Str × JSON)} (h : wellNumbered (l ++ l')) :
    wellNumbered l := by
  intro lit hl
  cases hl with
  | obj hm hv => exact h lit (.obj (List.mem_append_left _ hm) hv)

mutual
theorem readable_iff : ∀ v : JSON, v.readable = true ↔ ∀ lit, HasNumber lit v → (F64.parse lit).isSome = true
  | .num lit => by
    rw [JSON.readable]
    exact ⟨fun h lit' h' => by cases h'; exact h, fun h => h lit .num⟩
  | .arr l => by
    rw [JSON.readable, readableElems_iff l]
    constructor
    · intro h lit h'
      cases h' with
      | arr hm hv => exact h _ hm lit hv
    · exact fun h v hv lit hn => h lit (.arr hv hn)
  | .obj l => by
    rw [JSON.readable, readableMembers_iff l]
    constructor
    · intro h lit h'
      cases h' with
      | obj hm hv => exact h _ hm lit hv
    · exact fun h v hv lit hn => h lit (.obj hv hn)
  | .null => by
    rw [JSON.readable] <;> simp
    intro lit h; cases h
  | .bool b => by
    rw [JSON.readable] <;> simp
    intro lit h; cases h
  | .str s => by
    rw [JSON.readable] <;> simp
    intro lit h; cases h

theorem readableElems_iff : ∀ l : List JSON, JSON.readableElems l = true ↔
    ∀ v ∈ l, ∀ lit, HasNumber lit v → (F64.parse lit).isSome = true
  | [] => by rw [JSON.readableElems]; simp
  | v :: l => by
    rw [JSON.readableElems, Bool.and_eq_true, readable_iff v, readableElems_iff l, List.forall_mem_cons]

theorem readableMembers_iff : ∀ l : List (Str × JSON), JSON.readableMembers l = true ↔
    ∀ q ∈ l, ∀ lit, HasNumber lit q.2 → (F64.parse lit).isSome = true
  | [] => by rw [JSON.readableMembers]; simp
  | (k, v) :: l => by
    rw [JSON.readableMembers, Bool.and_eq_true, readable_iff v, readableMembers_iff l,
      List.forall_mem_cons]
end

theorem numbersInRange_iff {v : JSON} (hv : Numbered v) : v.readable = true ↔ InRange v := by
  rw [readable_iff]
  unfold InRange
  constructor
  · intro h lit hl
    obtain ⟨f, hf⟩ := Option.isSome_iff_exists.mp (h lit hl)
    exact ⟨f, (F64.parse_iff (hv lit hl) f).mp hf⟩
  · intro h lit hl
    obtain ⟨f, hf⟩ := h lit hl
    rw [(F64.parse_iff (hv lit hl) f).mpr hf]; rfl

/-! ### One field at a time -/

/-- What the members make of one field. -/
def fieldFold {α : Type} (fields : List Str) (dec : α → JSON → Option α) (f : Str) (old : α)
    (l : List (Str × JSON)) : Option α :=
  l.foldlM (fun x m => if selectField fields m.1 = some f then dec x m.2 else some x) old

theorem field_nil {α : Type} (S : JSON → α → Prop) (K : JSON → Prop) (old : α) (f : Str) (x : α) :
    Field S K old [] f x ↔ x = old := by
  unfold Field
  simp

theorem field_cons {α : Type} (S : JSON → α → Prop) (K : JSON → Prop) (old : α)
    (m : Str × JSON) (l : List (Str × JSON)) (f : Str) (x : α) :
    Field S K old (m :: l) f x ↔ (¬ Folded m.1 f ∧ Field S K old l f x) ∨
      (Folded m.1 f ∧ ((K m.2 ∧ Field S K old l f x) ∨ ∃ y, S m.2 y ∧ Field S K y l f x)) := by
  unfold Field
  constructor
  · rintro ⟨h1, h2⟩
    have t1 : ∀ n ∈ l, Folded n.1 f → K n.2 ∨ ∃ y, S n.2 y :=
      fun n hn => h1 n (List.mem_cons_of_mem _ hn)
    by_cases hm : Folded m.1 f
    · refine Or.inr ⟨hm, ?_⟩
      rcases h2 with ⟨a, p, b, he, hp, hs, hb⟩ | ⟨rfl, hk⟩
      · cases a with
        | nil =>
          cases he
          exact Or.inr ⟨x, hs, t1, Or.inr ⟨rfl, hb⟩⟩
        | cons q a =>
          cases he
          rcases h1 m (by simp) hm with hk | ⟨y, hy⟩
          · exact Or.inl ⟨hk, t1, Or.inl ⟨a, p, b, rfl, hp, hs, hb⟩⟩
          · exact Or.inr ⟨y, hy, t1, Or.inl ⟨a, p, b, rfl, hp, hs, hb⟩⟩
      · exact Or.inl ⟨hk m (by simp) hm, t1,
          Or.inr ⟨rfl, fun n hn => hk n (List.mem_cons_of_mem _ hn)⟩⟩
    · refine Or.inl ⟨hm, t1, ?_⟩
      rcases h2 with ⟨a, p, b, he, hp, hs, hb⟩ | ⟨rfl, hk⟩
      · cases a with
        | nil => cases he; exact absurd hp hm
        | cons q a => cases he; exact Or.inl ⟨a, p, b, rfl, hp, hs, hb⟩
      · exact Or.inr ⟨rfl, fun n hn => hk n (List.mem_cons_of_mem _ hn)⟩
  · rintro (⟨hm, h1, h2⟩ | ⟨hm, ⟨hk, h1, h2⟩ | ⟨y, hy, h1, h2⟩⟩)
    · refine ⟨?_, ?_⟩
      · intro n hn hf
        rcases List.mem_cons.mp hn with rfl | hn
        · exact absurd hf hm
        · exact h1 n hn hf
      · rcases h2 with ⟨a, p, b, rfl, hp, hs, hb⟩ | ⟨rfl, hk⟩
        · exact Or.inl ⟨m :: a, p, b, rfl, hp, hs, hb⟩
        · refine Or.inr ⟨rfl, fun n hn hf => ?_⟩
          rcases List.mem_cons.mp hn with rfl | hn
          · exact absurd hf hm
          · exact hk n hn hf
    · refine ⟨?_, ?_⟩
      · intro n hn hf
        rcases List.mem_cons.mp hn with rfl | hn
        · exact Or.inl hk
        · exact h1 n hn hf
      · rcases h2 with ⟨a, p, b, rfl, hp, hs, hb⟩ | ⟨rfl, hk'⟩
        · exact Or.inl ⟨m :: a, p, b, rfl, hp, hs, hb⟩
        · refine Or.inr ⟨rfl, fun n hn hf => ?_⟩
          rcases List.mem_cons.mp hn with rfl | hn
          · exact hk
          · exact hk' n hn hf
    · refine ⟨?_, ?_⟩
      · intro n hn hf
        rcases List.mem_cons.mp hn with rfl | hn
        · exact Or.inr ⟨y, hy⟩
        · exact h1 n hn hf
      · rcases h2 with ⟨a, p, b, rfl, hp, hs, hb⟩ | ⟨rfl, hk'⟩
        · exact Or.inl ⟨m :: a, p, b, rfl, hp, hs, hb⟩
        · exact Or.inl ⟨[], m, l, rfl, hm, hy, hk'⟩

theorem fieldFold_iff {α : Type} {fields : List Str} (hf : ∀ f ∈ fields, lowerName f)
    {dec : α → JSON → Option α} {S : JSON → α → Prop} {K : JSON → Prop} {f : Str} (hm : f ∈ fields)
    {l : List (Str × JSON)} (hdec : ∀ m ∈ l, ∀ old x, dec old m.2 = some x ↔
      (K m.2 ∧ x = old) ∨ S m.2 x) (old x : α) :
    fieldFold fields dec f old l = some x ↔ Field S K old l f x := by
  induction l generalizing old with
  | nil => rw [field_nil]; unfold fieldFold; simp [eq_comm]
  | cons m l ih =>
    have ih := ih fun n hn => hdec n (List.mem_cons_of_mem _ hn)
    have hd := hdec m (by simp)
    rw [field_cons]
    have hsel : selectField fields m.1 = some f ↔ Folded m.1 f := by
      rw [selectField_iff hf]; simp [hm]
    unfold fieldFold at ih ⊢
    rw [List.foldlM_cons]
    by_cases h : Folded m.1 f
    · rw [if_pos (hsel.mpr h)]
      simp only [h, not_true, false_and, false_or, true_and]
      cases hx : dec old m.2 with
      | none =>
        have hn : ∀ x, ¬ ((K m.2 ∧ x = old) ∨ S m.2 x) := fun x => by
          rw [← hd old x, hx]; simp
        constructor
        · intro h; exact nomatch h
        · rintro (⟨hk, _⟩ | ⟨y, hy, _⟩)
          · exact absurd (Or.inl ⟨hk, rfl⟩) (hn old)
          · exact absurd (Or.inr hy) (hn y)
      | some z =>
        have hz : ∀ x, z = x ↔ ((K m.2 ∧ x = old) ∨ S m.2 x) := fun x => by
          rw [← hd old x, hx]; simp
        show l.foldlM _ z = some x ↔ _
        rw [ih z]
        constructor
        · intro h
          rcases (hz z).mp rfl with ⟨hk, rfl⟩ | hs
          · exact Or.inl ⟨hk, h⟩
          · exact Or.inr ⟨z, hs, h⟩
        · rintro (⟨hk, h⟩ | ⟨y, hy, h⟩)
          · rw [(hz old).mpr (Or.inl ⟨hk, rfl⟩)]; exact h
          · rw [(hz y).mpr (Or.inr hy)]; exact h
    · rw [if_neg fun h' => h (hsel.mp h')]
      simp only [h, not_false_eq_true, false_and, or_false, true_and]
      exact ih old

theorem decStr_iff (v : JSON) (old x : Str) :
    decStr old v = some x ↔ (Null v ∧ x = old) ∨ v = .str x := by
  cases v <;> simp [decStr, Null, eq_comm]

theorem decBool_iff (v : JSON) (old x : Bool) :
    decBool old v = some x ↔ (Null v ∧ x = old) ∨ v = .bool x := by
  cases v <;> simp [decBool, Null, eq_comm]

theorem decInt_iff (v : JSON) (hv : ∀ lit, v = .num lit → NumberText lit) (old x : Int) :
    decInt old v = some x ↔ (Null v ∧ x = old) ∨ Integer v x := by
  cases v with
  | num lit => rw [decInt, parseInt64_iff (hv lit rfl)]; simp [Null]
  | null => simp [decInt, Null, Integer, eq_comm]
  | _ => simp [decInt, Null, Integer]

theorem scopeOf_iff (s : Str) (x : Option (List Str)) : ScopeOf s x ↔ Scope.parse s = x := by
  unfold ScopeOf
  constructor
  · rintro ⟨items, h, rfl⟩
    rw [C06_parse_unique] at h
    subst h
    rw [Scope.parse, items_ofItems]
    rfl
  · rintro rfl
    refine ⟨_, (C06_parse s).1, ?_⟩
    rw [Scope.parse, items_ofItems]
    rfl

theorem unmarshalValue_iff (v : JSON) (old x : Option (List Str)) :
    (fun (_ : Option (List Str)) v => Scope.unmarshalValue v) old v = some x ↔ (False ∧ x = old) ∨
      ((∃ s, v = .str s ∧ ScopeOf s x) ∨ v = .null ∧ x = none) := by
  have hn : Scope.parse [] = none := by decide
  cases v <;> simp [Scope.unmarshalValue, scopeOf_iff, hn, eq_comm]

/-! ### Maps -/

/-- Setting an entry that does not override. -/
def addEntry (e : Str × GoVal) (m : List (Str × GoVal)) : List (Str × GoVal) :=
  if m.any fun x => x.1 = e.1 then m else insertBy (fun a b => strLe a.1 b.1) e m

theorem entries_cons (k : Str) (v : JSON) (l : List (Str × JSON)) :
    JSON.entries ((k, v) :: l) = addEntry (k, v.value) (JSON.entries l) := by
  rw [JSON.entries]; rfl

theorem hasKey_iff (m : List (Str × GoVal)) (k : Str) :
    (m.any fun x => x.1 = k) = true ↔ ∃ x ∈ m, x.1 = k := by simp

theorem mem_addEntry (e x : Str × GoVal) (m : List (Str × GoVal)) :
    x ∈ addEntry e m ↔ x ∈ m ∨ (x = e ∧ ¬ ∃ y ∈ m, y.1 = e.1) := by
  unfold addEntry
  by_cases h : ∃ y ∈ m, y.1 = e.1
  · rw [if_pos ((hasKey_iff m e.1).mpr h)]
    simp [h]
  · rw [if_neg fun h' => h ((hasKey_iff m e.1).mp h'), (insertBy_perm _ e m).mem_iff,
      List.mem_cons]
    simp only [h, not_false_eq_true, and_true]
    exact Or.comm

theorem insertBy_inOrder {e : Str × GoVal} {m : List (Str × GoVal)} (h : KeysInOrder m)
    (hn : ¬ ∃ y ∈ m, y.1 = e.1) : KeysInOrder (insertBy (fun a b => strLe a.1 b.1) e m) := by
  unfold KeysInOrder at h ⊢
  induction m with
  | nil => simp [insertBy]
  | cons y ys ih =>
    simp only [insertBy]
    split
    · rename_i hxy
      refine List.Pairwise.cons ?_ h
      intro z hz
      refine ⟨?_, fun he => hn ⟨z, hz, he.symm⟩⟩
      rcases List.mem_cons.mp hz with rfl | hz
      · exact hxy
      · exact strLe_trans hxy (List.rel_of_pairwise_cons h hz).1
    · rename_i hxy
      have hyx : strLe y.1 e.1 = true := (strLe_total y.1 e.1).resolve_right hxy
      refine List.Pairwise.cons ?_ (ih h.of_cons fun ⟨z, hz, he⟩ =>
        hn ⟨z, List.mem_cons_of_mem _ hz, he⟩)
      intro z hz
      rcases List.mem_cons.mp ((insertBy_perm _ e ys).mem_iff.mp hz) with rfl | hz
      · exact ⟨hyx, fun he => hn ⟨y, by simp, he⟩⟩
      · exact List.rel_of_pairwise_cons h hz

theorem addEntry_inOrder (e : Str × GoVal) {m : List (Str × GoVal)} (h : KeysInOrder m) :
    KeysInOrder (addEntry e m) := by
  unfold addEntry
  split
  · exact h
  · rename_i hn
    exact insertBy_inOrder h fun h' => hn ((hasKey_iff m e.1).mpr h')

theorem Spec.KeysInOrder.ext {m m' : List (Str × GoVal)} (h : KeysInOrder m) (h' : KeysInOrder m')
    (he : ∀ e, e ∈ m ↔ e ∈ m') : m = m' := by
  unfold KeysInOrder at h h'
  induction m generalizing m' with
  | nil =>
    cases m' with
    | nil => rfl
    | cons y ys => exact absurd ((he y).mpr (by simp)) (by simp)
  | cons x xs ih =>
    cases m' with
    | nil => exact absurd ((he x).mp (by simp)) (by simp)
    | cons y ys =>
      have hxy : x = y := by
        rcases List.mem_cons.mp ((he x).mp (by simp)) with e | hx
        · exact e
        rcases List.mem_cons.mp ((he y).mpr (by simp)) with e | hy
        · exact e.symm
        have h1 := List.rel_of_pairwise_cons h hy
        have h2 := List.rel_of_pairwise_cons h' hx
        exact absurd (strLe_antisymm h1.1 h2.1) h1.2
      subst hxy
      congr 1
      refine ih h.of_cons h'.of_cons fun e => ?_
      have := he e
      constructor
      · intro hm
        rcases List.mem_cons.mp (this.mp (List.mem_cons_of_mem _ hm)) with rfl | hm'
        · exact absurd rfl (List.rel_of_pairwise_cons h hm).2
        · exact hm'
      · intro hm
        rcases List.mem_cons.mp (this.mpr (List.mem_cons_of_mem _ hm)) with rfl | hm'
        · exact absurd rfl (List.rel_of_pairwise_cons h' hm).2
        · exact hm'

theorem lastMember_nil (k : Str) (v : JSON) : ¬ LastMember [] k v := by
  rintro ⟨a, b, h, _⟩
  simp at h

theorem lastMember_cons (m : Str × JSON) (l : List (Str × JSON)) (k : Str) (v : JSON) :
    LastMember (m :: l) k v ↔ LastMember l k v ∨ (m = (k, v) ∧ ∀ q ∈ l, q.1 ≠ k) := by
  constructor
  · rintro ⟨a, b, h, hb⟩
    cases a with
    | nil => cases h; exact Or.inr ⟨rfl, hb⟩
    | cons x a => cases h; exact Or.inl ⟨a, b, rfl, hb⟩
  · rintro (⟨a, b, rfl, hb⟩ | ⟨rfl, hb⟩)
    · exact ⟨m :: a, b, rfl, hb⟩
    · exact ⟨[], l, rfl, hb⟩

theorem Spec.LastMember.mem {l : List (Str × JSON)} {k : Str} {v : JSON} (h : LastMember l k v) :
    (k, v) ∈ l := by
  obtain ⟨a, b, rfl, _⟩ := h
  simp

theorem exists_lastMember {l : List (Str × JSON)} {k : Str} (h : ∃ q ∈ l, q.1 = k) :
    ∃ v, LastMember l k v := by
  induction l with
  | nil => simp at h
  | cons m l ih =>
    by_cases hq : ∃ q ∈ l, q.1 = k
    · obtain ⟨v, hv⟩ := ih hq
      exact ⟨v, (lastMember_cons m l k v).mpr (Or.inl hv)⟩
    · obtain ⟨q, hm, rfl⟩ := h
      rcases List.mem_cons.mp hm with rfl | hm
      · exact ⟨q.2, (lastMember_cons q l q.1 q.2).mpr (Or.inr ⟨rfl, fun p hp he => hq ⟨p, hp, he⟩⟩)⟩
      · exact absurd ⟨q, hm, rfl⟩ hq

theorem Spec.LastMember.unique {l : List (Str × JSON)} {k : Str} {v w : JSON}
    (h : LastMember l k v) (h' : LastMember l k w) : v = w := by
  induction l with
  | nil => exact absurd h (lastMember_nil k v)
  | cons m l ih =>
    rcases (lastMember_cons m l k v).mp h with h | ⟨h, hn⟩ <;>
      rcases (lastMember_cons m l k w).mp h' with h' | ⟨h', hn'⟩
    · exact ih h h'
    · exact absurd rfl (hn' _ h.mem)
    · exact absurd rfl (hn _ h'.mem)
    · rw [h] at h'; cases h'; rfl

theorem lastMember_append (a b : List (Str × JSON)) (k : Str) (v : JSON) :
    LastMember (a ++ b) k v ↔ LastMember b k v ∨ (LastMember a k v ∧ ∀ q ∈ b, q.1 ≠ k) := by
  induction a with
  | nil => simp [lastMember_nil]
  | cons m a ih =>
    rw [List.cons_append, lastMember_cons, lastMember_cons, ih]
    constructor
    · rintro ((h | ⟨h, hn⟩) | ⟨h, hn⟩)
      · exact Or.inl h
      · exact Or.inr ⟨Or.inl h, hn⟩
      · exact Or.inr ⟨Or.inr ⟨h, fun q hq => hn q (List.mem_append_left _ hq)⟩,
          fun q hq => hn q (List.mem_append_right _ hq)⟩
    · rintro (h | ⟨h | ⟨h, hn⟩, hb⟩)
      · exact Or.inl (Or.inl h)
      · exact Or.inl (Or.inr ⟨h, hb⟩)
      · refine Or.inr ⟨h, fun q hq => ?_⟩
        rcases List.mem_append.mp hq with hq | hq
        · exact hn q hq
        · exact hb q hq

theorem entries_inOrder' (l : List (Str × JSON)) : KeysInOrder (JSON.entries l) := by
  induction l with
  | nil => rw [JSON.entries]; exact List.Pairwise.nil
  | cons m l ih => rw [show m = (m.1, m.2) from rfl, entries_cons]; exact addEntry_inOrder _ ih

theorem mem_entries (l : List (Str × JSON)) (e : Str × GoVal) :
    e ∈ JSON.entries l ↔ ∃ v, LastMember l e.1 v ∧ v.value = e.2 := by
  induction l generalizing e with
  | nil => rw [JSON.entries]; simp [lastMember_nil]
  | cons m l ih =>
    rw [show m = (m.1, m.2) from rfl, entries_cons, mem_addEntry, ih]
    have hkey : (∃ y ∈ JSON.entries l, y.1 = m.1) ↔ ∃ q ∈ l, q.1 = m.1 := by
      constructor
      · rintro ⟨y, hy, he⟩
        obtain ⟨v, hv, _⟩ := (ih y).mp hy
        exact ⟨_, hv.mem, he⟩
      · intro h
        obtain ⟨v, hv⟩ := exists_lastMember h
        exact ⟨(m.1, v.value), (ih _).mpr ⟨v, hv, rfl⟩, rfl⟩
    simp only [hkey, lastMember_cons]
    constructor
    · rintro (⟨v, hv, he⟩ | ⟨rfl, hn⟩)
      · exact ⟨v, Or.inl hv, he⟩
      · exact ⟨m.2, Or.inr ⟨rfl, fun q hq he => hn ⟨q, hq, he⟩⟩, rfl⟩
    · rintro ⟨v, hv | ⟨hm, hn⟩, he⟩
      · exact Or.inl ⟨v, hv, he⟩
      · have hm1 : m.1 = e.1 := by have := congrArg Prod.fst hm; exact this
        have hm2 : m.2 = v := by have := congrArg Prod.snd hm; exact this
        refine Or.inr ⟨?_, fun ⟨q, hq, hqe⟩ => hn q hq (hqe.trans hm1)⟩
        rw [hm1, hm2, he]

theorem foldr_addEntry (m m' : List (Str × GoVal)) (h : KeysInOrder m) (h' : KeysInOrder m') :
    KeysInOrder (m.foldr addEntry m') ∧ ∀ e, e ∈ m.foldr addEntry m' ↔
      e ∈ m' ∨ (e ∈ m ∧ ¬ ∃ y ∈ m', y.1 = e.1) := by
  induction m with
  | nil => simp [h']
  | cons x m ih =>
    obtain ⟨i1, i2⟩ := ih (List.Pairwise.of_cons h)
    refine ⟨addEntry_inOrder x i1, fun e => ?_⟩
    rw [List.foldr_cons, mem_addEntry, i2, List.mem_cons]
    have hx : ∀ y ∈ m, y.1 ≠ x.1 := fun y hy he => (List.rel_of_pairwise_cons h hy).2 he.symm
    constructor
    · rintro ((h | ⟨h, hn⟩) | ⟨rfl, hn⟩)
      · exact Or.inl h
      · exact Or.inr ⟨Or.inr h, hn⟩
      · exact Or.inr ⟨Or.inl rfl, fun ⟨y, hy, he⟩ => hn ⟨y, (i2 y).mpr (Or.inl hy), he⟩⟩
    · rintro (h | ⟨rfl | h, hn⟩)
      · exact Or.inl (Or.inl h)
      · refine Or.inr ⟨rfl, fun ⟨y, hy, he⟩ => ?_⟩
        rcases (i2 y).mp hy with hy | ⟨hy, _⟩
        · exact hn ⟨y, hy, he⟩
        · exact hx y hy he
      · exact Or.inl (Or.inr ⟨h, hn⟩)

theorem entries_append (a b : List (Str × JSON)) :
    (JSON.entries a).foldr addEntry (JSON.entries b) = JSON.entries (a ++ b) := by
  obtain ⟨h1, h2⟩ := foldr_addEntry _ _ (entries_inOrder' a) (entries_inOrder' b)
  refine h1.ext (entries_inOrder' _) fun e => ?_
  rw [h2, mem_entries, mem_entries, mem_entries]
  simp only [lastMember_append]
  have hkey : (∃ y ∈ JSON.entries b, y.1 = e.1) ↔ ∃ q ∈ b, q.1 = e.1 := by
    constructor
    · rintro ⟨y, hy, he⟩
      obtain ⟨v, hv, _⟩ := (mem_entries b y).mp hy
      exact ⟨_, hv.mem, he⟩
    · intro h
      obtain ⟨v, hv⟩ := exists_lastMember h
      exact ⟨(e.1, v.value), (mem_entries b _).mpr ⟨v, hv, rfl⟩, rfl⟩
  rw [hkey]
  constructor
  · rintro (⟨v, hv, he⟩ | ⟨⟨v, hv, he⟩, hn⟩)
    · exact ⟨v, Or.inl hv, he⟩
    · exact ⟨v, Or.inr ⟨hv, fun q hq h => hn ⟨q, hq, h⟩⟩, he⟩
  · rintro ⟨v, hv | ⟨hv, hn⟩, he⟩
    · exact Or.inl ⟨v, hv, he⟩
    · exact Or.inr ⟨⟨v, hv, he⟩, fun ⟨q, hq, h⟩ => hn q hq h⟩

mutual
theorem Spec.Denotes.value : ∀ {v : JSON} {g : GoVal}, Denotes v g → v.value = g
  | _, _, .null => by rw [JSON.value]
  | _, _, .bool _ => by rw [JSON.value]
  | _, _, .num h => by
    obtain ⟨x, hv, h2, h3⟩ := h
    rw [JSON.value, F64.parse_value hv, (F64.round_iff hv.nonneg _ _).mpr ⟨rfl, h2, h3⟩]
  | _, _, .str _ => by rw [JSON.value]
  | _, _, .arr h => by rw [JSON.value, Spec.DenoteAll.values h]
  | _, _, @Denotes.obj l m last hk h1 h2 h3 => by
    have hv : ∀ e ∈ m, (last e.1).value = e.2 := fun e he => Spec.Denotes.value (h2 e he)
    rw [JSON.value]
    congr 1
    refine (entries_inOrder' l).ext hk fun e => ?_
    rw [mem_entries]
    constructor
    · rintro ⟨v, hl, he⟩
      obtain ⟨e', he', hk'⟩ := h3 _ hl.mem
      have hl' := h1 e' he'
      rw [hk'] at hl'
      have := hv e' he'
      rw [hk', hl'.unique hl, he] at this
      have : e' = e := Prod.ext hk' this.symm
      exact this ▸ he'
    · intro he
      exact ⟨_, h1 e he, hv e he⟩

theorem Spec.DenoteAll.values : ∀ {l : List JSON} {l' : List GoVal}, DenoteAll l l' →
    JSON.values l = l'
  | _, _, .nil => by rw [JSON.values]
  | _, _, .cons h hl => by rw [JSON.values, Spec.Denotes.value h, Spec.DenoteAll.values hl]
end

mutual
theorem denotes_value : ∀ v : JSON, Numbered v → InRange v → Denotes v v.value
  | .null, _, _ => by rw [JSON.value]; exact .null
  | .bool b, _, _ => by rw [JSON.value]; exact .bool b
  | .num lit, hn, hr => by
    obtain ⟨f, hf⟩ := hr lit .num
    rw [JSON.value, (F64.parse_iff (hn lit .num) f).mpr hf]
    exact .num hf
  | .str s, _, _ => by rw [JSON.value]; exact .str s
  | .arr l, hn, hr => by
    rw [JSON.value]
    exact .arr (denoteAll_values l (fun v hv lit h => hn lit (.arr hv h))
      fun v hv lit h => hr lit (.arr hv h))
  | .obj l, hn, hr => by
    have hv := denotes_members l (fun q hq lit h => hn lit (.obj hq h))
      fun q hq lit h => hr lit (.obj hq h)
    rw [JSON.value]
    have hl : ∀ k, ∃ w, ∀ v, LastMember l k v → w = v := by
      intro k
      by_cases h : ∃ q ∈ l, q.1 = k
      · obtain ⟨v, hv⟩ := exists_lastMember h
        exact ⟨v, fun w hw => hv.unique hw⟩
      · exact ⟨.null, fun w hw => absurd ⟨_, hw.mem, rfl⟩ h⟩
    refine .obj (fun k => (hl k).choose) (entries_inOrder' l) ?_ ?_ ?_
    · intro e he
      obtain ⟨v, h1, h2⟩ := (mem_entries l e).mp he
      rw [(hl e.1).choose_spec v h1]
      exact h1
    · intro e he
      obtain ⟨v, h1, h2⟩ := (mem_entries l e).mp he
      rw [(hl e.1).choose_spec v h1, ← h2]
      exact hv _ h1.mem
    · intro q hq
      obtain ⟨v, hv⟩ := exists_lastMember ⟨q, hq, rfl⟩
      exact ⟨(q.1, v.value), (mem_entries l _).mpr ⟨v, hv, rfl⟩, rfl⟩

theorem denoteAll_values : ∀ l : List JSON, (∀ v ∈ l, Numbered v) → (∀ v ∈ l, InRange v) →
    DenoteAll l (JSON.values l)
  | [], _, _ => by rw [JSON.values]; exact .nil
  | v :: l, hn, hr => by
    rw [JSON.values]
    exact .cons (denotes_value v (hn v (by simp)) (hr v (by simp)))
      (denoteAll_values l (fun w hw => hn w (List.mem_cons_of_mem _ hw))
        fun w hw => hr w (List.mem_cons_of_mem _ hw))

theorem denotes_members : ∀ l : List (Str × JSON), (∀ q ∈ l, Numbered q.2) →
    (∀ q ∈ l, InRange q.2) → ∀ q ∈ l, Denotes q.2 q.2.value
  | [], _, _ => by simp
  | (k, v) :: l, hn, hr => by
    intro q hq
    rcases List.mem_cons.mp hq with rfl | hq
    · exact denotes_value v (hn (k, v) (by simp)) (hr (k, v) (by simp))
    · exact denotes_members l (fun w hw => hn w (List.mem_cons_of_mem _ hw))
        (fun w hw => hr w (List.mem_cons_of_mem _ hw)) q hq
end

theorem denotes_iff {v : JSON} (hn : Numbered v) (hr : InRange v) (g : GoVal) :
    Denotes v g ↔ v.value = g :=
  ⟨fun h => h.value, fun h => h ▸ denotes_value v hn hr⟩

/-- Decoding into a map, before names are compared. -/
def collect (old : Option (List (Str × JSON))) : JSON → Option (Option (List (Str × JSON)))
  | .obj ms => if JSON.readableMembers ms then some (some (old.getD [] ++ ms)) else none
  | .null => some none
  | _ => none

theorem decMap_collect (old : Option (List (Str × JSON))) (v : JSON) :
    decMap (old.map JSON.entries) v = (collect old v).map (Option.map JSON.entries) := by
  cases v with
  | obj ms =>
    have h0 : (old.map JSON.entries).getD [] = JSON.entries (old.getD []) := by
      cases old with
      | none => simp [JSON.entries]
      | some l => rfl
    simp only [decMap, collect, h0]
    by_cases h : JSON.readableMembers ms = true
    · simp only [h, not_true_eq_false, if_false, if_true, Option.map_some, ← entries_append]
      rfl
    · simp [h]
  | null => rfl
  | _ => rfl

theorem fieldFold_collect (fields : List Str) (f : Str) (l : List (Str × JSON))
    (old : Option (List (Str × JSON))) :
    fieldFold fields decMap f (old.map JSON.entries) l =
      (fieldFold fields collect f old l).map (Option.map JSON.entries) := by
  unfold fieldFold
  induction l generalizing old with
  | nil => rfl
  | cons m l ih =>
    rw [List.foldlM_cons, List.foldlM_cons]
    by_cases h : selectField fields m.1 = some f
    · rw [if_pos h, if_pos h, decMap_collect]
      cases collect old m.2 with
      | none => rfl
      | some r => exact ih r
    · rw [if_neg h, if_neg h]
      exact ih old

theorem collected_iff {fields : List Str} (hf : ∀ f ∈ fields, lowerName f) {f : Str}
    (hm : f ∈ fields) {l : List (Str × JSON)} (hl : wellNumbered l)
    (r : Option (List (Str × JSON))) :
    fieldFold fields collect f none l = some r ↔ Collected f l r := by
  have hsel : ∀ k, selectField fields k = some f ↔ Folded k f := fun k => by
    rw [selectField_iff hf]; simp [hm]
  constructor
  · have key : ∀ (l l0 : List (Str × JSON)) (r0 : Option (List (Str × JSON))), Collected f l0 r0 →
        wellNumbered l → fieldFold fields collect f r0 l = some r → Collected f (l0 ++ l) r := by
      intro l
      induction l with
      | nil =>
        intro l0 r0 h0 _ h
        cases h
        rw [List.append_nil]; exact h0
      | cons m l ih =>
        intro l0 r0 h0 hn h
        obtain ⟨k, v⟩ := m
        have hn' : wellNumbered l := hn.tail
        unfold fieldFold at h
        rw [List.foldlM_cons] at h
        rw [show l0 ++ (k, v) :: l = (l0 ++ [(k, v)]) ++ l from by simp]
        simp only [hsel] at h
        by_cases hk : Folded k f
        · rw [if_pos ((hsel k).mpr hk)] at h
          cases v with
          | obj ms =>
            by_cases hr : JSON.readableMembers ms = true
            · have hc : collect r0 (.obj ms) = some (some (r0.getD [] ++ ms)) := by
                rw [collect, if_pos hr]
              simp only [hc] at h
              have hr' : (JSON.obj ms).readable = true := by rw [JSON.readable]; exact hr
              exact ih _ _ (.obj h0 hk ((numbersInRange_iff (hn.member (m := (k, .obj ms)) (by simp))).mp hr')) hn' h
            · have hc : collect r0 (.obj ms) = none := by rw [collect, if_neg hr]
              simp only [hc] at h
              exact nomatch h
          | null => exact ih _ _ (.null h0 hk) hn' h
          | _ => exact nomatch h
        · rw [if_neg fun h' => hk ((hsel k).mp h')] at h
          exact ih _ _ (.other h0 hk) hn' h
    exact key l [] none .nil hl
  · intro h
    induction h with
    | nil => rfl
    | @other l r k v _ hk ih =>
      have ih := ih hl.init
      unfold fieldFold at ih ⊢
      rw [List.foldlM_append, ih]
      show List.foldlM _ r _ = _
      rw [List.foldlM_cons, if_neg fun h' => hk ((hsel k).mp h')]
      rfl
    | @null l r k _ hk ih =>
      have ih := ih hl.init
      unfold fieldFold at ih ⊢
      rw [List.foldlM_append, ih]
      show List.foldlM _ r _ = _
      rw [List.foldlM_cons, if_pos ((hsel k).mpr hk)]
      rfl
    | @obj l r k ms _ hk hr ih =>
      have ih := ih hl.init
      unfold fieldFold at ih ⊢
      rw [List.foldlM_append, ih]
      show List.foldlM _ r _ = _
      have hr' := (numbersInRange_iff (hl.member (m := (k, .obj ms)) (by simp))).mpr hr
      rw [JSON.readable] at hr'
      rw [List.foldlM_cons, if_pos ((hsel k).mpr hk)]
      simp only [collect]
      rw [if_pos hr']
      rfl

theorem collected_range {f : Str} {l : List (Str × JSON)} {r : Option (List (Str × JSON))}
    (h : Collected f l r) (hl : wellNumbered l) :
    wellNumbered (r.getD []) ∧ InRange (.obj (r.getD [])) := by
  have hnil : wellNumbered [] ∧ InRange (.obj []) := by
    constructor <;> (intro lit h; rcases h with _ | _ | ⟨hm, _⟩; cases hm)
  induction h with
  | nil => exact hnil
  | other _ _ ih => exact ih hl.init
  | null _ _ _ => exact hnil
  | @obj l r k ms _ _ hr ih =>
    obtain ⟨i1, i2⟩ := ih hl.init
    have hn : Numbered (.obj ms) := hl.member (m := (k, .obj ms)) (by simp)
    constructor
    · intro lit h
      cases h with
      | obj hm hv =>
        rcases List.mem_append.mp hm with hm | hm
        · exact i1 lit (.obj hm hv)
        · exact hn lit (.obj hm hv)
    · intro lit h
      cases h with
      | obj hm hv =>
        rcases List.mem_append.mp hm with hm | hm
        · exact i2 lit (.obj hm hv)
        · exact hr lit (.obj hm hv)

theorem mapField_iff {fields : List Str} (hf : ∀ f ∈ fields, lowerName f) {f : Str}
    (hm : f ∈ fields) {l : List (Str × JSON)} (hl : wellNumbered l)
    (x : Option (List (Str × GoVal))) :
    fieldFold fields decMap f none l = some x ↔ MapField l f x := by
  have := fieldFold_collect fields f l none
  rw [Option.map_none] at this
  rw [this]
  unfold MapField
  have hd : ∀ ms m, (Collected f l (some ms) ∧ x = some m ∧ Denotes (.obj ms) (.obj m)) ↔
      (Collected f l (some ms) ∧ x = some m ∧ JSON.entries ms = m) := by
    intro ms m
    refine and_congr_right fun hc => and_congr_right fun _ => ?_
    obtain ⟨h1, h2⟩ : wellNumbered ms ∧ InRange (.obj ms) := collected_range hc hl
    rw [denotes_iff h1 h2, JSON.value, GoVal.obj.injEq]
  simp only [exists_congr fun m => exists_congr fun m' => hd m m']
  simp only [← collected_iff hf hm hl]
  cases fieldFold fields collect f none l with
  | none => simp
  | some r =>
    cases r with
    | none => simp [eq_comm]
    | some ms => simp [eq_comm]

end OAuth2

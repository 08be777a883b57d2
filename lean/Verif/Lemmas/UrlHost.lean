import Verif.Lemmas.Url

set_option linter.unusedSimpArgs false

namespace OAuth2

/-! Reparsing the printed form of a host. -/

/-- The bytes `unescape .host` can produce. -/
def hostOK (c : UInt8) : Bool := 0x80 ≤ c || !shouldEscape c .host || c = 0x25

/-- The bytes `unescape .zone` can produce from ASCII. -/
def zoneOK (c : UInt8) : Bool := !shouldEscape c .host || c = 0x25 || c = 0x20

theorem shouldEscape_zone : ∀ c : UInt8, shouldEscape c .zone = shouldEscape c .host :=
  forall_u8 (by decide +kernel)

theorem shouldEscape_host_high : ∀ c : UInt8, 0x80 ≤ c → shouldEscape c .host = true :=
  forall_u8 (by decide +kernel)

theorem unhex_lt {c : UInt8} {n : Nat} (h : unhex c = some n) : n < 16 := by
  have : ∀ c : UInt8, ∀ n ∈ unhex c, n < 16 := forall_u8 (by decide +kernel)
  exact this c n h

/-- Hex digits for which `unhex` works. -/
def isHex (c : UInt8) : Bool := (unhex c).isSome

theorem unescape_nil (mode : EncMode) : unescape mode [] = some [] := by simp [unescape]

/-- `unescape` on a percent escape. -/
theorem unescape_pct_eq (mode : EncMode) (h l : UInt8) (rest : Str) :
    unescape mode (0x25 :: h :: l :: rest) =
      match unhex h, unhex l with
      | some hv, some lv =>
        if mode = .host && hv < 8 && !(h = 0x32 && l = 0x35) then none
        else if mode = .zone && !(h = 0x32 && l = 0x35) &&
            !(UInt8.ofNat (hv * 16 + lv) = 0x20) && shouldEscape (UInt8.ofNat (hv * 16 + lv)) .host
        then none
        else (unescape mode rest).map (UInt8.ofNat (hv * 16 + lv) :: ·)
      | _, _ => none := by
  rw [unescape]
  rfl

/-- Unescaping distributes over a split that does not cut an escape. -/
theorem unescape_append (mode : EncMode) (a b : Str) (hb : ∀ c ∈ b.head?, isHex c = false) :
    unescape mode (a ++ b) = (unescape mode a).bind fun a' => (unescape mode b).map (a' ++ ·) := by
  have key : ∀ n, ∀ a : Str, a.length ≤ n → unescape mode (a ++ b) =
      (unescape mode a).bind fun a' => (unescape mode b).map (a' ++ ·) := by
    intro n
    induction n with
    | zero =>
      intro a ha
      have : a = [] := List.length_eq_zero_iff.mp (by omega)
      subst this
      simp [unescape_nil]
    | succ n ih =>
      intro a ha
      match a with
      | [] => simp [unescape_nil]
      | c :: cs =>
        have hcs : cs.length ≤ n := by simpa using ha
        by_cases hc : c = 0x25
        · subst hc
          match cs with
          | h :: l :: rest =>
            simp only [List.cons_append]
            rw [unescape_pct_eq, unescape_pct_eq]
            have hr : rest.length ≤ n := by simp at hcs; omega
            rw [ih rest hr]
            split
            · split
              · rfl
              · split
                · rfl
                · cases unescape mode rest <;> cases unescape mode b <;> simp
            · rfl
          | [h] =>
            have e1 : unescape mode [0x25, h] = none := by rw [unescape]; simp; simp
            rw [e1]
            simp only [List.cons_append, List.nil_append, Option.bind_none]
            match b with
            | [] => exact e1
            | x :: bs =>
              have := hb x (by simp)
              have hx : unhex x = none := by
                unfold isHex at this; cases h : unhex x <;> simp_all
              rw [unescape_pct_eq, hx]
              cases unhex h <;> rfl
          | [] =>
            have e1 : unescape mode [0x25] = none := by rw [unescape]; simp; simp
            rw [e1]
            simp only [List.cons_append, List.nil_append, Option.bind_none]
            match b with
            | [] => exact e1
            | [x] => rw [unescape]; simp; simp
            | x :: y :: bs =>
              have := hb x (by simp)
              have hx : unhex x = none := by
                unfold isHex at this; cases h : unhex x <;> simp_all
              rw [unescape_pct_eq, hx]
        · simp only [List.cons_append]
          rw [unescape.eq_def mode (c :: (cs ++ b)), unescape.eq_def mode (c :: cs)]
          simp only [hc, if_false]
          rw [ih cs hcs]
          by_cases hp : c = 0x2B
          · simp only [hp, if_true]
            cases unescape mode cs <;> cases unescape mode b <;> simp
          · simp only [hp, if_false]
            split
            · rfl
            · cases unescape mode cs <;> cases unescape mode b <;> simp
  exact key _ a (Nat.le_refl _)

/-- Induction for `unescape`. -/
theorem unescape_ind {mode : EncMode} {P : Str → Str → Prop}
    (nil : P [] [])
    (pct : ∀ h l rest out hv lv, unhex h = some hv → unhex l = some lv →
      ¬ (mode = .host ∧ hv < 8 ∧ ¬ (h = 0x32 ∧ l = 0x35)) →
      ¬ (mode = .zone ∧ ¬ (h = 0x32 ∧ l = 0x35) ∧ UInt8.ofNat (hv * 16 + lv) ≠ 0x20 ∧
          shouldEscape (UInt8.ofNat (hv * 16 + lv)) .host = true) →
      P rest out → P (0x25 :: h :: l :: rest) (UInt8.ofNat (hv * 16 + lv) :: out))
    (plus : ∀ rest out, P rest out →
      P (0x2B :: rest) ((if mode = .queryComponent then 0x20 else 0x2B) :: out))
    (plain : ∀ c rest out, c ≠ 0x25 → c ≠ 0x2B →
      ¬ ((mode = .host ∨ mode = .zone) ∧ c < 0x80 ∧ shouldEscape c mode = true) →
      P rest out → P (c :: rest) (c :: out)) :
    ∀ s out, unescape mode s = some out → P s out := by
  have key : ∀ n, ∀ s : Str, s.length ≤ n → ∀ out, unescape mode s = some out → P s out := by
    intro n
    induction n with
    | zero =>
      intro s hs out ho
      have : s = [] := List.length_eq_zero_iff.mp (by omega)
      subst this
      rw [unescape_nil] at ho
      cases ho
      exact nil
    | succ n ih =>
      intro s hs out ho
      match s with
      | [] => rw [unescape_nil] at ho; cases ho; exact nil
      | c :: cs =>
        have hcs : cs.length ≤ n := by simpa using hs
        by_cases hc : c = 0x25
        · subst hc
          match cs with
          | h :: l :: rest =>
            have hr : rest.length ≤ n := by simp at hcs; omega
            rw [unescape_pct_eq] at ho
            split at ho
            · rename_i hv lv e1 e2
              split at ho
              · cases ho
              · rename_i h1
                split at ho
                · cases ho
                · rename_i h2
                  obtain ⟨out', ho', rfl⟩ := Option.map_eq_some_iff.mp ho
                  refine pct h l rest out' hv lv e1 e2 ?_ ?_ (ih rest hr out' ho')
                  · rintro ⟨a, b, c⟩
                    apply h1
                    simp only [a, b, Bool.and_eq_true, decide_eq_true_eq, Bool.not_eq_true',
                      Bool.and_eq_false_iff, decide_eq_false_iff_not, true_and, decide_true]
                    exact Decidable.not_and_iff_not_or_not.mp c
                  · rintro ⟨a, b, c, d⟩
                    apply h2
                    simp only [a, c, d, Bool.and_eq_true, decide_eq_true_eq, Bool.not_eq_true',
                      Bool.and_eq_false_iff, decide_eq_false_iff_not, true_and, decide_true,
                      decide_false, not_false_eq_true, and_true]
                    exact Decidable.not_and_iff_not_or_not.mp b
            · cases ho
          | [h] => rw [unescape] at ho; simp at ho; simp
          | [] => rw [unescape] at ho; simp at ho; simp
        · rw [unescape.eq_def] at ho
          simp only [hc, if_false] at ho
          by_cases hp : c = 0x2B
          · simp only [hp, if_true] at ho
            obtain ⟨out', ho', rfl⟩ := Option.map_eq_some_iff.mp ho
            subst hp
            exact plus cs out' (ih cs hcs out' ho')
          · simp only [hp, if_false] at ho
            split at ho
            · cases ho
            · rename_i h1
              obtain ⟨out', ho', rfl⟩ := Option.map_eq_some_iff.mp ho
              refine plain c cs out' hc hp ?_ (ih cs hcs out' ho')
              rintro ⟨a, b, d⟩
              apply h1
              simp [b, d]
              exact a
  exact fun s out h => key _ s (Nat.le_refl _) out h

theorem unhex_25 {h l : UInt8} (hh : h = 0x32) (hl : l = 0x35) {hv lv : Nat}
    (e1 : unhex h = some hv) (e2 : unhex l = some lv) : UInt8.ofNat (hv * 16 + lv) = 0x25 := by
  subst hh; subst hl
  have a : unhex 0x32 = some 2 := by decide
  have b : unhex 0x35 = some 5 := by decide
  rw [a] at e1; rw [b] at e2
  cases e1; cases e2
  decide

theorem high_byte {hv lv : Nat} (h : ¬ hv < 8) (h1 : hv < 16) (h2 : lv < 16) :
    (0x80 : UInt8) ≤ UInt8.ofNat (hv * 16 + lv) := by
  rw [UInt8.le_iff_toNat_le, UInt8.toNat_ofNat']
  have : (0x80 : UInt8).toNat = 128 := rfl
  rw [this]
  omega

theorem unescape_host_ok {s out : Str} (h : unescape .host s = some out) :
    ∀ c ∈ out, hostOK c = true := by
  refine unescape_ind (mode := .host) (P := fun _ out => ∀ c ∈ out, hostOK c = true)
    ?_ ?_ ?_ ?_ s out h
  · simp
  · intro h l rest out hv lv e1 e2 h1 _ ih c hc
    rcases List.mem_cons.mp hc with rfl | hc
    · by_cases h8 : hv < 8
      · have : h = 0x32 ∧ l = 0x35 := Classical.byContradiction fun hn => h1 ⟨rfl, h8, hn⟩
        rw [unhex_25 this.1 this.2 e1 e2]
        decide
      · have := high_byte h8 (unhex_lt e1) (unhex_lt e2)
        unfold hostOK
        simp only [this, decide_true, Bool.true_or]
    · exact ih c hc
  · intro rest out ih c hc
    rcases List.mem_cons.mp hc with rfl | hc
    · decide
    · exact ih c hc
  · intro c rest out _ _ h3 ih d hd
    rcases List.mem_cons.mp hd with rfl | hd
    · unfold hostOK
      by_cases hlt : d < 0x80
      · have : shouldEscape d .host = false := by
          cases e : shouldEscape d .host with
          | false => rfl
          | true => exact absurd ⟨Or.inl rfl, hlt, e⟩ h3
        simp [this]
      · have : (0x80 : UInt8) ≤ d := by
          rw [UInt8.le_iff_toNat_le]; rw [UInt8.lt_iff_toNat_lt] at hlt; omega
        simp [this]
    · exact ih d hd

theorem unescape_zone_ok {s out : Str} (h : unescape .zone s = some out) :
    (∀ c ∈ s, c < 0x80) → ∀ c ∈ out, zoneOK c = true := by
  refine unescape_ind (mode := .zone)
    (P := fun s out => (∀ c ∈ s, c < 0x80) → ∀ c ∈ out, zoneOK c = true)
    ?_ ?_ ?_ ?_ s out h
  · simp
  · intro h l rest out hv lv e1 e2 _ h2 ih ha c hc
    have ih := ih fun d hd => ha d (by simp [hd])
    rcases List.mem_cons.mp hc with rfl | hc
    · by_cases h25 : h = 0x32 ∧ l = 0x35
      · rw [unhex_25 h25.1 h25.2 e1 e2]
        decide
      · unfold zoneOK
        by_cases hsp : UInt8.ofNat (hv * 16 + lv) = 0x20
        · simp [hsp]
        · have : shouldEscape (UInt8.ofNat (hv * 16 + lv)) .host = false := by
            cases e : shouldEscape (UInt8.ofNat (hv * 16 + lv)) .host with
            | false => rfl
            | true => exact absurd ⟨rfl, h25, hsp, e⟩ h2
          rw [this]
          simp
    · exact ih c hc
  · intro rest out ih ha c hc
    have ih := ih fun d hd => ha d (by simp [hd])
    rcases List.mem_cons.mp hc with rfl | hc
    · decide
    · exact ih c hc
  · intro c rest out _ _ h3 ih ha d hd
    have ih := ih fun d hd => ha d (by simp [hd])
    rcases List.mem_cons.mp hd with rfl | hd
    · unfold zoneOK
      have hlt : d < 0x80 := ha d (List.mem_cons_self ..)
      have : shouldEscape d .host = false := by
        rw [← shouldEscape_zone]
        cases e : shouldEscape d .zone with
        | false => rfl
        | true => exact absurd ⟨Or.inr rfl, hlt, e⟩ h3
      simp [this]
    · exact ih d hd

theorem escape_host_cons (c : UInt8) (s : Str) : escape .host (c :: s) =
    (if shouldEscape c .host then
      [0x25, hexUpper (c.toNat / 16), hexUpper (c.toNat % 16)] else [c]) ++ escape .host s := by
  rw [escape]
  have : ¬ (c = 0x20 ∧ EncMode.host = .queryComponent) := by rintro ⟨_, h⟩; cases h
  rw [if_neg this]
  split <;> rfl

theorem hex_facts : ∀ c : UInt8, shouldEscape c .host = true →
    (hostOK c = true → 8 ≤ c.toNat / 16 ∨ c = 0x25) ∧
    (zoneOK c = true → c = 0x25 ∨ c = 0x20) ∧
    (c = 0x25 → hexUpper (c.toNat / 16) = 0x32 ∧ hexUpper (c.toNat % 16) = 0x35) ∧
    (c ≠ 0x25 → ¬ (hexUpper (c.toNat / 16) = 0x32 ∧ hexUpper (c.toNat % 16) = 0x35)) :=
  forall_u8 (by decide +kernel)

theorem unescape_escape_host {mode : EncMode} (hm : mode = .host ∨ mode = .zone) (s : Str)
    (hs : ∀ c ∈ s, (if mode = .host then hostOK c else zoneOK c) = true) :
    unescape mode (escape .host s) = some s := by
  induction s with
  | nil => simp [escape, unescape_nil]
  | cons c cs ih =>
    have ih := ih fun d hd => hs d (List.mem_cons_of_mem _ hd)
    have hc := hs c (List.mem_cons_self ..)
    have hlt : c.toNat < 256 := c.toNat_lt
    rw [escape_host_cons]
    split
    · rename_i he
      obtain ⟨f1, f1', f2, _⟩ := hex_facts c he
      simp only [List.cons_append, List.nil_append]
      rw [unescape_pct_eq, unhex_hexUpper _ (by omega), unhex_hexUpper _ (by omega)]
      simp only [byte_of_nibbles, ih]
      have n1 : ¬ ((mode = .host && decide (c.toNat / 16 < 8) &&
          !(hexUpper (c.toNat / 16) = 0x32 && hexUpper (c.toNat % 16) = 0x35)) = true) := by
        intro h
        simp only [Bool.and_eq_true, decide_eq_true_eq, Bool.not_eq_true',
          Bool.and_eq_false_iff, decide_eq_false_iff_not] at h
        obtain ⟨⟨h1, h2⟩, h3⟩ := h
        rw [if_pos h1] at hc
        rcases f1 hc with f1 | f1
        · omega
        · have := f2 f1; simp [this] at h3
      have n2 : ¬ ((mode = .zone &&
          !(hexUpper (c.toNat / 16) = 0x32 && hexUpper (c.toNat % 16) = 0x35) &&
          !(c = 0x20) && shouldEscape c .host) = true) := by
        intro h
        simp only [Bool.and_eq_true, decide_eq_true_eq, Bool.not_eq_true',
          Bool.and_eq_false_iff, decide_eq_false_iff_not] at h
        obtain ⟨⟨⟨h1, h2⟩, h3⟩, _⟩ := h
        rw [if_neg (by rw [h1]; decide)] at hc
        rcases f1' hc with f1 | f1
        · have := f2 f1; simp [this] at h2
        · exact h3 f1
      rw [if_neg n1, if_neg n2]
      rfl
    · rename_i he
      simp only [List.cons_append, List.nil_append]
      have h25 : c ≠ 0x25 := by rintro rfl; exact he rfl
      rw [unescape.eq_def]
      simp only [h25, if_false]
      by_cases hp : c = 0x2B
      · simp only [hp, if_true, ih]
        rcases hm with rfl | rfl <;> rfl
      · simp only [hp, if_false]
        rw [if_neg, ih]
        · rfl
        · intro h
          simp only [Bool.and_eq_true] at h
          rcases hm with rfl | rfl
          · exact he h.2
          · rw [shouldEscape_zone] at h; exact he h.2

/-- The bytes of an escaped host. -/
theorem escape_host_alphabet (s : Str) : ∀ c ∈ escape .host s,
    c ≠ 0x40 ∧ c ≠ 0x2F ∧ c ≠ 0x3F ∧ c ≠ 0x23 ∧ ¬ c < 0x20 ∧ c ≠ 0x7F := by
  have hx : ∀ n : Fin 16, ∀ c, c = hexUpper n.val →
      c ≠ 0x40 ∧ c ≠ 0x2F ∧ c ≠ 0x3F ∧ c ≠ 0x23 ∧ ¬ c < 0x20 ∧ c ≠ 0x7F := by
    intro n c hc; subst hc; revert n; decide +kernel
  have hp : ∀ c : UInt8, shouldEscape c .host = false →
      c ≠ 0x40 ∧ c ≠ 0x2F ∧ c ≠ 0x3F ∧ c ≠ 0x23 ∧ ¬ c < 0x20 ∧ c ≠ 0x7F :=
    forall_u8 (by decide +kernel)
  induction s with
  | nil => simp [escape]
  | cons c cs ih =>
    have hc : c.toNat < 256 := c.toNat_lt
    intro d hd
    rw [escape_host_cons, List.mem_append] at hd
    rcases hd with hd | hd
    · split at hd
      · simp only [List.mem_cons, List.not_mem_nil, or_false] at hd
        rcases hd with rfl | hd | hd
        · decide
        · exact hx ⟨c.toNat / 16, by omega⟩ d hd
        · exact hx ⟨c.toNat % 16, by omega⟩ d hd
      · rename_i he
        simp only [List.mem_singleton] at hd
        subst hd
        exact hp d (by simpa using he)
    · exact ih d hd

theorem escape_append (mode : EncMode) (a b : Str) :
    escape mode (a ++ b) = escape mode a ++ escape mode b := by
  induction a with
  | nil => rfl
  | cons c cs ih =>
    rw [List.cons_append, escape, escape, ih]
    split
    · rfl
    · split <;> rfl

theorem escape_host_id (s : Str) (h : ∀ c ∈ s, shouldEscape c .host = false) : escape .host s = s := by
  induction s with
  | nil => rfl
  | cons c cs ih =>
    rw [escape_host_cons, h c (List.mem_cons_self ..), ih fun d hd => h d (List.mem_cons_of_mem _ hd)]
    rfl

/-- A byte that is not a hex digit nor `%` occurs in an escaped host only if it occurs in the host. -/
theorem mem_escape_host {s : Str} {c : UInt8} (h : c ∈ escape .host s) (hx : isHex c = false)
    (hp : c ≠ 0x25) : c ∈ s := by
  have hxx : ∀ n : Fin 16, isHex (hexUpper n.val) = true := by decide +kernel
  induction s with
  | nil => simp [escape] at h
  | cons d ds ih =>
    have hd : d.toNat < 256 := d.toNat_lt
    rw [escape_host_cons, List.mem_append] at h
    rcases h with h | h
    · split at h
      · simp only [List.mem_cons, List.not_mem_nil, or_false] at h
        rcases h with h | h | h
        · exact absurd h hp
        · subst h; have := hxx ⟨d.toNat / 16, by omega⟩; simp only at this; rw [this] at hx; cases hx
        · subst h; have := hxx ⟨d.toNat % 16, by omega⟩; simp only at this; rw [this] at hx; cases hx
      · simp only [List.mem_singleton] at h
        subst h; exact List.mem_cons_self ..
    · exact List.mem_cons_of_mem _ (ih h)

theorem unescape_host_id (s : Str) (h : ∀ c ∈ s, shouldEscape c .host = false) :
    unescape .host s = some s := by
  have h1 : ∀ c ∈ s, (if EncMode.host = EncMode.host then hostOK c else zoneOK c) = true := by
    intro c hc
    rw [if_pos rfl]
    unfold hostOK
    simp [h c hc]
  have := unescape_escape_host (Or.inl rfl) s h1
  rwa [escape_host_id s h] at this

theorem validOptionalPort_bytes {p : Str} (h : validOptionalPort p = true) :
    ∀ c ∈ p, shouldEscape c .host = false ∧ c ≠ 0x5D := by
  have hd : ∀ c : UInt8, inRange 48 57 c = true → shouldEscape c .host = false ∧ c ≠ 0x5D :=
    forall_u8 (by decide +kernel)
  cases p with
  | nil => simp
  | cons c ds =>
    simp only [validOptionalPort, Bool.and_eq_true, decide_eq_true_eq, List.all_eq_true] at h
    intro d hdm
    rcases List.mem_cons.mp hdm with rfl | hdm
    · rw [h.1]; decide
    · exact hd d (h.2 d hdm)

theorem validPort_no_colon {p : Str} (h : validOptionalPort (0x3A :: p) = true) : (0x3A : UInt8) ∉ p := by
  simp only [validOptionalPort, Bool.and_eq_true, decide_eq_true_eq, List.all_eq_true] at h
  intro hm
  have := h.2 _ hm
  revert this; decide

/-- Decoding a host neither adds nor removes bytes below 0x80 other than `%`. -/
theorem unescape_host_mem {s out : Str} (h : unescape .host s = some out) (c : UInt8)
    (hlt : c < 0x80) (hp : c ≠ 0x25) (hm : c ∈ out) : c ∈ s := by
  revert hm
  refine unescape_ind (mode := .host) (P := fun s out => c ∈ out → c ∈ s) ?_ ?_ ?_ ?_ s out h
  · exact fun h => h
  · intro h l rest out hv lv e1 e2 h1 _ ih hm
    rcases List.mem_cons.mp hm with hc | hm
    · exfalso
      by_cases h8 : hv < 8
      · have : h = 0x32 ∧ l = 0x35 := Classical.byContradiction fun hn => h1 ⟨rfl, h8, hn⟩
        rw [unhex_25 this.1 this.2 e1 e2] at hc
        exact hp hc
      · have := high_byte h8 (unhex_lt e1) (unhex_lt e2)
        rw [← hc] at this
        rw [UInt8.le_iff_toNat_le] at this
        rw [UInt8.lt_iff_toNat_lt] at hlt
        omega
    · simp [ih hm]
  · intro rest out ih hm
    rcases List.mem_cons.mp hm with hc | hm
    · rw [hc]; simp
    · simp [ih hm]
  · intro d rest out _ _ _ ih hm
    rcases List.mem_cons.mp hm with hc | hm
    · simp [hc]
    · simp [ih hm]

/-- A host text without `%25` decodes to bytes without `%`. -/
theorem unescape_host_no_pct {s out : Str} (h : unescape .host s = some out)
    (hz : cutZone s = none) : (0x25 : UInt8) ∉ out := by
  revert hz
  refine unescape_ind (mode := .host) (P := fun s out => cutZone s = none → (0x25 : UInt8) ∉ out)
    ?_ ?_ ?_ ?_ s out h
  · simp
  · intro h l rest out hv lv e1 e2 h1 _ ih hz hm
    have hn25 : ¬ (h = 0x32 ∧ l = 0x35) := by
      rintro ⟨rfl, rfl⟩
      rw [cutZone, if_pos (by rw [hasPrefix_iff]; exact ⟨rest, rfl⟩)] at hz
      cases hz
    have hrest : cutZone rest = none := by
      have step : ∀ (c : UInt8) (t : Str), cutZone (c :: t) = none → cutZone t = none := by
        intro c t ht
        rw [cutZone] at ht
        split at ht
        · cases ht
        · cases e : cutZone t with
          | none => rfl
          | some p => rw [e] at ht; cases ht
      exact step _ _ (step _ _ (step _ _ hz))
    rcases List.mem_cons.mp hm with hc | hm
    · by_cases h8 : hv < 8
      · exact h1 ⟨rfl, h8, hn25⟩
      · have := high_byte h8 (unhex_lt e1) (unhex_lt e2)
        rw [← hc] at this
        revert this; decide
    · exact ih hrest hm
  · intro rest out ih hz hm
    rcases List.mem_cons.mp hm with hc | hm
    · revert hc; decide
    · refine ih ?_ hm
      rw [cutZone] at hz
      split at hz
      · cases hz
      · cases e : cutZone rest with
        | none => rfl
        | some p => rw [e] at hz; cases hz
  · intro d rest out hd _ _ ih hz hm
    rcases List.mem_cons.mp hm with hc | hm
    · exact hd hc.symm
    · refine ih ?_ hm
      rw [cutZone] at hz
      split at hz
      · cases hz
      · cases e : cutZone rest with
        | none => rfl
        | some p => rw [e] at hz; cases hz

theorem cutZone_some {s a z : Str} (h : cutZone s = some (a, z)) :
    s = a ++ z ∧ cutZone a = none ∧ ∃ r, z = b!"%25" ++ r := by
  induction s generalizing a z with
  | nil => cases h
  | cons c cs ih =>
    rw [cutZone] at h
    split at h
    · rename_i hp
      cases h
      exact ⟨rfl, rfl, (hasPrefix_iff _ _).mp hp⟩
    · rename_i hp
      cases e : cutZone cs with
      | none => rw [e] at h; cases h
      | some p =>
        obtain ⟨a', z'⟩ := p
        rw [e] at h
        cases h
        obtain ⟨h1, h2, h3⟩ := ih e
        refine ⟨by rw [h1]; rfl, ?_, h3⟩
        rw [cutZone, if_neg, h2]
        intro hp'
        apply hp
        rw [hasPrefix_iff] at hp' ⊢
        obtain ⟨r, hr⟩ := hp'
        refine ⟨r ++ z, ?_⟩
        rw [h1, ← List.append_assoc, ← hr]; rfl

theorem hasPrefix25_cons {c : UInt8} {s : Str} (h : c ≠ 0x25) : ¬ hasPrefix b!"%25" (c :: s) = true := by
  rw [hasPrefix_iff]
  rintro ⟨r, hr⟩
  cases hr
  exact h rfl

theorem hexUpper_ne_pct : ∀ n, n < 16 → hexUpper n ≠ 0x25 := by
  have : ∀ n : Fin 16, hexUpper n.val ≠ 0x25 := by decide +kernel
  exact fun n h => this ⟨n, h⟩

/-- Cutting the zone off a printed host. -/
theorem cutZone_escape (a y : Str) (ha : (0x25 : UInt8) ∉ a) :
    cutZone (escape .host a ++ y) = (cutZone y).map fun p => (escape .host a ++ p.1, p.2) := by
  induction a with
  | nil => simp [escape]
  | cons c cs ih =>
    have hc : c ≠ 0x25 := fun h => ha (by simp [h])
    have ih := ih fun h => ha (List.mem_cons_of_mem _ h)
    have hlt : c.toNat < 256 := c.toNat_lt
    rw [escape_host_cons]
    split
    · rename_i he
      obtain ⟨_, _, _, f⟩ := hex_facts c he
      simp only [List.cons_append, List.nil_append]
      rw [cutZone, if_neg, cutZone, if_neg, cutZone, if_neg, ih]
      · cases cutZone y <;> rfl
      · exact hasPrefix25_cons (hexUpper_ne_pct _ (by omega))
      · exact hasPrefix25_cons (hexUpper_ne_pct _ (by omega))
      · rw [hasPrefix_iff]
        rintro ⟨r, hr⟩
        simp only [List.cons_append, List.nil_append, List.cons.injEq, true_and] at hr
        exact f hc ⟨hr.1, hr.2.1⟩
    · simp only [List.cons_append, List.nil_append]
      rw [cutZone, if_neg (hasPrefix25_cons hc), ih]
      cases cutZone y <;> rfl

theorem isHex_bracket : isHex 0x5D = false ∧ isHex 0x3A = false := by decide

/-- **Hosts reparse**: the printed form of a parsed host parses to that host. The zone of an IPv6
address must be ASCII. -/
theorem parseHost_escape {raw host : Str} (h : parseHost raw = some host)
    (hascii : (∀ c ∈ raw, c < 0x80) ∨ (0x5B : UInt8) ∉ raw) :
    parseHost (escape .host host) = some host := by
  have hostid : ∀ {s out : Str}, unescape .host s = some out →
      unescape .host (escape .host out) = some out := fun {s out} hu =>
    unescape_escape_host (Or.inl rfl) out fun c hc => by
      rw [if_pos rfl]; exact unescape_host_ok hu c hc
  by_cases hb : ∃ t, raw = 0x5B :: t
  · obtain ⟨t, rfl⟩ := hb
    have hascii : ∀ c ∈ 0x5B :: t, c < 0x80 := by
      rcases hascii with h | h
      · exact h
      · simp at h
    simp only [parseHost] at h
    cases hcut : cutLastByte 0x5D (0x5B :: t) with
    | none => rw [hcut] at h; cases h
    | some p =>
      obtain ⟨before, colonPort⟩ := p
      rw [hcut] at h
      simp only at h
      obtain ⟨hsplit, hnb⟩ := (cutLastByte_some_iff _ _ _ _).mp hcut
      have hbefore : ∃ b', before = 0x5B :: b' := by
        cases before with
        | nil => simp at hsplit
        | cons x xs => simp at hsplit; exact ⟨xs, by rw [hsplit.1]⟩
      obtain ⟨b', rfl⟩ := hbefore
      by_cases hport : validOptionalPort colonPort = true
      · simp only [hport, Bool.not_true, Bool.false_eq_true, if_false] at h
        have hpb := validOptionalPort_bytes hport
        have htail : ∀ c ∈ 0x5D :: colonPort, shouldEscape c .host = false := by
          intro c hc
          rcases List.mem_cons.mp hc with rfl | hc
          · decide
          · exact (hpb c hc).1
        cases hz : cutZone (0x5B :: b') with
        | some q =>
          obtain ⟨h1, z⟩ := q
          rw [hz] at h
          simp only at h
          obtain ⟨hs1, hn1, r, hr⟩ := cutZone_some hz
          cases ha : unescape .host h1 with
          | none => rw [ha] at h; cases h
          | some a =>
            cases hbz : unescape .zone z with
            | none => rw [ha, hbz] at h; cases h
            | some b =>
              rw [ha, hbz, unescape_host_id _ htail] at h
              have hhost : host = a ++ b ++ 0x5D :: colonPort := by
                cases h; rfl
              -- the parts of the printed host
              have hpct : (0x25 : UInt8) ∉ a := unescape_host_no_pct ha hn1
              have hastart : ∃ a', a = 0x5B :: a' := by
                cases h1 with
                | nil =>
                  rw [hr] at hs1; cases hs1
                | cons x xs =>
                  simp at hs1
                  obtain ⟨hx, _⟩ := hs1
                  subst hx
                  rw [unescape.eq_def] at ha
                  simp at ha
                  have : shouldEscape 91 EncMode.host = false := by decide
                  simp [this] at ha
                  obtain ⟨a', _, rfl⟩ := ha
                  exact ⟨a', rfl⟩
              obtain ⟨a', rfl⟩ := hastart
              have hbstart : ∃ b'', b = 0x25 :: b'' := by
                rw [hr] at hbz
                simp only [List.cons_append, List.nil_append] at hbz
                rw [unescape_pct_eq] at hbz
                have e1 : unhex 0x32 = some 2 := by decide
                have e2 : unhex 0x35 = some 5 := by decide
                simp [e1, e2] at hbz
                obtain ⟨b'', _, rfl⟩ := hbz
                exact ⟨b'', rfl⟩
              obtain ⟨b'', rfl⟩ := hbstart
              have hzascii : ∀ c ∈ z, c < 0x80 := by
                intro c hc
                apply hascii
                rw [hsplit, hs1]
                simp [hc]
              have hesc : escape .host host =
                  escape .host (0x5B :: a') ++ escape .host (0x25 :: b'') ++ 0x5D :: colonPort := by
                rw [hhost, escape_append, escape_append, escape_host_id _ htail]
              have hesca : escape .host (0x5B :: a') = 0x5B :: escape .host a' := by
                rw [escape_host_cons]; rfl
              have hescb : escape .host (0x25 :: b'') = b!"%25" ++ escape .host b'' := by
                rw [escape_host_cons]; rfl
              rw [hesc]
              rw [hesca]
              simp only [List.cons_append]
              have hcut2 : cutLastByte 0x5D (0x5B :: (escape .host a' ++ escape .host (0x25 :: b'') ++
                  0x5D :: colonPort)) =
                  some (0x5B :: (escape .host a' ++ escape .host (0x25 :: b'')), colonPort) := by
                have := cutLastByte_append (0x5B :: (escape .host a' ++ escape .host (0x25 :: b''))) hnb
                simpa using this
              simp only [parseHost, hcut2, hport, Bool.not_true, Bool.false_eq_true, if_false]
              have hz2 : cutZone (0x5B :: (escape .host a' ++ escape .host (0x25 :: b''))) =
                  some (escape .host (0x5B :: a'), escape .host (0x25 :: b'')) := by
                have := cutZone_escape (0x5B :: a') (escape .host (0x25 :: b'')) hpct
                rw [hesca] at this ⊢
                simp only [List.cons_append] at this
                rw [this]
                have hy : cutZone (escape .host (0x25 :: b'')) =
                    some ([], escape .host (0x25 :: b'')) := by
                  rw [hescb]
                  simp only [List.cons_append, List.nil_append]
                  rw [cutZone, if_pos (by rw [hasPrefix_iff]; exact ⟨_, rfl⟩)]
                rw [hy]
                simp
              rw [hz2]
              simp only
              rw [hostid ha, unescape_escape_host (Or.inr rfl), unescape_host_id _ htail, hhost]
              · rfl
              · intro c hc
                rw [if_neg (by decide)]
                exact unescape_zone_ok hbz hzascii c hc
        | none =>
          rw [hz] at h
          simp only at h
          rw [hsplit, unescape_append _ _ _ (by simp; exact isHex_bracket.1),
            unescape_host_id _ htail] at h
          cases ha : unescape .host (0x5B :: b') with
          | none => rw [ha] at h; cases h
          | some a =>
            rw [ha] at h
            have hhost : host = a ++ 0x5D :: colonPort := by cases h; rfl
            have hpct : (0x25 : UInt8) ∉ a := unescape_host_no_pct ha hz
            have hastart : ∃ a', a = 0x5B :: a' := by
              rw [unescape.eq_def] at ha
              simp at ha
              have : shouldEscape 91 EncMode.host = false := by decide
              simp [this] at ha
              obtain ⟨a', _, rfl⟩ := ha
              exact ⟨a', rfl⟩
            obtain ⟨a', rfl⟩ := hastart
            have hesca : escape .host (0x5B :: a') = 0x5B :: escape .host a' := by
              rw [escape_host_cons]; rfl
            have hesc : escape .host host = 0x5B :: (escape .host a' ++ 0x5D :: colonPort) := by
              rw [hhost, escape_append, escape_host_id _ htail, hesca]; rfl
            have hcut2 : cutLastByte 0x5D (0x5B :: (escape .host a' ++ 0x5D :: colonPort)) =
                some (0x5B :: escape .host a', colonPort) := by
              have := cutLastByte_append (0x5B :: escape .host a') hnb
              simpa using this
            have hz2 : cutZone (0x5B :: escape .host a') = none := by
              have := cutZone_escape (0x5B :: a') [] hpct
              rw [hesca] at this
              simpa [cutZone] using this
            rw [hesc]
            simp only [parseHost, hcut2, hport, Bool.not_true, Bool.false_eq_true, if_false, hz2]
            rw [← hesc, hhost]
            refine unescape_escape_host (Or.inl rfl) _ fun c hc => ?_
            rw [if_pos rfl]
            rcases List.mem_append.mp hc with hc | hc
            · exact unescape_host_ok ha c hc
            · unfold hostOK; simp [htail c hc]
      · simp only [hport, Bool.not_false, if_true] at h
        cases h
  · -- not bracketed
    have hraw : parseHost raw = match cutLastByte 0x3A raw with
        | some (_, port) =>
          if !validOptionalPort (0x3A :: port) then none else unescape .host raw
        | none => unescape .host raw := by
      unfold parseHost
      split
      · rename_i t; exact absurd ⟨_, rfl⟩ hb
      · rfl
    rw [hraw] at h
    -- the decoded host does not begin with a bracket
    have hnb : ∀ out, unescape .host raw = some out → ¬ ∃ t, escape .host out = 0x5B :: t := by
      intro out hu
      have : ∀ t, out ≠ 0x5B :: t := by
        intro t ht
        subst ht
        have hgen : ∀ s o, unescape .host s = some o → (∀ t, s ≠ 0x5B :: t) → ∀ t, o ≠ 0x5B :: t := by
          refine unescape_ind (mode := .host)
            (P := fun s o => (∀ t, s ≠ 0x5B :: t) → ∀ t, o ≠ 0x5B :: t) ?_ ?_ ?_ ?_
          · intro _ t; simp
          · intro h l rest out hv lv e1 e2 h1 _ _ _ t he
            have hc := (List.cons.inj he).1
            by_cases h8 : hv < 8
            · have : h = 0x32 ∧ l = 0x35 := Classical.byContradiction fun hn => h1 ⟨rfl, h8, hn⟩
              rw [unhex_25 this.1 this.2 e1 e2] at hc
              revert hc; decide
            · have := high_byte h8 (unhex_lt e1) (unhex_lt e2)
              rw [hc] at this
              revert this; decide
          · intro rest out _ _ t he
            have hc := (List.cons.inj he).1
            revert hc; decide
          · intro c rest out _ _ _ _ hs t he
            have hc := (List.cons.inj he).1
            exact hs rest (by rw [hc])
        exact hgen raw _ hu (fun t ht => hb ⟨t, ht⟩) t rfl
      rintro ⟨t, ht⟩
      cases out with
      | nil => cases ht
      | cons c cs =>
        rw [escape_host_cons] at ht
        split at ht
        · have := (List.cons.inj ht).1; revert this; decide
        · have hc := (List.cons.inj ht).1
          exact this cs (by rw [hc])
    have hfin : ∀ out, unescape .host raw = some out →
        parseHost (escape .host out) = match cutLastByte 0x3A (escape .host out) with
        | some (_, port) =>
          if !validOptionalPort (0x3A :: port) then none else unescape .host (escape .host out)
        | none => unescape .host (escape .host out) := by
      intro out hu
      have := hnb out hu
      unfold parseHost
      split
      · rename_i t heq; exact absurd ⟨_, heq⟩ this
      · rfl
    cases hcut : cutLastByte 0x3A raw with
    | none =>
      rw [hcut] at h
      simp only at h
      rw [hfin _ h]
      have h1 : (0x3A : UInt8) ∉ raw := (cutLastByte_none_iff _ _).mp hcut
      have h2 : cutLastByte 0x3A (escape .host host) = none := by
        rw [cutLastByte_none_iff]
        intro hm
        have := mem_escape_host hm isHex_bracket.2 (by decide)
        exact h1 (unescape_host_mem h _ (by decide) (by decide) this)
      rw [h2]
      exact hostid h
    | some p =>
      obtain ⟨a0, port⟩ := p
      rw [hcut] at h
      simp only at h
      obtain ⟨hs, hnc⟩ := (cutLastByte_some_iff _ _ _ _).mp hcut
      by_cases hport : validOptionalPort (0x3A :: port) = true
      · simp only [hport, Bool.not_true, Bool.false_eq_true, if_false] at h
        have htail : ∀ c ∈ 0x3A :: port, shouldEscape c .host = false := fun c hc =>
          (validOptionalPort_bytes hport c hc).1
        rw [hfin _ h]
        have h' := h
        rw [hs, unescape_append _ _ _ (by simp; exact isHex_bracket.2),
          unescape_host_id _ htail] at h'
        cases ha : unescape .host a0 with
        | none => rw [ha] at h'; cases h'
        | some a =>
          rw [ha] at h'
          have hhost : host = a ++ 0x3A :: port := by cases h'; rfl
          have hcut2 : cutLastByte 0x3A (escape .host host) = some (escape .host a, port) := by
            rw [hhost, escape_append, escape_host_id _ htail]
            exact cutLastByte_append _ hnc
          rw [hcut2]
          simp only [hport, Bool.not_true, Bool.false_eq_true, if_false]
          exact hostid h
      · simp only [hport, Bool.not_false, if_true] at h
        cases h

end OAuth2

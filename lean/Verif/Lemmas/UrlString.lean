import Verif.Lemmas.UrlHost
import Verif.Spec.Redirect

set_option linter.unusedSimpArgs false

namespace OAuth2

/-! Reparsing the printed form of a parsed URL. -/

/-- Printable: no control byte. -/
def NoCTL (s : Str) : Prop := ∀ c ∈ s, ¬ c < 0x20 ∧ c ≠ 0x7F

theorem containsCTL_false_iff (s : Str) : containsCTL s = false ↔ NoCTL s := by
  unfold containsCTL NoCTL
  rw [List.any_eq_false]
  constructor
  · intro h c hc
    have := h c hc
    simp only [Bool.or_eq_true, decide_eq_true_eq, not_or] at this
    exact this
  · intro h c hc
    have := h c hc
    simp only [Bool.or_eq_true, decide_eq_true_eq, not_or]
    exact this

theorem NoCTL.append {a b : Str} (ha : NoCTL a) (hb : NoCTL b) : NoCTL (a ++ b) := by
  intro c hc
  rcases List.mem_append.mp hc with h | h
  · exact ha c h
  · exact hb c h

/-! ### Schemes -/

/-- Bytes allowed in a scheme after the first. -/
def schemeByte (c : UInt8) : Bool :=
  inRange 97 122 c || inRange 65 90 c || inRange 48 57 c || c = 0x2B || c = 0x2D || c = 0x2E

/-- A scheme as `getScheme` accepts it. -/
def ValidScheme (s : Str) : Prop :=
  ∃ c cs, s = c :: cs ∧ (inRange 97 122 c || inRange 65 90 c) = true ∧ ∀ d ∈ cs, schemeByte d = true

theorem getSchemeAux_false (orig acc t rest : Str) (ht : ∀ d ∈ t, schemeByte d = true) :
    getSchemeAux orig false acc (t ++ 0x3A :: rest) = some (acc.reverse ++ t, rest) := by
  induction t generalizing acc with
  | nil =>
    rw [List.nil_append, getSchemeAux]
    simp [inRange]
  | cons c cs ih =>
    have hc := ht c (List.mem_cons_self ..)
    have ih := fun acc => ih acc fun d hd => ht d (List.mem_cons_of_mem _ hd)
    rw [List.cons_append, getSchemeAux]
    simp only [Bool.false_eq_true, if_false]
    unfold schemeByte at hc
    split
    · rw [ih]; simp
    · rename_i hl
      rw [if_pos, ih]
      · simp
      · simp only [Bool.not_eq_true, Bool.or_eq_false_iff] at hl
        simp only [hl.1, hl.2, Bool.false_or] at hc
        exact hc

theorem getScheme_of_valid {s : Str} (h : ValidScheme s) (rest : Str) :
    getScheme (s ++ 0x3A :: rest) = some (s, rest) := by
  obtain ⟨c, cs, rfl, hc, hcs⟩ := h
  unfold getScheme
  rw [List.cons_append, getSchemeAux, if_pos hc]
  rw [getSchemeAux_false _ _ _ _ hcs]
  rfl

theorem getSchemeAux_false_spec (orig : Str) (acc t : Str) (hacc : ∀ d ∈ acc, schemeByte d = true)
    (a r : Str) (h : getSchemeAux orig false acc t = some (a, r)) :
    (a = [] ∧ r = orig) ∨
    (∃ x, t = x ++ 0x3A :: r ∧ (∀ d ∈ x, schemeByte d = true) ∧ a = acc.reverse ++ x) := by
  induction t generalizing acc with
  | nil =>
    rw [getSchemeAux] at h; cases h; exact Or.inl ⟨rfl, rfl⟩
  | cons c cs ih =>
    rw [getSchemeAux] at h
    simp only [Bool.false_eq_true, if_false] at h
    have step : schemeByte c = true → getSchemeAux orig false (c :: acc) cs = some (a, r) →
        (a = [] ∧ r = orig) ∨
        (∃ x, c :: cs = x ++ 0x3A :: r ∧ (∀ d ∈ x, schemeByte d = true) ∧ a = acc.reverse ++ x) := by
      intro hc h
      rcases ih (c :: acc) (by
        intro d hd
        rcases List.mem_cons.mp hd with rfl | hd
        · exact hc
        · exact hacc d hd) h with h | ⟨x, h1, h2, h3⟩
      · exact Or.inl h
      · refine Or.inr ⟨c :: x, by rw [h1]; rfl, ?_, by rw [h3]; simp⟩
        intro d hd
        rcases List.mem_cons.mp hd with rfl | hd
        · exact hc
        · exact h2 d hd
    split at h
    · rename_i hl
      refine step ?_ h
      unfold schemeByte
      simp only [Bool.or_eq_true] at hl
      rcases hl with hl | hl <;> simp [hl]
    · split at h
      · rename_i hl
        refine step ?_ h
        unfold schemeByte
        simp only [Bool.or_eq_true, decide_eq_true_eq] at hl ⊢
        rcases hl with ((hl | hl) | hl) | hl <;> simp [hl]
      · split at h
        · rename_i hc
          cases h
          exact Or.inr ⟨[], by rw [hc]; rfl, by simp, by simp⟩
        · cases h; exact Or.inl ⟨rfl, rfl⟩

theorem getScheme_spec {raw a r : Str} (h : getScheme raw = some (a, r)) :
    (a = [] ∧ r = raw) ∨ (ValidScheme a ∧ raw = a ++ 0x3A :: r) := by
  unfold getScheme at h
  cases raw with
  | nil => rw [getSchemeAux] at h; cases h; exact Or.inl ⟨rfl, rfl⟩
  | cons c cs =>
    rw [getSchemeAux] at h
    simp only [if_true] at h
    split at h
    · rename_i hl
      rcases getSchemeAux_false_spec _ _ _ (by
        intro d hd
        simp only [List.mem_singleton] at hd
        subst hd
        unfold schemeByte
        simp only [Bool.or_eq_true] at hl
        rcases hl with hl | hl <;> simp [hl]) _ _ h with h | ⟨x, h1, h2, h3⟩
      · exact Or.inl h
      · refine Or.inr ⟨⟨c, x, by simpa using h3, hl, h2⟩, ?_⟩
        rw [h1, h3]; simp
    · split at h
      · cases h; exact Or.inl ⟨rfl, rfl⟩
      · split at h
        · cases h
        · cases h; exact Or.inl ⟨rfl, rfl⟩

theorem getScheme_slash (rest : Str) : getScheme (0x2F :: rest) = some ([], 0x2F :: rest) := by
  unfold getScheme
  rw [getSchemeAux]
  simp [inRange]

theorem lowerByte_facts : ∀ c : UInt8, lowerByte (lowerByte c) = lowerByte c ∧
    ((inRange 97 122 c || inRange 65 90 c) = true → inRange 97 122 (lowerByte c) = true) ∧
    (schemeByte c = true → schemeByte (lowerByte c) = true) ∧
    (schemeByte c = true → ¬ c < 0x20 ∧ c ≠ 0x7F ∧ c ≠ 0x3F ∧ c ≠ 0x23) :=
  forall_u8 (by decide +kernel)

theorem lowerStr_idem (s : Str) : lowerStr (lowerStr s) = lowerStr s := by
  unfold lowerStr
  rw [List.map_map]
  congr 1
  funext c
  exact (lowerByte_facts c).1

theorem ValidScheme.lower {s : Str} (h : ValidScheme s) : ValidScheme (lowerStr s) := by
  obtain ⟨c, cs, rfl, hc, hcs⟩ := h
  refine ⟨lowerByte c, cs.map lowerByte, rfl, ?_, ?_⟩
  · rw [((lowerByte_facts c).2.1 hc)]; rfl
  · intro d hd
    obtain ⟨e, he, rfl⟩ := List.mem_map.mp hd
    exact (lowerByte_facts e).2.2.1 (hcs e he)

theorem ValidScheme.bytes {s : Str} (h : ValidScheme s) : ∀ c ∈ s, schemeByte c = true := by
  obtain ⟨c, cs, rfl, hc, hcs⟩ := h
  intro d hd
  rcases List.mem_cons.mp hd with rfl | hd
  · unfold schemeByte
    simp only [Bool.or_eq_true] at hc
    rcases hc with hc | hc <;> simp [hc]
  · exact hcs d hd

theorem ValidScheme.ne_nil {s : Str} (h : ValidScheme s) : s ≠ [] := by
  obtain ⟨c, cs, rfl, _⟩ := h; simp

/-! ### User information -/

theorem escape_user_alphabet (s : Str) : ∀ c ∈ escape .userPassword s,
    (isAlnum c || b!"-._:~!$&'()*+,;=%@".contains c) = true ∧ c ≠ 0x40 ∧ c ≠ 0x3A ∧ c ≠ 0x2F ∧
    c ≠ 0x3F ∧ c ≠ 0x23 ∧ ¬ c < 0x20 ∧ c ≠ 0x7F := by
  have hx : ∀ n : Fin 16, ∀ c, c = hexUpper n.val →
      (isAlnum c || b!"-._:~!$&'()*+,;=%@".contains c) = true ∧ c ≠ 0x40 ∧ c ≠ 0x3A ∧ c ≠ 0x2F ∧
      c ≠ 0x3F ∧ c ≠ 0x23 ∧ ¬ c < 0x20 ∧ c ≠ 0x7F := by
    intro n c hc; subst hc; revert n; decide +kernel
  have hp : ∀ c : UInt8, shouldEscape c .userPassword = false →
      (isAlnum c || b!"-._:~!$&'()*+,;=%@".contains c) = true ∧ c ≠ 0x40 ∧ c ≠ 0x3A ∧ c ≠ 0x2F ∧
      c ≠ 0x3F ∧ c ≠ 0x23 ∧ ¬ c < 0x20 ∧ c ≠ 0x7F :=
    forall_u8 (by decide +kernel)
  induction s with
  | nil => simp [escape]
  | cons c cs ih =>
    have hc : c.toNat < 256 := c.toNat_lt
    intro d hd
    rw [escape] at hd
    have hsp : ¬ (c = 0x20 ∧ EncMode.userPassword = .queryComponent) := by rintro ⟨_, h⟩; cases h
    rw [if_neg hsp] at hd
    split at hd
    · simp only [List.mem_cons] at hd
      rcases hd with rfl | hd | hd | hd
      · decide
      · exact hx ⟨c.toNat / 16, by omega⟩ d hd
      · exact hx ⟨c.toNat % 16, by omega⟩ d hd
      · exact ih d hd
    · rename_i he
      rcases List.mem_cons.mp hd with rfl | hd
      · exact hp d (by simpa using he)
      · exact ih d hd

/-- The text of the authority as `String` prints it. -/
def authText (user : Option Userinfo) (host : Str) : Str :=
  (match user with
    | some ui => ui.string ++ [0x40]
    | none => []) ++ escape .host host

theorem userinfo_bytes (ui : Userinfo) : ∀ c ∈ ui.string,
    (isAlnum c || b!"-._:~!$&'()*+,;=%@".contains c) = true ∧ c ≠ 0x40 ∧ c ≠ 0x2F ∧
    c ≠ 0x3F ∧ c ≠ 0x23 ∧ ¬ c < 0x20 ∧ c ≠ 0x7F := by
  intro c hc
  unfold Userinfo.string at hc
  have hu := escape_user_alphabet ui.username
  rcases List.mem_append.mp hc with hc | hc
  · have := hu c hc; exact ⟨this.1, this.2.1, this.2.2.2⟩
  · cases hp : ui.password with
    | none => rw [hp] at hc; cases hc
    | some p =>
      rw [hp] at hc
      rcases List.mem_cons.mp hc with rfl | hc
      · decide
      · have := escape_user_alphabet p c hc; exact ⟨this.1, this.2.1, this.2.2.2⟩

theorem authText_bytes (user : Option Userinfo) (host : Str) : ∀ c ∈ authText user host,
    c ≠ 0x2F ∧ c ≠ 0x3F ∧ c ≠ 0x23 ∧ ¬ c < 0x20 ∧ c ≠ 0x7F := by
  intro c hc
  unfold authText at hc
  rcases List.mem_append.mp hc with hc | hc
  · cases user with
    | none => cases hc
    | some ui =>
      rcases List.mem_append.mp hc with hc | hc
      · exact (userinfo_bytes ui c hc).2.2
      · simp only [List.mem_singleton] at hc; subst hc; decide
  · exact (escape_host_alphabet host c hc).2

theorem parseAuthority_authText {raw : Str} {user : Option Userinfo} {host : Str}
    (h : parseAuthority raw = some (user, host))
    (hascii : (∀ c ∈ raw, c < 0x80) ∨ (0x5B : UInt8) ∉ raw) :
    parseAuthority (authText user host) = some (user, host) := by
  have hno : (0x40 : UInt8) ∉ escape .host host := fun hm => (escape_host_alphabet host _ hm).1 rfl
  unfold parseAuthority at h
  cases hcut : cutLastByte 0x40 raw with
  | none =>
    rw [hcut] at h
    obtain ⟨x, hx, he⟩ := Option.map_eq_some_iff.mp h
    cases he
    have := parseHost_escape hx hascii
    unfold parseAuthority authText
    simp only [List.nil_append]
    rw [(cutLastByte_none_iff _ _).mpr hno]
    simp [this]
  | some p =>
    obtain ⟨userinfo, hostPart⟩ := p
    rw [hcut] at h
    obtain ⟨hs, _⟩ := (cutLastByte_some_iff _ _ _ _).mp hcut
    simp only at h
    have hascii' : (∀ c ∈ hostPart, c < 0x80) ∨ (0x5B : UInt8) ∉ hostPart := by
      rcases hascii with h | h
      · exact Or.inl fun c hc => h c (by rw [hs]; simp [hc])
      · exact Or.inr fun hc => h (by rw [hs]; simp [hc])
    cases hh : parseHost hostPart with
    | none => rw [hh] at h; cases h
    | some host' =>
      rw [hh] at h
      simp only [Option.bind_eq_bind, Option.bind_some] at h
      by_cases hv : validUserinfo userinfo = true
      · simp only [hv, Bool.not_true, Bool.false_eq_true, if_false] at h
        have main : ∀ ui : Userinfo, user = some ui → host = host' →
            parseAuthority (authText user host) = some (user, host) := by
          intro ui hu hh'
          subst hu hh'
          have hph := parseHost_escape hh hascii'
          have hat : (0x40 : UInt8) ∉ ui.string := fun hm => (userinfo_bytes ui _ hm).2.1 rfl
          unfold parseAuthority authText
          simp only [List.append_assoc]
          have : cutLastByte 0x40 (ui.string ++ ([0x40] ++ escape .host host)) =
              some (ui.string, escape .host host) := cutLastByte_append ui.string hno
          rw [this]
          simp only [hph, Option.bind_eq_bind, Option.bind_some]
          have hval : validUserinfo ui.string = true := by
            unfold validUserinfo
            rw [List.all_eq_true]
            exact fun c hc => (userinfo_bytes ui c hc).1
          simp only [hval, Bool.not_true, Bool.false_eq_true, if_false]
          have hcol : (0x3A : UInt8) ∉ escape .userPassword ui.username := fun hm =>
            (escape_user_alphabet _ _ hm).2.2.1 rfl
          unfold Userinfo.string
          cases hp : ui.password with
          | none =>
            simp only [List.append_nil]
            rw [(cutByte_none_iff _ _).mpr hcol]
            simp only [unescape_escape .userPassword (by decide) (by decide), Option.bind_eq_bind,
              Option.bind_some]
            rw [← hp]; rfl
          | some pw =>
            simp only
            rw [cutByte_append _ hcol]
            simp only [unescape_escape .userPassword (by decide) (by decide), Option.bind_eq_bind,
              Option.bind_some]
            rw [← hp]; rfl
        cases hc : cutByte 0x3A userinfo with
        | none =>
          rw [hc] at h
          simp only at h
          cases hu : unescape .userPassword userinfo with
          | none => rw [hu] at h; cases h
          | some u =>
            rw [hu] at h
            cases h
            exact main _ rfl rfl
        | some q =>
          obtain ⟨un, pw⟩ := q
          rw [hc] at h
          simp only at h
          cases hu : unescape .userPassword un with
          | none => rw [hu] at h; cases h
          | some u =>
            cases hpw : unescape .userPassword pw with
            | none => rw [hu, hpw] at h; cases h
            | some p =>
              rw [hu, hpw] at h
              cases h
              exact main _ rfl rfl
      · simp only [hv, Bool.not_false, if_true] at h
        cases h

/-! ### Paths -/

theorem escape_path_alphabet (s : Str) : ∀ c ∈ escape .path s,
    c ≠ 0x3F ∧ c ≠ 0x23 ∧ ¬ c < 0x20 ∧ c ≠ 0x7F := by
  have hx : ∀ n : Fin 16, ∀ c, c = hexUpper n.val →
      c ≠ 0x3F ∧ c ≠ 0x23 ∧ ¬ c < 0x20 ∧ c ≠ 0x7F := by
    intro n c hc; subst hc; revert n; decide +kernel
  have hp : ∀ c : UInt8, shouldEscape c .path = false →
      c ≠ 0x3F ∧ c ≠ 0x23 ∧ ¬ c < 0x20 ∧ c ≠ 0x7F :=
    forall_u8 (by decide +kernel)
  induction s with
  | nil => simp [escape]
  | cons c cs ih =>
    have hc : c.toNat < 256 := c.toNat_lt
    intro d hd
    rw [escape] at hd
    have hsp : ¬ (c = 0x20 ∧ EncMode.path = .queryComponent) := by rintro ⟨_, h⟩; cases h
    rw [if_neg hsp] at hd
    split at hd
    · simp only [List.mem_cons] at hd
      rcases hd with rfl | hd | hd | hd
      · decide
      · exact hx ⟨c.toNat / 16, by omega⟩ d hd
      · exact hx ⟨c.toNat % 16, by omega⟩ d hd
      · exact ih d hd
    · rename_i he
      rcases List.mem_cons.mp hd with rfl | hd
      · exact hp d (by simpa using he)
      · exact ih d hd

theorem unescape_slash {mode : EncMode} (hh : mode ≠ .host) (hz : mode ≠ .zone) (s : Str) :
    unescape mode (0x2F :: s) = (unescape mode s).map (0x2F :: ·) :=
  unescape_plain s (by decide) (by decide) hh hz

/-- What `EscapedPath` returns for a parsed path that is empty or begins with a slash. -/
theorem escapedPath_spec {u : URL} {p : Str} (hu : unescape .path p = some u.path)
    (hraw : u.rawPath = if p = escape .path u.path then [] else p)
    (hp : p = [] ∨ ∃ t, p = 0x2F :: t) :
    unescape .path u.escapedPath = some u.path ∧
    (∀ c ∈ u.escapedPath, c ≠ 0x3F ∧ c ≠ 0x23 ∧ ¬ c < 0x20 ∧ c ≠ 0x7F) ∧
    (u.escapedPath = [] ∧ u.path = [] ∨
      (∃ t, u.escapedPath = 0x2F :: t) ∧ ∃ t, u.path = 0x2F :: t) := by
  have hpath : p = [] ∧ u.path = [] ∨ (∃ t, p = 0x2F :: t) ∧ ∃ t, u.path = 0x2F :: t := by
    rcases hp with rfl | ⟨t, rfl⟩
    · rw [unescape_nil] at hu; exact Or.inl ⟨rfl, (Option.some.inj hu).symm⟩
    · rw [unescape_slash (by decide) (by decide)] at hu
      obtain ⟨o, _, ho⟩ := Option.map_eq_some_iff.mp hu
      exact Or.inr ⟨⟨t, rfl⟩, o, ho.symm⟩
  have hv : ∀ c : UInt8, (b!"!$&'()*+,;=:@[]%".contains c || !shouldEscape c .path) = true →
      c ≠ 0x3F ∧ c ≠ 0x23 ∧ ¬ c < 0x20 ∧ c ≠ 0x7F := forall_u8 (by decide +kernel)
  unfold URL.escapedPath
  split
  · rename_i h
    obtain ⟨h1, h2, h3⟩ := h
    have hrp : u.rawPath = p := by
      rw [hraw] at h1 ⊢
      split
      · rename_i e; rw [if_pos e] at h1; exact absurd rfl h1
      · rfl
    refine ⟨h3, ?_, ?_⟩
    · intro c hc
      unfold validEncodedPath at h2
      rw [List.all_eq_true] at h2
      exact hv c (h2 c hc)
    · rw [hrp]; exact hpath
  · rw [if_neg]
    · refine ⟨unescape_escape .path (by decide) (by decide) _, escape_path_alphabet _, ?_⟩
      rcases hpath with ⟨_, h⟩ | ⟨_, t, h⟩
      · rw [h]; exact Or.inl ⟨rfl, rfl⟩
      · rw [h]
        refine Or.inr ⟨⟨escape .path t, ?_⟩, t, rfl⟩
        rw [escape]
        rw [if_neg (by decide), if_neg (by decide)]
    · rcases hpath with ⟨_, h⟩ | ⟨_, t, h⟩ <;> rw [h] <;> simp

/-! ### Whole URLs -/

/-- What `parse` produces for anything but `*`. -/
structure Parsed (raw : Str) (u : URL) : Prop where
  scheme : u.scheme = [] ∨ (ValidScheme u.scheme ∧ lowerStr u.scheme = u.scheme)
  fragment : u.fragment = []
  query : (u.rawQuery = [] ∨ u.forceQuery = false) ∧ NoCTL u.rawQuery ∧
    ∀ c ∈ u.rawQuery, c ∈ raw
  rest : (u.scheme ≠ [] ∧ u.user = none ∧ u.host = [] ∧ u.path = [] ∧ u.rawPath = [] ∧
      NoCTL u.opaque_ ∧ (0x3F : UInt8) ∉ u.opaque_ ∧ (∀ t, u.opaque_ ≠ 0x2F :: t) ∧
      ∀ c ∈ u.opaque_, c ∈ raw) ∨
    (u.opaque_ = [] ∧ ∃ p, (p = [] ∨ ∃ t, p = 0x2F :: t) ∧ unescape .path p = some u.path ∧
      u.rawPath = (if p = escape .path u.path then [] else p) ∧
      ((u.user = none ∧ u.host = [] ∧ p ≠ []) ∨
       (u.scheme ≠ [] ∧ ∃ a, parseAuthority a = some (u.user, u.host) ∧ ∀ c ∈ a, c ∈ raw)))

theorem hasPrefix_slash (s : Str) : hasPrefix [0x2F] s = true ↔ ∃ t, s = 0x2F :: t := by
  rw [hasPrefix_iff]; rfl

theorem splitQuery_spec (rest : Str) : ∃ a q f, splitQuery rest = (a, q, f) ∧
    (0x3F : UInt8) ∉ a ∧ (q = [] ∨ f = false) ∧ (∀ c ∈ a, c ∈ rest) ∧ ∀ c ∈ q, c ∈ rest := by
  unfold splitQuery
  cases h : cutByte 0x3F rest with
  | none =>
    exact ⟨_, _, _, rfl, (cutByte_none_iff _ _).mp h, Or.inl rfl, fun _ h => h, by simp⟩
  | some p =>
    obtain ⟨a, q⟩ := p
    obtain ⟨h1, h2⟩ := (cutByte_some_iff _ _ _ _).mp h
    simp only
    split
    · rename_i hq
      exact ⟨_, _, _, rfl, h2, Or.inl rfl, by rw [h1]; simp +contextual, by simp⟩
    · exact ⟨_, _, _, rfl, h2, Or.inr rfl, by rw [h1]; simp +contextual, by rw [h1]; simp +contextual⟩

theorem splitQuery_join (a q : Str) (f : Bool) (ha : (0x3F : UInt8) ∉ a) (hf : q = [] ∨ f = false) :
    splitQuery (a ++ if f = true ∨ q ≠ [] then 0x3F :: q else []) = (a, q, f) := by
  unfold splitQuery
  by_cases h : f = true ∨ q ≠ []
  · rw [if_pos h, cutByte_append _ ha]
    simp only
    split
    · rename_i hq; subst hq; simp at h; rw [h]
    · rename_i hq
      rw [hf.resolve_left hq]
  · simp only [not_or, Bool.not_eq_true, Decidable.not_not] at h
    obtain ⟨rfl, rfl⟩ := h
    simp [(cutByte_none_iff _ _).mpr ha]

theorem parseRaw_parsed {raw : Str} {u : URL} (h : parseRaw raw true = some u)
    (hstar : raw ≠ [0x2A]) : Parsed raw u := by
  unfold parseRaw at h
  split at h
  · cases h
  rename_i hctl
  have hctl : NoCTL raw := (containsCTL_false_iff raw).mp (by simpa using hctl)
  split at h
  · cases h
  cases hgs : getScheme raw with
  | none => rw [hgs] at h; cases h
  | some sr =>
    obtain ⟨scheme0, rest0⟩ := sr
    rw [hgs] at h
    simp only at h
    obtain ⟨rest, rq, fq, hsq, hnq, hqf, hrest, hrq⟩ := splitQuery_spec rest0
    rw [hsq] at h
    simp only at h
    have hsub : ∀ c ∈ rest0, c ∈ raw := by
      rcases getScheme_spec hgs with ⟨_, h⟩ | ⟨_, h⟩
      · rw [h]; exact fun _ h => h
      · rw [h]; simp +contextual
    have hscheme : lowerStr scheme0 = [] ∨
        (ValidScheme (lowerStr scheme0) ∧ lowerStr (lowerStr scheme0) = lowerStr scheme0) := by
      rcases getScheme_spec hgs with ⟨h, _⟩ | ⟨h, _⟩
      · left; rw [h]; rfl
      · exact Or.inr ⟨h.lower, lowerStr_idem _⟩
    have hqctl : NoCTL rq := fun c hc => hctl c (hsub c (hrq c hc))
    split at h
    · rename_i hop
      simp only [Bool.and_eq_true, Bool.not_eq_true', decide_eq_true_eq] at hop
      cases h
      refine ⟨hscheme, rfl, ⟨hqf, hqctl, fun c hc => hsub c (hrq c hc)⟩, Or.inl ?_⟩
      refine ⟨hop.2, rfl, rfl, rfl, rfl, fun c hc => hctl c (hsub c (hrest c hc)), hnq, ?_,
        fun c hc => hsub c (hrest c hc)⟩
      intro t ht
      have := (hasPrefix_slash rest).mpr ⟨t, ht⟩
      rw [this] at hop; cases hop.1
    · rename_i hop
      split at h
      · cases h
      · rename_i hvr
        have hslash : hasPrefix [0x2F] rest = true := by
          cases e : hasPrefix [0x2F] rest with
          | true => rfl
          | false => rw [e] at hvr; simp at hvr
        obtain ⟨t, ht⟩ := (hasPrefix_slash rest).mp hslash
        rw [hslash] at h
        simp only [Bool.not_true, Bool.false_and, Bool.false_eq_true, if_false, Bool.or_false] at h
        split at h
        · rename_i hauth
          simp only [Bool.and_eq_true, decide_eq_true_eq] at hauth
          obtain ⟨hsch, hpre⟩ := hauth
          obtain ⟨r2, hr2⟩ := (hasPrefix_iff _ _).mp hpre
          have hdrop : rest.drop 2 = r2 := by rw [hr2]; rfl
          rw [hdrop] at h
          cases hcut : cutByte 0x2F r2 with
          | none =>
            rw [hcut] at h
            simp only at h
            cases hpa : parseAuthority r2 with
            | none => rw [hpa] at h; cases h
            | some ph =>
              obtain ⟨user, host⟩ := ph
              rw [hpa] at h
              simp only [setPath, unescape_nil, Option.bind_eq_bind, Option.bind_some] at h
              cases h
              refine ⟨hscheme, rfl, ⟨hqf, hqctl, fun c hc => hsub c (hrq c hc)⟩, Or.inr ⟨rfl, [], Or.inl rfl,
                by rw [unescape_nil], rfl, Or.inr ⟨hsch, r2, hpa, ?_⟩⟩⟩
              intro c hc
              exact hsub c (hrest c (by rw [hr2]; simp [hc]))
          | some q =>
            obtain ⟨a, r⟩ := q
            rw [hcut] at h
            simp only at h
            obtain ⟨hs2, _⟩ := (cutByte_some_iff _ _ _ _).mp hcut
            cases hpa : parseAuthority a with
            | none => rw [hpa] at h; cases h
            | some ph =>
              obtain ⟨user, host⟩ := ph
              rw [hpa] at h
              simp only [setPath] at h
              cases hup : unescape .path (0x2F :: r) with
              | none => rw [hup] at h; cases h
              | some path =>
                rw [hup] at h
                simp only [Option.bind_eq_bind, Option.bind_some] at h
                cases h
                refine ⟨hscheme, rfl, ⟨hqf, hqctl, fun c hc => hsub c (hrq c hc)⟩, Or.inr ⟨rfl, 0x2F :: r,
                  Or.inr ⟨r, rfl⟩, hup, rfl, Or.inr ⟨hsch, a, hpa, ?_⟩⟩⟩
                intro c hc
                exact hsub c (hrest c (by rw [hr2, hs2]; simp [hc]))
        · simp only [setPath] at h
          cases hup : unescape .path rest with
          | none => rw [hup] at h; cases h
          | some path =>
            rw [hup] at h
            simp only [Option.bind_eq_bind, Option.bind_some] at h
            cases h
            exact ⟨hscheme, rfl, ⟨hqf, hqctl, fun c hc => hsub c (hrq c hc)⟩, Or.inr ⟨rfl, rest, Or.inr ⟨t, ht⟩,
              hup, rfl, Or.inl ⟨rfl, rfl, by rw [ht]; simp⟩⟩⟩

theorem base_opaque {u : URL} (hs : u.scheme ≠ []) (h1 : u.user = none) (h2 : u.host = [])
    (h3 : u.path = []) (h4 : u.rawPath = []) :
    u.base = u.scheme ++ 0x3A :: u.opaque_ := by
  have hep : u.escapedPath = [] := by
    unfold URL.escapedPath
    rw [h3, h4]
    simp [escape]
  unfold URL.base
  by_cases ho : u.opaque_ = []
  · simp [hs, ho, h1, h2, h3, hep]
  · simp [hs, ho]

theorem base_path {u : URL} (ho : u.opaque_ = []) (hs : u.scheme ≠ [])
    (hp : u.escapedPath = [] ∧ u.path = [] ∨
      (∃ t, u.escapedPath = 0x2F :: t) ∧ ∃ t, u.path = 0x2F :: t) :
    u.base = u.scheme ++ 0x3A :: ((if u.host ≠ [] ∨ u.path ≠ [] ∨ u.user ≠ none then b!"//" else []) ++
      authText u.user u.host ++ u.escapedPath) := by
  have hsl : ¬ (u.escapedPath ≠ [] ∧ u.escapedPath.head? ≠ some 0x2F ∧ u.host ≠ []) := by
    rintro ⟨h1, h2, _⟩
    rcases hp with ⟨h, _⟩ | ⟨⟨t, h⟩, _⟩
    · exact h1 h
    · rw [h] at h2; exact h2 rfl
  have hesc : (if u.host ≠ [] then escape .host u.host else []) = escape .host u.host := by
    split
    · rfl
    · rename_i h
      have : u.host = [] := Decidable.not_not.mp h
      rw [this]; rfl
  unfold URL.base authText
  simp only [ho, ne_eq, not_true_eq_false, if_false, hs, not_false_eq_true, if_true, true_or, hesc,
    if_neg hsl]
  simp
  cases u.user <;> rfl

theorem base_relative {u : URL} (ho : u.opaque_ = []) (hs : u.scheme = []) (hu : u.user = none)
    (hh : u.host = []) (hp : ∃ t, u.escapedPath = 0x2F :: t) : u.base = u.escapedPath := by
  obtain ⟨t, ht⟩ := hp
  unfold URL.base
  simp only [ho, hs, hu, hh, ht]
  simp [cutByte]

theorem parseAuthority_nil : parseAuthority [] = some (none, []) := by decide

/-- **URLs reparse**: the printed form of a parsed URL, with any other printable query, parses to
a URL with the same target. -/
theorem reparse {raw : Str} {u : URL} (hp : Parsed raw u)
    (hascii : (∀ c ∈ raw, c < 0x80) ∨ (0x5B : UInt8) ∉ raw) (via : Bool)
    (hvia : via = true ∨ u.scheme ≠ []) (q : Str) (f : Bool) (hq : NoCTL q) :
    ∃ v, parseRaw (u.base ++ if f = true ∨ q ≠ [] then 0x3F :: q else []) via = some v ∧
      u.SameTarget v ∧ v.rawQuery = q ∧ v.fragment = [] := by
  -- normalise the force flag
  have hnorm : (if f = true ∨ q ≠ [] then 0x3F :: q else []) =
      if (if q = [] then f else false) = true ∨ q ≠ [] then 0x3F :: q else [] := by
    by_cases h : q = [] <;> simp [h]
  rw [hnorm]
  generalize hf' : (if q = [] then f else false) = f'
  have hqf : q = [] ∨ f' = false := by
    by_cases h : q = []
    · exact Or.inl h
    · rw [if_neg h] at hf'; exact Or.inr hf'.symm
  generalize hQ : (if f' = true ∨ q ≠ [] then 0x3F :: q else []) = Q
  have hQctl : NoCTL Q := by
    rw [← hQ]
    split
    · intro c hc
      rcases List.mem_cons.mp hc with rfl | hc
      · decide
      · exact hq c hc
    · intro c hc; cases hc
  have hsplit : ∀ a, (0x3F : UInt8) ∉ a → splitQuery (a ++ Q) = (a, q, f') := by
    intro a ha
    rw [← hQ]
    exact splitQuery_join a q f' ha hqf
  have hschctl : NoCTL u.scheme := by
    rcases hp.scheme with h | ⟨h, _⟩
    · rw [h]; intro c hc; cases hc
    · intro c hc
      have := (lowerByte_facts c).2.2.2 (h.bytes c hc)
      exact ⟨this.1, this.2.1⟩
  have hcolon : ∀ s, NoCTL s → NoCTL (0x3A :: s) := by
    intro s hs c hc
    rcases List.mem_cons.mp hc with rfl | hc
    · decide
    · exact hs c hc
  -- the start of `parse` on a text with a scheme
  have start : ∀ rest, u.scheme ≠ [] → NoCTL rest → (0x3F : UInt8) ∉ rest →
      parseRaw (u.scheme ++ 0x3A :: rest ++ Q) via =
        (let u0 : URL := { scheme := u.scheme, rawQuery := q, forceQuery := f' }
        if !(hasPrefix [0x2F] rest) then some { u0 with opaque_ := rest }
        else if hasPrefix b!"//" rest then
          let afterSlashes := rest.drop 2
          let (authority, p) := match cutByte 0x2F afterSlashes with
            | some (a, r) => (a, 0x2F :: r)
            | none => (afterSlashes, [])
          match parseAuthority authority with
          | none => none
          | some (user, host) => setPath { u0 with user := user, host := host } p
        else setPath u0 rest) := by
    intro rest hs hrest hnq
    have hvs : ValidScheme u.scheme ∧ lowerStr u.scheme = u.scheme := hp.scheme.resolve_left hs
    have hctl : containsCTL (u.scheme ++ 0x3A :: rest ++ Q) = false := by
      rw [containsCTL_false_iff]
      exact (hschctl.append (hcolon _ hrest)).append hQctl
    have hne : ¬ (decide (u.scheme ++ 0x3A :: rest ++ Q = []) && via) = true := by simp
    have hstar : ¬ u.scheme ++ 0x3A :: rest ++ Q = [0x2A] := by
      obtain ⟨c, cs, hc, _⟩ := hvs.1
      rw [hc]; simp
    unfold parseRaw
    rw [hctl]
    simp only [Bool.false_eq_true, if_false, if_neg hne, if_neg hstar]
    have : u.scheme ++ 0x3A :: rest ++ Q = u.scheme ++ 0x3A :: (rest ++ Q) := by simp
    rw [this, getScheme_of_valid hvs.1]
    simp only [hsplit rest hnq, hvs.2, hs, ne_eq, not_false_eq_true, decide_true, Bool.and_true,
      Bool.true_or, Bool.true_and]
    cases hasPrefix [0x2F] rest
    · simp
    · simp
      rfl
  rcases hp.rest with ⟨hs, h1, h2, h3, h4, hoctl, hoq, hosl, _⟩ | ⟨ho, p, hpp, hup, hrp, hcase⟩
  · rw [base_opaque hs h1 h2 h3 h4, start _ hs hoctl hoq]
    have : hasPrefix [0x2F] u.opaque_ = false := by
      cases e : hasPrefix [0x2F] u.opaque_ with
      | false => rfl
      | true =>
        obtain ⟨t, ht⟩ := (hasPrefix_slash _).mp e
        exact absurd ht (hosl t)
    simp only [this, Bool.not_false, if_true]
    exact ⟨_, rfl, ⟨rfl, rfl, h1.symm, h2.symm, h3.symm⟩, rfl, rfl⟩
  · obtain ⟨e1, e2, e3⟩ := escapedPath_spec hup hrp hpp
    by_cases hs : u.scheme = []
    · -- a path only
      have hvia : via = true := hvia.resolve_right fun h => h hs
      have hc : u.user = none ∧ u.host = [] ∧ p ≠ [] := by
        rcases hcase with h | ⟨h, _⟩
        · exact h
        · exact absurd hs h
      have he : (∃ t, u.escapedPath = 0x2F :: t) ∧ ∃ t, u.path = 0x2F :: t := by
        rcases e3 with ⟨_, hpn⟩ | h
        · rcases hpp with h | ⟨t, ht⟩
          · exact absurd h hc.2.2
          · rw [ht, unescape_slash (by decide) (by decide)] at hup
            obtain ⟨o, _, ho⟩ := Option.map_eq_some_iff.mp hup
            rw [hpn] at ho; cases ho
        · exact h
      obtain ⟨⟨t, ht⟩, _⟩ := he
      rw [base_relative ho hs hc.1 hc.2.1 ⟨t, ht⟩]
      have hctl : containsCTL (u.escapedPath ++ Q) = false := by
        rw [containsCTL_false_iff]
        exact NoCTL.append (fun c hc => ⟨(e2 c hc).2.2.1, (e2 c hc).2.2.2⟩) hQctl
      have hne : ¬ (decide (u.escapedPath ++ Q = []) && via) = true := by rw [ht]; simp
      have hstar : ¬ u.escapedPath ++ Q = [0x2A] := by rw [ht]; simp
      have hnq : (0x3F : UInt8) ∉ u.escapedPath := fun hm => (e2 _ hm).1 rfl
      unfold parseRaw
      rw [hctl]
      simp only [Bool.false_eq_true, if_false, if_neg hne, if_neg hstar]
      have hgs : getScheme (u.escapedPath ++ Q) = some ([], u.escapedPath ++ Q) := by
        rw [ht]; exact getScheme_slash _
      rw [hgs]
      simp only [hsplit _ hnq]
      have hpre : hasPrefix [0x2F] u.escapedPath = true := (hasPrefix_slash _).mpr ⟨t, ht⟩
      have hls : lowerStr [] = [] := rfl
      simp only [hpre, hls, hvia, Bool.not_true, Bool.false_and, Bool.false_eq_true, if_false, ne_eq,
        not_true_eq_false, decide_false, Bool.or_false, Bool.false_or]
      unfold setPath
      rw [e1]
      exact ⟨_, rfl, ⟨hs.symm, ho.symm, hc.1.symm, hc.2.1.symm, rfl⟩, rfl, rfl⟩
    · rw [base_path ho hs e3]
      have hauthb := authText_bytes u.user u.host
      have hpa : parseAuthority (authText u.user u.host) = some (u.user, u.host) := by
        rcases hcase with ⟨h1, h2, _⟩ | ⟨_, a, ha, hsub⟩
        · rw [h1, h2]; decide
        · refine parseAuthority_authText ha ?_
          rcases hascii with h | h
          · exact Or.inl fun c hc => h c (hsub c hc)
          · exact Or.inr fun hc => h (hsub _ hc)
      by_cases hany : u.host ≠ [] ∨ u.path ≠ [] ∨ u.user ≠ none
      · rw [if_pos hany]
        have hrest : ∀ c ∈ b!"//" ++ authText u.user u.host ++ u.escapedPath,
            c ≠ 0x3F ∧ ¬ c < 0x20 ∧ c ≠ 0x7F := by
          intro c hc
          rcases List.mem_append.mp hc with hc | hc
          · rcases List.mem_append.mp hc with hc | hc
            · have : c = 0x2F := by simpa using hc
              rw [this]; decide
            · exact ⟨(hauthb c hc).2.1, (hauthb c hc).2.2.2⟩
          · exact ⟨(e2 c hc).1, (e2 c hc).2.2⟩
        rw [start _ hs (fun c hc => (hrest c hc).2) fun hm => (hrest _ hm).1 rfl]
        have hpre1 : hasPrefix [0x2F] (b!"//" ++ authText u.user u.host ++ u.escapedPath) = true :=
          (hasPrefix_slash _).mpr ⟨_, rfl⟩
        have hpre2 : hasPrefix b!"//" (b!"//" ++ authText u.user u.host ++ u.escapedPath) = true :=
          (hasPrefix_iff _ _).mpr ⟨authText u.user u.host ++ u.escapedPath, by simp⟩
        have hdrop : (b!"//" ++ authText u.user u.host ++ u.escapedPath).drop 2 =
            authText u.user u.host ++ u.escapedPath := by simp
        have hnsl : (0x2F : UInt8) ∉ authText u.user u.host := fun hm => (hauthb _ hm).1 rfl
        simp only [hpre1, hpre2, hdrop, Bool.not_true, Bool.false_eq_true, if_false, if_true]
        rcases e3 with ⟨h1, h2⟩ | ⟨⟨t, ht⟩, _⟩
        · rw [h1, List.append_nil, (cutByte_none_iff _ _).mpr hnsl]
          simp only [hpa, setPath, unescape_nil]
          exact ⟨_, rfl, ⟨rfl, ho.symm, rfl, rfl, h2.symm⟩, rfl, rfl⟩
        · rw [ht, cutByte_append _ hnsl]
          simp only [hpa, setPath]
          rw [← ht, e1]
          exact ⟨_, rfl, ⟨rfl, ho.symm, rfl, rfl, rfl⟩, rfl, rfl⟩
      · rw [if_neg hany]
        simp only [not_or, ne_eq, Decidable.not_not] at hany
        obtain ⟨h1, h2, h3⟩ := hany
        have h4 : u.escapedPath = [] := by
          rcases e3 with ⟨h, _⟩ | ⟨_, t, ht⟩
          · exact h
          · rw [h2] at ht; cases ht
        have h5 : authText u.user u.host = [] := by rw [h1, h3]; rfl
        rw [h4, h5]
        simp only [List.append_nil]
        rw [start [] hs (by intro c hc; cases hc) (by simp)]
        have : hasPrefix [0x2F] [] = false := rfl
        simp only [this, Bool.not_false, if_true]
        exact ⟨_, rfl, ⟨rfl, ho.symm, h3.symm, h1.symm, h2.symm⟩, rfl, rfl⟩

/-- The bytes of the printed form before the query. -/
theorem base_no_hash {raw : Str} {u : URL} (hp : Parsed raw u) (hh : (0x23 : UInt8) ∉ raw) :
    (0x23 : UInt8) ∉ u.base := by
  have hsch : (0x23 : UInt8) ∉ u.scheme := by
    rcases hp.scheme with h | ⟨h, _⟩
    · rw [h]; simp
    · intro hm
      exact ((lowerByte_facts _).2.2.2 (h.bytes _ hm)).2.2.2 rfl
  rcases hp.rest with ⟨hs, h1, h2, h3, h4, _, _, _, hsub⟩ | ⟨ho, p, hpp, hup, hrp, hcase⟩
  · rw [base_opaque hs h1 h2 h3 h4]
    simp only [List.mem_append, List.mem_cons, not_or]
    exact ⟨hsch, by decide, fun hm => hh (hsub _ hm)⟩
  · obtain ⟨e1, e2, e3⟩ := escapedPath_spec hup hrp hpp
    by_cases hs : u.scheme = []
    · have hc : u.user = none ∧ u.host = [] ∧ p ≠ [] := by
        rcases hcase with h | ⟨h, _⟩
        · exact h
        · exact absurd hs h
      have he : ∃ t, u.escapedPath = 0x2F :: t := by
        rcases e3 with ⟨_, hpn⟩ | h
        · rcases hpp with h | ⟨t, ht⟩
          · exact absurd h hc.2.2
          · rw [ht, unescape_slash (by decide) (by decide)] at hup
            obtain ⟨o, _, ho⟩ := Option.map_eq_some_iff.mp hup
            rw [hpn] at ho; cases ho
        · exact h.1
      rw [base_relative ho hs hc.1 hc.2.1 he]
      exact fun hm => (e2 _ hm).2.1 rfl
    · rw [base_path ho hs e3]
      simp only [List.mem_append, List.mem_cons, not_or]
      refine ⟨hsch, by decide, ⟨?_, fun hm => (authText_bytes _ _ _ hm).2.2.1 rfl⟩,
        fun hm => (e2 _ hm).2.1 rfl⟩
      split <;> simp

end OAuth2

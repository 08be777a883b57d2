import Verif.Props.Tokens
import Verif.Props.Scopes
import Verif.Lemmas.Json
import Verif.Lemmas.Url
/-
C04: the string form of a token can be transported anywhere. C08: scopes in JSON.
-/

namespace OAuth2

open Spec

set_option linter.unusedSimpArgs false

/-! ### C04 -/

/-- The characters of a token. -/
def isTokChar (c : UInt8) : Bool := isB64Url c || c = 0x2E

theorem isTokChar_facts : ∀ c : UInt8, isTokChar c = true →
    shouldEscape c .queryComponent = false ∧ shouldEscape c .fragment = false ∧ c ≠ 0x20 ∧
    htmlSafe c = true ∧ c < 0x80 ∧ c ≠ 0x25 ∧ c ≠ 0x2B ∧
    (c ∈ alphabet ∨ c = 0x2E) := by
  apply forall_u8; decide +kernel

theorem token_chars (t : HS256Token) : ∀ c ∈ t.string, isTokChar c = true := by
  intro c hc
  simp only [HS256Token.string, HS256Token.keyString, HS256Token.signatureString, List.mem_append,
    List.mem_singleton] at hc
  rcases hc with (hc | hc) | hc
  · simp [isTokChar, encode_alphabet _ c hc]
  · simp [isTokChar, hc]
  · simp [isTokChar, encode_alphabet _ c hc]

theorem escape_eq_self {mode : EncMode} {s : Str}
    (h : ∀ c ∈ s, shouldEscape c mode = false ∧ c ≠ 0x20) : escape mode s = s := by
  induction s with
  | nil => rfl
  | cons c cs ih =>
    have hc := h c (by simp)
    rw [escape, if_neg (by simp [hc.2]), if_neg (by simp [hc.1]),
      ih fun x hx => h x (List.mem_cons_of_mem _ hx)]

theorem unescape_eq_self {s : Str} (h : ∀ c ∈ s, c ≠ 0x25 ∧ c ≠ 0x2B) :
    queryUnescape s = some s := by
  unfold queryUnescape
  induction s with
  | nil => rfl
  | cons c cs ih =>
    have hc := h c (by simp)
    rw [unescape_plain _ hc.1 hc.2 (by simp) (by simp), ih fun x hx => h x (List.mem_cons_of_mem _ hx)]
    rfl

theorem jsonEsc_eq_self {s : Str} (h : ∀ c ∈ s, htmlSafe c = true ∧ c < 0x80) :
    jsonEscAux s.length s = s := by
  induction s with
  | nil => rfl
  | cons c cs ih =>
    have hc := h c (by simp)
    rw [List.length_cons, jsonEscAux, if_pos hc.2, if_pos hc.1,
      ih fun x hx => h x (List.mem_cons_of_mem _ hx)]
    rfl

theorem spaceSeqs_bytes : ∀ x ∈ spaceSeqs, ∀ c ∈ x, isTokChar c = false := by decide +kernel

theorem trimmed_of_token {s : Str} (h : ∀ c ∈ s, isTokChar c = true) : Trimmed s := by
  have key : ∀ x, IsSpaceChar x → ∃ c ∈ x, isTokChar c = false := by
    intro x hx
    have hm := (mem_spaceSeqs_iff x).mpr hx
    obtain ⟨c, cs, rfl⟩ := List.exists_cons_of_ne_nil (spaceSeqs_ne_nil x hm)
    exact ⟨c, by simp, spaceSeqs_bytes _ hm c (by simp)⟩
  constructor
  · rintro x rest hx rfl
    obtain ⟨c, hc, hf⟩ := key x hx
    rw [h c (by simp [hc])] at hf; cases hf
  · rintro x rest hx rfl
    obtain ⟨c, hc, hf⟩ := key x hx
    rw [h c (by simp [hc])] at hf; cases hf

theorem sha256_length (m : Str) : (Sha256.sha256 m).length = 32 := by
  have : ∀ n, (Sha256.be n 4).length = 4 := fun n => rfl
  simp only [Sha256.sha256, List.length_append, this]

theorem hmac_length (secret m : Str) : (hmacSHA256 secret m).length = 32 := sha256_length _

/-- **C04.** The string form of a token consists of base64url characters and exactly one dot, its
length depends only on the length of the key, and it is left unchanged by form escaping and
unescaping, by fragment escaping, by JSON encoding (which only adds the quotes) and by trimming
white space. -/
theorem C04_transport_safe (secret key : Str) :
    let tok := (HS256Token.fromKey secret key).string
    (∀ c ∈ tok, c ∈ alphabet ∨ c = 0x2E) ∧ tok.count 0x2E = 1 ∧
    tok.length = (key.length * 4 + 2) / 3 + 44 ∧
    queryEscape tok = tok ∧ queryUnescape tok = some tok ∧ escape .fragment tok = tok ∧
    jsonString tok = [0x22] ++ tok ++ [0x22] ∧ trimSpace tok = tok := by
  have hch := token_chars (HS256Token.fromKey secret key)
  refine ⟨fun c hc => (isTokChar_facts c (hch c hc)).2.2.2.2.2.2.2, ?_, ?_, ?_, ?_, ?_, ?_, ?_⟩
  · simp only [HS256Token.string, HS256Token.keyString, HS256Token.signatureString,
      List.count_append]
    rw [List.count_eq_zero.mpr (dot_not_mem_encode _), List.count_eq_zero.mpr (dot_not_mem_encode _)]
    rfl
  · simp only [HS256Token.string, HS256Token.keyString, HS256Token.signatureString,
      HS256Token.fromKey, List.length_append, b64RawURLEncode_length, hmac_length, List.length_cons,
      List.length_nil]
  · exact escape_eq_self fun c hc => ⟨(isTokChar_facts c (hch c hc)).1, (isTokChar_facts c (hch c hc)).2.2.1⟩
  · exact unescape_eq_self fun c hc => ⟨(isTokChar_facts c (hch c hc)).2.2.2.2.2.1, (isTokChar_facts c (hch c hc)).2.2.2.2.2.2.1⟩
  · exact escape_eq_self fun c hc => ⟨(isTokChar_facts c (hch c hc)).2.1, (isTokChar_facts c (hch c hc)).2.2.1⟩
  · rw [jsonString, jsonEsc_eq_self fun c hc => ⟨(isTokChar_facts c (hch c hc)).2.2.2.1, (isTokChar_facts c (hch c hc)).2.2.2.2.1⟩]
    rfl
  · exact trimSpace_eq_self (trimmed_of_token hch)

/-- A token with a 16 byte key, the default length. -/
example : (HS256Token.fromKey b!"secret" (List.replicate 16 0xFB)).string =
    b!"-_v7-_v7-_v7-_v7-_v7-w.ursKT-Pn5ohP9KmpgnyHrB2TtG310Y1qdklT-63yO4o" := by decide +kernel

/-! ### C08 -/

theorem unmarshal_marshal (s : Scope) :
    Scope.unmarshalJSON s.marshalJSON = some (Scope.parse (sanitize s.string)) := by
  unfold Scope.unmarshalJSON Scope.marshalJSON parseJSON
  have := parses_string s.string ((jsonString s.string).length + 1) 0 [] (by omega)
    (by intro c t h; cases h)
  rw [List.append_nil] at this
  rw [this]
  rfl

/-- **C08.** Marshalling any scope to JSON and unmarshalling it gives the scope parsed from its
printed form, with invalid UTF-8 replaced. -/
theorem C08_json_roundtrip (s : Scope) :
    ∃ str, Replaced s.string str ∧ Scope.unmarshalJSON s.marshalJSON = some (Scope.parse str) :=
  ⟨_, sanitize_replaced _, unmarshal_marshal s⟩

theorem valid_join {l : List Str} (h : ∀ i ∈ l, ValidUTF8 i) : ValidUTF8 (joinStr [0x20] l) := by
  induction l with
  | nil => exact ⟨[], by simp, rfl⟩
  | cons x l ih =>
    have ih := ih fun i hi => h i (List.mem_cons_of_mem _ hi)
    cases l with
    | nil => exact h x (by simp)
    | cons y l =>
      rw [joinStr_cons _ _ _ (by simp)]
      exact valid_append (valid_append (h x (by simp)) (valid_of_ascii (by decide))) ih

theorem wire_scope_clean {s : Scope} (hc : CleanScope s) (hv : ∀ i ∈ s.items, ValidUTF8 i) :
    Scope.parse (sanitize s.string) = s := by
  rw [sanitize_of_valid (show ValidUTF8 s.string from valid_join hv), parse_string_of_clean hc]

/-- **C08.** For a scope that is missing or a nonempty list of clean, valid UTF-8 items the result
is the same scope. -/
theorem C08_json_exact {s : Scope} (hc : CleanScope s) (hv : ∀ i ∈ s.items, ValidUTF8 i) :
    Scope.unmarshalJSON s.marshalJSON = some s := by
  rw [unmarshal_marshal, wire_scope_clean hc hv]

/-- **C08.** An empty scope that is not nil comes back as nil. -/
theorem C08_json_empty : Scope.unmarshalJSON (Scope.marshalJSON (some [])) = some none := by
  decide +kernel

/-- Quotes, backslashes, markup and a non-ASCII letter in items. -/
example : Scope.unmarshalJSON (Scope.marshalJSON (some [b!"a\"\\b", b!"<ü>&"])) =
    some (some [b!"a\"\\b", b!"<ü>&"]) := by decide +kernel

end OAuth2

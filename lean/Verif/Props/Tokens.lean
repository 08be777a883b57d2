import Verif.Model.HS256
import Verif.Lemmas.Base64
import Verif.Lemmas.Bytes
import Verif.Spec.Base64
/-
C01, C02, C03, C05: HS256 tokens.
-/

namespace OAuth2

open HS256Token

theorem parse_ok_iff (secret str : Str) (t : HS256Token) :
    HS256Token.parse secret str = .ok t ↔
      ∃ a b, splitByte 0x2E str = [a, b] ∧ b64RawURLDecode a = some t.key ∧
        b64RawURLDecode b = some t.signature ∧ t.signature = hmacSHA256 secret t.key := by
  constructor
  · intro h
    unfold HS256Token.parse at h
    split at h
    · rename_i s0 s1 hs
      split at h
      · cases h
      · rename_i key hk
        split at h
        · cases h
        · rename_i sig hsig
          by_cases hv : (HS256Token.mk key sig).valid secret = true
          · simp only [hv, Bool.not_true, Bool.false_eq_true, if_false, Except.ok.injEq] at h
            subst h
            refine ⟨s0, s1, hs, hk, hsig, ?_⟩
            simpa [HS256Token.valid, HS256Token.equal, HS256Token.fromKey, eq_comm] using hv
          · simp [hv] at h
    · cases h
  · rintro ⟨a, b, hs, hk, hsig, he⟩
    unfold HS256Token.parse
    rw [hs]
    simp only [hk, hsig]
    have hv : (HS256Token.mk t.key t.signature).valid secret = true := by
      simp [HS256Token.valid, HS256Token.equal, HS256Token.fromKey, he]
    simp [hv]

theorem dot_not_mem_encode (s : Str) : (0x2E : UInt8) ∉ b64RawURLEncode s := fun h =>
  (isB64Url_no_newline _ (encode_alphabet s _ h)).2.2 rfl

/-- **C01.** Parsing the string form of the token made from `key` under `secret` succeeds and
gives back exactly `key` and its signature. -/
theorem C01_token_roundtrip (secret key : Str) :
    HS256Token.parse secret (HS256Token.fromKey secret key).string =
      .ok { key := key, signature := hmacSHA256 secret key } := by
  apply (parse_ok_iff _ _ _).mpr
  refine ⟨b64RawURLEncode key, b64RawURLEncode (hmacSHA256 secret key), ?_,
    b64RawURL_roundtrip _, b64RawURL_roundtrip _, rfl⟩
  apply (splitByte_pair_iff _ _ _ _).mpr
  refine ⟨?_, dot_not_mem_encode _, dot_not_mem_encode _⟩
  simp [HS256Token.string, HS256Token.keyString, HS256Token.signatureString, HS256Token.fromKey]

/-- A five-byte key, against a signature computed with another implementation. -/
example : HS256Token.parse b!"secret" b!"AAECAwQ.RUMnrHGIutPrc47CTXgwp0h3lWj_5DJZSqVqzuBBbS8" =
    .ok (HS256Token.fromKey b!"secret" [0, 1, 2, 3, 4]) := by decide +kernel

/-- **C02.** A string is accepted, with token `t`, exactly when it is two base64url texts around a
single dot, of `t.key` and `t.signature`, and the signature is the HMAC-SHA256 of the key under
the secret. -/
theorem C02_accept_iff (secret str : Str) (t : HS256Token) :
    HS256Token.parse secret str = .ok t ↔
      ∃ a b, str = a ++ [0x2E] ++ b ∧ 0x2E ∉ a ∧ 0x2E ∉ b ∧
        Spec.IsBase64Url a t.key ∧ Spec.IsBase64Url b t.signature ∧
        t.signature = hmacSHA256 secret t.key := by
  rw [parse_ok_iff]
  constructor
  · rintro ⟨a, b, hs, hk, hsig, he⟩
    obtain ⟨h1, h2, h3⟩ := (splitByte_pair_iff _ _ _ _).mp hs
    exact ⟨a, b, by simp [h1], h2, h3, (decode_iff_spec _ _).mp hk, (decode_iff_spec _ _).mp hsig, he⟩
  · rintro ⟨a, b, h1, h2, h3, hk, hsig, he⟩
    exact ⟨a, b, (splitByte_pair_iff _ _ _ _).mpr ⟨by simp [h1], h2, h3⟩,
      (decode_iff_spec _ _).mpr hk, (decode_iff_spec _ _).mpr hsig, he⟩

/-- **C02**, the forgery side: a string whose second segment does not decode to the HMAC of what
the first decodes to is rejected. -/
theorem C02_reject_forged (secret a b key sig : Str)
    (ha : Spec.IsBase64Url a key) (hb : Spec.IsBase64Url b sig) (hda : 0x2E ∉ a) (hdb : 0x2E ∉ b)
    (hsig : sig ≠ hmacSHA256 secret key) :
    ∃ e, HS256Token.parse secret (a ++ [0x2E] ++ b) = .error e := by
  cases h : HS256Token.parse secret (a ++ [0x2E] ++ b) with
  | error e => exact ⟨e, rfl⟩
  | ok t =>
    obtain ⟨a', b', hs, hk, hsg, he⟩ := (parse_ok_iff _ _ _).mp h
    have : splitByte 0x2E (a ++ [0x2E] ++ b) = [a, b] :=
      (splitByte_pair_iff _ _ _ _).mpr ⟨by simp, hda, hdb⟩
    rw [this] at hs
    obtain ⟨rfl, rfl⟩ : a = a' ∧ b = b' := by simpa using hs
    rw [(decode_iff_spec _ _).mpr ha] at hk
    rw [(decode_iff_spec _ _).mpr hb] at hsg
    obtain rfl := Option.some.inj hk
    obtain rfl := Option.some.inj hsg
    exact absurd he hsig

/-- The hypotheses of `C02_reject_forged` are met by a token signed with another secret. -/
example : hmacSHA256 b!"other" [1, 2, 3] ≠ hmacSHA256 b!"secret" [1, 2, 3] ∧
    Spec.IsBase64Url b!"AQID" [1, 2, 3] :=
  ⟨by decide +kernel, (decode_iff_spec _ _).mp (by decide +kernel)⟩

/-- **C03.** Any two accepted spellings with the same key are the same token, with the same lookup
key. -/
theorem C03_spellings (secret s₁ s₂ : Str) (t₁ t₂ : HS256Token)
    (h₁ : HS256Token.parse secret s₁ = .ok t₁) (h₂ : HS256Token.parse secret s₂ = .ok t₂)
    (hk : t₁.key = t₂.key) : t₁ = t₂ ∧ t₁.signatureString = t₂.signatureString := by
  obtain ⟨_, _, _, _, _, e₁⟩ := (parse_ok_iff _ _ _).mp h₁
  obtain ⟨_, _, _, _, _, e₂⟩ := (parse_ok_iff _ _ _).mp h₂
  have : t₁ = t₂ := by
    cases t₁; cases t₂
    simp only at hk e₁ e₂ ⊢
    subst hk e₁ e₂
    rfl
  exact ⟨this, by rw [this]⟩

/-- **C03.** The canonical string of an accepted token is accepted as the same token. -/
theorem C03_canonical (secret s : Str) (t : HS256Token) (h : HS256Token.parse secret s = .ok t) :
    HS256Token.parse secret t.string = .ok t := by
  obtain ⟨_, _, _, _, _, e⟩ := (parse_ok_iff _ _ _).mp h
  have : t = HS256Token.fromKey secret t.key := by cases t; simp only at e; subst e; rfl
  rw [this, C01_token_roundtrip]
  rfl

/-- **C03.** Tokens with different signatures have different lookup keys. -/
theorem C03_distinct (t₁ t₂ : HS256Token) :
    t₁.signatureString = t₂.signatureString ↔ t₁.signature = t₂.signature :=
  ⟨b64RawURLEncode_injective, fun h => by simp [HS256Token.signatureString, h]⟩

/-- **C03** (finding). There are several spellings: a line break may be appended to any token. -/
theorem C03_malleable (secret key : Str) :
    HS256Token.parse secret ((HS256Token.fromKey secret key).string ++ [0x0A]) =
      .ok (HS256Token.fromKey secret key) := by
  apply (parse_ok_iff _ _ _).mpr
  refine ⟨b64RawURLEncode key, b64RawURLEncode (hmacSHA256 secret key) ++ [0x0A], ?_,
    b64RawURL_roundtrip _, ?_, rfl⟩
  · apply (splitByte_pair_iff _ _ _ _).mpr
    refine ⟨?_, dot_not_mem_encode _, ?_⟩
    · simp [HS256Token.string, HS256Token.keyString, HS256Token.signatureString, HS256Token.fromKey]
    · simp [dot_not_mem_encode]
  · show b64RawURLDecode (b64RawURLEncode (hmacSHA256 secret key) ++ [0x0A]) = some _
    have : dropNewlines (b64RawURLEncode (hmacSHA256 secret key) ++ [0x0A]) =
        dropNewlines (b64RawURLEncode (hmacSHA256 secret key)) := by simp [dropNewlines]
    unfold b64RawURLDecode
    rw [this]
    exact b64RawURL_roundtrip _

/-- Two spellings that differ in unused bits, for the hypotheses of `C03_spellings`. -/
example : HS256Token.parse b!"s" b!"AA.P2rKEIkHMRQIy6wxkN4OWIJdN7Am1V3bOeEMVRpf8pM" =
      .ok (HS256Token.fromKey b!"s" [0]) ∧
    HS256Token.parse b!"s" b!"AB.P2rKEIkHMRQIy6wxkN4OWIJdN7Am1V3bOeEMVRpf8pN" =
      .ok (HS256Token.fromKey b!"s" [0]) := by
  decide +kernel

/-- **C05.** Generating a token of length `n` reads the random source once. It succeeds exactly if
the source holds `n` more bytes; then the key is exactly these bytes, the token is valid and the
source has advanced by exactly `n`. Otherwise the result is an error. Nothing else changes. -/
theorem C05_generate {σ : Type} (secret : Str) (n : Int) (hn : 0 ≤ n) (s : Shared σ) (l : Local) :
    ∃ res l', exec (HS256Token.generate secret n) s l = (.ret res, s, l') ∧
      l'.w = l.w ∧ l'.tick = l.tick ∧
      (n ≤ l.coins.length →
        ∃ t, res = some t ∧ t.key ++ l'.coins = l.coins ∧ t.key.length = n ∧
          t.valid secret = true) ∧
      (l.coins.length < n → res = none) := by
  have hlt : ¬ n < 0 := by omega
  by_cases hc : n.toNat ≤ l.coins.length
  · refine ⟨some (HS256Token.fromKey secret (l.coins.take n.toNat)),
      { l with coins := l.coins.drop n.toNat }, ?_, rfl, rfl, ?_, ?_⟩
    · simp [HS256Token.generate, hlt, bind, Prog.bind, Prog.readFull, exec, hc, pure]
    · intro _
      refine ⟨_, rfl, ?_, ?_, ?_⟩
      · simp [HS256Token.fromKey]
      · simp [HS256Token.fromKey]; omega
      · simp [HS256Token.valid, HS256Token.equal, HS256Token.fromKey]
    · intro h; omega
  · refine ⟨none, { l with coins := [] }, ?_, rfl, rfl, ?_, ?_⟩
    · simp [HS256Token.generate, hlt, bind, Prog.bind, Prog.readFull, exec, hc, pure]
    · intro h; omega
    · intro _; rfl

/-- **C05.** `MustGenerate` panics exactly when `Generate` fails (or the length is negative), and
otherwise returns the same token. -/
theorem C05_mustGenerate {σ : Type} (secret : Str) (n : Int) (s : Shared σ) (l : Local) :
    let r := exec (HS256Token.mustGenerate (σ := σ) secret n) s l
    (r.1 = .panic ↔ n < 0 ∨ (l.coins.length : Int) < n) ∧
    (0 ≤ n → n ≤ l.coins.length →
      ∃ t, r.1 = .ret t ∧ t.key ++ r.2.2.coins = l.coins ∧ t.key.length = n ∧
        t.valid secret = true) ∧ r.2.1 = s ∧ r.2.2.w = l.w := by
  by_cases hn : n < 0
  · simp [HS256Token.mustGenerate, HS256Token.generate, hn, bind, Prog.bind, exec]
    omega
  · by_cases hc : n.toNat ≤ l.coins.length
    · have h' : ¬ (l.coins.length : Int) < n := by omega
      simp [HS256Token.mustGenerate, HS256Token.generate, hn, bind, Prog.bind, Prog.readFull, exec,
        hc, pure, h', HS256Token.fromKey, HS256Token.valid, HS256Token.equal]
      all_goals omega
    · have h' : (l.coins.length : Int) < n := by omega
      simp [HS256Token.mustGenerate, HS256Token.generate, hn, bind, Prog.bind, Prog.readFull, exec,
        hc, pure, h']
      all_goals omega

/-- A supply of 20 bytes meets the success hypothesis of C05 for length 16, one of 3 the other. -/
example : (16 : Int) ≤ (List.replicate 20 (7 : UInt8)).length ∧
    ((List.replicate 3 (7 : UInt8)).length : Int) < 16 := by decide

end OAuth2

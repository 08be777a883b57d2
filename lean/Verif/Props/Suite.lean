import Verif.Lemmas.SuiteRun
import Verif.Lemmas.SuiteTable

/-!
The integration tests of package oauth2test pass against the server (C55).
-/

namespace OAuth2

open Spec

set_option linter.unusedSimpArgs false

/-- C55: the integration tests pass, if the specification describes the server. -/
theorem C55_suite_passes {spec : Suite.Spec} {required : Scope} {s : Server}
    {handler : Request → Handler Unit} {draws : Nat → Suite.Draw} {T₀ T₁ : Time}
    (hr : Routes spec required handler) (hm : Matches spec s required T₀ T₁)
    (hf : Fair spec s draws T₀ T₁) : Passes handler draws s (Suite.run spec) := by
  obtain ⟨⟨⟩, s', n, h1, h2⟩ := Suite.wp_run handler draws (Suite.wp_all ⟨hr, hm, hf⟩)
  exact ⟨_, n, h1, h2⟩

namespace ServerTest

theorem serves {path seg front : Str} (h1 : parseURL path = some { path := path })
    (h2 : path = front ++ [0x2F] ++ seg) (h3 : 0x2F ∉ seg)
    (h4 : b!"/oauth2/".isPrefixOf path = true) : Serves handler path seg := by
  refine ⟨_, h1, rfl, ⟨h3, .inr ⟨front, h2⟩⟩, fun r hr => ?_⟩
  unfold handler
  rw [hr, h4]
  rfl

theorem routes (keys : Nat → Str) : Routes (spec keys) required handler where
  token := serves (path := b!"/oauth2/token") (front := b!"/oauth2") (by decide +kernel) (by decide)
    (by decide) (by decide)
  authorize := serves (path := b!"/oauth2/authorize") (front := b!"/oauth2") (by decide +kernel)
    (by decide) (by decide) (by decide)
  introspect := fun _ => serves (path := b!"/oauth2/introspect") (front := b!"/oauth2")
    (by decide +kernel) (by decide) (by decide) (by decide)
  revoke := fun _ => serves (path := b!"/oauth2/revoke") (front := b!"/oauth2")
    (by decide +kernel) (by decide) (by decide) (by decide)
  given := by show b!"/api/protected" ≠ []; decide
  resource := ⟨_, rfl, fun r hr => by unfold handler; rw [hr]; rfl⟩

section

variable {keys : Nat → Str} {now : Nat → Time}

theorem genuine (i : Nat) : Genuine (server keys now) (token keys i).string (sig keys i) :=
  ⟨token keys i, C01_token_roundtrip _ _, rfl⟩

theorem forged : Forged (server keys now) b!"invalid" := by
  rintro ⟨k, t, ht, -⟩
  have : HS256Token.parse b!"secret" b!"invalid" = .ok t := ht
  rw [show HS256Token.parse b!"secret" b!"invalid" = .error _ from rfl] at this
  cases this

theorem access (k : Str) : (server keys now).accessTokens.get? k =
    if k = sig keys 3 then some (credential (some []) (now 2 + hour))
    else if k = sig keys 2 then some (credential config.allowedScope (now 1 - hour))
    else if k = sig keys 1 then some (credential config.allowedScope (now 0 + hour))
    else none := by
  unfold server
  simp only [GoMap.get?_set]
  rfl

theorem refresh (k : Str) : (server keys now).refreshTokens.get? k =
    if k = sig keys 6 then some (credential config.allowedScope (now 4 - hour))
    else if k = sig keys 5 then some (credential config.allowedScope (now 3 + hour))
    else none := by
  unfold server
  simp only [GoMap.get?_set]
  rfl

theorem code (k : Str) : (server keys now).authorizationCodes.get? k =
    if k = sig keys 8 then some (credential config.allowedScope (now 5 - hour)) else none := by
  unfold server
  simp only [GoMap.get?_set]
  rfl

theorem password (u p : Str) : Password (server keys now) u p ↔ u = b!"user1" ∧ p = b!"foo" := by
  unfold Password server
  simp only [GoMap.get?_set]
  constructor
  · rintro ⟨e, h, rfl⟩
    split at h
    · cases h
      exact ⟨by assumption, rfl⟩
    · cases h
  · rintro ⟨rfl, rfl⟩
    exact ⟨_, if_pos rfl, rfl⟩

/-- The URL of the first client. -/
def callback : URL where
  scheme := b!"http"
  host := b!"example.com"
  path := b!"/callback1"

theorem redirects : RedirectsMatch (spec keys) where
  primary := ⟨callback, ⟨by
    show parseRequestURI b!"http://example.com/callback1" = some callback
    decide +kernel, by decide, by
    show 0x23 ∉ b!"http://example.com/callback1"
    decide, .inr (by
    show 0x5B ∉ b!"http://example.com/callback1"
    decide)⟩, by decide +kernel⟩
  plain := by
    show queryUnescape b!"http://example.com/callback1" = some b!"http://example.com/callback1"
    decide +kernel
  secondary := ⟨b!"http://example.com/callback2", { callback with path := b!"/callback2" }, by
    show queryUnescape b!"http://example.com/callback2" = some b!"http://example.com/callback2"
    decide +kernel, by decide +kernel, by
    show b!"http://example.com/callback2" ≠ b!"http://example.com/callback1"
    decide⟩
  invalid := by
    show queryUnescape b!"http://invalid.com" ≠ some b!"http://example.com/callback1"
    decide +kernel
  given := by
    show b!"http://example.com/callback1" ≠ [] ∧ b!"http://example.com/callback2" ≠ [] ∧
      b!"http://invalid.com" ≠ []
    decide

theorem fits {T₀ T₁ : Time} (hk : ∀ i < 9, ∀ j < 9, sig keys i = sig keys j → i = j)
    (hnow : ∀ i < 6, now i ≤ T₀ ∧ T₁ ≤ now i + hour) (hle : T₀ ≤ T₁)
    (hd0 : FitsInt64 T₀.unix) (hd1 : FitsInt64 (T₁ + hour).unix) :
    Matches (spec keys) (server keys now) required T₀ T₁ := by
  have past : ∀ i < 6, now i - hour < T₀ := fun i hi => by
    have := (hnow i hi).1
    unfold hour second
    unfold Time at *
    omega
  have dated : ∀ i < 6, FitsInt64 (now i + hour).unix := fun i hi => by
    have := hnow i hi
    exact Suite.fits_between hd0 hd1 (by unfold Time at *; omega) (by unfold Time at *; omega)
  have e : ∀ i < 9, ∀ j < 9, i ≠ j → (sig keys i = sig keys j) = False := fun i hi j hj h =>
    eq_false fun he => h (hk i hi j hj he)
  have foo : Scope.parse b!"foo bar" = some [b!"foo", b!"bar"] := by decide +kernel
  have exc : ¬ Within (Scope.parse b!"foo bar baz") (some [b!"foo", b!"bar"]) := fun h =>
    absurd ((C07_includes _ _).mpr h) (by decide +kernel)
  have suf : Within required (some [b!"foo", b!"bar"]) := (C07_includes _ _).mp (by decide +kernel)
  refine ⟨?_, ?_, ?_, ⟨rfl, by
    show -2 ^ 63 ≤ config.accessTokenLifespan.tdiv second ∧
      config.accessTokenLifespan.tdiv second < 2 ^ 63
    decide +kernel⟩, fun _ => ?_, fun _ => ⟨?_, ?_⟩, fun _ => ?_, fun _ => ?_⟩
  · exact ⟨⟨_, rfl, rfl, rfl, rfl⟩, ⟨_, rfl, rfl⟩, ⟨rfl, rfl⟩, by
      show b!"client1" ≠ [] ∧ b!"client2" ≠ []
      decide, by
      show b!"client1" ≠ b!"client2"
      decide, by
      show 0x3A ∉ b!"client1" ∧ 0x3A ∉ b!"client2"
      decide, by
      show b!"foo" ≠ [] ∧ b!"foo" ≠ b!"invalid"
      decide⟩
  · refine ⟨?_, ?_, ?_, ?_, ?_, ?_, exc⟩
    · show b!"foo bar" ≠ [] ∧ b!"baz" ≠ [] ∧ b!"foo bar baz" ≠ []
      decide
    · show Within (Scope.parse b!"foo bar") (some [b!"foo", b!"bar"])
      rw [foo]
      exact fun i hi => hi
    · show Within required (Scope.parse b!"foo bar")
      rw [foo]
      exact suf
    · show (Scope.parse b!"foo bar").string = b!"foo bar"
      decide +kernel
    · exact valid_of_ascii (by show ∀ c ∈ b!"foo bar", c < 0x80; decide)
    · exact fun h => absurd ((C07_includes _ _).mpr h)
        (by show ¬ Scope.includes (some [b!"foo", b!"bar"]) (Scope.parse b!"baz") = true
            decide +kernel)
  · refine ⟨?_, forged, ⟨_, genuine 0, ?_, ?_⟩, 
      ⟨credential config.allowedScope (now 0 + hour), ⟨_, genuine 1, ?_, ?_⟩, rfl, suf, (hnow 0 ?_).2, dated 0 ?_⟩,
      ⟨credential config.allowedScope (now 1 - hour), ⟨_, genuine 2, ?_, ?_⟩, past 1 ?_⟩, 
      ⟨credential (some []) (now 2 + hour), ⟨_, genuine 3, ?_, ?_⟩, (hnow 2 ?_).2, ?_⟩⟩
    all_goals first
      | (rw [access]; simp [e]; done)
      | (rw [refresh]; simp [e]; done)
      | (show b!"invalid" ≠ []; decide)
      | decide
      | skip
    intro h
    exact absurd ((C07_includes _ _).mpr h)
      (by show ¬ Scope.includes (some []) required = true; decide +kernel)
  · refine ⟨?_, ?_, ?_, ?_⟩
    · show b!"user1" ≠ [] ∧ b!"foo" ≠ []
      decide
    all_goals rw [password]
    · exact ⟨rfl, rfl⟩
    · show ¬ (b!"invalid" = b!"user1" ∧ b!"foo" = b!"foo")
      decide
    · show ¬ (b!"user1" = b!"user1" ∧ b!"invalid" = b!"foo")
      decide
  · exact redirects
  · refine ⟨.inl rfl, ?_, ?_, ?_, ?_⟩
    · show [b!"username", b!"password"].Nodup ∧ [b!"username", b!"password"].Nodup
      decide
    all_goals rw [password]
    · exact ⟨rfl, rfl⟩
    · show ¬ (b!"user1" = b!"user1" ∧ b!"invalid" = b!"foo")
      decide
    · decide
  · refine ⟨?_, forged, ⟨_, genuine 7, ?_⟩, 
      ⟨credential config.allowedScope (now 5 - hour), ⟨_, genuine 8, ?_⟩, rfl, past 5 ?_⟩⟩
    all_goals first
      | (rw [code]; simp [e]; done)
      | (show b!"invalid" ≠ []; decide)
      | decide
  · refine ⟨?_, forged, ⟨_, genuine 4, ?_, ?_⟩, 
      ⟨credential config.allowedScope (now 4 - hour), ⟨_, genuine 6, ?_, ?_⟩, past 4 ?_⟩,
      ⟨credential config.allowedScope (now 3 + hour), ⟨_, genuine 5, ?_, ?_⟩, rfl, (hnow 3 ?_).2, dated 3 ?_, ?_, suf, exc⟩⟩
    all_goals first
      | (rw [access]; simp [e]; done)
      | (rw [refresh]; simp [e]; done)
      | (show b!"invalid" ≠ []; decide)
      | decide
      | skip
    show Scope.string (some [b!"foo", b!"bar"]) = b!"foo bar"
    decide +kernel

end

end ServerTest

/-- C55: `TestServer` of server_test.go passes, whatever random bytes and readings of the clock it
gets, if the signatures of the tokens differ and it does not take longer than codes live. -/
theorem C55_server_test {keys : Nat → Str} {now : Nat → Time} {draws : Nat → Suite.Draw}
    {T₀ T₁ : Time}
    (hk : ∀ i < 9, ∀ j < 9, ServerTest.sig keys i = ServerTest.sig keys j → i = j)
    (hnow : ∀ i < 6, now i ≤ T₀ ∧ T₁ ≤ now i + ServerTest.hour)
    (hf : Fair (ServerTest.spec keys) (ServerTest.server keys now) draws T₀ T₁) :
    Passes ServerTest.handler draws (ServerTest.server keys now)
      (Suite.run (ServerTest.spec keys)) :=
  C55_suite_passes (ServerTest.routes keys) (ServerTest.fits hk hnow (by
    have := hf.clock 0 (by decide) 0
    exact Int.le_trans this.1 this.2) hf.dates.1 hf.dates.2.1) hf

/-! The hypotheses are met: keys that count, and a clock that goes on by a second at each
request. -/

namespace ServerTest

/-- The random bytes and the clock of a run. -/
def run (n : Nat) : Suite.Draw where
  coins := count (2 * n + 9) ++ count (2 * n + 10)
  clock := fun _ => n * second

/-- The clock before the run. -/
def noon (_ : Nat) : Time := 0

theorem count_length (i : Nat) : (count i).length = 16 := rfl

theorem run_signature (n : Nat) {i : Nat} (hi : i < 2) :
    drawnSignature config (run n).coins i = sig count (2 * n + 9 + i) := by
  unfold drawnSignature sig token
  congr 2
  match i, hi with
  | 0, _ => rfl
  | 1, _ => rfl

theorem run_fair : Fair (spec count) (server count noon) run 0 (146 * second) := by
  have e : ∀ {n i j : Nat}, n < requests → i < 2 → j < 9 → sig count (2 * n + 9 + i) ≠ sig count j := by
    intro n i j hn hi hj h
    have := count_distinct (by unfold requests at hn; omega) (by omega) h
    omega
  refine ⟨by decide, fun n hn => Nat.le_refl 32, ?_, ?_, ?_, by decide,
    by unfold FitsInt64; decide +kernel⟩
  · intro n hn m hm i hi j hj h
    rw [show (server count noon).config = config from rfl, run_signature n hi, run_signature m hj] at h
    have := count_distinct (by unfold requests at hn; omega) (by unfold requests at hm; omega) h
    omega
  · intro n hn i hi
    rw [show (server count noon).config = config from rfl, run_signature n hi]
    refine ⟨?_, ?_, ?_, ?_, ?_⟩
    · rw [access]
      simp [e hn hi]
    · rw [refresh]
      simp [e hn hi]
    · rw [code]
      simp [e hn hi]
    · intro x hx h
      have hc : x.2.code = [] := by
        have : ∀ y ∈ (server count noon).accessTokens ++ (server count noon).refreshTokens,
            y.2.code = [] := by
          intro y hy
          rcases List.mem_append.mp hy with hy | hy
          · rcases Suite.Agree.mem_set hy with rfl | ⟨hy, -⟩
            · rfl
            rcases Suite.Agree.mem_set hy with rfl | ⟨hy, -⟩
            · rfl
            rcases Suite.Agree.mem_set hy with rfl | ⟨hy, -⟩
            · rfl
            cases hy
          · rcases Suite.Agree.mem_set hy with rfl | ⟨hy, -⟩
            · rfl
            rcases Suite.Agree.mem_set hy with rfl | ⟨hy, -⟩
            · rfl
            cases hy
        exact this x hx
      have hm := List.mem_of_getElem? (table_sig (i := 2 * n + 9 + i)
        (by unfold requests at hn; omega))
      rw [← h, hc] at hm
      exact absurd hm (by decide +kernel)
    · have key : ∀ j < 9, ¬ Genuine (server count noon) (token count j).string
          (sig count (2 * n + 9 + i)) := by
        rintro j hj ⟨t, ht, h⟩
        obtain ⟨t', ht', h'⟩ := genuine (keys := count) (now := noon) j
        rw [ht] at ht'
        cases ht'
        exact e hn hi hj (h.symm.trans h')
      intro text ht
      simp only [mentioned, List.mem_cons, List.not_mem_nil, or_false] at ht
      rcases ht with rfl | rfl | rfl | rfl | rfl | rfl | rfl | rfl | rfl
      · exact key 0 (by omega)
      · exact key 1 (by omega)
      · exact key 2 (by omega)
      · exact key 3 (by omega)
      · exact key 4 (by omega)
      · exact key 5 (by omega)
      · exact key 6 (by omega)
      · exact key 7 (by omega)
      · exact key 8 (by omega)
  · intro n hn i
    show (0 : Int) ≤ n * second ∧ n * second ≤ 146 * second
    unfold second requests at *
    omega

/-- The run passes. -/
theorem run_passes : Passes handler run (server count noon) (Suite.run (spec count)) :=
  C55_server_test (fun i hi j hj h => count_distinct (by omega) (by omega) h)
    (fun i hi => by
      show (0 : Int) ≤ 0 ∧ 146 * second ≤ 0 + hour
      decide) run_fair

end ServerTest

end OAuth2

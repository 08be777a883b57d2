import Verif.Props.Redirects
/-
C56: what a client that form-decodes the fragment of a redirect once finds there.
-/

namespace OAuth2

open Spec

variable {σ : Type}

theorem escape_join (mode : EncMode) (sep : Str) (hs : escape mode sep = sep) (l : List Str) :
    escape mode (joinStr sep l) = joinStr sep (l.map (escape mode)) := by
  induction l with
  | nil => rfl
  | cons x l ih =>
    cases l with
    | nil => rfl
    | cons y l =>
      simp only [joinStr, List.map_cons, escape_append, hs] at ih ⊢
      rw [ih]

/-- What escaping a byte twice gives. -/
theorem escape_twice_byte (c : UInt8) : escape .fragment (escape .queryComponent [c]) =
    escape .queryComponent (percentEscaped [c]) := by
  revert c
  apply forall_u8
  decide +kernel

/-- Escaping a text twice is the same as percent-escaping it and form-escaping the result. -/
theorem escape_twice (s : Str) :
    escape .fragment (queryEscape s) = queryEscape (percentEscaped s) := by
  unfold queryEscape
  induction s with
  | nil => rfl
  | cons c s ih =>
    rw [show c :: s = [c] ++ s from rfl, escape_append, escape_append, ih, escape_twice_byte,
      ← escape_append]
    congr 1
    unfold percentEscaped
    rw [List.flatMap_append]

theorem percentEscaped_inj {a b : Str} (h : percentEscaped a = percentEscaped b) : a = b := by
  have h1 : escape .fragment (queryEscape a) = escape .fragment (queryEscape b) := by
    rw [escape_twice, escape_twice, h]
  have h2 := congrArg (unescape .fragment) h1
  rw [unescape_escape .fragment (by decide) (by decide),
    unescape_escape .fragment (by decide) (by decide)] at h2
  have h3 := congrArg queryUnescape (Option.some.inj h2)
  rw [queryUnescape_queryEscape, queryUnescape_queryEscape] at h3
  exact Option.some.inj h3

theorem percentEscaped_plain {s : Str} (h : ∀ c ∈ s, Plain c) : percentEscaped s = s := by
  induction s with
  | nil => rfl
  | cons c s ih =>
    unfold percentEscaped at *
    rw [List.flatMap_cons, ih (fun c hc => h c (List.mem_cons_of_mem _ hc)), if_pos (h c (by simp))]
    rfl

theorem percent_length (c : UInt8) : (percent c).length = 3 := rfl

theorem percentEscaped_length (s : Str) : s.length ≤ (percentEscaped s).length := by
  induction s with
  | nil => exact Nat.le_refl _
  | cons c s ih =>
    unfold percentEscaped at *
    rw [List.flatMap_cons, List.length_append, List.length_cons]
    split
    · simp only [List.length_singleton]; omega
    · rw [percent_length]; omega

/-- A text that is not plain gets longer, and does not become plain. -/
theorem percentEscaped_grows {s : Str} (h : ¬ ∀ c ∈ s, Plain c) :
    s.length < (percentEscaped s).length ∧ ¬ ∀ c ∈ percentEscaped s, Plain c := by
  induction s with
  | nil => exact absurd (by simp) h
  | cons c s ih =>
    have hl := percentEscaped_length s
    unfold percentEscaped at *
    rw [List.flatMap_cons, List.length_append, List.length_cons]
    by_cases hc : Plain c
    · have hs : ¬ ∀ c ∈ s, Plain c := fun hs => h (by
        intro d hd
        rcases List.mem_cons.mp hd with rfl | hd
        · exact hc
        · exact hs d hd)
      obtain ⟨h1, h2⟩ := ih hs
      rw [if_pos hc]
      refine ⟨by simp only [List.length_singleton]; omega, fun h => h2 fun d hd => ?_⟩
      exact h d (List.mem_append_right _ hd)
    · rw [if_neg hc]
      refine ⟨by rw [percent_length]; omega, fun h => ?_⟩
      exact absurd (h 0x25 (List.mem_append_left _ (by simp [percent]))) (by decide)

/-- The fragment, decoded once. -/
theorem fragment_pairs (f : Values) : parseQuery (escape .fragment f.encode) =
    ((f.pairs.map fun p => (percentEscaped p.1, percentEscaped p.2)).foldl
      (fun v p => Values.add v p.1 p.2) [], false) := by
  rw [← parseQuery_join, Values.encode_eq, escape_join _ _ (by decide)]
  congr 2
  rw [List.map_map, List.map_map]
  apply List.map_congr_left
  intro p _
  simp only [Function.comp, encPair, escape_append, escape_twice]
  rfl

/-- The fragment of a redirect as an observer that looks at the text finds it. -/
theorem fragment_text {uri : Str} {u : URL} {params : GoMap Str} (hp : params.keys.Nodup)
    (hne : params ≠ []) (hu : RedirectURI uri u) (s : Shared σ) (l : Local) (hw : l.w = {}) :
    (exec (writeRedirect uri params true) s l).2.2.w.result.statusCode = 303 ∧
    ∃ front, (exec (writeRedirect uri params true) s l).2.2.w.result.header.all b!"Location" =
        [front ++ [0x23] ++ escape .fragment
          (params.foldl (fun f p => Values.add f p.1 p.2) []).encode] ∧ (0x23 : UInt8) ∉ front := by
  obtain ⟨L, v, hL, _, _, h3⟩ := location_fragment hp hu.parsed hu.absolute hu.no_hash hu.ascii
  obtain ⟨hs, hloc⟩ := writeRedirect_result hL s l hw
  refine ⟨hs, ?_⟩
  have h3 := h3 hne
  unfold rawFragment at h3
  cases hcut : cutByte 0x23 L with
  | none => rw [hcut] at h3; cases h3
  | some x =>
    obtain ⟨front, rest⟩ := x
    rw [hcut] at h3
    have h3 : rest = _ := Option.some.inj h3
    subst h3
    obtain ⟨h4, h5⟩ := (cutByte_some_iff _ _ _ _).mp hcut
    exact ⟨front, by rw [hloc, h4]; simp, h5⟩

theorem decoded_once {params : GoMap Str} (hp : params.keys.Nodup) {q : Values × Bool}
    (hq : parseQuery (escape .fragment
      (params.foldl (fun f p => Values.add f p.1 p.2) []).encode) = q) :
    q.2 = false ∧
      (∀ k, q.1.all (percentEscaped k) = (params.get? k).toList.map percentEscaped) ∧
      ∀ j, q.1.all j ≠ [] → ∃ k, j = percentEscaped k ∧ (params.get? k).isSome := by
  obtain ⟨f, hf⟩ : ∃ f, params.foldl (fun f p => Values.add f p.1 p.2) [] = f := ⟨_, rfl⟩
  have hnd : f.keys.Nodup := by
    rw [← hf]; exact Values.nodup_foldl_add _ List.nodup_nil
  have hall : ∀ k, f.all k = (params.get? k).toList := by
    intro k; rw [← hf]; rw [params_all hp]; rfl
  rw [hf, fragment_pairs] at hq
  subst hq
  refine ⟨rfl, fun k => ?_, fun j hj => ?_⟩
  · simp only
    rw [Values.all_foldl_add, List.filter_map, List.map_map]
    have : (fun p : Str × Str => decide (p.1 = percentEscaped k)) ∘
        (fun p : Str × Str => (percentEscaped p.1, percentEscaped p.2)) =
        fun p => decide (p.1 = k) := by
      funext p
      simp only [Function.comp, decide_eq_decide]
      exact ⟨percentEscaped_inj, fun h => by rw [h]⟩
    rw [this, ← hall, ← Values.pairs_filter hnd, List.map_map]
    rfl
  · simp only at hj
    rw [Values.all_foldl_add] at hj
    obtain ⟨x, hx⟩ := List.exists_mem_of_ne_nil _ hj
    rcases List.mem_append.mp hx with hx | hx
    · cases hx
    · obtain ⟨p, hp1, _⟩ := List.mem_map.mp hx
      obtain ⟨hp1, hp2⟩ := List.mem_filter.mp hp1
      obtain ⟨p', hp3, rfl⟩ := List.mem_map.mp hp1
      refine ⟨p'.1, (of_decide_eq_true hp2).symm, ?_⟩
      unfold Values.pairs at hp3
      obtain ⟨k, _, hk⟩ := List.mem_flatMap.mp hp3
      obtain ⟨y, hy, rfl⟩ := List.mem_map.mp hk
      rw [hall, Option.mem_toList] at hy
      rw [Option.mem_def.mp hy]
      rfl

/-- **C56.** A redirect with parameters in the fragment has a `Location` with one `#`-separated
text that a client can form-decode. A client that does this once finds each parameter under its
percent-escaped name with its percent-escaped value, and nothing else. -/
theorem C56_once_decoded {uri : Str} {u : URL} {params : GoMap Str} (hp : params.keys.Nodup)
    (hne : params ≠ []) (hu : RedirectURI uri u) (s : Shared σ) (l : Local) (hw : l.w = {}) :
    let res := (exec (writeRedirect uri params true) s l).2.2.w.result
    res.statusCode = 303 ∧
    ∃ front fragment, res.header.all b!"Location" = [front ++ [0x23] ++ fragment] ∧
      (0x23 : UInt8) ∉ front ∧ (parseQuery fragment).2 = false ∧
      (∀ k, (parseQuery fragment).1.all (percentEscaped k) =
        (params.get? k).toList.map percentEscaped) ∧
      ∀ j, (parseQuery fragment).1.all j ≠ [] →
        ∃ k, j = percentEscaped k ∧ (params.get? k).isSome := by
  obtain ⟨h1, front, h2, h3⟩ := fragment_text hp hne hu s l hw
  exact ⟨h1, front, _, h2, h3, decoded_once hp rfl⟩

/-- **C56.** Such a client finds exactly the parameters if and only if all names and values are
plain: letters, digits, `-`, `_`, `.`, `~` and spaces. -/
theorem C56_exact_iff_plain {uri : Str} {u : URL} {params : GoMap Str} (hp : params.keys.Nodup)
    (hne : params ≠ []) (hu : RedirectURI uri u) (s : Shared σ) (l : Local) (hw : l.w = {}) {front fragment : Str}
    (hl : (exec (writeRedirect uri params true) s l).2.2.w.result.header.all b!"Location" =
      [front ++ [0x23] ++ fragment]) (hf : (0x23 : UInt8) ∉ front) :
    (∀ k, (parseQuery fragment).1.all k = (params.get? k).toList) ↔
      ∀ k x, params.get? k = some x → (∀ c ∈ k, Plain c) ∧ ∀ c ∈ x, Plain c := by
  obtain ⟨_, front', h2, h3⟩ := fragment_text hp hne hu s l hw
  have hfr : fragment = escape .fragment
      (params.foldl (fun f p => Values.add f p.1 p.2) []).encode := by
    rw [hl] at h2
    have h4 := congrArg (cutByte 0x23) (List.cons.inj h2).1
    rw [List.append_assoc, List.append_assoc, List.singleton_append, List.singleton_append,
      cutByte_append _ hf, cutByte_append _ h3] at h4
    exact (Prod.mk.inj (Option.some.inj h4)).2
  obtain ⟨_, h5, h6⟩ := decoded_once hp (hfr ▸ rfl : parseQuery _ = parseQuery fragment)
  constructor
  · intro hex
    have hstep : ∀ k x, params.get? k = some x →
        params.get? (percentEscaped k) = some (percentEscaped x) := by
      intro k x hk
      have := h5 k
      rw [hex, hk] at this
      cases hg : params.get? (percentEscaped k) with
      | none => rw [hg] at this; cases this
      | some y => rw [hg] at this; rw [(List.cons.inj this).1]
    have hkeys : ∀ k x, params.get? k = some x → ∀ c ∈ k, Plain c := by
      intro k x hk
      apply Classical.byContradiction
      intro hc
      have grow : ∀ n : Nat, ∃ k x, params.get? k = some x ∧ n ≤ k.length ∧ ¬ ∀ c ∈ k, Plain c := by
        intro n
        induction n with
        | zero => exact ⟨k, x, hk, Nat.zero_le _, hc⟩
        | succ n ih =>
          obtain ⟨k, x, h1, h2, h3⟩ := ih
          obtain ⟨h4, h5⟩ := percentEscaped_grows h3
          exact ⟨_, _, hstep k x h1, by omega, h5⟩
      have bound : ∀ m : GoMap Str, ∃ n, ∀ k x, m.get? k = some x → k.length < n := by
        intro m
        induction m with
        | nil => exact ⟨0, fun k x h => by cases h⟩
        | cons p m ih =>
          obtain ⟨n, hn⟩ := ih
          refine ⟨max n (p.1.length + 1), fun k x h => ?_⟩
          rw [GoMap.get?_cons] at h
          split at h
          · rename_i he
            subst he
            omega
          · have := hn k x h
            omega
      obtain ⟨n, hn⟩ := bound params
      obtain ⟨k, x, h1, h2, _⟩ := grow n
      exact absurd (hn k x h1) (by omega)
    intro k x hk
    refine ⟨hkeys k x hk, ?_⟩
    have := hstep k x hk
    rw [percentEscaped_plain (hkeys k x hk), hk] at this
    apply Classical.byContradiction
    intro hc
    have := (percentEscaped_grows hc).1
    rw [← Option.some.inj ‹some x = some (percentEscaped x)›] at this
    omega
  · intro hpl k
    cases hk : params.get? k with
    | some x =>
      obtain ⟨h7, h8⟩ := hpl k x hk
      have := h5 k
      rw [percentEscaped_plain h7, hk] at this
      rw [this]
      exact congrArg (fun y => [y]) (percentEscaped_plain h8)
    | none =>
      apply Classical.byContradiction
      intro hc
      obtain ⟨k', rfl, h7⟩ := h6 k hc
      obtain ⟨x, hx⟩ := Option.isSome_iff_exists.mp h7
      rw [percentEscaped_plain (hpl k' x hx).1, hx] at hk
      cases hk

/-- Non-vacuity: a `state` with a slash and a percent sign. -/
example : RedirectURI b!"https://example.com/cb?x=1"
      { scheme := b!"https", host := b!"example.com", path := b!"/cb", rawQuery := b!"x=1" } ∧
    GoMap.keys [(b!"state", b!"a/b%c d")] = [b!"state"] ∧
    percentEscaped b!"a/b%c d" = b!"a%2Fb%25c d" ∧
    redirectLocation b!"https://example.com/cb?x=1" [(b!"state", b!"a/b%c d")] true =
      some (b!"https://example.com/cb?x=1" ++ [0x23] ++ b!"state=a%252Fb%2525c+d") ∧
    (parseQuery b!"state=a%252Fb%2525c+d").1.all b!"state" = [b!"a%2Fb%25c d"] := by
  refine ⟨⟨by decide +kernel, by decide, by decide, .inl (by decide)⟩, by decide, by decide +kernel,
    by decide +kernel, by decide +kernel⟩

end OAuth2

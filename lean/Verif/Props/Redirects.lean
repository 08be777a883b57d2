import Verif.Lemmas.UrlString
import Verif.Lemmas.Exec
import Verif.Model.Authorization
import Verif.Model.Token
/-
C14, C15, C16, C17: redirects.
-/

set_option linter.unusedSimpArgs false

namespace OAuth2

variable {σ : Type}

theorem filter_of_nodup {params : GoMap Str} (h : params.keys.Nodup) (k : Str) :
    (params.filter (fun p => p.1 = k)).map (·.2) = (params.get? k).toList := by
  induction params with
  | nil => rfl
  | cons p params ih =>
    obtain ⟨j, x⟩ := p
    have hn := List.nodup_cons.mp (show (j :: GoMap.keys params).Nodup from h)
    rw [GoMap.get?_cons]
    by_cases hj : j = k
    · subst hj
      have := (GoMap.get?_eq_none_iff params j).mpr hn.1
      have ih := ih hn.2
      rw [this] at ih
      simpa using ih
    · simpa [hj] using ih hn.2

theorem params_all {params : GoMap Str} (h : params.keys.Nodup) (v : Values) (k : Str) :
    (params.foldl (fun f p => Values.add f p.1 p.2) v).all k =
      v.all k ++ (params.get? k).toList := by
  rw [Values.all_foldl_add, filter_of_nodup h]

theorem encode_noCTL (v : Values) : NoCTL v.encode := by
  have h : ∀ c : UInt8, isQueryEsc c = true → ¬ c < 0x20 ∧ c ≠ 0x7F :=
    forall_u8 (by decide +kernel)
  intro c hc
  rcases encode_alphabet' v c hc with h1 | rfl | rfl
  · exact h c h1
  · decide
  · decide

theorem encode_no_hash (v : Values) : (0x23 : UInt8) ∉ v.encode := by
  intro hc
  rcases encode_alphabet' v _ hc with h | h | h <;> revert h <;> decide +kernel

theorem parsed_of_request {uri : Str} {u : URL} (h : parseRequestURI uri = some u)
    (hstar : uri ≠ b!"*") : Parsed uri u := parseRaw_parsed h hstar

theorem redirectRecorder_result (location : Str) :
    (redirectRecorder {} location).result =
      { statusCode := 303
        header := [(b!"Referrer-Policy", [b!"origin"]), (b!"Pragma", [b!"no-cache"]),
          (b!"Cache-Control", [b!"no-store"]), (b!"Location", [location])]
        body := [] } := by
  have h1 : ((((Header.add [] b!"Location" location).set b!"Cache-Control" b!"no-store").set
      b!"Pragma" b!"no-cache").set b!"Referrer-Policy" b!"origin") =
      [(b!"Referrer-Policy", [b!"origin"]), (b!"Pragma", [b!"no-cache"]),
          (b!"Cache-Control", [b!"no-store"]), (b!"Location", [location])] := by
    rfl
  unfold redirectRecorder
  rw [h1]
  rfl

theorem writeRedirect_result {uri : Str} {params : GoMap Str} {useFragment : Bool} {L : Str}
    (h : redirectLocation uri params useFragment = some L) (s : Shared σ) (l : Local)
    (hw : l.w = {}) :
    (exec (writeRedirect uri params useFragment) s l).2.2.w.result.statusCode = 303 ∧
    (exec (writeRedirect uri params useFragment) s l).2.2.w.result.header.all b!"Location" = [L] := by
  rw [exec_writeRedirect, h]
  simp only [hw, redirectRecorder_result]
  exact ⟨trivial, rfl⟩

/-- The reparsing facts behind C14, about the text of the header. -/
theorem location_query {uri : Str} {u : URL} {params : GoMap Str} (hp : params.keys.Nodup)
    (hu : parseRequestURI uri = some u) (hstar : uri ≠ b!"*")
    (hascii : (∀ c ∈ uri, c < 0x80) ∨ (0x5B : UInt8) ∉ uri) :
    ∃ L, redirectLocation uri params false = some L ∧
      (∃ v, parseRequestURI L = some v ∧ Spec.ExtendsQuery u params v) ∧
      (u.scheme ≠ [] → (0x23 : UInt8) ∉ uri →
        ∃ v, parseURL L = some v ∧ Spec.ExtendsQuery u params v) := by
  have hpar := parsed_of_request hu hstar
  obtain ⟨q, hq⟩ : ∃ q, params.foldl (fun q p => Values.add q p.1 p.2) u.query = q := ⟨_, rfl⟩
  have hnd : q.keys.Nodup := by
    rw [← hq]; exact Values.nodup_foldl_add _ (parseQuery_nodup _)
  have hall : ∀ k, q.all k = u.query.all k ++ (params.get? k).toList := by
    intro k; rw [← hq]; exact params_all hp _ k
  have hL : redirectLocation uri params false = some
      (u.base ++ if u.forceQuery = true ∨ q.encode ≠ [] then 0x3F :: q.encode else []) := by
    unfold redirectLocation
    rw [hu]
    simp only [Bool.false_eq_true, if_false, hq, URL.string, hpar.fragment, ne_eq, not_true,
      List.append_nil]
    rfl
  have hquery : ∀ v : URL, v.rawQuery = q.encode → ∀ k, v.query.all k = q.all k := by
    intro v hv k
    unfold URL.query
    rw [hv]
    exact (parseQuery_encode hnd).2 k
  refine ⟨_, hL, ?_, ?_⟩
  · obtain ⟨v, h1, h2, h3, h4⟩ := reparse hpar hascii true (Or.inl rfl) q.encode u.forceQuery
      (encode_noCTL q)
    exact ⟨v, h1, h2, h4, fun k => by rw [hquery v h3, hall]⟩
  · intro hs hh
    obtain ⟨v, h1, h2, h3, h4⟩ := reparse hpar hascii false (Or.inr hs) q.encode u.forceQuery
      (encode_noCTL q)
    refine ⟨v, ?_, h2, h4, fun k => by rw [hquery v h3, hall]⟩
    unfold parseURL
    have hno : (0x23 : UInt8) ∉
        (u.base ++ if u.forceQuery = true ∨ q.encode ≠ [] then 0x3F :: q.encode else []) := by
      rw [List.mem_append, not_or]
      refine ⟨base_no_hash hpar hh, ?_⟩
      split
      · simp only [List.mem_cons, not_or]
        exact ⟨by decide, encode_no_hash q⟩
      · simp
    rw [(cutByte_none_iff _ _).mpr hno]
    exact h1

/-- **C14.** A query redirect answers 303 with exactly one `Location`. Read as a request URI it is
the redirect URI with the parameters added: same target, the old query parameters kept, every new
parameter with exactly its value. For an absolute redirect URI without `#` a client that uses
`url.Parse` reads the same. The hypothesis on `uri` excludes non-ASCII bytes in bracketed hosts,
which Go itself cannot parse back after printing. -/
theorem C14_query_redirect {uri : Str} {u : URL} {params : GoMap Str} (hp : params.keys.Nodup)
    (hu : parseRequestURI uri = some u) (hstar : uri ≠ b!"*")
    (hascii : (∀ c ∈ uri, c < 0x80) ∨ (0x5B : UInt8) ∉ uri)
    (s : Shared σ) (l : Local) (hw : l.w = {}) :
    let res := (exec (writeRedirect uri params false) s l).2.2.w.result
    res.statusCode = 303 ∧
    ∃ L, res.header.all b!"Location" = [L] ∧
      (∃ v, parseRequestURI L = some v ∧ Spec.ExtendsQuery u params v) ∧
      (u.scheme ≠ [] → (0x23 : UInt8) ∉ uri →
        ∃ v, parseURL L = some v ∧ Spec.ExtendsQuery u params v) := by
  obtain ⟨L, hL, h1, h2⟩ := location_query hp hu hstar hascii
  obtain ⟨hs, hloc⟩ := writeRedirect_result hL s l hw
  exact ⟨hs, L, hloc, h1, h2⟩

/-- **C14**, as a client reads it: a parameter the redirect URI's own query does not mention is
read back with `Query().Get` as exactly the value written. -/
theorem C14_query_get {uri : Str} {u : URL} {params : GoMap Str} (hp : params.keys.Nodup)
    (hu : parseRequestURI uri = some u) (habs : u.scheme ≠ []) (hh : (0x23 : UInt8) ∉ uri)
    (hascii : (∀ c ∈ uri, c < 0x80) ∨ (0x5B : UInt8) ∉ uri)
    {k x : Str} (hk : params.get? k = some x) (hfree : u.query.all k = []) :
    ∃ L v, redirectLocation uri params false = some L ∧ parseURL L = some v ∧
      v.query.get k = x := by
  have hstar : uri ≠ b!"*" := by
    rintro rfl
    revert habs
    have : u = { path := b!"*" } := by
      have h : parseRequestURI b!"*" = some { path := b!"*" } := by decide
      rw [hu] at h
      exact Option.some.inj h
    subst this
    simp
  obtain ⟨L, hL, _, h2⟩ := location_query hp hu hstar hascii
  obtain ⟨v, hv, _, _, hall⟩ := h2 habs hh
  refine ⟨L, v, hL, hv, ?_⟩
  rw [Values.get_eq, hall, hfree, hk]
  rfl

/-- **C14**, the other case: with a URI that does not parse nothing at all is written and the
caller is told. -/
theorem C14_unparsable {uri : Str} (hu : parseRequestURI uri = none) (params : GoMap Str)
    (useFragment : Bool) (s : Shared σ) (l : Local) :
    exec (writeRedirect uri params useFragment) s l = (.ret false, s, l) := by
  rw [exec_writeRedirect]
  unfold redirectLocation
  rw [hu]

/-- A concrete redirect: an existing parameter is kept, a value with `&`, `=`, `#`, `%` and a
space survives. -/
example : ((redirectLocation b!"https://user@example.com:80/a%2Fb?x=1&x=2"
      [(b!"state", b!"a&b=#% c"), (b!"code", b!"AB.cd")] false).bind parseURL).map
      (fun v => (v.host, v.path, v.query.all b!"x", v.query.get b!"state", v.query.get b!"code")) =
    some (b!"example.com:80", b!"/a/b", [b!"1", b!"2"], b!"a&b=#% c", b!"AB.cd") := by
  decide +kernel

example : ∃ u, parseRequestURI b!"https://user@example.com:80/a%2Fb?x=1&x=2" = some u ∧
    u.scheme ≠ [] ∧ u.query.all b!"state" = [] := ⟨_, rfl, by decide, by decide +kernel⟩

/-- Why C14 asks for a free name: a registered URI that already has a `state` parameter shadows
the one the server adds. -/
theorem C14_shadow : ((redirectLocation b!"https://example.com/?state=old"
      [(b!"state", b!"new")] false).bind parseURL).map (·.query.get b!"state") =
    some b!"old" := by decide +kernel

/-- Why C14 excludes them: a bracketed host with a non-ASCII zone is accepted as a redirect URI
but the `Location` made from it no longer parses. -/
theorem C14_zone : (parseRequestURI (b!"http://[::1%25" ++ [0xC3, 0xA9] ++ b!"]/")).isSome ∧
    ∃ L, redirectLocation (b!"http://[::1%25" ++ [0xC3, 0xA9] ++ b!"]/") [] false = some L ∧
      parseURL L = none := ⟨by decide +kernel, _, rfl, by decide +kernel⟩

/-! ### C15 -/

/-- The text after the first `#`. -/
def rawFragment (location : Str) : Option Str := (cutByte 0x23 location).map (·.2)

theorem location_fragment {uri : Str} {u : URL} {params : GoMap Str} (hp : params.keys.Nodup)
    (hu : parseRequestURI uri = some u) (habs : u.scheme ≠ []) (hh : (0x23 : UInt8) ∉ uri)
    (hascii : (∀ c ∈ uri, c < 0x80) ∨ (0x5B : UInt8) ∉ uri) :
    ∃ L v, redirectLocation uri params true = some L ∧ parseURL L = some v ∧
      Spec.ExtendsFragment u params v ∧
      (params ≠ [] → rawFragment L = some
        (escape .fragment (params.foldl (fun f p => Values.add f p.1 p.2) []).encode)) := by
  have hstar : uri ≠ b!"*" := by
    rintro rfl
    have h : parseRequestURI b!"*" = some { path := b!"*" } := by decide
    rw [hu] at h
    rw [Option.some.inj h] at habs
    exact habs rfl
  have hpar := parsed_of_request hu hstar
  obtain ⟨f, hf⟩ : ∃ f, params.foldl (fun f p => Values.add f p.1 p.2) [] = f := ⟨_, rfl⟩
  have hnd : f.keys.Nodup := by
    rw [← hf]; exact Values.nodup_foldl_add _ List.nodup_nil
  have hall : ∀ k, f.all k = (params.get? k).toList := by
    intro k; rw [← hf]; rw [params_all hp]; rfl
  obtain ⟨B, hB⟩ : ∃ B, (u.base ++ if u.forceQuery = true ∨ u.rawQuery ≠ [] then 0x3F :: u.rawQuery
    else []) = B := ⟨_, rfl⟩
  have hL : redirectLocation uri params true = some
      (B ++ if f.encode ≠ [] then 0x23 :: escape .fragment f.encode else []) := by
    unfold redirectLocation
    rw [hu, ← hB]
    simp only [if_true, hf, URL.string]
    rfl
  have hno : (0x23 : UInt8) ∉ B := by
    rw [← hB, List.mem_append, not_or]
    refine ⟨base_no_hash hpar hh, ?_⟩
    split
    · simp only [List.mem_cons, not_or]
      exact ⟨by decide, fun hm => hh (hpar.query.2.2 _ hm)⟩
    · simp
  obtain ⟨v, h1, h2, h3, h4⟩ := reparse hpar hascii false (Or.inr habs) u.rawQuery u.forceQuery
    hpar.query.2.1
  rw [hB] at h1
  refine ⟨_, { v with fragment := f.encode }, hL, ?_, ⟨h2, h3, ?_⟩, ?_⟩
  · unfold parseURL
    by_cases he : f.encode = []
    · rw [he]
      simp only [ne_eq, not_true, if_false, List.append_nil]
      rw [(cutByte_none_iff _ _).mpr hno]
      simp only [h1, Option.some.injEq]
      rw [← h4]
    · rw [if_pos he, cutByte_append _ hno]
      simp only [h1, Option.bind_eq_bind, Option.bind_some]
      have hne : escape .fragment f.encode ≠ [] := by
        intro h
        have := unescape_escape .fragment (by decide) (by decide) f.encode
        rw [h] at this
        exact he (Option.some.inj this).symm
      rw [if_neg hne, unescape_escape .fragment (by decide) (by decide)]
      rfl
  · refine ⟨(parseQuery_encode hnd).1, fun k => ?_⟩
    rw [(parseQuery_encode hnd).2, hall]
  · intro hne
    have he : f.encode ≠ [] := by
      intro he
      obtain ⟨⟨k, x⟩, ps, rfl⟩ := List.exists_cons_of_ne_nil hne
      have h := hall k
      have h' := (parseQuery_encode hnd).2 k
      rw [he] at h'
      rw [← h'] at h
      rw [GoMap.get?_cons, if_pos rfl] at h
      have hnil : (parseQuery []).1 = [] := by decide
      rw [hnil] at h
      cases h
    unfold rawFragment
    rw [if_pos he, cutByte_append _ hno, hf]
    rfl

/-- **C15.** A fragment redirect answers 303 with exactly one `Location`. A client that uses
`url.Parse` finds the redirect URI, with its query unchanged, and a fragment that form-decodes to
exactly the parameters. -/
theorem C15_fragment_redirect {uri : Str} {u : URL} {params : GoMap Str} (hp : params.keys.Nodup)
    (hu : parseRequestURI uri = some u) (habs : u.scheme ≠ []) (hh : (0x23 : UInt8) ∉ uri)
    (hascii : (∀ c ∈ uri, c < 0x80) ∨ (0x5B : UInt8) ∉ uri)
    (s : Shared σ) (l : Local) (hw : l.w = {}) :
    let res := (exec (writeRedirect uri params true) s l).2.2.w.result
    res.statusCode = 303 ∧
    ∃ L v, res.header.all b!"Location" = [L] ∧ parseURL L = some v ∧
      Spec.ExtendsFragment u params v := by
  obtain ⟨L, v, hL, h1, h2, _⟩ := location_fragment hp hu habs hh hascii
  obtain ⟨hs, hloc⟩ := writeRedirect_result hL s l hw
  exact ⟨hs, L, v, hloc, h1, h2⟩

/-- Bytes `QueryEscape` leaves alone, or a space. -/
def plainByte (c : UInt8) : Bool := isAlnum c || b!"-_.~ ".contains c

theorem queryEscape_plain {s : Str} (h : ∀ c ∈ s, plainByte c = true) :
    ∀ c ∈ queryEscape s, shouldEscape c .fragment = false ∧ c ≠ 0x25 := by
  have hp : ∀ c : UInt8, plainByte c = true → c ≠ 0x20 →
      shouldEscape c .queryComponent = false ∧ shouldEscape c .fragment = false ∧ c ≠ 0x25 :=
    forall_u8 (by decide +kernel)
  unfold queryEscape
  induction s with
  | nil => intro c hc; cases hc
  | cons d s ih =>
    intro c hc
    have ih := ih (fun c hc => h c (List.mem_cons_of_mem _ hc))
    unfold escape at hc
    by_cases hd : d = 0x20
    · simp only [hd, and_self, if_true, List.mem_cons] at hc
      rcases hc with rfl | hc
      · decide
      · exact ih c hc
    · obtain ⟨h1, h2, h3⟩ := hp d (h d (by simp)) hd
      simp only [hd, false_and, if_false, h1, Bool.false_eq_true, List.mem_cons] at hc
      rcases hc with rfl | hc
      · exact ⟨h2, h3⟩
      · exact ih c hc

theorem escape_fragment_id {s : Str} (h : ∀ c ∈ s, shouldEscape c .fragment = false) :
    escape .fragment s = s := by
  induction s with
  | nil => rfl
  | cons c s ih =>
    have := h c (by simp)
    unfold escape
    simp [this, ih (fun c hc => h c (List.mem_cons_of_mem _ hc))]

/-- **C15**, for a user agent that does what RFC 6749 asks and form-decodes the fragment of the
`Location` text once. Full statement: this for all parameters. It fails in general
(`C15_double_escape`); it holds when names and values consist of letters, digits, `-`, `_`, `.`,
`~` and spaces, as those of tokens, numbers and most scopes do. -/
theorem C15_single_decode_partial {uri : Str} {u : URL} {params : GoMap Str}
    (hp : params.keys.Nodup) (hne : params ≠ [])
    (hu : parseRequestURI uri = some u) (habs : u.scheme ≠ []) (hh : (0x23 : UInt8) ∉ uri)
    (hascii : (∀ c ∈ uri, c < 0x80) ∨ (0x5B : UInt8) ∉ uri)
    (hplain : ∀ p ∈ params, ∀ c ∈ p.1 ++ p.2, plainByte c = true) :
    ∃ L frag, redirectLocation uri params true = some L ∧ rawFragment L = some frag ∧
      ∀ k, (parseQuery frag).1.all k = (params.get? k).toList := by
  obtain ⟨L, v, hL, _, _, hraw⟩ := location_fragment hp hu habs hh hascii
  refine ⟨L, _, hL, hraw hne, ?_⟩
  obtain ⟨f, hf⟩ : ∃ f, params.foldl (fun f p => Values.add f p.1 p.2) [] = f := ⟨_, rfl⟩
  have hnd : f.keys.Nodup := by
    rw [← hf]; exact Values.nodup_foldl_add _ List.nodup_nil
  have hall : ∀ k, f.all k = (params.get? k).toList := by
    intro k; rw [← hf]; rw [params_all hp]; rfl
  rw [hf, escape_fragment_id ?_]
  · intro k; rw [(parseQuery_encode hnd).2, hall]
  intro c hc
  rw [Values.encode_eq] at hc
  rcases joinStr_mem hc with h | ⟨s, hs, hc⟩
  · simp at h; subst h; decide
  · obtain ⟨⟨k, x⟩, hkx, rfl⟩ := List.mem_map.mp hs
    unfold Values.pairs at hkx
    obtain ⟨k', _, hx⟩ := List.mem_flatMap.mp hkx
    obtain ⟨x', hx', he⟩ := List.mem_map.mp hx
    cases he
    rw [hall, Option.mem_toList] at hx'
    have hm := hplain _ (GoMap.get?_some_mem hx')
    unfold encPair at hc
    simp only [List.mem_append, List.mem_singleton] at hc hm
    rcases hc with (hc | rfl) | hc
    · exact (queryEscape_plain (fun c hc => hm c (Or.inl hc)) c hc).1
    · decide
    · exact (queryEscape_plain (fun c hc => hm c (Or.inr hc)) c hc).1

/-- **C15** is false for a single decode: the parameters are escaped twice, so a `state` with a
slash arrives changed. -/
theorem C15_double_escape :
    ∃ L frag, redirectLocation b!"https://example.com/cb" [(b!"state", b!"a/b")] true = some L ∧
      rawFragment L = some frag ∧ (parseQuery frag).1.get b!"state" = b!"a%2Fb" :=
  ⟨_, _, rfl, rfl, by decide +kernel⟩

example : ((redirectLocation b!"https://example.com/cb?x=1"
      [(b!"state", b!"a&b=#% c/"), (b!"access_token", b!"AB.cd")] true).bind parseURL).map
      (fun v => (v.host, v.rawQuery, (parseQuery v.fragment).1.get b!"state")) =
    some (b!"example.com", b!"x=1", b!"a&b=#% c/") := by
  decide +kernel

/-! ### C16 -/

theorem mem_keys_add (v : Values) (k x j : Str) :
    j ∈ (v.add k x).keys ↔ j = k ∨ j ∈ v.keys := by
  have h := GoMap.get?_eq_none_iff (v.add k x) j
  have h' := GoMap.get?_eq_none_iff v j
  unfold Values.add at *
  rw [GoMap.get?_set] at h
  by_cases hj : j = k
  · rw [if_pos hj] at h
    simp only [hj, true_or, iff_true]
    have := mt h.mpr (by simp)
    rw [hj] at this
    simpa using this
  · rw [if_neg hj] at h
    have := h.symm.trans h'
    simp only [hj, false_or]
    exact Decidable.not_iff_not.mp this

theorem mem_keys_foldl (l : List (Str × Str)) (v : Values) (j : Str) :
    j ∈ (l.foldl (fun f p => Values.add f p.1 p.2) v).keys ↔ j ∈ l.map (·.1) ∨ j ∈ v.keys := by
  induction l generalizing v with
  | nil => simp
  | cons p l ih =>
    rw [List.foldl_cons, ih, mem_keys_add]
    simp only [List.map_cons, List.mem_cons]
    constructor
    · rintro (h | h | h)
      · exact Or.inl (Or.inr h)
      · exact Or.inl (Or.inl h)
      · exact Or.inr h
    · rintro ((h | h) | h)
      · exact Or.inr (Or.inl h)
      · exact Or.inl h
      · exact Or.inr (Or.inr h)

theorem encode_congr {v w : Values} (hv : v.keys.Nodup) (hw : w.keys.Nodup)
    (hk : ∀ j, j ∈ v.keys ↔ j ∈ w.keys) (ha : ∀ j, v.all j = w.all j) : v.encode = w.encode := by
  have hp : v.keys.Perm w.keys := (List.perm_ext_iff_of_nodup hv hw).mpr hk
  rw [Values.encode_eq, Values.encode_eq]
  unfold Values.pairs
  rw [sortStrings_of_perm hp]
  simp only [ha]

theorem encode_foldl_perm {params params' : GoMap Str} (hperm : params.Perm params')
    (hp : params.keys.Nodup) {v : Values} (hv : v.keys.Nodup) :
    (params.foldl (fun f p => Values.add f p.1 p.2) v).encode =
      (params'.foldl (fun f p => Values.add f p.1 p.2) v).encode := by
  have hp' : params'.keys.Nodup := (hperm.map _).nodup_iff.mp hp
  apply encode_congr (Values.nodup_foldl_add _ hv) (Values.nodup_foldl_add _ hv)
  · intro j
    rw [mem_keys_foldl, mem_keys_foldl, (hperm.map _).mem_iff]
  · intro j
    rw [params_all hp, params_all hp', GoMap.get?_perm hperm hp]

/-- **C16.** The response to `WriteRedirect` is a function of the URI, the parameter map and the
flag: whatever order the runtime iterates the map in, the same bytes are written. -/
theorem C16_redirect_deterministic {params params' : GoMap Str} (hperm : params.Perm params')
    (hp : params.keys.Nodup) (uri : Str) (useFragment : Bool) (s : Shared σ) (l : Local) :
    exec (writeRedirect uri params useFragment) s l =
      exec (writeRedirect uri params' useFragment) s l := by
  have h : redirectLocation uri params useFragment = redirectLocation uri params' useFragment := by
    unfold redirectLocation
    cases parseRequestURI uri with
    | none => rfl
    | some u =>
      simp only
      cases useFragment with
      | true =>
        simp only [if_true]
        rw [encode_foldl_perm hperm hp (v := []) List.nodup_nil]
      | false =>
        simp only [Bool.false_eq_true, if_false]
        rw [encode_foldl_perm hperm hp (v := u.query) (parseQuery_nodup _)]
  rw [exec_writeRedirect, exec_writeRedirect, h]

example : redirectLocation b!"https://example.com/" [(b!"b", b!"1"), (b!"a", b!"2")] false =
      some b!"https://example.com/?a=2&b=1" ∧
    redirectLocation b!"https://example.com/" [(b!"a", b!"2"), (b!"b", b!"1")] false =
      some b!"https://example.com/?a=2&b=1" := by decide +kernel

/-! ### C17 -/

/-- **C17**, why the check cannot work: `url.ParseRequestURI` never yields a fragment, whatever the
text, so `Fragment != ""` is never true. -/
theorem C17_fragment_never_seen {uri : Str} {u : URL} (h : parseRequestURI uri = some u) :
    u.fragment = [] := by
  by_cases hstar : uri = b!"*"
  · subst hstar
    have h' : parseRequestURI b!"*" = some { path := b!"*" } := by decide
    rw [h] at h'
    rw [Option.some.inj h']
  · exact (parsed_of_request h hstar).fragment

/-- **C17** is false: an authorization request with a fragment in its redirect URI is accepted. -/
theorem C17_authorization_refuted : ¬ ∀ r rq, parseAuthorizationRequest r = .ok rq →
    (0x23 : UInt8) ∉ rq.redirectURI := by
  intro h
  exact h { method := b!"GET", rawQuery :=
      b!"response_type=token&client_id=c&redirect_uri=https%3A%2F%2Fexample.com%2Fcb%23frag" }
    { responseType := b!"token", clientID := b!"c",
      redirectURI := b!"https://example.com/cb#frag" } (by decide +kernel) (by decide)

/-- **C17** is false for token requests too. -/
theorem C17_token_refuted : ¬ ∀ r rq, parseTokenRequest r = .ok rq →
    (0x23 : UInt8) ∉ rq.redirectURI := by
  intro h
  exact h {
      method := b!"POST",
      header := [(b!"Content-Type", [b!"application/x-www-form-urlencoded"])],
      body := some (b!"grant_type=authorization_code&client_id=c&redirect_uri=https%3A%2F%2Fexample.com%2Fcb%23frag") }
    { grantType := b!"authorization_code", clientID := b!"c",
      redirectURI := b!"https://example.com/cb#frag" } (by decide +kernel) (by decide)

end OAuth2

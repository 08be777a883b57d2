import Verif.Lemmas.Navigate
import Verif.Lemmas.WireServe
import Verif.Props.Follow

/-!
C89: where redirects lead, which sites are the same, and what is said about the previous request.
-/

namespace OAuth2

open Spec

variable {idna : Str → Str}

/-! ### What is parsed -/

theorem parseRaw_shape {t : Str} {u : URL} (h : parseRaw t false = some u) :
    (u.opaque_ ≠ [] → u.scheme ≠ []) ∧
    (u.scheme ≠ [] ∨ u.host ≠ [] ∨ u.user ≠ none →
      ∀ p ∈ [u.path, u.rawPath], p = [] ∨ ∃ t, p = 0x2F :: t) := by
  have hset : ∀ {u v : URL} {p : Str}, setPath u p = some v →
      v.opaque_ = u.opaque_ ∧ v.scheme = u.scheme ∧ v.host = u.host ∧ v.user = u.user := by
    intro u v p h
    unfold setPath at h
    obtain ⟨path, h1, h2⟩ := Option.bind_eq_some_iff.mp h
    simp only [Option.pure_def, Option.some.injEq] at h2
    subst h2
    exact ⟨rfl, rfl, rfl, rfl⟩
  have hnil : ∀ p ∈ [([] : Str), []], p = [] ∨ ∃ t, p = 0x2F :: t := by simp
  unfold parseRaw at h
  split at h
  · cases h
  split at h
  · cases h
  split at h
  · cases h
    refine ⟨fun e => absurd rfl e, fun e => ?_⟩
    rcases e with e | e | e <;> exact absurd rfl e
  split at h
  · cases h
  rename_i scheme rest0 hsch
  obtain ⟨a, q, f, e, _, _, _, hq⟩ := splitQuery_spec rest0
  rw [e] at h
  simp only at h
  split at h
  · rename_i hs
    cases h
    simp only [Bool.and_eq_true, decide_eq_true_eq] at hs
    exact ⟨fun _ => hs.2, fun _ => hnil⟩
  rename_i hs
  split at h
  · cases h
  split at h
  · cases h
  split at h
  · split at h
    · cases h
    rename_i user host _
    have hp : (match cutByte 0x2F (a.drop 2) with
          | some (a, r) => (a, 0x2F :: r)
          | none => (a.drop 2, [])).2 = [] ∨ ∃ t, (match cutByte 0x2F (a.drop 2) with
          | some (a, r) => (a, 0x2F :: r)
          | none => (a.drop 2, [])).2 = 0x2F :: t := by
      cases cutByte 0x2F (a.drop 2) with
      | none => exact .inl rfl
      | some p => exact .inr ⟨_, rfl⟩
    obtain ⟨h1, h2, h3⟩ := setPath_slash hp h
    exact ⟨fun e => absurd h1 e, fun _ => h3⟩
  · obtain ⟨h1, h2, h3, h4⟩ := hset h
    refine ⟨fun e => absurd h1 e, fun hx => ?_⟩
    have hsn : lowerStr scheme ≠ [] := by
      rcases hx with hx | hx | hx
      · rwa [h2] at hx
      · exact absurd h3 hx
      · exact absurd h4 hx
    have hr : hasPrefix [0x2F] a = true := by
      cases hp : hasPrefix [0x2F] a with
      | true => rfl
      | false => exact absurd (by simp [hp, hsn]) hs
    exact (setPath_slash (.inr ((hasPrefix_slash a).mp hr)) h).2.2

theorem escapedPath_rooted {u : URL} (h : ∀ p ∈ [u.path, u.rawPath], p = [] ∨ ∃ t, p = 0x2F :: t) :
    FromRoot u.escapedPath := by
  unfold URL.escapedPath FromRoot
  split
  · rename_i hr
    rcases h u.rawPath (by simp) with e | ⟨t, e⟩
    · exact absurd e hr.1
    · rw [e]; exact .inr rfl
  · rcases h u.path (by simp) with e | ⟨t, e⟩
    · rw [e, if_neg (by simp)]; exact .inl rfl
    · rw [e, if_neg (by simp), escape, if_neg (by decide), if_neg (by decide)]
      exact .inr rfl

theorem parseURL_shape {t : Str} {u : URL} (h : parseURL t = some u) :
    (u.opaque_ ≠ [] → u.scheme ≠ []) ∧
    (u.scheme ≠ [] ∨ u.host ≠ [] ∨ u.user ≠ none → FromRoot u.escapedPath) := by
  have key : ∃ t, ∃ v : URL, parseRaw t false = some v ∧ v.scheme = u.scheme ∧ v.host = u.host ∧
      v.user = u.user ∧ v.opaque_ = u.opaque_ ∧ v.path = u.path ∧ v.rawPath = u.rawPath := by
    unfold parseURL at h
    split at h
    · exact ⟨_, _, h, rfl, rfl, rfl, rfl, rfl, rfl⟩
    · obtain ⟨v, h1, h⟩ := Option.bind_eq_some_iff.mp h
      refine ⟨_, v, h1, ?_⟩
      split at h
      · cases h; exact ⟨rfl, rfl, rfl, rfl, rfl, rfl⟩
      · obtain ⟨f, _, h⟩ := Option.bind_eq_some_iff.mp h
        cases h; exact ⟨rfl, rfl, rfl, rfl, rfl, rfl⟩
  obtain ⟨t, v, h1, h2, h3, h4, h5, h6, h7⟩ := key
  obtain ⟨g1, g2⟩ := parseRaw_shape h1
  rw [h5, h2] at g1
  rw [h2, h3, h4, h6, h7] at g2
  exact ⟨g1, fun hx => escapedPath_rooted (g2 hx)⟩

theorem escapedPath_nil (u : URL) : u.escapedPath = [] ↔ u.path = [] := by
  unfold URL.escapedPath
  split
  · rename_i h
    constructor
    · intro e; exact absurd e h.1
    · intro e
      have up : ∀ t s, unescape .path t = some s ↔ AnyPercent t s := unescape_any (by simp)
      have := (up _ _).mp h.2.2
      rw [e] at this
      generalize u.rawPath = r at this
      cases this
      rfl
  · split
    · rename_i h; simp [h]
    · constructor
      · intro h
        cases hp : u.path with
        | nil => rfl
        | cons c s =>
          rw [hp, escape] at h
          split at h
          · cases h
          · split at h <;> cases h
      · intro h; rw [h]; rfl

/-! ### Segments of dots -/

theorem dotless_iff (p : Str) : Dotless p ↔ EachSegment (fun x => x ≠ b!"." ∧ x ≠ b!"..") p := by
  constructor
  · intro h x hx
    obtain ⟨l, r, e⟩ := List.append_of_mem hx
    have hj := joinStr_splitByte 0x2F p
    rw [e] at hj
    -- what precedes the segment and what follows it
    have hb : ∃ b, joinStr [0x2F] (x :: r) = x ++ b ∧ (b = [] ∨ b.head? = some 0x2F) := by
      cases r with
      | nil => exact ⟨[], by simp [joinStr], .inl rfl⟩
      | cons y ys => exact ⟨0x2F :: joinStr [0x2F] (y :: ys), by
          rw [joinStr_cons _ _ _ (by simp)]; simp, .inr rfl⟩
    obtain ⟨b, hb, hb'⟩ := hb
    have ha : ∃ a, joinStr [0x2F] (l ++ x :: r) = a ++ joinStr [0x2F] (x :: r) ∧
        (a = [] ∨ a.getLast? = some 0x2F) := by
      clear e hj hx
      induction l with
      | nil => exact ⟨[], rfl, .inl rfl⟩
      | cons y l ih =>
        obtain ⟨a, h1, h2⟩ := ih
        refine ⟨y ++ [0x2F] ++ a, ?_, .inr ?_⟩
        · rw [List.cons_append, joinStr_cons _ _ _ (by simp), h1]; simp
        · rcases h2 with rfl | h2
          · simp
          · rw [List.getLast?_append, h2]; rfl
    obtain ⟨a, ha, ha'⟩ := ha
    exact h a x b (by rw [← hj, ha, hb]; simp) ha' hb'
  · rintro h a s b rfl ha hb
    have h1 : EachSegment (fun x => x ≠ b!"." ∧ x ≠ b!"..") (s ++ b) := by
      rcases ha with rfl | ha
      · simpa using h
      · rcases snoc_cases a with e | ⟨c, x, e⟩
        · subst e; simpa using h
        · subst e
          rw [List.getLast?_concat] at ha
          cases ha
          rw [List.append_assoc, List.append_assoc, List.singleton_append] at h
          exact (each_append.mp h).2
    have h2 : EachSegment (fun x => x ≠ b!"." ∧ x ≠ b!"..") s := by
      rcases hb with rfl | hb
      · simpa using h1
      · cases b with
        | nil => simpa using h1
        | cons c b =>
          cases hb
          exact (each_append.mp h1).1
    constructor
    · rintro rfl
      exact (h2 b!"." (by decide)).1 rfl
    · rintro rfl
      exact (h2 b!".." (by decide)).2 rfl

theorem climb_dotless {l : List Str} (h : ∀ x ∈ l, x ≠ b!"." ∧ x ≠ b!"..") (stack : List Str) :
    l.foldl climb stack = stack ++ l := by
  induction l generalizing stack with
  | nil => simp
  | cons x l ih =>
    have hx := h x (by simp)
    rw [List.foldl_cons, ih fun y hy => h y (by simp [hy])]
    unfold climb
    rw [if_neg hx.1, if_neg hx.2]
    simp

/-- A path that is as it should be stays so. -/
theorem resolveSegments_same {p : Str} (hr : FromRoot p) (hd : Dotless p) (hs : Single p) :
    resolveSegments p = p := by
  rcases hr with rfl | hr
  · rfl
  · cases p with
    | nil => rfl
    | cons c p =>
      cases hr
      obtain ⟨l, s, e, hl, hs⟩ := single_segments hs
      have hsp : splitByte 0x2F (0x2F :: p) = [] :: (l ++ [s]) := by
        have := splitByte_append (sep := 0x2F) (a := []) p (by simp)
        rw [← e]; simpa using this
      have hd := (dotless_iff _).mp hd
      unfold EachSegment at hd
      rw [hsp] at hd
      rw [resolveSegments_eq hl hs (.inr hsp) (by simp),
        climb_dotless (fun x hx => hd x (by simp [hx])), List.nil_append]
      have hp : (0x2F :: p : Str) = slashed (l ++ [s]) := by
        rw [slashed_join (by simp), ← e, joinStr_splitByte]
      rw [hp, slashed_append]
      unfold ending
      by_cases h0 : s = []
      · subst h0
        rw [if_pos rfl, if_pos (.inl rfl)]
        rfl
      · have hsd := hd s (by simp)
        rw [if_neg h0, if_neg (by rintro (h | h | h); exact h0 h; exact hsd.1 h; exact hsd.2 h)]
        unfold climb
        rw [if_neg hsd.1, if_neg hsd.2, slashed_append, List.append_nil]

/-! ### Where locations lead -/

theorem resolve_cases {base ref u : URL} {location : Str} (hp : parseURL location = some ref)
    (h : (goNavigation idna).resolve base location = some u) : u = base.resolveReference ref := by
  have : base.parseFrom location = some u := h
  unfold URL.parseFrom at this
  rw [hp] at this
  exact (Option.some.inj this).symm

theorem resolveReference_far {base ref : URL} (hx : ref.scheme ≠ [] ∨ ref.host ≠ [] ∨ ref.user ≠ none) :
    base.resolveReference ref =
      ({ ref with scheme := if ref.scheme = [] then base.scheme else ref.scheme } : URL).withPath
        (resolvePath ref.escapedPath []) := by
  unfold URL.resolveReference
  simp only [hx, if_true]

theorem resolveReference_near {base ref : URL} (hx : ¬ (ref.scheme ≠ [] ∨ ref.host ≠ [] ∨ ref.user ≠ none))
    (ho : ref.opaque_ = []) :
    base.resolveReference ref =
      ({ (if ref.path = [] ∧ ref.rawQuery = [] then
          { ref with
            scheme := base.scheme
            rawQuery := base.rawQuery
            fragment := if ref.fragment = [] then base.fragment else ref.fragment }
        else { ref with scheme := base.scheme } : URL) with
        host := base.host, user := base.user } : URL).withPath
        (resolvePath base.escapedPath ref.escapedPath) := by
  have hsc : ref.scheme = [] := Classical.byContradiction fun e => hx (.inl e)
  unfold URL.resolveReference
  rw [if_neg hx, if_neg (fun e => e ho), if_pos hsc]

/-- What is resolved has a path that was made by `resolvePath`. -/
theorem resolveReference_path {base ref : URL} (ho : ref.opaque_ ≠ [] → ref.scheme ≠ []) :
    (base.resolveReference ref).escapedPath =
      if ref.scheme ≠ [] ∨ ref.host ≠ [] ∨ ref.user ≠ none then resolvePath ref.escapedPath []
      else resolvePath base.escapedPath ref.escapedPath := by
  have hst : ∀ a b : Str, resolvePath a b = [] ∨ ∃ t, resolvePath a b = 0x2F :: t := by
    intro a b
    rcases resolvePath_start a b with h | h
    · exact .inl h.1
    · exact .inr h
  by_cases hx : ref.scheme ≠ [] ∨ ref.host ≠ [] ∨ ref.user ≠ none
  · rw [if_pos hx, resolveReference_far hx]
    exact (withPath_eq (resolvePath_text (pathText_escapedPath _) pathText_nil).1 (hst _ _)).1
  · have ho' : ref.opaque_ = [] := Classical.byContradiction fun e => hx (.inl (ho e))
    rw [if_neg hx, resolveReference_near hx ho']
    exact (withPath_eq (resolvePath_text (pathText_escapedPath _) (pathText_escapedPath _)).1 (hst _ _)).1

/-- **C89.** Wherever a redirect leads, there are no segments of dots in the path. -/
theorem C89_dotless {base u : URL} {location : Str}
    (h : (goNavigation idna).resolve base location = some u) :
    Dotless u.escapedPath ∧ FromRoot u.escapedPath := by
  have h' : base.parseFrom location = some u := h
  unfold URL.parseFrom at h'
  obtain ⟨ref, hp, rfl⟩ := Option.map_eq_some_iff.mp h'
  rw [resolveReference_path (parseURL_shape hp).1, dotless_iff]
  have hst : ∀ a b : Str, FromRoot (resolvePath a b) := by
    intro a b
    rcases resolvePath_start a b with h | ⟨t, h⟩
    · exact .inl h.1
    · rw [h]; exact .inr rfl
  split
  · exact ⟨(resolvePath_text (pathText_escapedPath _) pathText_nil).2, hst _ _⟩
  · exact ⟨(resolvePath_text (pathText_escapedPath _) (pathText_escapedPath _)).2, hst _ _⟩

theorem withPath_fields (u : URL) (p : Str) :
    (u.withPath p).scheme = u.scheme ∧ (u.withPath p).user = u.user ∧ (u.withPath p).host = u.host ∧
    (u.withPath p).opaque_ = u.opaque_ ∧ (u.withPath p).forceQuery = u.forceQuery ∧
    (u.withPath p).rawQuery = u.rawQuery := by
  unfold URL.withPath setPath
  cases unescape .path p with
  | none => exact ⟨rfl, rfl, rfl, rfl, rfl, rfl⟩
  | some t => exact ⟨rfl, rfl, rfl, rfl, rfl, rfl⟩

theorem removeDots_rooted {p : Str} (hr : FromRoot p) (hs : Single p) :
    RemoveDots p [] (resolveSegments p) := by
  rcases hr with rfl | hr
  · exact .done
  · cases p with
    | nil => exact .done
    | cons c p => cases hr; exact (resolveSegments_rfc hs).1

theorem merged_full {base ref : Str} (hb : FromRoot base) (hs : Single base) (hr : ref ≠ [])
    (hr' : ref.head? ≠ some 0x2F) (hrs : Single ref) :
    ∃ m, Merged base ref m ∧ FromRoot m ∧ Single m ∧
      resolveSegments (fullPath base ref) = resolveSegments m := by
  -- a slash before a text that does not begin with one
  have hcons : ∀ a : Str, Single (a ++ [0x2F]) → Single (a ++ [0x2F] ++ ref) := by
    intro a ha x y e
    have h1 : (a ++ [0x2F]) ++ ref = (x ++ b!"//") ++ y := by simpa using e
    rcases List.append_eq_append_iff.mp h1 with ⟨z, h2, h3⟩ | ⟨z, h2, h3⟩
    · -- the two slashes end in the reference
      cases z with
      | nil =>
        exact ha x [] (by rw [List.append_nil] at h2; rw [← h2]; simp)
      | cons c z =>
        rw [List.cons_append] at h3
        have hc : c ≠ 0x2F := by
          rintro rfl
          rw [h3] at hr'
          simp at hr'
        -- the last byte before is a slash
        rcases snoc_cases z with e1 | ⟨w, d, e1⟩
        · subst e1
          have := congrArg List.getLast? h2
          simp at this
          exact hc this.symm
        · subst e1
          have h4 : x ++ b!"//" = a ++ [0x2F] ++ (c :: w) ++ [d] := by simpa using h2
          obtain ⟨h5, h6⟩ := List.append_inj' (s₁ := x ++ [0x2F]) (t₁ := [0x2F])
            (s₂ := a ++ [0x2F] ++ (c :: w)) (t₂ := [d]) (by rw [← h4]; simp) rfl
          have hd : d = 0x2F := (List.cons.inj h6).1.symm
          subst hd
          rcases snoc_cases w with e2 | ⟨v, f, e2⟩
          · subst e2
            have := congrArg List.getLast? h5
            simp at this
            exact hc this.symm
          · subst e2
            obtain ⟨_, h8⟩ := List.append_inj' (s₁ := x) (t₁ := [0x2F])
              (s₂ := a ++ [0x2F] ++ (c :: v)) (t₂ := [f]) (by rw [h5]; simp) rfl
            have hf : f = 0x2F := (List.cons.inj h8).1.symm
            subst hf
            exact hrs (c :: v) y (by rw [h3]; simp)
    · exact ha x z (by rw [h2])
  rcases hb with rfl | hb
  · refine ⟨b!"/" ++ ref, .empty, .inr rfl, ?_, ?_⟩
    · have := hcons [] (by
        intro x y e
        have := congrArg List.length e
        simp at this
        omega)
      simpa using this
    · have hf : fullPath [] ref = ref := by
        unfold fullPath
        rw [if_neg hr, if_pos hr']
        rfl
      rw [hf]
      have hsr : Single (0x2F :: ref) := by
        have := hcons [] (by
          intro x y e
          have := congrArg List.length e
          simp at this
          omega)
        simpa using this
      exact (resolveSegments_rfc hsr).2 hr
  · obtain ⟨a, s, hc⟩ : ∃ a s, cutLastByte 0x2F base = some (a, s) := by
      cases hc : cutLastByte 0x2F base with
      | none =>
        exfalso
        have := (cutLastByte_none_iff _ _).mp hc
        cases base with
        | nil => simp at hb
        | cons c t => cases hb; exact this (by simp)
      | some p => exact ⟨p.1, p.2, rfl⟩
    obtain ⟨e, hn⟩ := (cutLastByte_some_iff _ _ _ _).mp hc
    have e' : base = a ++ [0x2F] ++ s := by rw [e]; simp
    have hf : fullPath base ref = a ++ [0x2F] ++ ref := by
      unfold fullPath
      rw [if_neg hr, if_pos hr', hc]
    refine ⟨a ++ [0x2F] ++ ref, by rw [e']; exact .after hn, ?_, ?_, by rw [hf]⟩
    · cases a with
      | nil => exact .inr rfl
      | cons c t =>
        rw [e] at hb
        exact .inr (by simpa using hb)
    · refine hcons a ?_
      intro x y h
      exact hs x (y ++ s) (by rw [e', h]; simp)

/-- **C89.** A location leads where RFC 3986 says. -/
theorem C89_resolve {base ref u : URL} {location : Str} (hb : OnHost base)
    (hp : parseURL location = some ref) (ho : ref.opaque_ = []) (hq : ref.forceQuery = false)
    (hs : Single ref.escapedPath) (h : (goNavigation idna).resolve base location = some u) :
    Resolves (uriOf base) (uriOf ref) (uriOf u) := by
  obtain rfl := resolve_cases hp h
  obtain ⟨hsh1, hsh2⟩ := parseURL_shape hp
  have hpath := resolveReference_path (base := base) hsh1
  have hrp : ∀ s : Str, resolvePath s [] = resolveSegments s := fun s => by
    unfold resolvePath fullPath; rw [if_pos rfl]
  by_cases hx : ref.scheme ≠ [] ∨ ref.host ≠ [] ∨ ref.user ≠ none
  · rw [if_pos hx, hrp] at hpath
    have hd := removeDots_rooted (hsh2 hx) hs
    have hu : uriOf (base.resolveReference ref) = { uriOf ref with
        scheme := if ref.scheme = [] then base.scheme else ref.scheme
        path := resolveSegments ref.escapedPath } := by
      have e : base.resolveReference ref =
          ({ ref with scheme := if ref.scheme = [] then base.scheme else ref.scheme } : URL).withPath
            (resolvePath ref.escapedPath []) := resolveReference_far hx
      obtain ⟨f1, f2, f3, f4, f5, f6⟩ := withPath_fields
        { ref with scheme := if ref.scheme = [] then base.scheme else ref.scheme }
        (resolvePath ref.escapedPath [])
      rw [← e] at f1 f2 f3 f4 f5 f6
      unfold uriOf
      rw [f1, f2, f3, f5, f6, hpath]
    rw [hu]
    by_cases hsc : ref.scheme = []
    · rw [if_pos hsc]
      exact .authority hsc (by
        rcases hx with hx | hx | hx
        · exact absurd hsc hx
        · exact .inl hx
        · exact .inr hx) hd
    · rw [if_neg hsc]
      exact .scheme hsc hd
  · rw [if_neg hx] at hpath
    have hsc : ref.scheme = [] := Classical.byContradiction fun e => hx (.inl e)
    have hna : ¬ (uriOf ref).Authority := fun e => hx (.inr e)
    have e : base.resolveReference ref =
        ({ (if ref.path = [] ∧ ref.rawQuery = [] then
            { ref with
              scheme := base.scheme
              rawQuery := base.rawQuery
              fragment := if ref.fragment = [] then base.fragment else ref.fragment }
          else { ref with scheme := base.scheme } : URL) with
          host := base.host, user := base.user } : URL).withPath
          (resolvePath base.escapedPath ref.escapedPath) := resolveReference_near hx ho
    obtain ⟨f1, f2, f3, f4, f5, f6⟩ := withPath_fields
      ({ (if ref.path = [] ∧ ref.rawQuery = [] then
            { ref with
              scheme := base.scheme
              rawQuery := base.rawQuery
              fragment := if ref.fragment = [] then base.fragment else ref.fragment }
          else { ref with scheme := base.scheme } : URL) with
          host := base.host, user := base.user } : URL)
      (resolvePath base.escapedPath ref.escapedPath)
    rw [← e] at f1 f2 f3 f4 f5 f6
    by_cases hpn : ref.path = []
    · have hen : ref.escapedPath = [] := (escapedPath_nil ref).mpr hpn
      have hu : uriOf (base.resolveReference ref) = { uriOf base with
          query := (uriOf ref).query.or (uriOf base).query } := by
        have hpp : (base.resolveReference ref).escapedPath = base.escapedPath := by
          rw [hpath, hen, hrp]
          exact resolveSegments_same hb.path.1 hb.path.2.1 hb.path.2.2
        by_cases hq' : ref.rawQuery = []
        · rw [if_pos ⟨hpn, hq'⟩] at f1 f2 f3 f5 f6
          unfold uriOf
          rw [f1, f2, f3, f5, f6, hpp]
          simp only [hq, hq', hb.query]
          rfl
        · rw [if_neg (fun e => hq' e.2)] at f1 f2 f3 f5 f6
          unfold uriOf
          rw [f1, f2, f3, f5, f6, hpp]
          simp only [hq, hq', hb.query]
          rfl
      rw [hu]
      exact .same hsc hna hen
    · have hen : ref.escapedPath ≠ [] := fun e => hpn ((escapedPath_nil ref).mp e)
      rw [if_neg (fun e => hpn e.1)] at f1 f2 f3 f5 f6
      have hu : uriOf (base.resolveReference ref) = { uriOf base with
          path := resolvePath base.escapedPath ref.escapedPath
          query := (uriOf ref).query } := by
        unfold uriOf
        rw [f1, f2, f3, f5, f6, hpath]
      rw [hu]
      by_cases hh : ref.escapedPath.head? = some 0x2F
      · have : resolvePath base.escapedPath ref.escapedPath = resolveSegments ref.escapedPath := by
          unfold resolvePath fullPath
          rw [if_neg hen, if_neg (by simp [hh])]
        rw [this]
        exact .rooted hsc hna hh (removeDots_rooted (.inr hh) hs)
      · obtain ⟨m, h1, h2, h3, h4⟩ := merged_full hb.path.1 hb.path.2.2 hen hh hs
        have : resolvePath base.escapedPath ref.escapedPath = resolveSegments m := h4
        rw [this]
        exact .relative hsc hna hen hh h1 (removeDots_rooted h2 h3)

/-! ### RFC 3986 says one thing -/

theorem upToSlash_inj {s i s' i' : Str} (hs : (0x2F : UInt8) ∉ s) (hs' : (0x2F : UInt8) ∉ s')
    (hi : i = [] ∨ i.head? = some 0x2F) (hi' : i' = [] ∨ i'.head? = some 0x2F)
    (h : s ++ i = s' ++ i') : s = s' ∧ i = i' := by
  induction s generalizing s' with
  | nil =>
    cases s' with
    | nil => exact ⟨rfl, h⟩
    | cons c t =>
      simp only [List.nil_append, List.cons_append] at h
      subst h
      rcases hi with hi | hi
      · cases hi
      · simp at hi; subst hi; simp at hs'
  | cons c t ih =>
    cases s' with
    | nil =>
      simp only [List.nil_append, List.cons_append] at h
      subst h
      rcases hi' with hi | hi
      · cases hi
      · simp at hi; subst hi; simp at hs
    | cons c' t' =>
      simp only [List.cons_append, List.cons.injEq] at h
      obtain ⟨a, b⟩ := ih (fun m => hs (by simp [m])) (s' := t') (fun m => hs' (by simp [m])) h.2
      exact ⟨by rw [h.1, a], b⟩

theorem move_inj {slash s i slash' s' i' : Str} (h1 : slash = [] ∨ slash = b!"/")
    (h1' : slash' = [] ∨ slash' = b!"/") (hs : (0x2F : UInt8) ∉ s) (hs' : (0x2F : UInt8) ∉ s')
    (hn : slash ++ s ≠ []) (hn' : slash' ++ s' ≠ [])
    (hi : i = [] ∨ i.head? = some 0x2F) (hi' : i' = [] ∨ i'.head? = some 0x2F)
    (h : slash ++ s ++ i = slash' ++ s' ++ i') : slash = slash' ∧ s = s' ∧ i = i' := by
  rcases h1 with rfl | rfl <;> rcases h1' with rfl | rfl
  · obtain ⟨a, b⟩ := upToSlash_inj hs hs' hi hi' (by simpa using h)
    exact ⟨rfl, a, b⟩
  · exfalso
    cases s with
    | nil => exact hn rfl
    | cons c t => simp at h; rw [h.1] at hs; simp at hs
  · exfalso
    cases s' with
    | nil => exact hn' rfl
    | cons c t => simp at h; rw [← h.1] at hs'; simp at hs'
  · obtain ⟨a, b⟩ := upToSlash_inj hs hs' hi hi' (by simpa using h)
    exact ⟨rfl, a, b⟩

/-- The first segment is none of dots. -/
theorem move_segment {slash s i a d b : Str} (h1 : slash = [] ∨ slash = b!"/") (hs : (0x2F : UInt8) ∉ s)
    (hn : slash ++ s ≠ []) (hi : i = [] ∨ i.head? = some 0x2F) (h : slash ++ s ++ i = a ++ d ++ b)
    (ha : a = [] ∨ a = b!"/") (hd : (0x2F : UInt8) ∉ d) (hdn : d ≠ []) (hb : b = [] ∨ b.head? = some 0x2F) :
    s = d :=
  (move_inj h1 ha hs hd hn (by simp [hdn]) hi hb h).2.1

theorem slash_inj {a s b t : Str} (hs : (0x2F : UInt8) ∉ s) (ht : (0x2F : UInt8) ∉ t)
    (h : a ++ [0x2F] ++ s = b ++ [0x2F] ++ t) : a = b := by
  have h1 := cutLastByte_append a hs
  simp only [List.append_assoc, List.singleton_append] at h
  rw [h, cutLastByte_append b ht] at h1
  exact (congrArg Prod.fst (Option.some.inj h1)).symm

theorem popped_unique {x a b : Str} (h : Popped x a) (h' : Popped x b) : a = b := by
  generalize hx : x = y at h'
  cases h with
  | slash hs =>
    cases h' with
    | slash hs' => exact slash_inj hs hs' hx
    | none hs' => exact absurd (by rw [← hx]; simp) hs'
  | none hs =>
    cases h' with
    | slash hs' => exact absurd (by rw [hx]; simp) hs
    | none hs' => rfl

theorem removeDots_unique {i o r r' : Str} (h : RemoveDots i o r) (h' : RemoveDots i o r') : r = r' := by
  induction h generalizing r' with
  | done =>
    generalize hx : ([] : Str) = x at h'
    cases h' with
    | done => rfl
    | move _ _ _ _ hn => exact absurd (List.append_eq_nil_iff.mp hx.symm).1 hn
    | _ => cases hx
  | @up i out r h ih =>
    generalize hx : b!"../" ++ i = x at h'
    cases h' with
    | up h' =>
      obtain rfl : _ = _ := List.append_cancel_left hx
      exact ih h'
    | move h1 hs hd1 hd2 hn hi =>
      exact absurd (move_segment (a := []) (d := b!"..") (b := b!"/" ++ i) h1 hs hn hi hx.symm
        (by simp) (by decide) (by decide) (by simp)) hd2
    | _ => simp at hx
  | @here i out r h ih =>
    generalize hx : b!"./" ++ i = x at h'
    cases h' with
    | here h' =>
      obtain rfl : _ = _ := List.append_cancel_left hx
      exact ih h'
    | move h1 hs hd1 hd2 hn hi =>
      exact absurd (move_segment (a := []) (d := b!".") (b := b!"/" ++ i) h1 hs hn hi hx.symm
        (by simp) (by decide) (by decide) (by simp)) hd1
    | _ => simp at hx
  | @stay i out r h ih =>
    generalize hx : b!"/./" ++ i = x at h'
    cases h' with
    | stay h' =>
      obtain rfl : _ = _ := List.append_cancel_left hx
      exact ih h'
    | move h1 hs hd1 hd2 hn hi =>
      exact absurd (move_segment (a := b!"/") (d := b!".") (b := b!"/" ++ i) h1 hs hn hi hx.symm
        (by simp) (by decide) (by decide) (by simp)) hd1
    | _ => simp at hx
  | @stayLast out r h ih =>
    generalize hx : b!"/." = x at h'
    cases h' with
    | stayLast h' =>
      exact ih h'
    | move h1 hs hd1 hd2 hn hi =>
      exact absurd (move_segment (a := b!"/") (d := b!".") (b := []) h1 hs hn hi hx.symm
        (by simp) (by decide) (by decide) (by simp)) hd1
    | _ => simp at hx
  | @back i out out1 r hp h ih =>
    generalize hx : b!"/../" ++ i = x at h'
    cases h' with
    | back hp' h' =>
      obtain rfl : _ = _ := List.append_cancel_left hx
      cases popped_unique hp hp'
      exact ih h'
    | move h1 hs hd1 hd2 hn hi =>
      exact absurd (move_segment (a := b!"/") (d := b!"..") (b := b!"/" ++ i) h1 hs hn hi hx.symm
        (by simp) (by decide) (by decide) (by simp)) hd2
    | _ => simp at hx
  | @backLast out out1 r hp h ih =>
    generalize hx : b!"/.." = x at h'
    cases h' with
    | backLast hp' h' =>
      cases popped_unique hp hp'
      exact ih h'
    | move h1 hs hd1 hd2 hn hi =>
      exact absurd (move_segment (a := b!"/") (d := b!"..") (b := []) h1 hs hn hi hx.symm
        (by simp) (by decide) (by decide) (by simp)) hd2
    | _ => simp at hx
  | @onlyHere out r h ih =>
    generalize hx : b!"." = x at h'
    cases h' with
    | onlyHere h' =>
      exact ih h'
    | move h1 hs hd1 hd2 hn hi =>
      exact absurd (move_segment (a := []) (d := b!".") (b := []) h1 hs hn hi hx.symm
        (by simp) (by decide) (by decide) (by simp)) hd1
    | _ => simp at hx
  | @onlyUp out r h ih =>
    generalize hx : b!".." = x at h'
    cases h' with
    | onlyUp h' =>
      exact ih h'
    | move h1 hs hd1 hd2 hn hi =>
      exact absurd (move_segment (a := []) (d := b!"..") (b := []) h1 hs hn hi hx.symm
        (by simp) (by decide) (by decide) (by simp)) hd2
    | _ => simp at hx
  | @move slash s i out r h1 hs hd1 hd2 hn hi h ih =>
    generalize hx : slash ++ s ++ i = x at h'
    cases h' with
    | done => exact absurd (List.append_eq_nil_iff.mp hx).1 hn
    | @up i' =>
      exact absurd (move_segment (a := []) (d := b!"..") (b := b!"/" ++ i') h1 hs hn hi hx
        (by simp) (by decide) (by decide) (by simp)) hd2
    | @here i' =>
      exact absurd (move_segment (a := []) (d := b!".") (b := b!"/" ++ i') h1 hs hn hi hx
        (by simp) (by decide) (by decide) (by simp)) hd1
    | @stay i' =>
      exact absurd (move_segment (a := b!"/") (d := b!".") (b := b!"/" ++ i') h1 hs hn hi hx
        (by simp) (by decide) (by decide) (by simp)) hd1
    | stayLast =>
      exact absurd (move_segment (a := b!"/") (d := b!".") (b := []) h1 hs hn hi hx
        (by simp) (by decide) (by decide) (by simp)) hd1
    | @back i' =>
      exact absurd (move_segment (a := b!"/") (d := b!"..") (b := b!"/" ++ i') h1 hs hn hi hx
        (by simp) (by decide) (by decide) (by simp)) hd2
    | backLast =>
      exact absurd (move_segment (a := b!"/") (d := b!"..") (b := []) h1 hs hn hi hx
        (by simp) (by decide) (by decide) (by simp)) hd2
    | onlyHere =>
      exact absurd (move_segment (a := []) (d := b!".") (b := []) h1 hs hn hi hx
        (by simp) (by decide) (by decide) (by simp)) hd1
    | onlyUp =>
      exact absurd (move_segment (a := []) (d := b!"..") (b := []) h1 hs hn hi hx
        (by simp) (by decide) (by decide) (by simp)) hd2
    | move h1' hs' hd1' hd2' hn' hi' h' =>
      obtain ⟨rfl, rfl, rfl⟩ := move_inj h1 h1' hs hs' hn hn' hi hi' hx
      exact ih h'

theorem merged_unique {b r m m' : Str} (h : Merged b r m) (h' : Merged b r m') : m = m' := by
  generalize hx : b = y at h'
  cases h with
  | empty =>
    cases h' with
    | empty => rfl
    | after => simp at hx
  | after hs =>
    cases h' with
    | empty => simp at hx
    | after hs' =>
      rw [slash_inj hs hs' hx]

/-- **C89.** There is one place where RFC 3986 says that a reference leads. -/
theorem C89_unique {base ref u v : Uri} (h : Resolves base ref u) (h' : Resolves base ref v) : u = v := by
  cases h with
  | scheme h1 h2 =>
    cases h' with
    | scheme _ h2' => rw [removeDots_unique h2 h2']
    | authority e => exact absurd e h1
    | same e => exact absurd e h1
    | rooted e => exact absurd e h1
    | relative e => exact absurd e h1
  | authority h1 h2 h3 =>
    cases h' with
    | scheme e => exact absurd h1 e
    | authority _ _ h3' => rw [removeDots_unique h3 h3']
    | same _ e => exact absurd h2 e
    | rooted _ e => exact absurd h2 e
    | relative _ e => exact absurd h2 e
  | same h1 h2 h3 =>
    cases h' with
    | scheme e => exact absurd h1 e
    | authority _ e => exact absurd e h2
    | same => rfl
    | rooted _ _ e => rw [h3] at e; cases e
    | relative _ _ e => exact absurd h3 e
  | rooted h1 h2 h3 h4 =>
    cases h' with
    | scheme e => exact absurd h1 e
    | authority _ e => exact absurd e h2
    | same _ _ e => rw [e] at h3; cases h3
    | rooted _ _ _ h4' => rw [removeDots_unique h4 h4']
    | relative _ _ _ e => exact absurd h3 e
  | relative h1 h2 h3 h4 h5 h6 =>
    cases h' with
    | scheme e => exact absurd h1 e
    | authority _ e => exact absurd e h2
    | same _ _ e => exact absurd e h3
    | rooted _ _ e => exact absurd e h4
    | relative _ _ _ _ h5' h6' =>
      cases merged_unique h5 h5'
      rw [removeDots_unique h6 h6']
/-! ### Sites -/

theorem isDomain_iff (sub parent : Str) :
    isDomainOrSubdomain sub parent = true ↔ sub = parent ∨ ∃ l, sub = l ++ [0x2E] ++ parent := by
  unfold isDomainOrSubdomain
  by_cases h : sub = parent
  · rw [if_pos h]; exact ⟨fun _ => .inl h, fun _ => rfl⟩
  rw [if_neg h]
  by_cases hs : parent.isSuffixOf sub = true
  · rw [hs]
    simp only [Bool.not_true, Bool.false_eq_true, if_false, decide_eq_true_eq]
    obtain ⟨l, e⟩ := List.isSuffixOf_iff_suffix.mp hs
    subst e
    rcases snoc_cases l with e | ⟨a, c, e⟩
    · subst e; exact absurd rfl h
    · subst e
      have hi : (a ++ [c] ++ parent)[(a ++ [c] ++ parent).length - parent.length - 1]? = some c := by
        have : (a ++ [c] ++ parent).length - parent.length - 1 = a.length := by
          simp only [List.length_append, List.length_singleton]; omega
        rw [this, List.append_assoc, List.getElem?_append_right (Nat.le_refl _)]
        simp
      rw [hi]
      constructor
      · intro e
        obtain rfl := Option.some.inj e
        exact .inr ⟨a, rfl⟩
      · rintro (e | ⟨b, e⟩)
        · exact absurd e h
        · have := (List.append_inj' e rfl).1
          have := (List.append_inj' this rfl).2
          rw [(List.cons.inj this).1]
  · have hs' : parent.isSuffixOf sub = false := Bool.eq_false_iff.mpr hs
    rw [hs']
    simp only [Bool.not_false, if_true]
    constructor
    · exact fun e => nomatch e
    · rintro (e | ⟨l, e⟩)
      · exact absurd e h
      · exact absurd (List.isSuffixOf_iff_suffix.mpr ⟨l ++ [0x2E], e.symm⟩) hs

theorem sameSite_refl (u : URL) : (goNavigation idna).sameSite u u = true :=
  (isDomain_iff _ _).mpr (.inl rfl)

theorem sameSite_trans {a b c : URL} (h1 : (goNavigation idna).sameSite a b = true)
    (h2 : (goNavigation idna).sameSite b c = true) : (goNavigation idna).sameSite a c = true := by
  have h1 := (isDomain_iff _ _).mp h1
  have h2 := (isDomain_iff _ _).mp h2
  refine (isDomain_iff _ _).mpr ?_
  rcases h1 with e1 | ⟨l1, e1⟩
  · rw [← e1]; exact h2
  · rcases h2 with e2 | ⟨l2, e2⟩
    · rw [e2]; exact .inr ⟨l1, e1⟩
    · exact .inr ⟨l2 ++ [0x2E] ++ l1, by rw [e2, e1]; simp⟩

theorem no_colon_digits {port : Str} (h : ∀ c ∈ port, 48 ≤ c ∧ c ≤ 57) : (0x3A : UInt8) ∉ port := by
  intro hc
  exact absurd (h _ hc) (by decide)

theorem optionalPort_digits {port : Str} : validOptionalPort (0x3A :: port) = true ↔
    ∀ c ∈ port, 48 ≤ c ∧ c ≤ 57 := by
  simp [validOptionalPort, inRange]

theorem bracket_strip (name : Str) : (if ([0x5B] ++ name ++ [0x5D] : Str).head? = some 0x5B ∧
      ([0x5B] ++ name ++ [0x5D] : Str).getLast? = some 0x5D
    then (([0x5B] ++ name ++ [0x5D] : Str).drop 1).dropLast else [0x5B] ++ name ++ [0x5D]) = name := by
  rw [if_pos ⟨rfl, by rw [List.getLast?_concat]⟩]
  simp

theorem splitHostPort_text {host name port : Str} (h : MachineText host name port) :
    splitHostPort host = (name, port) ∧ (0x3A : UInt8) ∉ port := by
  have hnb : ∀ {name : Str}, (0x5B : UInt8) ∉ name →
      (if name.head? = some 0x5B ∧ name.getLast? = some 0x5D then (name.drop 1).dropLast else name) = name := by
    intro name h
    rw [if_neg]
    rintro ⟨e, _⟩
    cases name with
    | nil => cases e
    | cons c t => cases e; exact h (by simp)
  unfold splitHostPort
  cases h with
  | plain h1 h2 h3 =>
    rw [(cutLastByte_none_iff _ _).mpr h1]
    simp only
    rw [hnb h2]
    exact ⟨rfl, by simp⟩
  | port h1 h2 h3 h4 =>
    rw [List.append_assoc, List.singleton_append, cutLastByte_append _ (no_colon_digits h4)]
    simp only [optionalPort_digits.mpr h4, if_true]
    rw [hnb h2]
    exact ⟨rfl, no_colon_digits h4⟩
  | address h1 h2 h3 =>
    refine ⟨?_, by simp⟩
    cases hc : cutLastByte 0x3A ([0x5B] ++ name ++ [0x5D]) with
    | none => simp only; rw [bracket_strip]
    | some p =>
      obtain ⟨a, b⟩ := p
      obtain ⟨e, _⟩ := (cutLastByte_some_iff _ _ _ _).mp hc
      have hv : validOptionalPort (0x3A :: b) = false := by
        cases hv : validOptionalPort (0x3A :: b) with
        | false => rfl
        | true =>
          exfalso
          have hd := optionalPort_digits.mp hv
          have hl := congrArg List.getLast? e
          rw [List.getLast?_concat] at hl
          rcases snoc_cases b with eb | ⟨b', c, eb⟩
          · subst eb; simp at hl
          · subst eb
            rw [← List.cons_append, ← List.append_assoc, List.getLast?_concat] at hl
            obtain rfl := Option.some.inj hl
            exact absurd (hd 0x5D (by simp)) (by decide)
      simp only [hv, Bool.false_eq_true, if_false]
      rw [bracket_strip]
  | addressPort h1 h2 h3 h4 =>
    have e : ([0x5B] ++ name ++ b!"]:" ++ port : Str) = ([0x5B] ++ name ++ [0x5D]) ++ 0x3A :: port := by simp
    rw [e, cutLastByte_append _ (no_colon_digits h4)]
    simp only [optionalPort_digits.mpr h4, if_true]
    rw [bracket_strip]
    exact ⟨rfl, no_colon_digits h4⟩

/-- A name before a port. -/
def beforePort (name : Str) : Str := if name.contains 0x3A then [0x5B] ++ name ++ [0x5D] else name

theorem canonicalAddr_text {u : URL} {name port : Str} (h : LeadsTo u name port) (ha : Ascii name) :
    canonicalAddr idna u = beforePort name ++ 0x3A :: port ∧ (0x3A : UInt8) ∉ port := by
  obtain ⟨p, h1, h2⟩ := h
  obtain ⟨e, hp⟩ := splitHostPort_text h1
  have hstd : portMap u.scheme = standardPort u.scheme := rfl
  have hstdc : (0x3A : UInt8) ∉ standardPort u.scheme := by
    unfold standardPort
    split
    · decide
    · split
      · decide
      · split <;> decide
  have hi : idnaASCII idna name = name := by
    unfold idnaASCII
    rw [if_pos]
    rw [List.all_eq_true]
    exact fun c hc => by simpa using ha c hc
  refine ⟨?_, ?_⟩
  · unfold canonicalAddr URL.hostname URL.port beforePort
    rw [e]
    simp only [hi, hstd, ← h2]
    split <;> simp
  · rw [h2]; split
    · exact hstdc
    · exact hp

theorem machine_brackets {host name port : Str} (h : MachineText host name port) :
    (0x5B : UInt8) ∉ name ∧ (0x5D : UInt8) ∉ name := by
  cases h with
  | plain _ h2 h3 => exact ⟨h2, h3⟩
  | port _ h2 h3 _ => exact ⟨h2, h3⟩
  | address _ h2 h3 => exact ⟨h2, h3⟩
  | addressPort _ h2 h3 _ => exact ⟨h2, h3⟩

theorem append_colon_inj {a b p q : Str} (hp : (0x3A : UInt8) ∉ p) (hq : (0x3A : UInt8) ∉ q)
    (h : a ++ 0x3A :: p = b ++ 0x3A :: q) : a = b ∧ p = q := by
  have h1 := cutLastByte_append a hp
  rw [h, cutLastByte_append b hq] at h1
  have := Option.some.inj h1
  exact ⟨(congrArg Prod.fst this).symm, (congrArg Prod.snd this).symm⟩

/-- **C89.** Credentials stay on a machine and the subdomains of its name, with the same port. -/
theorem C89_site {previous next : URL} {name port name' port' : Str} (h : LeadsTo previous name port)
    (h' : LeadsTo next name' port') (ha : Ascii name) (ha' : Ascii name') :
    (goNavigation idna).sameSite previous next = true ↔ port' = port ∧ Below name' name := by
  obtain ⟨e, hp⟩ := canonicalAddr_text (idna := idna) h ha
  obtain ⟨e', hp'⟩ := canonicalAddr_text (idna := idna) h' ha'
  obtain ⟨_, hm, _⟩ := h
  obtain ⟨_, hm', _⟩ := h'
  obtain ⟨hb1, hb2⟩ := machine_brackets hm
  obtain ⟨hb1', hb2'⟩ := machine_brackets hm'
  have hs : (goNavigation idna).sameSite previous next =
      isDomainOrSubdomain (canonicalAddr idna next) (canonicalAddr idna previous) := rfl
  rw [hs, isDomain_iff, e, e']
  have hcol : ∀ n : Str, n.contains 0x3A = true ↔ (0x3A : UInt8) ∈ n := by simp
  constructor
  · rintro (h | ⟨l, h⟩)
    · obtain ⟨h1, h2⟩ := append_colon_inj hp' hp h
      refine ⟨h2, .inl ?_⟩
      unfold beforePort at h1
      split at h1
      · split at h1
        · have := (List.append_inj' h1 rfl).1
          exact (List.cons.inj this).2
        · exfalso; exact hb1 (by rw [← h1]; simp)
      · split at h1
        · exfalso; exact hb1' (by rw [h1]; simp)
        · exact h1
    · rw [← List.append_assoc] at h
      obtain ⟨h1, h2⟩ := append_colon_inj hp' hp h
      refine ⟨h2, .inr ?_⟩
      unfold beforePort at h1
      split at h1
      · exfalso
        split at h1
        · have h3 : [0x5B] ++ name' = l ++ [0x2E] ++ [0x5B] ++ name :=
            (List.append_inj' (t₁ := [0x5D]) (t₂ := [0x5D]) (by rw [h1]; simp) rfl).1
          cases l with
          | nil => simp at h3
          | cons c l =>
            have := (List.cons.inj h3).2
            exact hb1' (by rw [show name' = _ from this]; simp)
        · have hl := congrArg List.getLast? h1
          rw [List.getLast?_concat] at hl
          rcases snoc_cases name with en | ⟨n, c, en⟩
          · subst en; simp at hl
          · subst en
            rw [← List.append_assoc, List.getLast?_concat] at hl
            obtain rfl := Option.some.inj hl
            exact hb2 (by simp)
      · rename_i hc
        split at h1
        · exfalso; exact hb1' (by rw [h1]; simp)
        · exact ⟨fun hm => hc ((hcol _).mpr hm), l, h1⟩
  · rintro ⟨rfl, h | ⟨hn, l, h⟩⟩
    · exact .inl (by rw [h])
    · refine .inr ⟨l, ?_⟩
      have hn2 : (0x3A : UInt8) ∉ name := fun hm => hn (by rw [h]; simp [hm])
      have b1 : beforePort name' = name' := by
        unfold beforePort; rw [if_neg fun hc => hn ((hcol _).mp hc)]
      have b2 : beforePort name = name := by
        unfold beforePort; rw [if_neg fun hc => hn2 ((hcol _).mp hc)]
      rw [b1, b2, h]
      simp

/-- **C89.** A location without a scheme and an authority stays on the site, so that the credentials
are sent along. -/
theorem C89_stays {base ref u : URL} {location : Str} (hp : parseURL location = some ref)
    (hr : ref.scheme = [] ∧ ref.host = [] ∧ ref.user = none)
    (h : (goNavigation idna).resolve base location = some u) :
    u.scheme = base.scheme ∧ u.host = base.host ∧ u.user = base.user ∧
      (goNavigation idna).sameSite base u = true := by
  obtain rfl := resolve_cases hp h
  have hx : ¬ (ref.scheme ≠ [] ∨ ref.host ≠ [] ∨ ref.user ≠ none) := by
    rintro (e | e | e)
    · exact e hr.1
    · exact e hr.2.1
    · exact e hr.2.2
  have ho : ref.opaque_ = [] :=
    Classical.byContradiction fun e => (parseURL_shape hp).1 e hr.1
  have e := resolveReference_near (base := base) hx ho
  have hf : ∀ v : URL, v.scheme = base.scheme → ∀ w : URL, w = ({ v with
      host := base.host, user := base.user } : URL).withPath
        (resolvePath base.escapedPath ref.escapedPath) →
      w.scheme = base.scheme ∧ w.host = base.host ∧ w.user = base.user := by
    rintro v hv w rfl
    obtain ⟨f1, f2, f3, _⟩ := withPath_fields ({ v with host := base.host, user := base.user } : URL)
      (resolvePath base.escapedPath ref.escapedPath)
    exact ⟨f1.trans hv, f3, f2⟩
  obtain ⟨g1, g2, g3⟩ := hf _ (by split <;> rfl) _ e
  refine ⟨g1, g2, g3, ?_⟩
  have : canonicalAddr idna (base.resolveReference ref) = canonicalAddr idna base := by
    unfold canonicalAddr URL.hostname URL.port
    rw [g1, g2]
  exact (isDomain_iff _ _).mpr (.inl this)

/-- **C89.** The first request that leaves the site of a call carries none of its credentials: they get
elsewhere only by way of a machine that has been there before. -/
theorem C89_leaving {net : Network} {first h : Hop} {x : Option Response}
    {pre post : List (Hop × Option Response)}
    (ht : (httpDo (goNavigation idna) net first).1 = pre ++ (h, x) :: post)
    (hpre : ∀ e ∈ pre, (goNavigation idna).sameSite first.url e.1.url = true)
    (hh : (goNavigation idna).sameSite first.url h.url = false) :
    ∀ k, canonicalKey k ∈ credentialHeaders → h.request.header.all k = [] ∨
      canonicalKey k = b!"Authorization" ∧ ∃ u, h.url.user = some u ∧ h.request.header.all k =
        [b!"Basic " ++ b64StdEncode (u.username ++ [0x3A] ++ u.password.getD [])] := by
  have hc := C76_chain (goNavigation idna) net first
  rcases snoc_cases pre with e | ⟨pre', ⟨p, xp⟩, e⟩
  · subst e
    exfalso
    obtain ⟨h0, x0, rest, e0, hs⟩ := hc.begins
    rw [ht] at e0
    have : h = h0 := by
      have := (List.cons.inj e0).1
      exact congrArg Prod.fst this
    subst this
    have hu : h.url = first.url := by cases hs <;> rfl
    rw [hu, sameSite_refl] at hh
    cases hh
  · subst e
    obtain ⟨res, _, hl⟩ := hc.links pre' p xp h x post (by rw [ht]; simp)
    have hp := hpre (p, xp) (by simp)
    cases hss : (goNavigation idna).sameSite p.url h.url with
    | true => rw [sameSite_trans hp hss] at hh; cases hh
    | false => exact hl.leaves hss

/-- **C89.** A request to the machine and port of the one before, or to a machine whose name is below
that name, carries the credentials of the call. -/
theorem C89_kept {net : Network} {first p h : Hop} {xp x : Option Response}
    {pre post : List (Hop × Option Response)} {name name' port : Str}
    (ht : (httpDo (goNavigation idna) net first).1 = pre ++ (p, xp) :: (h, x) :: post)
    (hp : LeadsTo p.url name port) (hh : LeadsTo h.url name' port) (ha : Ascii name)
    (ha' : Ascii name') (hb : Below name' name) :
    ∀ k, canonicalKey k ∈ credentialHeaders → first.request.header.get k ≠ [] →
      h.request.header.all k = first.request.header.all k := by
  obtain ⟨res, _, hl⟩ := (C76_chain (goNavigation idna) net first).links pre p xp h x post ht
  exact hl.stays ((C89_site hp hh ha ha').mpr ⟨rfl, hb⟩)

/-! ### What is said about the previous request -/

theorem escape_no_at (s : Str) : (0x40 : UInt8) ∉ escape .userPassword s := by
  have hx : ∀ n : Fin 16, hexUpper n.val ≠ 0x40 := by decide
  induction s with
  | nil => simp [escape]
  | cons c s ih =>
    unfold escape
    rw [if_neg (by simp)]
    split
    · simp only [List.mem_cons, not_or]
      exact ⟨by decide, fun e => hx ⟨c.toNat / 16, by have := c.toNat_lt; omega⟩ e.symm,
        fun e => hx ⟨c.toNat % 16, by omega⟩ e.symm, ih⟩
    · rename_i h
      simp only [List.mem_cons, not_or]
      refine ⟨?_, ih⟩
      rintro rfl
      exact h (by decide)

theorem userinfo_no_at (u : Userinfo) : (0x40 : UInt8) ∉ u.string := by
  unfold Userinfo.string
  intro h
  rcases List.mem_append.mp h with h | h
  · exact escape_no_at _ h
  · cases hp : u.password with
    | none => rw [hp] at h; cases h
    | some p =>
      rw [hp] at h
      rcases List.mem_cons.mp h with h | h
      · cases h
      · exact escape_no_at _ h

theorem removeFirst_at {q : Str} (hq : (0x40 : UInt8) ∉ q) (b : Str) :
    ∀ a : Str, (0x40 : UInt8) ∉ a → removeFirst (q ++ [0x40]) (a ++ (q ++ [0x40]) ++ b) = a ++ b := by
  intro a
  induction a with
  | nil =>
    intro _
    have hne : ∃ c t, (q ++ [0x40]) ++ b = c :: t := by
      cases q with
      | nil => exact ⟨_, _, rfl⟩
      | cons c q => exact ⟨_, _, rfl⟩
    obtain ⟨c, t, e⟩ := hne
    have hpre : hasPrefix (q ++ [0x40]) (c :: t) = true := by
      rw [← e]; unfold hasPrefix; rw [stripPrefix_append]; rfl
    rw [List.nil_append, e, removeFirst, if_pos hpre, ← e, List.drop_left]
    rfl
  | cons c a ih =>
    intro ha
    have ha' : (0x40 : UInt8) ∉ a := fun h => ha (.tail _ h)
    rw [List.cons_append, List.cons_append, removeFirst, if_neg, ih ha', List.cons_append]
    intro hp
    unfold hasPrefix at hp
    obtain ⟨r, hr⟩ := Option.isSome_iff_exists.mp hp
    rw [stripPrefix_some_iff] at hr
    have h1 : cutByte 0x40 ((c :: a ++ q) ++ 0x40 :: b) = some (c :: a ++ q, b) :=
      (cutByte_some_iff _ _ _ _).mpr ⟨rfl, by
        intro h
        rcases List.mem_append.mp h with h | h
        · exact ha h
        · exact hq h⟩
    have h2 : cutByte 0x40 (q ++ 0x40 :: r) = some (q, r) := (cutByte_some_iff _ _ _ _).mpr ⟨rfl, hq⟩
    have e : (c :: a ++ q) ++ 0x40 :: b = q ++ 0x40 :: r := by
      have : c :: (a ++ (q ++ [0x40]) ++ b) = (c :: a ++ q) ++ 0x40 :: b := by simp
      rw [← this, hr]
      simp
    rw [e, h2] at h1
    have := congrArg List.length (congrArg Prod.fst (Option.some.inj h1))
    simp at this
    omega

/-- **C89.** What is said about the previous request: its address without the user and the password;
nothing, if it was secure and this one is not. -/
theorem C89_referer {previous next : URL} (hh : previous.host ≠ []) (ho : previous.opaque_ = [])
    (hs : (0x40 : UInt8) ∉ previous.scheme) :
    (goNavigation idna).referer previous next =
      if previous.scheme = b!"https" ∧ next.scheme = b!"http" then []
      else { previous with user := none }.string := by
  show refererForURL previous next = _
  unfold refererForURL
  split
  · rfl
  cases hu : previous.user with
  | none =>
    simp only
    congr 1
    cases previous
    cases hu
    rfl
  | some u =>
    simp only
    have hb : ∀ o : Option Userinfo, ({ previous with user := o } : URL).base =
        (if previous.scheme ≠ [] then previous.scheme ++ [0x3A] else []) ++ b!"//" ++
        (match o with
          | some ui => ui.string ++ [0x40]
          | none => []) ++ (escape .host previous.host ++
        (if previous.escapedPath ≠ [] ∧ previous.escapedPath.head? ≠ some 0x2F ∧ previous.host ≠ []
          then [0x2F] else []) ++ previous.escapedPath) := by
      intro o
      have hep : ({ previous with user := o } : URL).escapedPath = previous.escapedPath := rfl
      unfold URL.base
      rw [hep]
      simp only [ho, hh, ne_eq, not_true_eq_false, not_false_eq_true, if_false, if_true, or_true,
        true_or, and_true]
      rw [if_neg (t := b!"./")]
      · cases o <;> simp
      · rintro ⟨e, _⟩
        simp at e
    have h1 := hb (some u)
    have h2 := hb none
    have hp : ({ previous with user := some u } : URL) = previous := by
      cases previous; cases hu; rfl
    rw [hp] at h1
    unfold URL.string
    rw [h1, h2]
    have hpre : (0x40 : UInt8) ∉ (if previous.scheme ≠ [] then previous.scheme ++ [0x3A] else []) ++ b!"//" := by
      split
      · simpa using hs
      · decide
    have := removeFirst_at (userinfo_no_at u)
      ((escape .host previous.host ++
        (if previous.escapedPath ≠ [] ∧ previous.escapedPath.head? ≠ some 0x2F ∧ previous.host ≠ []
          then [0x2F] else []) ++ previous.escapedPath) ++
        ((if previous.forceQuery ∨ previous.rawQuery ≠ [] then 0x3F :: previous.rawQuery else []) ++
        (if previous.fragment ≠ [] then 0x23 :: escape .fragment previous.fragment else [])))
      _ hpre
    simp only [List.append_assoc] at this ⊢
    simpa using this

/-- **C89.** On the way from a secure address to one that is not, both with the usual ports,
credentials are not sent along, and nothing is said about the previous request. -/
theorem C89_insecure {previous next : URL} {name name' : Str} (h : previous.scheme = b!"https")
    (h' : next.scheme = b!"http") (hm : MachineText previous.host name [])
    (hm' : MachineText next.host name' []) (ha : Ascii name) (ha' : Ascii name') :
    (goNavigation idna).sameSite previous next = false ∧
      (goNavigation idna).referer previous next = [] := by
  constructor
  · cases hs : (goNavigation idna).sameSite previous next with
    | false => rfl
    | true =>
      have := ((C89_site (idna := idna) ⟨_, hm, rfl⟩ ⟨_, hm', rfl⟩ ha ha').mp hs).1
      rw [if_pos rfl, if_pos rfl, h, h'] at this
      exact absurd this (by decide)
  · show refererForURL previous next = _
    unfold refererForURL
    rw [if_pos ⟨h, h'⟩]

/-! ### Cases -/

/-- The base of the examples in RFC 3986, section 5.4. -/
def rfcBase : URL :=
  { scheme := b!"http", host := b!"a", path := b!"/b/c/d;p", rawQuery := b!"q" }

/-- The examples of RFC 3986, sections 5.4.1 and 5.4.2: a reference and what it stands for. -/
def rfcExamples : List (Str × Str) := [
  (b!"g:h", b!"g:h"),
  (b!"g", b!"http://a/b/c/g"),
  (b!"./g", b!"http://a/b/c/g"),
  (b!"g/", b!"http://a/b/c/g/"),
  (b!"/g", b!"http://a/g"),
  (b!"//g", b!"http://g"),
  (b!"?y", b!"http://a/b/c/d;p?y"),
  (b!"g?y", b!"http://a/b/c/g?y"),
  (b!"#s", b!"http://a/b/c/d;p?q#s"),
  (b!"g#s", b!"http://a/b/c/g#s"),
  (b!"g?y#s", b!"http://a/b/c/g?y#s"),
  (b!";x", b!"http://a/b/c/;x"),
  (b!"g;x", b!"http://a/b/c/g;x"),
  (b!"g;x?y#s", b!"http://a/b/c/g;x?y#s"),
  (b!"", b!"http://a/b/c/d;p?q"),
  (b!".", b!"http://a/b/c/"),
  (b!"./", b!"http://a/b/c/"),
  (b!"..", b!"http://a/b/"),
  (b!"../", b!"http://a/b/"),
  (b!"../g", b!"http://a/b/g"),
  (b!"../..", b!"http://a/"),
  (b!"../../", b!"http://a/"),
  (b!"../../g", b!"http://a/g"),
  (b!"../../../g", b!"http://a/g"),
  (b!"../../../../g", b!"http://a/g"),
  (b!"/./g", b!"http://a/g"),
  (b!"/../g", b!"http://a/g"),
  (b!"g.", b!"http://a/b/c/g."),
  (b!".g", b!"http://a/b/c/.g"),
  (b!"g..", b!"http://a/b/c/g.."),
  (b!"..g", b!"http://a/b/c/..g"),
  (b!"./../g", b!"http://a/b/g"),
  (b!"./g/.", b!"http://a/b/c/g/"),
  (b!"g/./h", b!"http://a/b/c/g/h"),
  (b!"g/../h", b!"http://a/b/c/h"),
  (b!"g;x=1/./y", b!"http://a/b/c/g;x=1/y"),
  (b!"g;x=1/../y", b!"http://a/b/c/y"),
  (b!"g?y/./x", b!"http://a/b/c/g?y/./x"),
  (b!"g?y/../x", b!"http://a/b/c/g?y/../x"),
  (b!"g#s/./x", b!"http://a/b/c/g#s/./x"),
  (b!"g#s/../x", b!"http://a/b/c/g#s/../x"),
  (b!"http:g", b!"http:g")]

/-- The library passes all of them. -/
example : parseURL b!"http://a/b/c/d;p?q" = some rfcBase ∧
    ∀ e ∈ rfcExamples, ((goNavigation id).resolve rfcBase e.1).map URL.string = some e.2 := by
  decide +kernel

theorem single_of {p : Str} (h : ¬ b!"//" <:+: p) : Single p := fun a b e => h ⟨a, b, e.symm⟩

theorem rfcBase_onHost : OnHost rfcBase := by
  refine ⟨by decide, rfl, ⟨.inr (by decide +kernel), ?_, ?_⟩, rfl⟩
  · rw [dotless_iff]
    have : splitByte 0x2F rfcBase.escapedPath = [[], b!"b", b!"c", b!"d;p"] := by decide +kernel
    unfold EachSegment
    rw [this]
    decide
  · have e : rfcBase.escapedPath = b!"/b/c/d;p" := by decide +kernel
    rw [e]
    exact single_of (by decide)

/-- The hypotheses of `C89_resolve` are met, by the address above and the reference `../g?y`. -/
example : Resolves (uriOf rfcBase) { path := b!"../g", query := some b!"y" }
    { scheme := b!"http", host := b!"a", path := b!"/b/g", query := some b!"y" } := by
  have h := C89_resolve (idna := id) (location := b!"../g?y") (ref := { path := b!"../g", rawQuery := b!"y" })
    (u := { scheme := b!"http", host := b!"a", path := b!"/b/g", rawQuery := b!"y" })
    rfcBase_onHost (by decide +kernel) rfl rfl ?_ (by decide +kernel)
  · have e1 : uriOf { path := b!"../g", rawQuery := b!"y" } =
        { path := b!"../g", query := some b!"y" } := by
      unfold uriOf
      rw [show URL.escapedPath { path := b!"../g", rawQuery := b!"y" } = b!"../g" from by decide +kernel]
      rfl
    have e2 : uriOf { scheme := b!"http", host := b!"a", path := b!"/b/g", rawQuery := b!"y" } =
        { scheme := b!"http", host := b!"a", path := b!"/b/g", query := some b!"y" } := by
      unfold uriOf
      rw [show URL.escapedPath
        { scheme := b!"http", host := b!"a", path := b!"/b/g", rawQuery := b!"y" } = b!"/b/g"
        from by decide +kernel]
      rfl
    rwa [e1, e2] at h
  · rw [show URL.escapedPath { path := b!"../g", rawQuery := b!"y" } = b!"../g" from by decide +kernel]
    exact single_of (by decide)

/-- Where the library differs from RFC 3986: an empty segment is lost above the root, and an empty query
does not replace that of the base. -/
example :
    ((goNavigation id).resolve rfcBase b!"/..//g").map URL.string = some b!"http://a/g" ∧
    RemoveDots b!"/..//g" [] b!"//g" ∧
    ((goNavigation id).resolve rfcBase b!"?").map URL.string = some b!"http://a/b/c/d;p?q" := by
  refine ⟨by decide +kernel, ?_, by decide +kernel⟩
  refine RemoveDots.back (i := b!"/g") (.none (by decide)) ?_
  refine RemoveDots.move (slash := b!"/") (s := []) (i := b!"/g") (.inr rfl) (by decide) (by decide)
    (by decide) (by decide) (.inr rfl) ?_
  exact RemoveDots.move (slash := b!"/") (s := b!"g") (i := []) (.inr rfl) (by decide) (by decide)
    (by decide) (by decide) (.inl rfl) .done

/-- Sites: subdomains and the same port, in the letters in which they are written. -/
example :
    (goNavigation id).sameSite { scheme := b!"https", host := b!"a.com" }
      { scheme := b!"https", host := b!"x.a.com:443" } = true ∧
    (goNavigation id).sameSite { scheme := b!"https", host := b!"x.a.com" }
      { scheme := b!"https", host := b!"a.com" } = false ∧
    (goNavigation id).sameSite { scheme := b!"https", host := b!"a.com" }
      { scheme := b!"https", host := b!"xa.com" } = false ∧
    (goNavigation id).sameSite { scheme := b!"https", host := b!"a.com" }
      { scheme := b!"http", host := b!"a.com:443" } = true ∧
    (goNavigation id).sameSite { scheme := b!"https", host := b!"a.com" }
      { scheme := b!"https", host := b!"A.com" } = false ∧
    (goNavigation id).sameSite { scheme := b!"http", host := b!"[::1]:80" }
      { scheme := b!"http", host := b!"[::1]" } = true := by decide +kernel

/-- The hypotheses of `C89_site` are met by a name with a port and an IP address. -/
example : LeadsTo { scheme := b!"https", host := b!"x.a.com:443" } b!"x.a.com" b!"443" ∧
    LeadsTo { scheme := b!"http", host := b!"[::1]" } b!"::1" b!"80" ∧ Ascii b!"x.a.com" ∧
    Below b!"x.a.com" b!"a.com" :=
  ⟨⟨b!"443", .port (name := b!"x.a.com") (by decide) (by decide) (by decide) (by decide), rfl⟩,
    ⟨[], .address (name := b!"::1") (by decide) (by decide) (by decide), rfl⟩,
    (by decide : ∀ c ∈ b!"x.a.com", c < 0x80), .inr ⟨by decide, b!"x", rfl⟩⟩

/-- What is said about a request to an address with a user. -/
example : (goNavigation id).referer
    { scheme := b!"https", host := b!"a.com", user := some ⟨b!"u", some b!"p"⟩, path := b!"/x",
      rawQuery := b!"y" } { scheme := b!"https", host := b!"b.com" } = b!"https://a.com/x?y" := by
  decide +kernel

/-- A server that sends clients to another machine below its name. -/
def belowNetwork : Network := fun via _ =>
  match via.length with
  | 0 => some { statusCode := 307, header := [(b!"Location", [b!"https://x.a.com/oauth2/token"])] }
  | _ => some { statusCode := 200 }

/-- The credentials of the client go there. -/
example : ∃ p h, (httpDo (goNavigation id) belowNetwork passwordHop).1.map (·.1) = [p, h] ∧
    h.request.header.all b!"Authorization" = [b!"Basic Yzpz"] := by
  have hu : (httpDo (goNavigation id) belowNetwork passwordHop).1.map (·.1.url) =
      [{ scheme := b!"https", host := b!"a.com", path := b!"/oauth2/token" },
        { scheme := b!"https", host := b!"x.a.com", path := b!"/oauth2/token" }] := by decide +kernel
  obtain ⟨p, xp, h, x, e⟩ : ∃ p xp h x,
      (httpDo (goNavigation id) belowNetwork passwordHop).1 = [] ++ (p, xp) :: (h, x) :: [] := by
    generalize (httpDo (goNavigation id) belowNetwork passwordHop).1 = l at hu
    have hl : l.length = 2 := by simpa using congrArg List.length hu
    match l, hl with
    | [(p, xp), (h, x)], _ => exact ⟨p, xp, h, x, rfl⟩
  rw [e] at hu
  simp only [List.nil_append, List.map_cons, List.map_nil, List.cons.injEq, and_true] at hu
  refine ⟨p, h, by rw [e]; rfl, ?_⟩
  rw [C89_kept (idna := id) (name := b!"a.com") (name' := b!"x.a.com") (port := b!"443") e
    (by rw [hu.1]; exact ⟨[], .plain (by decide) (by decide) (by decide), rfl⟩)
    (by rw [hu.2]; exact ⟨[], .plain (by decide) (by decide) (by decide), rfl⟩)
    (by decide : ∀ c ∈ b!"a.com", c < 0x80) (by decide : ∀ c ∈ b!"x.a.com", c < 0x80)
    (.inr ⟨by decide, b!"x", rfl⟩) _ (by decide) (by decide +kernel)]
  decide +kernel

/-- A server that sends clients to the same path on another one, without TLS. -/
def insecureNetwork : Network := fun via _ =>
  match via.length with
  | 0 => some { statusCode := 307, header := [(b!"Location", [b!"http://b.com/oauth2/token"])] }
  | _ => some { statusCode := 200 }

/-- **C89**, what a user might not expect: the password is sent without TLS if a redirect with status
307 says so; only the credentials in the header are not. This is also a case of `C89_leaving`. -/
theorem C89_cleartext : ∃ pre next rest,
      (httpDo (goNavigation id) insecureNetwork passwordHop).1 = pre ++ next :: rest ∧
      (∀ e ∈ pre, (goNavigation id).sameSite passwordHop.url e.1.url = true) ∧
      (goNavigation id).sameSite passwordHop.url next.1.url = false ∧
      next.1.url = { scheme := b!"http", host := b!"b.com", path := b!"/oauth2/token" } ∧
      next.1.request.body = some b!"grant_type=password&password=p&username=u" ∧
      next.1.request.header.all b!"Authorization" = [] :=
  ⟨(httpDo (goNavigation id) insecureNetwork passwordHop).1.take 1,
    ((httpDo (goNavigation id) insecureNetwork passwordHop).1[1]'(by decide +kernel)),
    (httpDo (goNavigation id) insecureNetwork passwordHop).1.drop 2, by decide +kernel,
    by decide +kernel, by decide +kernel, by decide +kernel, by decide +kernel, by decide +kernel⟩

end OAuth2

import Verif.Spec.Bearer
import Verif.Model.Bearer
import Verif.Lemmas.Http
import Verif.Lemmas.Sort
import Verif.Lemmas.Basic
import Verif.Lemmas.Bytes
import Verif.Props.Transport
/-
C09, C10, C11, C13: bearer tokens and bearer errors.
-/

namespace OAuth2

open Spec

set_option linter.unusedSimpArgs false

/-! ### C09 -/

theorem lowerByte_letter : ∀ b ∈ b!"bearer", ∀ n : Fin 256,
    (lowerByte (UInt8.ofNat n.val) = lowerByte b ↔ (UInt8.ofNat n.val = b ∨ UInt8.ofNat n.val + 32 = b)) := by
  decide +kernel

theorem lowerByte_iff {b : UInt8} (hb : b ∈ b!"bearer") (a : UInt8) :
    lowerByte a = lowerByte b ↔ (a = b ∨ a + 32 = b) :=
  forall_u8 (P := fun a => lowerByte a = lowerByte b ↔ (a = b ∨ a + 32 = b)) (lowerByte_letter b hb) a

theorem anyCase_iff (word : Str) (hw : ∀ b ∈ word, b ∈ b!"bearer") (s : Str) :
    equalFold s word = true ↔ AnyCase s word := by
  unfold equalFold
  rw [decide_eq_true_iff]
  induction word generalizing s with
  | nil => cases s <;> simp [AnyCase]
  | cons b word ih =>
    cases s with
    | nil => simp [AnyCase]
    | cons a s =>
      simp only [List.map_cons, List.cons.injEq, AnyCase]
      rw [lowerByte_iff (hw b (by simp)), ih fun x hx => hw x (List.mem_cons_of_mem _ hx)]

theorem anyCase_length {s word : Str} (h : AnyCase s word) : s.length = word.length := by
  induction word generalizing s with
  | nil => cases s <;> simp [AnyCase] at h ⊢
  | cons b word ih =>
    cases s with
    | nil => simp [AnyCase] at h
    | cons a s => simp only [AnyCase] at h; simp [ih h.2]

theorem split7 (h : Str) : h = h.take 6 ++ ((h.drop 6).take 1 ++ h.drop 7) := by
  have h1 : h.drop 7 = (h.drop 6).drop 1 := by rw [List.drop_drop]
  rw [h1, List.take_append_drop, List.take_append_drop]

/-- **C09.** A token is returned exactly when the header is the word `bearer` in any letter case,
one space and a nonempty rest; the token is that rest. -/
theorem C09_bearer_accept_iff (r : Request) (token : Str) :
    parseBearerToken r = .ok token ↔ CarriesBearer (r.header.get b!"Authorization") token := by
  unfold parseBearerToken CarriesBearer
  have hlen : BearerAccessTokenType.length = 6 := rfl
  simp only [hlen]
  generalize r.header.get b!"Authorization" = h
  have hb : ∀ b ∈ BearerAccessTokenType, b ∈ b!"bearer" := fun b hb => hb
  constructor
  · intro hp
    split at hp
    · cases hp
    split at hp
    · cases hp
    rename_i hl
    split at hp
    · cases hp
    rename_i hf
    split at hp
    · cases hp
    rename_i hs
    cases hp
    simp only [ne_eq, Decidable.not_not] at hs
    refine ⟨h.take 6, ?_, (anyCase_iff _ hb _).mp (by simpa using hf), ?_⟩
    · conv => lhs; rw [split7 h, hs]
      simp
    · intro he
      have := congrArg List.length he
      simp only [List.length_drop, List.length_nil] at this
      omega
  · rintro ⟨word, rfl, hw, hne⟩
    have hwl : word.length = 6 := anyCase_length hw
    have htl : 0 < token.length := List.length_pos_iff.mpr hne
    have e1 : (word ++ [0x20] ++ token).take 6 = word := by
      rw [List.append_assoc, ← hwl, List.take_left']
      rfl
    have e2 : (word ++ [0x20] ++ token).drop 6 = 0x20 :: token := by
      rw [List.append_assoc, ← hwl, List.drop_left']
      · rfl
      · rfl
    have e3 : (word ++ [0x20] ++ token).drop (6 + 1) = token := by
      rw [← List.drop_drop, e2]
      rfl
    rw [if_neg (by simp), if_neg (by simp; omega), e1,
      if_neg (by rw [(anyCase_iff _ hb _).mpr hw]; simp), e2, if_neg (by simp), e3]

/-- **C09.** With no authorization header, or an empty one, the error asks for authentication:
status 401 and no error code. -/
theorem C09_no_header (r : Request) (h : r.header.get b!"Authorization" = []) :
    parseBearerToken r = .error { status := 401 } := by
  unfold parseBearerToken
  rw [h]
  rfl

/-- **C09.** Every other header yields `invalid_request` with status 400. -/
theorem C09_malformed (r : Request) (h : r.header.get b!"Authorization" ≠ [])
    (hm : ¬ ∃ token, CarriesBearer (r.header.get b!"Authorization") token) :
    ∃ e, parseBearerToken r = .error e ∧ e.name = b!"invalid_request" ∧ e.status = 400 := by
  cases hp : parseBearerToken r with
  | ok t => exact absurd ⟨t, (C09_bearer_accept_iff r t).mp hp⟩ hm
  | error e =>
    refine ⟨e, rfl, ?_⟩
    unfold parseBearerToken at hp
    simp only [h, if_false] at hp
    split at hp
    · cases hp; exact ⟨rfl, rfl⟩
    split at hp
    · cases hp; exact ⟨rfl, rfl⟩
    split at hp
    · cases hp; exact ⟨rfl, rfl⟩
    · cases hp

example : CarriesBearer b!"BeArEr a b" b!"a b" := ⟨b!"BeArEr", by decide, by simp only [AnyCase]; decide, by decide⟩

example : let r (h : Str) : Request := { method := b!"GET", header := [(b!"Authorization", [h])] }
    parseBearerToken (r b!"bEARER x") = .ok b!"x" ∧
    parseBearerToken (r b!"Bearer ") = .error (invalidRequest b!"malformed authorization header") ∧
    parseBearerToken (r b!"Basic xyz") = .error (invalidRequest b!"malformed authorization header") ∧
    parseBearerToken (r b!"Bearer\tx") = .error (invalidRequest b!"malformed authorization header") := by
  decide +kernel

/-! ### C11 -/

theorem strLe_append_of_lt {a b x y : Str} (h : strLe a b = true) (hp : ¬ a <+: b) :
    strLe (a ++ x) (b ++ y) = true := by
  induction a generalizing b with
  | nil => exact absurd (List.nil_prefix) hp
  | cons c cs ih =>
    cases b with
    | nil => simp [strLe] at h
    | cons d ds =>
      simp only [strLe, List.cons_append] at h ⊢
      by_cases h1 : c < d
      · simp [h1]
      · simp only [h1, if_false] at h ⊢
        by_cases h2 : c = d
        · simp only [h2, if_true] at h ⊢
          apply ih h
          intro h3
          exact hp (by rw [h2]; exact (List.cons_prefix_cons).mpr ⟨rfl, h3⟩)
        · simp [h2] at h

theorem param_le {k1 k2 v1 v2 : Str} (h : strLe (k1 ++ b!"=\"") (k2 ++ b!"=\"") = true)
    (hp : ¬ (k1 ++ b!"=\"") <+: (k2 ++ b!"=\"")) : strLe (param k1 v1) (param k2 v2) = true := by
  unfold param
  rw [List.append_assoc (k1 ++ _), List.append_assoc (k2 ++ _)]
  exact strLe_append_of_lt h hp

/-- The keys of a challenge, in alphabetical order. -/
def paramKeys : List Str :=
  [b!"error", b!"error_description", b!"error_uri", b!"realm", b!"scope", b!"state"]

theorem paramKeys_sorted : paramKeys.Pairwise fun k1 k2 =>
    strLe (k1 ++ b!"=\"") (k2 ++ b!"=\"") = true ∧ ¬ (k1 ++ b!"=\"") <+: (k2 ++ b!"=\"") := by
  decide +kernel

theorem parameters_keys (e : Error) : ((parameters e).map (·.1)).Sublist paramKeys := by
  unfold parameters paramKeys
  simp only [List.map_append]
  have h1 : (([(b!"error", e.name), (b!"error_description", e.description), (b!"error_uri", e.uri),
      (b!"realm", e.realm)].filter (·.2 ≠ [])).map (·.1)).Sublist
      [b!"error", b!"error_description", b!"error_uri", b!"realm"] :=
    (List.filter_sublist).map (fun p : Str × Str => p.1)
  have h2 : (((if e.scope.items = [] then [] else [(b!"scope", e.scope.string)]) :
      List (Str × Str)).map (·.1)).Sublist [b!"scope"] := by
    split
    · exact List.nil_sublist _
    · exact List.Sublist.refl _
  have h3 : (([(b!"state", e.state)].filter (·.2 ≠ [])).map (·.1)).Sublist [b!"state"] :=
    (List.filter_sublist).map (fun p : Str × Str => p.1)
  exact (h1.append h2).append h3

theorem pairwise_map_of {α β : Type} {R : β → β → Prop} {f : α → β} {l : List α}
    (h : (l.map f).Pairwise R) : l.Pairwise fun a b => R (f a) (f b) := List.pairwise_map.mp h

theorem parameters_sorted (e : Error) :
    ((parameters e).map fun p => param p.1 p.2).Pairwise fun a b => strLe a b = true := by
  have h := (paramKeys_sorted).sublist (parameters_keys e)
  rw [List.pairwise_map] at h ⊢
  exact h.imp fun hab => param_le hab.1 hab.2

theorem map_perm_parameters (e : Error) : e.map.Perm (parameters e) := by
  have o : ∀ (k v : Str), [(k, v)].filter (fun p : Str × Str => decide (p.2 ≠ [])) =
      if v ≠ [] then [(k, v)] else [] := by
    intro k v
    by_cases h : v = [] <;> simp [h]
  have hsplit : parameters e =
      (if e.name ≠ [] then [(b!"error", e.name)] else []) ++
      ((if e.description ≠ [] then [(b!"error_description", e.description)] else []) ++
      ((if e.uri ≠ [] then [(b!"error_uri", e.uri)] else []) ++
      ((if e.realm ≠ [] then [(b!"realm", e.realm)] else []) ++
      ((if e.scope.items.length > 0 then [(b!"scope", e.scope.string)] else []) ++
      (if e.state ≠ [] then [(b!"state", e.state)] else []))))) := by
    unfold parameters
    rw [← o, ← o, ← o, ← o, ← o]
    have : ∀ a b c d : Str × Str, ∀ p : Str × Str → Bool, [a, b, c, d].filter p =
        [a].filter p ++ ([b].filter p ++ ([c].filter p ++ [d].filter p)) := by
      intro a b c d p
      rw [← List.filter_append, ← List.filter_append, ← List.filter_append]
      rfl
    rw [this]
    have hs : (if e.scope.items = [] then [] else [(b!"scope", e.scope.string)]) =
        (if e.scope.items.length > 0 then [(b!"scope", e.scope.string)] else [] : List (Str × Str)) := by
      by_cases h : e.scope.items = []
      · simp [h]
      · rw [if_neg h, if_pos (List.length_pos_iff.mpr h)]
    rw [hs]
    simp only [List.append_assoc]
  rw [hsplit]
  unfold Error.map
  generalize (if e.name ≠ [] then [(b!"error", e.name)] else [] : List (Str × Str)) = a
  generalize (if e.description ≠ [] then [(b!"error_description", e.description)] else [] : List (Str × Str)) = b
  generalize (if e.uri ≠ [] then [(b!"error_uri", e.uri)] else [] : List (Str × Str)) = c
  generalize (if e.realm ≠ [] then [(b!"realm", e.realm)] else [] : List (Str × Str)) = d
  generalize (if e.scope.items.length > 0 then [(b!"scope", e.scope.string)] else [] : List (Str × Str)) = f
  generalize (if e.state ≠ [] then [(b!"state", e.state)] else [] : List (Str × Str)) = g
  -- a ++ b ++ g ++ f ++ c ++ d  ~  a ++ (b ++ (c ++ (d ++ (f ++ g))))
  rw [List.append_assoc, List.append_assoc, List.append_assoc, List.append_assoc]
  refine List.Perm.append_left a (List.Perm.append_left b ?_)
  have : (g ++ (f ++ (c ++ d))).Perm ((c ++ d) ++ (g ++ f)) := by
    rw [← List.append_assoc]
    exact List.perm_append_comm
  refine this.trans ?_
  rw [List.append_assoc]
  exact List.Perm.append_left c (List.Perm.append_left d List.perm_append_comm)

/-- **C11.** The text `Params` returns is the same for every iteration order of the parameter map:
exactly the present parameters, each once, as `key="value"`, in alphabetical order, separated by
comma and space. -/
theorem C11_params_exact (e : Error) (order : GoMap Str) (h : order.Perm e.map) :
    Error.paramsOf order = joinStr b!", " ((parameters e).map fun p => param p.1 p.2) := by
  unfold Error.paramsOf
  have hp : (order.map fun p => p.1 ++ b!"=\"" ++ p.2 ++ b!"\"").Perm
      ((parameters e).map fun p => param p.1 p.2) := (h.trans (map_perm_parameters e)).map _
  congr 1
  exact sorted_perm_eq ((sortStrings_perm _).trans hp) (sortStrings_sorted _) (parameters_sorted e)

/-- **C11.** So `Params` does not depend on the iteration order. -/
theorem C11_params_deterministic (e : Error) (order : GoMap Str) (h : order.Perm e.map) :
    Error.paramsOf order = e.params :=
  (C11_params_exact e order h).trans (C11_params_exact e e.map (List.Perm.refl _)).symm

example : ({
      name := b!"insufficient_scope", state := b!"s", scope := some [b!"b", b!"a"],
      realm := b!"R" } : Error).params =
    b!"error=\"insufficient_scope\", realm=\"R\", scope=\"b a\", state=\"s\"" := by decide +kernel

/-! ### C10 -/

/-- **C10.** Errors of other packages, and OAuth2 errors with status 500, are answered with status
500, an empty body and no change to the headers. -/
theorem C10_internal {σ : Type} {err : GoErr}
    (herr : (∀ e, err ≠ .oauth e) ∨ ∃ e, err = .oauth e ∧ e.status = 500)
    (s : Shared σ) (l : Local) (hw : l.w.Fresh) :
    ∃ l', exec (writeBearerError err) s l = (.ret true, s, l') ∧
      l'.w.sent = some (500, l.w.header) ∧ l'.w.body = [] ∧ l'.w.superfluous = 0 := by
  have h : exec (writeBearerError err : Prog σ Bool) s l =
      (.ret true, s, { l with w := (l.w.writeHeader 500).write [] }) := by
    unfold writeBearerError
    have hi : exec (do
        .writeHeader 500
        .respond (·.write [])
        return true : Prog σ Bool) s l =
        (.ret true, s, { l with w := (l.w.writeHeader 500).write [] }) := by
      rw [exec_writeHeader_bind (by decide) (by decide)]
      rfl
    rcases herr with h | ⟨e, rfl, he⟩
    · cases err with
      | oauth e => exact absurd rfl (h e)
      | msg t => exact hi
      | lib => exact hi
    · simp only [GoErr.asError, he, if_true]
      exact hi
  refine ⟨_, h, ?_, ?_, ?_⟩
  · simp [Recorder.write, Recorder.writeHeader, hw.sent]
  · simp [Recorder.write, Recorder.writeHeader, hw.sent, hw.body]
  · simp [Recorder.write, Recorder.writeHeader, hw.sent, hw.superfluous]

/-- **C10.** Every other OAuth2 error (with a status that has three digits) is answered with its
status, an empty body and exactly one challenge: `Bearer ` and the error's parameters, or the
realm `OAuth2` if it has none. Other headers are left alone. -/
theorem C10_challenge {σ : Type} (e : Error) (h500 : e.status ≠ 500) (h1 : 100 ≤ e.status)
    (h2 : e.status ≤ 999) (s : Shared σ) (l : Local) (hw : l.w.Fresh) :
    ∃ l' h, exec (writeBearerError (.oauth e)) s l = (.ret true, s, l') ∧
      l'.w.sent = some (e.status.toNat, h) ∧ l'.w.body = [] ∧ l'.w.superfluous = 0 ∧
      h.all b!"WWW-Authenticate" = [b!"Bearer " ++
        joinStr b!", " ((if parameters e = [] then [(b!"realm", b!"OAuth2")] else parameters e).map
          fun p => param p.1 p.2)] ∧
      ∀ k, canonicalKey k ≠ b!"Www-Authenticate" → h.all k = l.w.header.all k := by
  have hp := C11_params_exact e e.map (List.Perm.refl _)
  have hparams : (if e.params = [] then b!"realm=\"OAuth2\"" else e.params) =
      joinStr b!", " ((if parameters e = [] then [(b!"realm", b!"OAuth2")] else parameters e).map
          fun p => param p.1 p.2) := by
    unfold Error.params
    rw [hp]
    cases hl : parameters e with
    | nil => rfl
    | cons p ps =>
      have hne : joinStr b!", " (((p :: ps).map fun p => param p.1 p.2)) ≠ [] := by
        cases ps with
        | nil => simp [joinStr, param]
        | cons p2 ps => simp [joinStr, param]
      rw [if_neg hne, if_neg (by simp)]
  have hx : exec (writeBearerError (.oauth e) : Prog σ Bool) s l =
      (.ret true, s, { l with
        w := (Recorder.writeHeader { l.w with
          header := l.w.header.set b!"WWW-Authenticate" (b!"Bearer " ++
            (if e.params = [] then b!"realm=\"OAuth2\"" else e.params)) }
          e.status.toNat).write [] }) := by
    unfold writeBearerError
    simp only [GoErr.asError, h500, if_false, exec_respond_bind]
    rw [exec_writeHeader_bind h1 h2]
    rfl
  refine ⟨_, l.w.header.set b!"WWW-Authenticate" (b!"Bearer " ++
        (if e.params = [] then b!"realm=\"OAuth2\"" else e.params)), hx, ?_, ?_, ?_, ?_, ?_⟩
  · simp [Recorder.write, Recorder.writeHeader, hw.sent]
  · simp [Recorder.write, Recorder.writeHeader, hw.sent, hw.body]
  · simp [Recorder.write, Recorder.writeHeader, hw.sent, hw.superfluous]
  · rw [Header.all_set, if_pos rfl, hparams]
  · intro k hk
    rw [Header.all_set, if_neg]
    intro h
    exact hk (h.trans (by decide))

example : (exec (writeBearerError (σ := Unit) (.oauth protectedResource)) ⟨false, ()⟩
      { clock := fun _ => 0 }).2.2.w.result.header.all b!"WWW-Authenticate" =
    [b!"Bearer realm=\"OAuth2\""] := by decide +kernel

/-! ### C13 -/

/-- **C13** (finding). Quotes are not escaped, so different errors have the same challenge. -/
theorem C13_refuted : ∃ e e' : Error, e.params = e'.params ∧ parameters e ≠ parameters e' :=
  ⟨{ realm := b!"a\", scope=\"b" }, { realm := b!"a", scope := some [b!"b"] }, by decide +kernel,
    by decide +kernel⟩

/-- No quote in the value of a parameter. -/
def Spec.NoQuotes (e : Error) : Prop := ∀ p ∈ parameters e, (0x22 : UInt8) ∉ p.2

theorem cut_unique {a b r t : Str} (ha : (0x22 : UInt8) ∉ a) (hb : (0x22 : UInt8) ∉ b)
    (h : a ++ 0x22 :: r = b ++ 0x22 :: t) : a = b ∧ r = t := by
  have h1 := cutByte_append r ha
  have h2 := cutByte_append t hb
  rw [h, h2] at h1
  simp only [Option.some.injEq, Prod.mk.injEq] at h1
  exact ⟨h1.1.symm, h1.2.symm⟩

theorem params_injective {l l' : List (Str × Str)} (hl : ∀ p ∈ l, (0x22 : UInt8) ∉ p.1 ∧ (0x22 : UInt8) ∉ p.2)
    (hl' : ∀ p ∈ l', (0x22 : UInt8) ∉ p.1 ∧ (0x22 : UInt8) ∉ p.2)
    (h : joinStr b!", " (l.map fun p => param p.1 p.2) = joinStr b!", " (l'.map fun p => param p.1 p.2)) :
    l = l' := by
  have hne : ∀ (p : Str × Str) l, joinStr b!", " (((p :: l).map fun p => param p.1 p.2)) =
      (p.1 ++ b!"=") ++ 0x22 :: (p.2 ++ 0x22 :: (if l = [] then [] else b!", " ++
        joinStr b!", " (l.map fun p => param p.1 p.2))) := by
    intro p l
    cases l with
    | nil => simp [joinStr, param]
    | cons p2 l =>
      rw [List.map_cons, joinStr_cons _ _ _ (by simp), if_neg (by simp)]
      simp [param]
  induction l generalizing l' with
  | nil =>
    cases l' with
    | nil => rfl
    | cons p' l' => rw [hne] at h; simp [joinStr] at h
  | cons p l ih =>
    cases l' with
    | nil => rw [hne] at h; simp [joinStr] at h
    | cons p' l' =>
      have hp := hl p (by simp)
      have hp' := hl' p' (by simp)
      rw [hne, hne] at h
      obtain ⟨h1, h⟩ := cut_unique (by simp [hp.1]) (by simp [hp'.1]) h
      obtain ⟨h2, h⟩ := cut_unique hp.2 hp'.2 h
      have hk : p.1 = p'.1 := by simpa using h1
      have hpp : p = p' := Prod.ext hk h2
      have hrest : joinStr b!", " (l.map fun p => param p.1 p.2) =
          joinStr b!", " (l'.map fun p => param p.1 p.2) := by
        by_cases e1 : l = []
        · by_cases e2 : l' = []
          · rw [e1, e2]
          · simp [e1, e2] at h
        · by_cases e2 : l' = []
          · simp [e1, e2] at h
          · simpa [e1, e2] using h
      rw [hpp, ih (fun x hx => hl x (List.mem_cons_of_mem _ hx))
        (fun x hx => hl' x (List.mem_cons_of_mem _ hx)) hrest]

/-- **C13**, for errors without quotes in their fields (missing: quotes, see `C13_refuted`). The
text of the parameters determines every field of the error. -/
theorem C13_params_determine_partial {e e' : Error} (hq : NoQuotes e) (hq' : NoQuotes e')
    (h : e.params = e'.params) :
    parameters e = parameters e' ∧ e.name = e'.name ∧ e.description = e'.description ∧
      e.uri = e'.uri ∧ e.realm = e'.realm ∧ e.scope.string = e'.scope.string ∧
      e.state = e'.state := by
  have keys : ∀ (e : Error), ∀ p ∈ parameters e, (0x22 : UInt8) ∉ p.1 := by
    intro e p hp
    have : p.1 ∈ paramKeys := (parameters_keys e).subset (List.mem_map.mpr ⟨p, hp, rfl⟩)
    revert this
    generalize p.1 = k
    revert k
    decide
  have hpar : parameters e = parameters e' := by
    have h1 := C11_params_exact e e.map (List.Perm.refl _)
    have h2 := C11_params_exact e' e'.map (List.Perm.refl _)
    refine params_injective (fun p hp => ⟨keys e p hp, hq p hp⟩) (fun p hp => ⟨keys e' p hp, hq' p hp⟩) ?_
    rw [← h1, ← h2]
    exact h
  have field : ∀ (e : Error),
      (GoMap.get? (parameters e) b!"error").getD [] = e.name ∧
      (GoMap.get? (parameters e) b!"error_description").getD [] = e.description ∧
      (GoMap.get? (parameters e) b!"error_uri").getD [] = e.uri ∧
      (GoMap.get? (parameters e) b!"realm").getD [] = e.realm ∧
      (GoMap.get? (parameters e) b!"scope").getD [] = e.scope.string ∧
      (GoMap.get? (parameters e) b!"state").getD [] = e.state := by
    intro e
    have hsc : e.scope.items = [] → e.scope.string = [] := by
      intro h; rw [Scope.string, h]; rfl
    obtain ⟨name, state, scope, realm, description, uri, status, headers, ru, uf⟩ := e
    simp only [parameters] at hsc ⊢
    generalize Scope.items scope = items at hsc
    generalize Scope.string scope = str at hsc
    cases name <;> cases description <;> cases uri <;> cases realm <;> cases items <;> cases state <;>
      simp [GoMap.get?, hsc] <;> first | exact hsc rfl | exact (hsc rfl).symm | skip
  obtain ⟨a1, a2, a3, a4, a5, a6⟩ := field e
  obtain ⟨b1, b2, b3, b4, b5, b6⟩ := field e'
  rw [hpar] at a1 a2 a3 a4 a5 a6
  exact ⟨hpar, a1.symm.trans b1, a2.symm.trans b2, a3.symm.trans b3, a4.symm.trans b4,
    a5.symm.trans b5, a6.symm.trans b6⟩

/-- Every error the server's `Authorize` writes meets the hypothesis, for scopes without quotes. -/
example : NoQuotes (invalidToken b!"expired token") ∧
    NoQuotes (insufficientScope (some [b!"a", b!"b:c"])) := by
  constructor <;> (unfold NoQuotes; decide)

end OAuth2

import Verif.Props.Documents
/-
C79: the numbers in the extra data of a token. They are floating-point numbers of 64 bits (IEEE 754
binary64) for whoever reads them, whatever was written.
-/

namespace OAuth2

open Spec

variable {σ : Type}

/-- A literal stands for at most one number, and for none only if it is too large. -/
theorem denotes_number {lit : Str} (h : NumberText lit) :
    (∀ f g, NumberDenotes lit f → NumberDenotes lit g → f = g) ∧
    ((∀ f, ¬ NumberDenotes lit f) ↔ ∃ neg x, NumberValue lit neg x ∧ TooLarge x) := by
  simp only [← F64.parse_iff h]
  refine ⟨fun f g h1 h2 => Option.some.inj (h1.symm.trans h2), ?_⟩
  obtain ⟨neg, x, hv⟩ := number_value h
  have hx := hv.nonneg
  constructor
  · intro hn
    refine ⟨neg, x, hv, ?_⟩
    rw [F64.parse_value hv] at hn
    cases hr : F64.round neg x with
    | some f => exact absurd hr (hn f)
    | none =>
      by_cases h0 : x = 0
      · rw [h0, F64.round, if_pos rfl] at hr; cases hr
      · have := (F64.round_none (x := x) (by grind) (neg := neg)).mp hr
        unfold TooLarge
        rw [Rat.abs_of_nonneg hx]
        exact this
  · rintro ⟨neg', x', hv', hl⟩ f hf
    rw [F64.parse_value hv'] at hf
    exact ((F64.round_iff hv'.nonneg neg' f).mp hf).2.1 hl

/-- What a client makes of a response whose extra data is one number. -/
theorem parse_number {res : Response} {limit : Int} {data k lit : Str}
    (hr : JsonResponse res limit data)
    (hd : JsonText 10000 (.obj [(b!"extra", .obj [(k, .num lit)])]) data) :
    parseIntrospectionResponse res limit =
      match F64.parse lit with
      | some f => .ok { extra := some [(k, .num f)] }
      | none => .error .lib := by
  rw [← C74_json] at hd
  rw [← readJSONBody_iff] at hr
  unfold parseIntrospectionResponse
  rw [hr]
  simp only [IntrospectionResponse.unmarshal, hd, List.foldlM_cons, List.foldlM_nil,
    IntrospectionResponse.setField]
  rw [show selectField IntrospectionResponse.jsonFields b!"extra" = some b!"extra" by decide +kernel]
  cases hp : F64.parse lit with
  | none => simp [decMap, JSON.readableMembers, JSON.readable, hp]
  | some f =>
    simp [decMap, JSON.readableMembers, JSON.readable, hp, JSON.entries, JSON.value, insertBy]

/-- **C79.** A number in the extra data is read as the number of the format nearest to it, the even
one of two; one that is too large makes the whole response an error, and nothing else does. -/
theorem C79_nearest {res : Response} {limit : Int} {data k lit : Str} (hn : NumberText lit)
    (hr : JsonResponse res limit data)
    (hd : JsonText 10000 (.obj [(b!"extra", .obj [(k, .num lit)])]) data) :
    (∀ f, (∃ t, parseIntrospectionResponse res limit = .ok t ∧ t.extra = some [(k, .num f)]) ↔
      NumberDenotes lit f) ∧
    ((∃ e, parseIntrospectionResponse res limit = .error e) ↔
      ∃ neg x, NumberValue lit neg x ∧ TooLarge x) := by
  rw [parse_number hr hd, ← (denotes_number hn).2]
  simp only [← F64.parse_iff hn]
  cases F64.parse lit with
  | none => simp
  | some f => simp

/-- **C79.** A number of type `float64` that a server puts in the extra data arrives as it was. -/
theorem C79_exact (f : F64) {k : Str} (hk : ValidUTF8 k) (s : Shared σ) (l : Local)
    (hw : l.w.Fresh) (limit : Int) :
    ∃ l', exec (writeIntrospectionResponse { extra := some [(k, .num f)] }) s l = (.ret true, s, l') ∧
      ((l'.w.result.body.length : Int) ≤ limit →
        parseIntrospectionResponse l'.w.result limit = .ok { extra := some [(k, .num f)] }) := by
  have nil : ValidUTF8 [] := ⟨[], by simp, rfl⟩
  have hz : isInt64 0 := by unfold isInt64; decide
  refine C24_introspection_response_exact (by simp) hz hz hz ?_ ?_ ?_ ?_ ?_ (by simp) ?_ s l hw limit
  · intro v hv
    simp only [List.mem_cons, List.not_mem_nil, or_false, or_self] at hv
    rw [hv]; exact nil
  · exact fun l h => nomatch h
  · exact fun i hi => nomatch hi
  · exact .obj (List.pairwise_singleton _ _) (by simp [Representable.num])
  · exact .obj (by simpa using hk) (by simp [ValidText.num])
  · intro h
    rcases h with _ | _ | ⟨hm, hv⟩
    simp only [Option.getD_some, List.mem_cons, List.not_mem_nil, or_false] at hm
    rw [hm] at hv
    cases hv

theorem binary64_int {i : Int} (h1 : -2 ^ 53 ≤ i) (h2 : i ≤ 2 ^ 53) : Binary64 i := by
  by_cases ha : -2 ^ 53 < i ∧ i < 2 ^ 53
  · exact ⟨i, 0, by rw [Rat.zpow_zero, Rat.mul_one], ha.1, ha.2, by decide, by decide⟩
  · rcases show i = 2 ^ 53 ∨ i = -2 ^ 53 by omega with rfl | rfl
    · exact ⟨2 ^ 52, 1, by decide +kernel, by decide, by decide, by decide, by decide⟩
    · exact ⟨-2 ^ 52, 1, by decide +kernel, by decide, by decide, by decide, by decide⟩

theorem nearest_exact {x : Rat} {f : F64} (h : Nearest x f) : f.value = x ↔ Binary64 x := by
  constructor
  · rintro rfl; exact f.binary64
  · intro hb
    have := h.near x hb
    rw [Rat.sub_self] at this
    unfold Rat.abs at this
    grind

/-- **C79.** An integer that a server puts in the extra data arrives as the nearest number of the
format, so that it arrives as it was if and only if it is one; those up to `2 ^ 53` are. -/
theorem C79_integers {i : Int} (h1 : -2 ^ 63 ≤ i) (h2 : i < 2 ^ 64) {k : Str} (hk : ValidUTF8 k)
    (s : Shared σ) (l : Local) (hw : l.w.Fresh) (limit : Int) :
    ∃ l', exec (writeIntrospectionResponse { extra := some [(k, .int i)] }) s l = (.ret true, s, l') ∧
      ((l'.w.result.body.length : Int) ≤ limit →
        ∃ t f, parseIntrospectionResponse l'.w.result limit = .ok t ∧ t.extra = some [(k, .num f)] ∧
          Nearest i f ∧ (f.value = i ↔ Binary64 i) ∧
          (-2 ^ 53 ≤ i → i ≤ 2 ^ 53 → f.value = i)) := by
  have hz : isInt64 0 := by unfold isInt64; decide
  have hx : Representable 9999 (.obj [(k, .int i)]) :=
    .obj (List.pairwise_singleton _ _) (by simp [Representable.int h1 h2])
  obtain ⟨l', h, -, hp⟩ := C24_introspection_response (r := { extra := some [(k, .int i)] })
    (by simp) hz hz hz hx s l hw limit
  refine ⟨l', h, fun hl => ?_⟩
  obtain ⟨t, ht, -, -, -, -, -, -, -, -, -, -, -, -, hv⟩ := hp hl
  have hv := hv (.obj (by simpa using hk) (by simp [ValidText.int]))
  simp only [Option.getD_some] at hv
  generalize hm : t.extra.getD [] = m at hv
  rcases hv with _ | _ | _ | _ | _ | _ | he
  rcases he with _ | ⟨ha, he⟩
  rcases he with _ | _
  rcases ha with _ | _ | _ | ⟨hf, -⟩
  refine ⟨t, _, ht, ?_, hf, nearest_exact hf, fun a b => (nearest_exact hf).mpr (binary64_int a b)⟩
  cases he : t.extra with
  | none => rw [he] at hm; cases hm
  | some m => rw [he] at hm; rw [← hm]; rfl

/-- **C79.** Two integers may arrive as the same number, `2 ^ 53` and `2 ^ 53 + 1` for example. -/
theorem C79_integers_collide (k : Str) (s : Shared σ) (l : Local) (hw : l.w.Fresh) : ∃ l₁ l₂ t,
    exec (writeIntrospectionResponse { extra := some [(k, .int (2 ^ 53))] }) s l =
      (.ret true, s, l₁) ∧
    exec (writeIntrospectionResponse { extra := some [(k, .int (2 ^ 53 + 1))] }) s l =
      (.ret true, s, l₂) ∧
    ∀ limit, (l₁.w.result.body.length : Int) ≤ limit → (l₂.w.result.body.length : Int) ≤ limit →
      parseIntrospectionResponse l₁.w.result limit = .ok t ∧
      parseIntrospectionResponse l₂.w.result limit = .ok t := by
  have hz : isInt64 0 := by unfold isInt64; decide
  have hx : ∀ i : Int, -2 ^ 63 ≤ i → i < 2 ^ 64 → Representable 9999 (.obj [(k, .int i)]) :=
    fun i h1 h2 => .obj (List.pairwise_singleton _ _) (by simp [Representable.int h1 h2])
  have hp : F64.parse (itoa (2 ^ 53)) = F64.parse (itoa (2 ^ 53 + 1)) := by decide +kernel
  have he : IntrospectionResponse.wire { extra := some [(k, .int (2 ^ 53))] } =
      IntrospectionResponse.wire { extra := some [(k, .int (2 ^ 53 + 1))] } := by
    simp only [IntrospectionResponse.wire, Option.getD_some, GoVal.docEntries, GoVal.doc,
      JSON.entries, JSON.value, hp]
    rfl
  have w := fun (i : Int) h1 h2 => exec_writeIntrospectionResponse
    (r := { extra := some [(k, .int i)] }) (by simp) (hx i h1 h2) s l hw
  have p := fun (i : Int) h1 h2 => @parseIntrospectionResponse_written
    { extra := some [(k, .int i)] } hz hz hz (hx i h1 h2) l.w.header
  exact ⟨_, _, _, w _ (by decide) (by decide), w _ (by decide) (by decide),
    fun limit h1 h2 => ⟨p _ (by decide) (by decide) h1, he ▸ p _ (by decide) (by decide) h2⟩⟩

/-! The hypotheses are met, by a number between two of the format and by one that is too large. -/

/-- A response whose extra data is one number. -/
def numberResponse (lit : Str) : Response :=
  { statusCode := 200, header := [(b!"Content-Type", [b!"application/json"])],
    body := b!"{\"extra\":{\"n\":" ++ lit ++ b!"}}" }

/-- The number 0.1, as near as it gets. -/
def F64.tenth : F64 := { neg := false, mant := 0x1999999999999A, exp := -56, valid := by decide }

theorem number_tenth : NumberDenotes b!"100e-3" F64.tenth :=
  (F64.parse_iff ⟨[], b!"100", [], b!"e-3", by decide, .inl rfl,
    .inr ⟨0x31, b!"00", rfl, by decide, by unfold Digit; decide, by unfold Digit; decide⟩, .inl rfl,
    .inr ⟨b!"e", b!"-", b!"3", .inl rfl, .inr (.inr rfl), by decide, by unfold Digit; decide, rfl⟩⟩
    F64.tenth).mp (by decide +kernel)

example : ∃ data, JsonResponse (numberResponse b!"100e-3") 2048 data ∧
    JsonText 10000 (.obj [(b!"extra", .obj [(b!"n", .num b!"100e-3")])]) data := by
  refine ⟨_, ⟨rfl, by decide, by decide +kernel⟩, ?_⟩
  rw [← C74_json]
  rfl

example : parseIntrospectionResponse (numberResponse b!"100e-3") 2048 =
      .ok { extra := some [(b!"n", .num .tenth)] } ∧
    parseIntrospectionResponse (numberResponse b!"1e309") 2048 = .error .lib ∧
    parseIntrospectionResponse (numberResponse b!"-1e-400") 2048 =
      .ok { extra := some [(b!"n", .num (.zero true))] } ∧
    (IntrospectionResponse.json { extra := some [(b!"n", .num .tenth)] }) =
      b!"{\"active\":false,\"extra\":{\"n\":0.1}}" := by decide +kernel

end OAuth2

import Verif.Spec.Inert
import Verif.Lemmas.Extra
import Verif.Lemmas.Observe
/-
C103: nothing that a request or a response contains becomes markup.
-/

namespace OAuth2

open Spec

variable {σ : Type} {s : Server} {c : Call} {r : Request} {res : Response}

instance (r : Nat) : Decidable (Scalar r) := by unfold Scalar; infer_instance
instance (r : Nat) : Decidable (Inert r) := by unfold Inert; infer_instance

/-! ### Inert text -/

theorem inert_nil : InertText [] := ⟨[], nofun, rfl⟩

theorem inert_append {a b : Str} (ha : InertText a) (hb : InertText b) : InertText (a ++ b) := by
  obtain ⟨x, hx, rfl⟩ := ha
  obtain ⟨y, hy, rfl⟩ := hb
  refine ⟨x ++ y, fun r hr => ?_, by simp⟩
  rcases List.mem_append.mp hr with h | h
  · exact hx r h
  · exact hy r h

theorem inert_byte {c : UInt8} (h : c < 0x80) (hi : Inert c.toNat) : InertText [c] := by
  refine ⟨[c.toNat], fun r hr => ?_, ?_⟩
  · rw [List.mem_singleton.mp hr]
    exact hi
  · have := UInt8.lt_iff_toNat_lt.mp h
    simp at this
    simp [encodeRune, this]

/-- A byte that is a character and inert. -/
def inertByte (c : UInt8) : Bool := c < 0x80 && decide (Inert c.toNat)

theorem inert_ascii {s : Str} (h : ∀ c ∈ s, inertByte c = true) : InertText s := by
  induction s with
  | nil => exact inert_nil
  | cons c s ih =>
    have := h c (.head _)
    unfold inertByte at this
    simp only [Bool.and_eq_true, decide_eq_true_eq] at this
    exact inert_append (inert_byte this.1 this.2) (ih fun c hc => h c (.tail _ hc))

theorem inertByte_of {p : UInt8 → Bool} (h : ∀ n : Fin 256, p (UInt8.ofNat n.val) = true →
    inertByte (UInt8.ofNat n.val) = true) {c : UInt8} (hc : p c = true) : inertByte c = true := by
  have := h ⟨c.toNat, c.toNat_lt⟩
  simp only [UInt8.ofNat_toNat] at this
  exact this hc

theorem inert_htmlSafe {c : UInt8} (h : htmlSafe c = true) : inertByte c = true :=
  inertByte_of (p := htmlSafe) (by decide +kernel) h

theorem inert_digit {c : UInt8} (h : isDigit c = true) : inertByte c = true :=
  inertByte_of (p := isDigit) (by decide +kernel) h

theorem inert_hexLower (n : Nat) (h : n < 16) : inertByte (hexLower n) = true := by
  have : ∀ n : Fin 16, inertByte (hexLower n.val) = true := by decide +kernel
  exact this ⟨n, h⟩

theorem inert_escByte (c : UInt8) : InertText (jsonEscByte c) := by
  apply inert_ascii
  have : ∀ n : Fin 256, ∀ x ∈ jsonEscByte (UInt8.ofNat n.val), inertByte x = true := by decide +kernel
  have := this ⟨c.toNat, c.toNat_lt⟩
  simp only [UInt8.ofNat_toNat] at this
  exact this

theorem inert_rune {r : Nat} (h : Inert r) : InertText (encodeRune r) :=
  ⟨[r], fun x hx => by rw [List.mem_singleton.mp hx]; exact h, by simp⟩

theorem inert_escape (n : Nat) : ∀ s : Str, InertText (jsonEscAux n s) := by
  induction n with
  | zero => exact fun _ => inert_nil
  | succ n ih =>
    intro s
    cases s with
    | nil => exact inert_nil
    | cons c cs =>
      unfold jsonEscAux
      split
      · refine inert_append ?_ (ih _)
        split
        · next h => exact inert_ascii (by simpa using inert_htmlSafe h)
        · exact inert_escByte c
      · next hc =>
        rcases decodeRune_cases c cs with ⟨h, _⟩ | ⟨r, hr, hd, he⟩
        · rw [h]
          simp only [and_self, if_true]
          exact inert_append (inert_ascii (by decide +kernel)) (ih _)
        · rw [hd]
          simp only
          have big : 0x80 ≤ r := by
            refine Nat.le_of_not_lt fun hlt => hc ?_
            rw [show encodeRune r = [UInt8.ofNat r] by simp [encodeRune, hlt]] at he
            have : c = UInt8.ofNat r := by simpa using (List.cons.inj he).1
            rw [this, UInt8.lt_iff_toNat_lt]
            simp
            omega
          split
          · exact inert_append (inert_ascii (by decide +kernel)) (ih _)
          split
          · refine inert_append (inert_append (inert_ascii (by decide +kernel)) (inert_ascii ?_)) (ih _)
            simpa using inert_hexLower _ (Nat.mod_lt _ (by decide))
          · next h2 =>
            refine inert_append ?_ (ih _)
            have : (c :: cs).take (encodeRune r).length = encodeRune r := by
              conv => lhs; arg 2; rw [he]
              exact List.take_left
            rw [this]
            refine inert_rune ⟨hr, by omega, ?_⟩
            simp only [List.mem_cons, List.not_mem_nil, or_false]
            omega

theorem inert_string (s : Str) : InertText (jsonString s) :=
  inert_append (inert_append (a := [0x22]) (inert_ascii (by decide +kernel)) (inert_escape _ _))
    (inert_ascii (by decide +kernel))

theorem inert_join : ∀ l : List Str, (∀ t ∈ l, InertText t) → InertText (joinStr [0x2C] l)
  | [], _ => inert_nil
  | [x], h => h x (.head _)
  | x :: y :: rest, h => by
    show InertText (x ++ [0x2C] ++ joinStr [0x2C] (y :: rest))
    exact inert_append (inert_append (h x (.head _)) (inert_ascii (by decide +kernel)))
      (inert_join (y :: rest) fun t ht => h t (.tail _ ht))

theorem inert_object {ms : List (Str × Str)} (h : ∀ m ∈ ms, InertText m.2) : InertText (jsonObject ms) := by
  unfold jsonObject
  refine inert_append (inert_append (inert_ascii (by decide +kernel)) (inert_join _ ?_))
    (inert_ascii (by decide +kernel))
  intro t ht
  obtain ⟨m, hm, rfl⟩ := List.mem_map.mp ht
  exact inert_append (inert_append (inert_string _) (inert_ascii (by decide +kernel))) (h m hm)

theorem inert_digits (n : Nat) : InertText (natDigits n) :=
  inert_ascii fun c hc => inert_digit ((natDigits_spec n).1 c hc)

theorem inert_itoa (i : Int) : InertText (itoa i) := by
  cases i with
  | ofNat n => exact inert_digits n
  | negSucc n => exact inert_append (a := [0x2D]) (inert_ascii (by decide +kernel)) (inert_digits _)

theorem inert_zeros (n : Nat) : InertText (List.replicate n 0x30) :=
  inert_ascii fun c hc => by rw [List.eq_of_mem_replicate hc]; decide +kernel

theorem inert_float (f : F64) : InertText f.text := by
  have hd : ∀ c ∈ f.digits.1, inertByte c = true := by
    intro c hc
    by_cases h : f.mant = 0
    · rw [show f.digits = ([], 0) by unfold F64.digits; rw [if_pos h]] at hc
      cases hc
    · obtain ⟨_, _, _, _, h1, _⟩ := f.digits_spec h
      exact inert_digit (digit_isDigit (h1 c hc))
  have ht : ∀ n, InertText (f.digits.1.take n) := fun n => inert_ascii fun c hc => hd c (List.mem_of_mem_take hc)
  have hr : ∀ n, InertText (f.digits.1.drop n) := fun n => inert_ascii fun c hc => hd c (List.mem_of_mem_drop hc)
  have one : ∀ c : UInt8, inertByte c = true → ∀ {t : Str}, InertText t → InertText (c :: t) := fun c hc t h =>
    inert_append (a := [c]) (inert_ascii (by simpa using hc)) h
  unfold F64.text
  generalize f.digits = x at ht hr ⊢
  obtain ⟨ds, dp⟩ := x
  simp only at ht hr ⊢
  refine inert_append ?_ ?_
  · split
    · exact inert_ascii (by decide +kernel)
    · exact inert_nil
  split
  · unfold F64.fmtE
    refine inert_append (inert_append (inert_append (ht 1) ?_) (inert_ascii (by decide +kernel))) ?_
    · split
      · exact one _ (by decide +kernel) (hr 1)
      · exact inert_nil
    · split
      · exact one _ (by decide +kernel) (inert_digits _)
      · exact one _ (by decide +kernel) (inert_digits _)
  · unfold F64.fmtF
    refine inert_append ?_ ?_
    · split
      · exact inert_append (ht _) (inert_zeros _)
      · exact inert_ascii (by decide +kernel)
    · split
      · exact one _ (by decide +kernel) (inert_append (inert_zeros _) (hr _))
      · exact inert_nil

mutual
theorem inert_value : ∀ (v : GoVal) {t : Str}, v.json = some t → InertText t
  | .null, t, h => by cases h; exact inert_ascii (by decide +kernel)
  | .bool b, t, h => by cases h; cases b <;> exact inert_ascii (by decide +kernel)
  | .num f, t, h => by cases h; exact inert_float f
  | .int i, t, h => by cases h; exact inert_itoa i
  | .str x, t, h => by cases h; exact inert_string x
  | .arr l, t, h => by
    unfold GoVal.json at h
    obtain ⟨ts, h1, rfl⟩ := Option.map_eq_some_iff.mp h
    exact inert_append (inert_append (inert_ascii (by decide +kernel)) (inert_join _ (inert_elems l h1)))
      (inert_ascii (by decide +kernel))
  | .obj l, t, h => by
    unfold GoVal.json at h
    obtain ⟨ms, h1, rfl⟩ := Option.map_eq_some_iff.mp h
    exact inert_object fun m hm => inert_entries l h1 m ((sortBy_perm _ _).mem_iff.mp hm)
  | .other, t, h => by cases h
theorem inert_elems : ∀ (l : List GoVal) {ts : List Str}, GoVal.elems l = some ts → ∀ t ∈ ts, InertText t
  | [], ts, h, t, ht => by cases h; cases ht
  | v :: l, ts, h, t, ht => by
    unfold GoVal.elems at h
    split at h
    · next x xs h1 h2 =>
      cases h
      rcases List.mem_cons.mp ht with rfl | ht
      · exact inert_value v h1
      · exact inert_elems l h2 t ht
    · cases h
theorem inert_entries : ∀ (l : List (Str × GoVal)) {ts : List (Str × Str)}, GoVal.entries l = some ts →
    ∀ t ∈ ts, InertText t.2
  | [], ts, h, t, ht => by cases h; cases ht
  | (k, v) :: l, ts, h, t, ht => by
    unfold GoVal.entries at h
    split at h
    · next x xs h1 h2 =>
      cases h
      rcases List.mem_cons.mp ht with rfl | ht
      · exact inert_value v h1
      · exact inert_entries l h2 t ht
    · cases h
end

/-! ### Documents -/

theorem inert_omitEmpty {k v : Str} : ∀ m ∈ omitEmpty k v, InertText m.2 := by
  intro m hm
  unfold omitEmpty at hm
  split at hm
  · cases hm
  · rw [List.mem_singleton.mp hm]
    exact inert_string _

theorem inert_omitScope {k : Str} {x : Scope} :
    ∀ m ∈ (if x.items.length = 0 then [] else [(k, x.marshalJSON)]), InertText m.2 := by
  intro m hm
  split at hm
  · cases hm
  · rw [List.mem_singleton.mp hm]
    exact inert_string _

theorem inert_omitZero {k : Str} {v : Int} : ∀ m ∈ omitZero k v, InertText m.2 := by
  intro m hm
  unfold omitZero at hm
  split at hm
  · cases hm
  · rw [List.mem_singleton.mp hm]
    exact inert_itoa _

theorem inert_omitMap {k : Str} {x : Option (List (Str × GoVal))} : ∀ m ∈ omitEmptyMap k x, InertText m.2 := by
  intro m hm
  unfold omitEmptyMap at hm
  split at hm
  · cases hm
  · split at hm
    · cases hm
    · next h =>
      rw [List.mem_singleton.mp hm]
      exact inert_value _ h

theorem inert_errorJson (e : Error) : InertText e.json := by
  refine inert_object fun m hm => ?_
  simp only [List.mem_append, or_assoc] at hm
  rcases hm with hm | hm | hm | hm | hm | hm
  · rw [List.mem_singleton.mp hm]; exact inert_string _
  · exact inert_omitEmpty m hm
  · exact inert_omitScope m hm
  all_goals exact inert_omitEmpty m hm

theorem inert_tokenJson (t : TokenResponse) : InertText t.json := by
  refine inert_object fun m hm => ?_
  simp only [List.mem_append, List.mem_cons, List.not_mem_nil, or_false, or_assoc] at hm
  rcases hm with rfl | rfl | rfl | hm | hm | hm
  · exact inert_string _
  · exact inert_string _
  · exact inert_itoa _
  · exact inert_omitEmpty m hm
  · exact inert_omitScope m hm
  · exact inert_omitEmpty m hm

theorem inert_introspectionJson (i : IntrospectionResponse) : InertText i.json := by
  refine inert_object fun m hm => ?_
  simp only [List.mem_append, or_assoc] at hm
  rcases hm with hm | hm | hm | hm | hm | hm | hm | hm | hm | hm | hm | hm | hm
  · rw [List.mem_singleton.mp hm]
    cases i.active <;> exact inert_ascii (by decide +kernel)
  · exact inert_omitScope m hm
  all_goals first
    | exact inert_omitEmpty m hm
    | exact inert_omitZero m hm
    | exact inert_omitMap m hm

/-- **C103.** A scope, as a document. -/
theorem C103_scope (x : Scope) : InertText x.marshalJSON := inert_string _

/-! ### What is written -/

theorem body_writeHeader (w : Recorder) (n : Nat) : (w.writeHeader n).body = w.body := by
  unfold Recorder.writeHeader
  split <;> rfl

theorem body_write (w : Recorder) (d : Str) : (w.write d).body = w.body ++ d := by
  unfold Recorder.write
  split
  · rfl
  · simp only [body_writeHeader]

theorem body_json {t : Str} (h : InertText t) (status : Int) (s : Shared σ) (l : Local) :
    ∃ d, InertLine d ∧ (exec (write t status) s l).2.2.w.body = l.w.body ++ d := by
  by_cases hs : 100 ≤ status ∧ status ≤ 999
  · rw [exec_write t hs.1 hs.2]
    refine ⟨t ++ [0x0A], .inr ⟨t, h, rfl⟩, ?_⟩
    simp only [jsonRecorder, body_write, body_writeHeader]
  · refine ⟨[], .inl rfl, ?_⟩
    unfold write
    simp only [exec_respond_bind]
    unfold Prog.writeHeader
    rw [if_pos (by omega), List.append_nil]
    rfl

theorem body_redirect (uri : Str) (params : GoMap Str) (f : Bool) (s : Shared σ) (l : Local) :
    (exec (writeRedirect uri params f) s l).2.2.w.body = l.w.body := by
  rw [exec_writeRedirect]
  split
  · rfl
  · simp only [redirectRecorder, body_write, body_writeHeader, List.append_nil]

/-- **C103.** Whatever error `WriteError` is given, it adds nothing to the body of the response or one line of inert
text. -/
theorem C103_error (err : GoErr) (s : Shared σ) (l : Local) :
    ∃ d, InertLine d ∧ (exec (writeError err) s l).2.2.w.body = l.w.body ++ d := by
  unfold writeError
  simp only [exec_respond_bind]
  split
  · exact ⟨[], .inl rfl, by rw [body_redirect, List.append_nil]⟩
  · exact body_json (inert_errorJson _) _ s _

/-- **C103.** Whatever response `WriteTokenResponse` is given, the same. -/
theorem C103_token (t : TokenResponse) (s : Shared σ) (l : Local) :
    ∃ d, InertLine d ∧ (exec (writeTokenResponse t) s l).2.2.w.body = l.w.body ++ d := by
  unfold writeTokenResponse
  split
  · exact ⟨[], .inl rfl, by rw [body_redirect, List.append_nil]⟩
  · exact body_json (inert_tokenJson _) _ s _

/-- **C103.** Whatever response `WriteIntrospectionResponse` is given, with whatever extra data, the same. -/
theorem C103_introspection (i : IntrospectionResponse) (s : Shared σ) (l : Local) :
    ∃ d, InertLine d ∧ (exec (writeIntrospectionResponse i) s l).2.2.w.body = l.w.body ++ d := by
  unfold writeIntrospectionResponse
  split
  · exact ⟨[], .inl rfl, (List.append_nil _).symm⟩
  split
  · exact body_json (inert_introspectionJson _) _ s _
  · refine ⟨[], .inl rfl, ?_⟩
    unfold writeUnencodable
    simp only [exec_respond_bind]
    rw [exec_writeHeader_bind (by decide) (by decide), List.append_nil]
    exact body_writeHeader _ _

/-- **C103.** Redirects of codes have no body. -/
theorem C103_code (x : CodeResponse) (s : Shared σ) (l : Local) :
    (exec (writeCodeResponse x) s l).2.2.w.body = l.w.body := body_redirect _ _ _ s l

/-- **C103.** Nor have bearer challenges. -/
theorem C103_bearer (err : GoErr) (s : Shared σ) (l : Local) :
    (exec (writeBearerError err) s l).2.2.w.body = l.w.body := by
  have internal : ∀ l : Local, (exec (do Prog.writeHeader 500; Prog.respond (·.write []); return true : Prog σ Bool)
      s l).2.2.w.body = l.w.body := by
    intro l
    rw [exec_writeHeader_bind (by decide) (by decide), exec_respond_bind]
    show ((l.w.writeHeader 500).write []).body = _
    rw [body_write, body_writeHeader, List.append_nil]
  unfold writeBearerError
  simp only
  split
  · exact internal l
  split
  · exact internal l
  · next e _ _ =>
    simp only [exec_respond_bind]
    by_cases hs : 100 ≤ e.status ∧ e.status ≤ 999
    · rw [exec_writeHeader_bind hs.1 hs.2, exec_respond_bind]
      show (Recorder.write (Recorder.writeHeader _ _) []).body = _
      rw [body_write, body_writeHeader, List.append_nil]
    · unfold Prog.writeHeader
      rw [if_pos (by omega)]
      rfl

/-! ### The server -/

theorem result_body (w : Recorder) : w.result.body = w.body := by
  unfold Recorder.result
  split <;> rfl

theorem page_of_line {d : Str} (h : InertLine d) : InertPage d := by
  rcases h with rfl | ⟨t, ⟨rs, h1, rfl⟩, rfl⟩
  · exact ⟨[], nofun, rfl⟩
  · refine ⟨rs ++ [0x0A], fun r hr => ?_, by rw [List.flatMap_append]; rfl⟩
    rcases List.mem_append.mp hr with h | h
    · exact .inl (h1 r h)
    · exact .inr (List.mem_singleton.mp h)

theorem page_append {a b : Str} (ha : InertPage a) (hb : InertPage b) : InertPage (a ++ b) := by
  obtain ⟨x, hx, rfl⟩ := ha
  obtain ⟨y, hy, rfl⟩ := hb
  refine ⟨x ++ y, fun r hr => ?_, by simp⟩
  rcases List.mem_append.mp hr with h | h
  · exact hx r h
  · exact hy r h

theorem page_of_text {t : Str} (h : InertText t) : InertPage t :=
  h.imp fun _ h => ⟨fun r hr => .inl (h.1 r hr), h.2⟩

theorem page_ascii {s : Str} (h : ∀ c ∈ s, inertByte c = true ∨ c = 0x0A) : InertPage s := by
  induction s with
  | nil => exact ⟨[], nofun, rfl⟩
  | cons c s ih =>
    refine page_append (a := [c]) ?_ (ih fun c hc => h c (.tail _ hc))
    rcases h c (.head _) with h | rfl
    · exact page_of_text (inert_ascii (by simpa using h))
    · exact ⟨[0x0A], fun r hr => .inr (List.mem_singleton.mp hr), rfl⟩

theorem line_json (w : Recorder) {t : Str} (h : InertText t) (n : Nat) (hw : w.body = []) :
    InertPage (jsonRecorder w t n).body := by
  simp only [jsonRecorder, body_write, body_writeHeader, hw, List.nil_append]
  exact page_of_line (.inr ⟨t, h, rfl⟩)

theorem line_redirect (w : Recorder) (uri : Str) (params : GoMap Str) (f : Bool) (hw : w.body = []) :
    InertPage (redirectTo w uri params f).body := by
  have : (redirectTo w uri params f).body = [] := by
    unfold redirectTo
    split
    · exact hw
    · simp only [redirectRecorder, body_write, body_writeHeader, List.append_nil, hw]
  rw [this]
  exact page_of_line (.inl rfl)

/-- **C103.** Whatever a request contains, every response of the server has a body of inert text. -/
theorem C103_server (hop : c.op = .serve r) (h : (step ⟨false, s⟩ c).1 = .answered res) : InertPage res.body := by
  rw [step_serve hop] at h
  generalize (s.handle r c.local).1 = reply at h
  have nothing : InertPage [] := page_of_line (.inl rfl)
  cases reply with
  | crash => cases h
  | error e =>
    cases h
    rw [result_body]
    unfold Reply.render
    simp only
    split
    · exact line_redirect _ _ _ _ rfl
    · exact line_json _ (inert_errorJson e) _ rfl
  | token t =>
    cases h
    rw [result_body]
    simp only [Reply.render]
    split
    · exact line_redirect _ _ _ _ rfl
    · exact line_json _ (inert_tokenJson t) _ rfl
  | code x => cases h; rw [result_body]; exact line_redirect _ _ _ _ rfl
  | introspection i => cases h; rw [result_body]; exact line_json _ (inert_introspectionJson i) _ rfl
  | revoked => cases h; exact nothing
  | notice => cases h; exact page_ascii (s := Server.notice) (by decide +kernel)
  | notFound => cases h; exact page_ascii (s := b!"404 page not found\n") (by decide +kernel)

/-- **C103.** And when the authorizer rejects a request, it sends no body. -/
theorem C103_rejected {required : Scope} (hop : c.op = .authorize r required)
    (h : (step ⟨false, s⟩ c).1 = .rejected res) : res.body = [] := by
  rw [step_authorize hop] at h
  simp only at h
  split at h
  · cases h
  · cases h
    rw [result_body]
    simp only [Server.challenge, body_write, body_writeHeader, List.append_nil]

/-- **C103.** In bytes: none is that of `&`, `<` or `>`, and the only control character is the line feed. -/
theorem C103_bytes {t : Str} (h : InertPage t) {x : UInt8} (hx : x ∈ t) :
    x ≠ 0x26 ∧ x ≠ 0x3C ∧ x ≠ 0x3E ∧ (x < 0x20 → x = 0x0A) := by
  obtain ⟨rs, h1, rfl⟩ := h
  obtain ⟨r, hr, hx⟩ := List.mem_flatMap.mp hx
  have big : 0x80 ≤ x.toNat → x ≠ 0x26 ∧ x ≠ 0x3C ∧ x ≠ 0x3E ∧ (x < 0x20 → x = 0x0A) := by
    intro hb
    refine ⟨?_, ?_, ?_, fun hl => ?_⟩
    · rintro rfl; exact absurd hb (by decide)
    · rintro rfl; exact absurd hb (by decide)
    · rintro rfl; exact absurd hb (by decide)
    · have := UInt8.lt_iff_toNat_lt.mp hl
      simp at this
      omega
  by_cases hs : r < 0x80
  · rw [encodeRune, if_pos hs] at hx
    rw [List.mem_singleton.mp hx]
    have key : ∀ n : Fin 128, (Inert n.val ∨ n.val = 0x0A) → UInt8.ofNat n.val ≠ 0x26 ∧ UInt8.ofNat n.val ≠ 0x3C ∧
        UInt8.ofNat n.val ≠ 0x3E ∧ (UInt8.ofNat n.val < 0x20 → UInt8.ofNat n.val = 0x0A) := by decide +kernel
    exact key ⟨r, hs⟩ (h1 r hr)
  · apply big
    have hr' : r ≤ 0x10FFFF := by
      rcases h1 r hr with h | h
      · rcases h.1 with h | h <;> omega
      · omega
    unfold encodeRune at hx
    rw [if_neg hs] at hx
    split at hx
    · simp only [List.mem_cons, List.not_mem_nil, or_false] at hx
      rcases hx with rfl | rfl <;> simp <;> omega
    split at hx
    · simp only [List.mem_cons, List.not_mem_nil, or_false] at hx
      rcases hx with rfl | rfl | rfl <;> decide
    split at hx
    · simp only [List.mem_cons, List.not_mem_nil, or_false] at hx
      rcases hx with rfl | rfl | rfl <;> simp <;> omega
    · simp only [List.mem_cons, List.not_mem_nil, or_false] at hx
      rcases hx with rfl | rfl | rfl | rfl <;> simp <;> omega

/-! ### Examples -/

/-- An error with markup and a line separator in its description. -/
example : (exec (writeError (.oauth (invalidRequest b!"</script>&\u2028\n"))) ⟨false, ()⟩ ⟨{}, [], fun _ => 0, 0⟩).2.2.w.body =
    b!"{\"error\":\"invalid_request\",\"error_description\":\"\\u003c/script\\u003e\\u0026\\u2028\\n\"}\n" := by
  decide +kernel

/-- Text with markup is not inert, and text with letters of all kinds is. -/
example : ¬ InertPage b!"<b>" ∧ InertText b!"\"ü€😀'" := by
  refine ⟨?_, [0x22, 0xFC, 0x20AC, 0x1F600, 0x27], by decide, by decide⟩
  exact fun h => (C103_bytes h (x := 0x3C) (by decide)).2.1 rfl

end OAuth2

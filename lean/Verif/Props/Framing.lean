import Verif.Lemmas.Framing
import Verif.Props.Wire

/-!
C94: what is read from a connection was in order; what is not in order is refused.
-/

namespace OAuth2

open Spec Rfc7230
open Rfc7235 (Token)

/-! ### What a header that is read says of its fields -/

theorem fixPragma_some {h : Header} {key : Str} {vs : List Str} (hg : GoMap.get? h key = some vs) :
    GoMap.get? (fixPragma h) key = some vs := by
  by_cases hk : key = b!"Cache-Control"
  · unfold fixPragma
    rw [if_neg]
    · exact hg
    · rintro ⟨-, h2⟩
      rw [hk, h2] at hg
      cases hg
  · rw [get?_fixPragma _ hk, hg]

/-- Each field that has a name is stored. -/
theorem mem_store {fields : List (Str × Str)} {f : Str × Str} (hf : f ∈ fields) (h0 : f.1 ≠ []) :
    ∃ vs, GoMap.get? (store [] fields) (canonicalKey f.1) = some vs ∧ f.2 ∈ vs := by
  unfold store
  rw [get?_foldl_putField]
  have hm : f ∈ (fields.filter fun f => f.1 ≠ []).filter fun g => canonicalKey g.1 = canonicalKey f.1 := by
    rw [List.mem_filter, List.mem_filter]
    exact ⟨⟨hf, by simpa using h0⟩, by simp⟩
  rw [if_neg (List.ne_nil_of_mem hm)]
  exact ⟨_, rfl, List.mem_append_right _ (List.mem_map.mpr ⟨f, hm, rfl⟩)⟩

theorem token_validFieldName {k : Str} (h : validFieldName (canonicalKey k) = true) : Token k := by
  unfold validFieldName at h
  rw [Bool.and_eq_true] at h
  have h0 : k ≠ [] := by
    intro e
    have := of_decide_eq_true h.1
    exact this ((canonicalKey_nil_iff k).mpr e)
  exact token_of_decide h0 (valid_of_sameName (a := canonicalKey k) (lower_canonicalKey k) h.2)

theorem printable_validFieldValue {v : Str} (h : validFieldValue v = true) : Printable v := by
  unfold validFieldValue at h
  have key : ∀ c : UInt8,
      (!(decide (c < 0x20) || decide (c = 0x7F)) || decide (c = 0x20) || decide (c = 0x09)) = true →
      (c = 0x09 ∨ (0x20 ≤ c ∧ c ≠ 0x7F)) := by
    apply forall_u8 (P := fun c =>
      (!(decide (c < 0x20) || decide (c = 0x7F)) || decide (c = 0x20) || decide (c = 0x09)) = true →
      (c = 0x09 ∨ (0x20 ≤ c ∧ c ≠ 0x7F)))
    decide +kernel
  exact fun c hc => key c (List.all_eq_true.mp h c hc)

theorem text_validHost {h : Str} (hh : validHost h = true) : HostText h := by
  unfold validHost at hh
  have key : ∀ c : UInt8, (isAlnum c || b!"!$%&()*+,-.:;='[]_~".contains c) = true →
      c ∈ b!"!$%&()*+,-.:;='[]_~0123456789ABCDEFGHIJKLMNOPQRSTUVWXYZabcdefghijklmnopqrstuvwxyz" := by
    apply forall_u8 (P := fun c => (isAlnum c || b!"!$%&()*+,-.:;='[]_~".contains c) = true →
      c ∈ b!"!$%&()*+,-.:;='[]_~0123456789ABCDEFGHIJKLMNOPQRSTUVWXYZabcdefghijklmnopqrstuvwxyz")
    decide +kernel
  exact fun c hc => key c (List.all_eq_true.mp hh c hc)

/-- What is stored under a name. -/
theorem all_store {fields : List (Str × Str)} {h : Header} {name : Str} (hn : Token name)
    (hg : GoMap.get? h (canonicalKey name) = GoMap.get? (fixPragma (store [] fields)) (canonicalKey name))
    (hc : SameName name b!"Cache-Control" → named fields name ≠ [] ∨ named fields b!"Pragma" = []) :
    h.all name = named fields name := by
  have hread := get?_store fields hn
  have hfix : GoMap.get? (fixPragma (store [] fields)) (canonicalKey name) =
      GoMap.get? (store [] fields) (canonicalKey name) := by
    by_cases hcc : canonicalKey name = b!"Cache-Control"
    · have hs : SameName name b!"Cache-Control" := by
        refine ((canonicalKey_eq_iff (a := b!"Cache-Control") (b := name)
          (token_of_decide (by decide) (by decide))).mp ?_).symm
        rw [hcc]; decide
      unfold fixPragma
      rw [if_neg]
      rintro ⟨h1, h2⟩
      rcases hc hs with hn | hp
      · rw [hcc, h2, if_neg hn] at hread
        cases hread
      · have : Header.get (store [] fields) b!"Pragma" = [] := by
          unfold Header.get
          rw [get?_store fields (token_of_decide (by decide) (by decide)), if_pos hp]
        rw [this] at h1
        cases h1
    · exact get?_fixPragma _ hcc
  unfold Header.all
  rw [hg, hfix, hread]
  split
  · rename_i e; rw [e]; rfl
  · rfl

theorem framed_clear {request : Bool} {fields : List (Str × Str)} {text body rest : Str}
    (h : Framed request fields text body rest) : ¬ Unclear fields := by
  intro hu
  cases h with
  | chunked h1 h2 _ =>
    cases hu with
    | codings u1 => rw [h1] at u1; cases u1
    | coding u1 u2 => rw [h1] at u1; rw [List.mem_singleton.mp u1] at u2; exact u2 h2
    | lengths u1 => rw [h1] at u1; cases u1
    | length u1 => rw [h1] at u1; cases u1
    | large u1 => rw [h1] at u1; cases u1
  | length h1 h0 h2 h3 h4 h5 h6 =>
    cases hu with
    | codings u1 => rw [h1] at u1; cases u1
    | coding u1 => rw [h1] at u1; cases u1
    | lengths _ u1 u2 u3 => exact u3 (by rw [h2 _ u1, h2 _ u2])
    | length _ u1 u2 u3 => rw [h2 _ u1] at u2; exact u3 (h4 _ u2)
    | large _ u1 u2 => rw [h2 _ u1, h5] at u2; omega
  | none _ h1 h2 =>
    cases hu with
    | codings u1 => rw [h1] at u1; cases u1
    | coding u1 => rw [h1] at u1; cases u1
    | lengths _ u1 u2 u3 => exact u3 (by rw [h2 _ u1, h2 _ u2])
    | length _ u1 u2 u3 => rw [h2 _ u1] at u2; cases u2
    | large _ u1 u2 => rw [h2 _ u1] at u2; exact absurd u2 (by decide)
  | toEnd _ h1 h2 =>
    cases hu with
    | codings u1 => rw [h1] at u1; cases u1
    | coding u1 => rw [h1] at u1; cases u1
    | lengths _ u1 u2 u3 => exact u3 (by rw [h2 _ u1, h2 _ u2])
    | length _ u1 u2 u3 => rw [h2 _ u1] at u2; cases u2
    | large _ u1 u2 => rw [h2 _ u1] at u2; exact absurd u2 (by decide)

/-- However a body is delimited, some text is a body. -/
theorem readBody_some (len : BodyLength) : ∃ s body rest, readBody len s = (body, false, rest) := by
  cases len with
  | chunked => exact ⟨b!"0" ++ crlf ++ crlf, [], [], by decide +kernel⟩
  | fixed n => exact ⟨List.replicate n 0, List.replicate n 0, [], by simp [readBody]⟩
  | toEnd => exact ⟨[], [], [], rfl⟩

theorem bodyLength_clear {request : Bool} {fields : List (Str × Str)} {p : Header × BodyLength}
    (h : bodyLength request (fixPragma (store [] fields)) = some p) : ¬ Unclear fields := by
  obtain ⟨s, body, rest, hs⟩ := readBody_some p.2
  obtain ⟨text, -, hf⟩ := (bodyLength_sound (h' := p.1) (len := p.2) h).1 s body rest hs
  exact framed_clear hf

/-- C94: what the server takes for a request was one that is in order: its line, each of its fields,
its one host, and the bytes of its body, which end where the fields say; and the request says what
these bytes say. -/
theorem C94_request {bytes rest : Str} {r : Request} (h : readRequest bytes = some (r, rest)) :
    ∃ first start head fields s target u host,
      bytes = first ++ head ++ s ∧ Line first start ∧ RequestLine start r.method target ∧
      parseRequestURI target = some u ∧ r.path = u.path ∧ r.rawQuery = u.rawQuery ∧
      Head head fields ∧ ¬ Unclear fields ∧
      (∀ f ∈ fields, f.1 ≠ [] → Token f.1 ∧ (¬ SameName f.1 b!"Transfer-Encoding" →
        ¬ SameName f.1 b!"Content-Length" → Printable f.2)) ∧
      named fields b!"Host" = [host] ∧ HostText host ∧
      (r.bodyErr = false → ∃ text body, s = text ++ rest ∧ Framed true fields text body rest ∧
        r.body = some body) ∧
      ∀ name, Token name → ¬ SameName name b!"Transfer-Encoding" →
        ¬ SameName name b!"Content-Length" → ¬ SameName name b!"Host" →
        (SameName name b!"Cache-Control" → named fields name ≠ [] ∨ named fields b!"Pragma" = []) →
        r.header.all name = named fields name := by
  unfold readRequest at h
  obtain ⟨⟨start, s1⟩, h1, g⟩ := Option.bind_eq_some_iff.mp h
  clear h
  obtain ⟨first, rfl, hfirst⟩ := (readLine_iff _ _ _).mp h1
  simp only at g
  obtain ⟨⟨method, line⟩, h2, g1⟩ := Option.bind_eq_some_iff.mp g
  obtain ⟨⟨target, proto⟩, h3, g2⟩ := Option.bind_eq_some_iff.mp g1
  simp only at g2
  by_cases hc : (!validFieldName method) = true ∨ proto ≠ b!"HTTP/1.1"
  · rw [if_pos hc] at g2; cases g2
  rw [if_neg hc] at g2
  obtain ⟨u, h4, g3⟩ := Option.bind_eq_some_iff.mp g2
  obtain ⟨⟨hd, s2⟩, h5, g4⟩ := Option.bind_eq_some_iff.mp g3
  obtain ⟨head, fields, rfl, hhead, rfl⟩ := (readHead_iff _ _ _).mp h5
  simp only at g4
  obtain ⟨⟨hd', len⟩, h6, g5⟩ := Option.bind_eq_some_iff.mp g4
  obtain ⟨k1, k2⟩ := bodyLength_sound h6
  simp only at g5
  split at g5
  · rename_i host hhost
    by_cases hc2 : (!validHost host) = true ∨ (!hd'.sendable) = true
    · rw [if_pos hc2] at g5; cases g5
    rw [if_neg hc2] at g5
    simp only [not_or, Bool.not_eq_true', Bool.not_eq_false, ne_eq, Decidable.not_not] at hc hc2
    obtain ⟨e2, m2⟩ := (cutByte_some_iff _ _ _ _).mp h2
    obtain ⟨e3, m3⟩ := (cutByte_some_iff _ _ _ _).mp h3
    have htok : Token method := by
      have := hc.1
      unfold validFieldName at this
      rw [Bool.and_eq_true] at this
      exact token_of_decide (of_decide_eq_true this.1) this.2
    have hreq : (r, rest) = (({ method := method, path := u.path, rawQuery := u.rawQuery,
                                header := hd'.del b!"Host", body := some (readBody len s2).1,
                                bodyErr := (readBody len s2).2.1 } : Request),
        (readBody len s2).2.2) := (Option.some.inj g5).symm
    obtain ⟨rfl, rfl⟩ := Prod.mk.inj hreq
    refine ⟨first, start, head, fields, s2, target, u, host, by simp, hfirst, ⟨?_, htok, m3⟩, h4, rfl, rfl,
      hhead, bodyLength_clear h6, ?_, ?_, text_validHost hc2.1, ?_, ?_⟩
    · have e3 : line = target ++ 0x20 :: proto := e3
      rw [e2, e3, hc.2]; simp
    · intro f hf h0
      by_cases n1 : SameName f.1 b!"Transfer-Encoding"
      · exact ⟨token_of_decide h0 (valid_of_sameName n1.symm (by decide)), fun n => absurd n1 n⟩
      by_cases n2 : SameName f.1 b!"Content-Length"
      · exact ⟨token_of_decide h0 (valid_of_sameName n2.symm (by decide)), fun _ n => absurd n2 n⟩
      obtain ⟨vs, g1, g2⟩ := mem_store hf h0
      have g3 := k2 (canonicalKey f.1) (canonicalKey_other (by decide) (by decide) (by decide) n1)
        (canonicalKey_other (by decide) (by decide) (by decide) n2)
      rw [fixPragma_some g1] at g3
      have := List.all_eq_true.mp hc2.2 _ (GoMap.get?_some_mem g3)
      rw [Bool.and_eq_true] at this
      exact ⟨token_validFieldName this.1,
        fun _ _ => printable_validFieldValue (List.all_eq_true.mp this.2 _ g2)⟩
    · have := k2 b!"Host" (by decide) (by decide)
      rw [hhost, get?_fixPragma _ (by decide)] at this
      have e := get?_store fields token_host
      rw [show canonicalKey b!"Host" = b!"Host" by decide, ← this] at e
      split at e
      · cases e
      · exact (Option.some.inj e).symm
    · intro hb
      obtain ⟨text, t1, t2⟩ := k1 s2 (readBody len s2).1 (readBody len s2).2.2 (by
        have : (readBody len s2).2.1 = false := hb
        rw [← this])
      exact ⟨text, _, t1, t2, rfl⟩
    · intro name hn n1 n2 n3 hcc
      refine all_store hn ?_ hcc
      rw [GoMap.get?_del_of_ne _ (canonicalKey_other (by decide) (by decide) (by decide) n3)]
      exact k2 _ (canonicalKey_other (by decide) (by decide) (by decide) n1)
        (canonicalKey_other (by decide) (by decide) (by decide) n2)
  · cases g5

/-- C94: what the client takes for a response was one that is in order. -/
theorem C94_response {bytes rest : Str} {res : Response} (h : readResponse bytes = some (res, rest)) :
    ∃ first start head fields s n code reason,
      bytes = first ++ head ++ s ∧ Line first start ∧
      start = b!"HTTP/1.1 " ++ List.replicate n 0x20 ++ code ++ reason ∧ code.length = 3 ∧
      (∀ b ∈ code, 0x30 ≤ b ∧ b ≤ 0x39) ∧ (reason = [] ∨ reason.head? = some 0x20) ∧
      res.statusCode = decimal code ∧ res.status = code ++ reason ∧
      Head head fields ∧ ¬ Unclear fields ∧
      (res.bodyErr = false → ∃ text, s = text ++ rest ∧ Framed false fields text res.body rest) ∧
      ∀ name, Token name → ¬ SameName name b!"Transfer-Encoding" →
        ¬ SameName name b!"Content-Length" →
        (SameName name b!"Cache-Control" → named fields name ≠ [] ∨ named fields b!"Pragma" = []) →
        res.header.all name = named fields name := by
  unfold readResponse at h
  obtain ⟨⟨start, s1⟩, h1, g⟩ := Option.bind_eq_some_iff.mp h
  clear h
  obtain ⟨first, rfl, hfirst⟩ := (readLine_iff _ _ _).mp h1
  simp only at g
  obtain ⟨⟨proto, status⟩, h2, g1⟩ := Option.bind_eq_some_iff.mp g
  obtain ⟨e2, -⟩ := (cutByte_some_iff _ _ _ _).mp h2
  simp only at g1
  have hst : ∃ n, status = List.replicate n 0x20 ++ status.dropWhile (· = 0x20) := by
    refine ⟨(status.takeWhile (· = 0x20)).length, ?_⟩
    have : status.takeWhile (· = 0x20) = List.replicate (status.takeWhile (· = 0x20)).length 0x20 := by
      rw [List.eq_replicate_iff]
      refine ⟨rfl, fun b hb => ?_⟩
      have := List.all_eq_true.mp (List.all_takeWhile (p := fun b : UInt8 => decide (b = 0x20))) b hb
      exact of_decide_eq_true this
    rw [← this, List.takeWhile_append_dropWhile]
  obtain ⟨n, hst⟩ := hst
  generalize status.dropWhile (· = 0x20) = st at g1 hst
  have hcode : ∃ code reason, ((cutByte 0x20 st).getD (st, [])).1 = code ∧ st = code ++ reason ∧
      (reason = [] ∨ reason.head? = some 0x20) := by
    cases hx : cutByte 0x20 st with
    | none => exact ⟨st, [], rfl, by simp, .inl rfl⟩
    | some p =>
      obtain ⟨a, b⟩ := p
      obtain ⟨e, -⟩ := (cutByte_some_iff _ _ _ _).mp hx
      exact ⟨a, 0x20 :: b, rfl, e, .inr rfl⟩
  obtain ⟨code, reason, hcode, hstat, hreason⟩ := hcode
  rw [hcode] at g1
  split at g1
  · cases g1
  rename_i hc
  simp only [not_or, Bool.not_eq_true', Bool.not_eq_false, ne_eq, Decidable.not_not] at hc
  obtain ⟨⟨hd, s2⟩, h5, g2⟩ := Option.bind_eq_some_iff.mp g1
  obtain ⟨head, fields, rfl, hhead, rfl⟩ := (readHead_iff _ _ _).mp h5
  simp only at g2
  obtain ⟨⟨hd', len⟩, h6, g3⟩ := Option.bind_eq_some_iff.mp g2
  obtain ⟨k1, k2⟩ := bodyLength_sound h6
  have hres : (res, rest) = (({ statusCode := digitsVal code, status := st, header := hd',
                                body := (readBody len s2).1,
                                bodyErr := (readBody len s2).2.1 } : Response),
      (readBody len s2).2.2) := (Option.some.inj g3).symm
  obtain ⟨rfl, rfl⟩ := Prod.mk.inj hres
  refine ⟨first, start, head, fields, s2, n, code, reason, by simp, hfirst, ?_, hc.2.1, ?_, hreason, rfl,
    hstat, hhead, bodyLength_clear h6, ?_, ?_⟩
  · rw [e2, hst, hstat, hc.1]; simp
  · intro b hb
    have := List.all_eq_true.mp hc.2.2 b hb
    simpa [inRange] using this
  · intro hb
    obtain ⟨text, t1, t2⟩ := k1 s2 (readBody len s2).1 (readBody len s2).2.2 (by
      have : (readBody len s2).2.1 = false := hb
      rw [← this])
    exact ⟨text, t1, t2⟩
  · intro name hn n1 n2 hcc
    exact all_store hn (k2 _ (canonicalKey_other (by decide) (by decide) (by decide) n1)
      (canonicalKey_other (by decide) (by decide) (by decide) n2)) hcc

/-- C94: a message whose fields do not say how long its body is, or say so in two ways, is refused,
whatever it is and whatever follows. -/
theorem C94_refused {first start head s : Str} {fields : List (Str × Str)} (h1 : Line first start)
    (h2 : Head head fields) (hu : Unclear fields) :
    readRequest (first ++ head ++ s) = none ∧ readResponse (first ++ head ++ s) = none := by
  have e1 : readLine (first ++ head ++ s) = some (start, head ++ s) :=
    (readLine_iff _ _ _).mpr ⟨first, by simp, h1⟩
  have e2 : readHead (head ++ s) = some (store [] fields, s) :=
    (readHead_iff _ _ _).mpr ⟨head, fields, rfl, h2, rfl⟩
  have e3 : ∀ request, bodyLength request (fixPragma (store [] fields)) = none := by
    intro request
    cases h : bodyLength request (fixPragma (store [] fields)) with
    | none => rfl
    | some p => exact absurd hu (bodyLength_clear h)
  constructor
  · unfold readRequest
    rw [e1]
    simp only [Option.bind_eq_bind, Option.bind_some, e2, e3, Option.bind_none]
    cases cutByte 0x20 start with
    | none => rfl
    | some p =>
      simp only [Option.bind_some]
      cases cutByte 0x20 p.2 with
      | none => rfl
      | some q =>
        simp only [Option.bind_some]
        split
        · rfl
        · cases parseRequestURI q.1 <;> rfl
  · unfold readResponse
    rw [e1]
    simp only [Option.bind_eq_bind, Option.bind_some, e2, e3, Option.bind_none]
    cases cutByte 0x20 start with
    | none => rfl
    | some p =>
      simp only [Option.bind_some]
      split <;> rfl

theorem folded_start {ls : List Str} {fields : List (Str × Str)} (h : Folded ls fields) :
    ∀ l more, ls = l :: more → ¬ ∃ b s, l = b :: s ∧ Rfc7230.blank b = true := by
  cases h with
  | nil => intro l more e; cases e
  | @cons k v more ls l hk hf hm hr =>
    rintro l more e ⟨b, s, e2, hb⟩
    cases e
    rw [hf b] at hb
    · cases hb
    · cases k with
      | nil => cases e2; rfl
      | cons c k => cases e2; rfl

theorem folded_split {more ls more' ls' : List Str} {l l' : List (Str × Str)}
    (h1 : ∀ m ∈ more, ∃ b s, m = b :: s ∧ Rfc7230.blank b = true) (h2 : Folded ls l)
    (h1' : ∀ m ∈ more', ∃ b s, m = b :: s ∧ Rfc7230.blank b = true) (h2' : Folded ls' l')
    (e : more ++ ls = more' ++ ls') : more = more' ∧ ls = ls' := by
  induction more generalizing more' with
  | nil =>
    cases more' with
    | nil => exact ⟨rfl, e⟩
    | cons m more' => exact absurd (h1' m (.head _)) (folded_start h2 _ _ e)
  | cons m more ih =>
    cases more' with
    | nil => exact absurd (h1 m (.head _)) (folded_start h2' _ _ e.symm)
    | cons m' more' =>
      rw [List.cons_append, List.cons_append] at e
      injection e with e1 e2
      obtain ⟨i1, i2⟩ := ih (fun x hx => h1 x (.tail _ hx)) (fun x hx => h1' x (.tail _ hx)) e2
      exact ⟨by rw [e1, i1], i2⟩

theorem folded_unique {ls : List Str} {l l' : List (Str × Str)} (h : Folded ls l) (h' : Folded ls l') :
    l = l' := by
  induction h generalizing l' with
  | nil => cases h'; rfl
  | @cons k v more ls l hk hf hm hr ih =>
    generalize hx : (k ++ [0x3A] ++ v) :: (more ++ ls) = all at h'
    cases h' with
    | nil => cases hx
    | @cons k' v' more' ls' l' hk' hf' hm' hr' =>
      injection hx with e1 e2
      obtain ⟨rfl, rfl⟩ := folded_split hm hr hm' hr' e2
      have c1 : cutByte 0x3A (k ++ [0x3A] ++ v) = some (k, v) := by
        rw [show k ++ [0x3A] ++ v = k ++ 0x3A :: v by simp]; exact cutByte_append _ hk
      have c2 : cutByte 0x3A (k' ++ [0x3A] ++ v') = some (k', v') := by
        rw [show k' ++ [0x3A] ++ v' = k' ++ 0x3A :: v' by simp]; exact cutByte_append _ hk'
      rw [e1, c2] at c1
      cases c1
      rw [ih hr']

/-- C94: the bytes of a connection start with one message at most: whoever reads them by the rules
finds the same line, fields and body, and the same rest. -/
theorem C94_unique {request : Bool} {bytes start start' body body' rest rest' : Str}
    {fields fields' : List (Str × Str)} (h : Starts request bytes start fields body rest)
    (h' : Starts request bytes start' fields' body' rest') :
    start = start' ∧ fields = fields' ∧ body = body' ∧ rest = rest' := by
  obtain ⟨first, head, text, rfl, h1, ⟨ls, h2, h3⟩, h4⟩ := h
  obtain ⟨first', head', text', e, h1', ⟨ls', h2', h3'⟩, h4'⟩ := h'
  have a := (readLine_iff (first ++ head ++ text ++ rest) start (head ++ (text ++ rest))).mpr
    ⟨first, by simp, h1⟩
  have a' := (readLine_iff (first' ++ head' ++ text' ++ rest') start' (head' ++ (text' ++ rest'))).mpr
    ⟨first', by simp, h1'⟩
  rw [← e, a] at a'
  simp only [Option.some.injEq, Prod.mk.injEq] at a'
  obtain ⟨rfl, e2⟩ := a'
  obtain ⟨c1, c2⟩ := readBlock_complete h2
  obtain ⟨c1', c2'⟩ := readBlock_complete h2'
  have b := c2 (ls.length + ls'.length + 1) (text ++ rest) (by omega)
  have b' := c2' (ls.length + ls'.length + 1) (text' ++ rest') (by omega)
  rw [← e2, b] at b'
  simp only [Option.some.injEq, Prod.mk.injEq] at b'
  obtain ⟨rfl, e3⟩ := b'
  have hf := folded_unique h3 h3'
  subst hf
  obtain ⟨d1, d2, d3, d4, -⟩ := bodyLength_complete h4
  obtain ⟨d1', d2', d3', d4', -⟩ := bodyLength_complete h4'
  rw [d3] at d3'
  cases d3'
  rw [← e3, d4] at d4'
  simp only [Prod.mk.injEq, true_and] at d4'
  exact ⟨rfl, rfl, d4'⟩

/-- C94: every request in order is read as such, and nothing beyond it. -/
theorem C94_request_read {bytes start body rest method target host : Str} {fields : List (Str × Str)}
    {u : URL} (h : Starts true bytes start fields body rest) (hs : RequestLine start method target)
    (hu : parseRequestURI target = some u) (hh : named fields b!"Host" = [host]) (ht : HostText host)
    (hp : ∀ f ∈ fields, (f.1 = [] ∨ Token f.1) ∧ Printable f.2) :
    ∃ r, readRequest bytes = some (r, rest) ∧ r.method = method ∧ r.path = u.path ∧
      r.rawQuery = u.rawQuery ∧ r.body = some body ∧ r.bodyErr = false := by
  obtain ⟨first, head, text, rfl, h1, h2, h3⟩ := h
  obtain ⟨s1, s2, s3⟩ := hs
  obtain ⟨h', len, b1, b2, b3⟩ := bodyLength_complete h3
  obtain ⟨-, k2⟩ := bodyLength_sound b1
  have e1 : readLine (first ++ head ++ text ++ rest) = some (start, head ++ (text ++ rest)) :=
    (readLine_iff _ _ _).mpr ⟨first, by simp, h1⟩
  have e2 : readHead (head ++ (text ++ rest)) = some (store [] fields, text ++ rest) :=
    (readHead_iff _ _ _).mpr ⟨head, fields, rfl, h2, rfl⟩
  have hm : (0x20 : UInt8) ∉ method := fun hm => (tchar_facts _ (s2.2 _ hm)).2.2.2.2 rfl
  have c1 : cutByte 0x20 start = some (method, target ++ b!" HTTP/1.1") := by
    rw [s1, show method ++ [0x20] ++ target ++ b!" HTTP/1.1" = method ++ 0x20 :: (target ++ b!" HTTP/1.1") by simp]
    exact cutByte_append _ hm
  have c2 : cutByte 0x20 (target ++ b!" HTTP/1.1") = some (target, b!"HTTP/1.1") :=
    cutByte_append b!"HTTP/1.1" s3
  have c3 : GoMap.get? h' b!"Host" = some [host] := by
    rw [k2 _ (by decide) (by decide), get?_fixPragma _ (by decide),
      show b!"Host" = canonicalKey b!"Host" by decide, get?_store fields token_host, hh]
    rfl
  have hsub : ∀ v : Str, ∀ c ∈ trim v, c ∈ v := by
    intro v c hc
    unfold trim at hc
    have := (List.dropWhile_sublist _).subset (List.mem_reverse.mp hc)
    exact (List.dropWhile_sublist _).subset (List.mem_reverse.mp this)
  have c4 : h'.sendable = true := by
    unfold Header.sendable
    rw [List.all_eq_true]
    intro e he
    rcases b3 e he with hx | ⟨v, hv, rfl⟩
    · have := read_sendable (l := fields.filter fun f => f.1 ≠ []) (fun f hf' => by
        obtain ⟨m1, m2⟩ := List.mem_filter.mp hf'
        exact ⟨(hp f m1).1.resolve_left (by simpa using m2), (hp f m1).2⟩) e hx
      rw [this.1, this.2]; rfl
    · obtain ⟨f, m1, rfl⟩ := mem_named hv
      have : validFieldValue (trim f.2) = true :=
        validFieldValue_printable fun c hc => (hp f m1).2 c (hsub _ _ hc)
      simp only [List.all_cons, this, List.all_nil, Bool.and_true]
      decide
  have c5 : validFieldName method = true := by
    unfold validFieldName
    rw [token_valid s2]
    simp [s2.1]
  have hcond : ¬ ((!validFieldName method) = true ∨ b!"HTTP/1.1" ≠ b!"HTTP/1.1") := by simp [c5]
  have hcond' : ¬ ((!validHost host) = true ∨ (!h'.sendable) = true) := by
    simp [validHost_text ht, c4]
  refine ⟨{ method := method, path := u.path, rawQuery := u.rawQuery, header := h'.del b!"Host",
            body := some body, bodyErr := false }, ?_, rfl, rfl, rfl, rfl, rfl⟩
  unfold readRequest
  rw [e1]
  simp only [Option.bind_eq_bind, Option.bind_some, c1, c2]
  rw [if_neg hcond, hu]
  simp only [Option.bind_some, e2, b1, c3]
  rw [if_neg hcond', b2]
  rfl

/-- C94: every response in order is read as such, and nothing beyond it. -/
theorem C94_response_read {bytes start body rest code reason : Str} {fields : List (Str × Str)} {n : Nat}
    (h : Starts false bytes start fields body rest)
    (hs : start = b!"HTTP/1.1 " ++ List.replicate n 0x20 ++ code ++ reason) (hc : code.length = 3)
    (hd : ∀ b ∈ code, 0x30 ≤ b ∧ b ≤ 0x39) (hr : reason = [] ∨ reason.head? = some 0x20) :
    ∃ res, readResponse bytes = some (res, rest) ∧ res.statusCode = decimal code ∧
      res.status = code ++ reason ∧ res.body = body ∧ res.bodyErr = false := by
  obtain ⟨first, head, text, rfl, h1, h2, h3⟩ := h
  obtain ⟨h', len, b1, b2, -⟩ := bodyLength_complete h3
  have e1 : readLine (first ++ head ++ text ++ rest) = some (start, head ++ (text ++ rest)) :=
    (readLine_iff _ _ _).mpr ⟨first, by simp, h1⟩
  have e2 : readHead (head ++ (text ++ rest)) = some (store [] fields, text ++ rest) :=
    (readHead_iff _ _ _).mpr ⟨head, fields, rfl, h2, rfl⟩
  have hsp := digits_no_space hd
  have hne : code ≠ [] := by rintro rfl; cases hc
  have c1 : cutByte 0x20 start = some (b!"HTTP/1.1", List.replicate n 0x20 ++ (code ++ reason)) := by
    rw [hs]
    have := cutByte_append (sep := 0x20) (a := b!"HTTP/1.1") (List.replicate n 0x20 ++ (code ++ reason)) (by decide)
    rw [← this]
    simp
  have c2 : (List.replicate n 0x20 ++ (code ++ reason)).dropWhile (· = 0x20) = code ++ reason := by
    rw [dropWhile_all (by intro c hc; simp [(List.mem_replicate.mp hc).2])]
    refine dropWhile_head fun c hc => ?_
    rw [List.head?_append, List.head?_eq_some_head hne, Option.some_or] at hc
    have : c ∈ code := by cases hc; exact List.head_mem hne
    exact decide_eq_false fun e => hsp (e ▸ this)
  have c3 : ((cutByte 0x20 (code ++ reason)).getD (code ++ reason, [])).1 = code := by
    rcases hr with rfl | hr
    · rw [List.append_nil, (cutByte_none_iff _ _).mpr hsp]; rfl
    · cases reason with
      | nil => cases hr
      | cons b reason => cases hr; rw [cutByte_append _ hsp]; rfl
  have c4 : code.all (inRange 48 57) = true := by
    rw [List.all_eq_true]
    intro c hc
    simp [inRange, hd c hc]
  have hcond : ¬ (b!"HTTP/1.1" ≠ b!"HTTP/1.1" ∨ code.length ≠ 3 ∨ (!code.all (inRange 48 57)) = true) := by
    simp [hc, c4]
  refine ⟨{ statusCode := digitsVal code, status := code ++ reason, header := h', body := body,
            bodyErr := false }, ?_, rfl, rfl, rfl, rfl⟩
  unfold readResponse
  rw [e1]
  simp only [Option.bind_eq_bind, Option.bind_some, c1, c2, c3]
  rw [if_neg hcond]
  simp only [e2, Option.bind_some, b1, b2]
  rfl

/-! ### Examples -/

/-- A token request with a value on two lines, a line that ends in LF alone, a size with an extension
and a trailer. -/
def Demo.lenient : Str :=
  b!"POST /token HTTP/1.1" ++ CRLF ++ b!"Host: a" ++ [0x0A] ++ b!"X: 1" ++ CRLF ++ b!"  2 " ++ CRLF ++
  b!"Transfer-Encoding: Chunked" ++ CRLF ++ CRLF ++
  b!"3;x=y" ++ CRLF ++ b!"a=b" ++ CRLF ++ b!"0" ++ CRLF ++ b!"T: t" ++ CRLF ++ CRLF

/-- It is in order, and what follows it is left. -/
theorem Demo.lenient_starts : Starts true (Demo.lenient ++ b!"GET") b!"POST /token HTTP/1.1"
    [(b!"Host", b!"a"), (b!"X", b!"1 2"), (b!"Transfer-Encoding", b!"Chunked")] b!"a=b" b!"GET" := by
  refine ⟨b!"POST /token HTTP/1.1" ++ CRLF,
    (b!"Host: a" ++ [0x0A]) ++ ((b!"X: 1" ++ CRLF) ++ ((b!"  2 " ++ CRLF) ++
      ((b!"Transfer-Encoding: Chunked" ++ CRLF) ++ ([] ++ CRLF)))),
    (b!"3" ++ b!";x=y" ++ [0x0D] ++ [0x0A]) ++ b!"a=b" ++ CRLF ++
      ((b!"0" ++ [] ++ [0x0D] ++ [0x0A]) ++ ((b!"T: t" ++ CRLF) ++ ([] ++ CRLF))),
    by decide +kernel, .crlf (by decide), ⟨[b!"Host: a", b!"X: 1", b!"  2 ", b!"Transfer-Encoding: Chunked"],
      .cons (.lf (by decide) (by decide)) (by decide) (.cons (.crlf (by decide)) (by decide)
        (.cons (.crlf (by decide)) (by decide) (.cons (.crlf (by decide)) (by decide)
          (.nil (.crlf (by decide)))))), ?_⟩, ?_⟩
  · exact .cons (k := b!"Host") (v := b!" a") (more := []) (by decide) (by decide) nofun
      (.cons (k := b!"X") (v := b!" 1") (more := [b!"  2 "]) (by decide) (by decide)
        (by intro m hm; rw [List.mem_singleton.mp hm]; exact ⟨0x20, _, rfl, rfl⟩)
        (.cons (k := b!"Transfer-Encoding") (v := b!" Chunked") (more := []) (by decide) (by decide) nofun .nil))
  · refine .chunked (coding := b!"Chunked") (by decide +kernel) (.inl (by decide +kernel)) ?_
    refine .chunk (.mk (by decide) (.snoc .nil (.digit (by decide) (by decide))) (.inr rfl) (by decide) (by decide))
      (by decide) ?_
    exact .last (fields := [(b!"T", b!"t")])
      (.mk (by decide) (.snoc .nil (.digit (by decide) (by decide))) (.inl rfl) (by decide) (by decide))
      ⟨[b!"T: t"], .cons (.crlf (by decide)) (by decide) (.nil (.crlf (by decide))),
        .cons (k := b!"T") (v := b!" t") (more := []) (by decide) (by decide) nofun .nil⟩

/-- It is read, with the value on one line. -/
example : (readRequest (Demo.lenient ++ b!"GET")).map (fun p =>
    (p.1.header.all b!"x", p.1.body, p.1.bodyErr, p.2)) = some ([b!"1 2"], some b!"a=b", false, b!"GET") := by
  decide +kernel

/-- Two lengths, of which one reader may take the first and another the last. -/
example : ∃ first start head fields s, Line first start ∧ Head head fields ∧ Unclear fields ∧
    first ++ head ++ s = b!"POST /token HTTP/1.1" ++ CRLF ++ b!"Host: a" ++ CRLF ++
      b!"Content-Length: 3" ++ CRLF ++ b!"Content-Length: 5" ++ CRLF ++ CRLF ++ b!"a=bGET" ∧
    readRequest (first ++ head ++ s) = none := by
  have hl : Line (b!"POST /token HTTP/1.1" ++ CRLF) b!"POST /token HTTP/1.1" := .crlf (by decide)
  have hh : Head ((b!"Host: a" ++ CRLF) ++ ((b!"Content-Length: 3" ++ CRLF) ++
      ((b!"Content-Length: 5" ++ CRLF) ++ ([] ++ CRLF))))
      [(b!"Host", b!"a"), (b!"Content-Length", b!"3"), (b!"Content-Length", b!"5")] :=
    ⟨[b!"Host: a", b!"Content-Length: 3", b!"Content-Length: 5"],
      .cons (.crlf (by decide)) (by decide) (.cons (.crlf (by decide)) (by decide)
        (.cons (.crlf (by decide)) (by decide) (.nil (.crlf (by decide))))),
      .cons (k := b!"Host") (v := b!" a") (more := []) (by decide) (by decide) nofun
        (.cons (k := b!"Content-Length") (v := b!" 3") (more := []) (by decide) (by decide) nofun
          (.cons (k := b!"Content-Length") (v := b!" 5") (more := []) (by decide) (by decide) nofun
            .nil))⟩
  have hu : Unclear [(b!"Host", b!"a"), (b!"Content-Length", b!"3"), (b!"Content-Length", b!"5")] :=
    .lengths (a := b!"3") (b := b!"5") (by decide +kernel) (by decide +kernel) (by decide +kernel)
      (by decide +kernel)
  exact ⟨_, _, _, _, b!"a=bGET", hl, hh, hu, by decide +kernel, (C94_refused hl hh hu).1⟩

/-- A field with a blank before the colon is refused in a request, and kept under that name in a
response. -/
example : readRequest (b!"GET / HTTP/1.1" ++ CRLF ++ b!"Host: a" ++ CRLF ++ b!"X : 1" ++ CRLF ++ CRLF) = none ∧
    (readResponse (b!"HTTP/1.1 200 OK" ++ CRLF ++ b!"X : 1" ++ CRLF ++ CRLF)).map (fun p => p.1.header) =
      some [(b!"X ", [b!"1"])] := by
  decide +kernel

/-- A size that is no number, and a length that is none. -/
example : ((readRequest (b!"GET / HTTP/1.1" ++ CRLF ++ b!"Host: a" ++ CRLF ++ b!"Transfer-Encoding: chunked" ++
      CRLF ++ CRLF ++ b!"zz" ++ CRLF ++ CRLF)).map fun p => p.1.bodyErr) = some true ∧
    readResponse (b!"HTTP/1.1 200 OK" ++ CRLF ++ b!"Content-Length: +3" ++ CRLF ++ CRLF ++ b!"abc") = none := by
  decide +kernel

end OAuth2

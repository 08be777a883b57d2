import Verif.Lemmas.WireServe
import Verif.Spec.Cut
import Verif.Props.Broken

/-!
Reading the first bytes of a message.
-/

namespace OAuth2

open Spec Rfc7230

theorem cutByte_more {b : UInt8} {s a r : Str} (h : cutByte b s = some (a, r)) (q : Str) :
    cutByte b (s ++ q) = some (a, r ++ q) := by
  obtain ⟨rfl, hn⟩ := (cutByte_some_iff _ _ _ _).mp h
  rw [List.append_assoc, List.cons_append]
  exact (cutByte_some_iff _ _ _ _).mpr ⟨rfl, hn⟩

theorem readLine_more {s l r : Str} (h : readLine s = some (l, r)) (q : Str) :
    readLine (s ++ q) = some (l, r ++ q) := by
  unfold readLine at h ⊢
  obtain ⟨⟨a, t⟩, h1, h2⟩ := Option.map_eq_some_iff.mp h
  cases h2
  rw [cutByte_more h1]
  rfl

theorem readBlock_more {n : Nat} {s r : Str} {ls : List Str} (h : readBlock n s = some (ls, r)) (q : Str)
    {n' : Nat} (hn : n ≤ n') : readBlock n' (s ++ q) = some (ls, r ++ q) := by
  induction n generalizing s ls n' with
  | zero => cases h
  | succ n ih =>
    obtain ⟨n', rfl⟩ : ∃ m, n' = m + 1 := ⟨n' - 1, by omega⟩
    rw [readBlock] at h ⊢
    cases hl : readLine s with
    | none => rw [hl] at h; cases h
    | some p =>
      obtain ⟨l, rest⟩ := p
      rw [hl] at h
      rw [readLine_more hl]
      simp only at h ⊢
      split at h
      · rename_i h0
        cases h
        rw [if_pos h0]
      · rename_i h0
        rw [if_neg h0]
        obtain ⟨⟨ls', r'⟩, h1, h2⟩ := Option.map_eq_some_iff.mp h
        cases h2
        rw [ih h1 (by omega)]
        rfl

theorem readHead_more {s r : Str} {h : Header} (hh : readHead s = some (h, r)) (q : Str) :
    readHead (s ++ q) = some (h, r ++ q) := by
  unfold readHead at hh ⊢
  obtain ⟨⟨ls, rest⟩, h1, h2⟩ := Option.bind_eq_some_iff.mp hh
  rw [readBlock_more h1 q (by rw [List.length_append]; omega)]
  simp only [Option.bind_eq_bind, Option.bind_some] at h2 ⊢
  split at h2
  · cases h2
  · rename_i h0
    rw [if_neg h0]
    obtain ⟨h', h3, h4⟩ := Option.bind_eq_some_iff.mp h2
    cases h4
    rw [h3]
    rfl

theorem stripPrefix_more {p s r : Str} (h : stripPrefix p s = some r) (q : Str) :
    stripPrefix p (s ++ q) = some (r ++ q) := by
  rw [(stripPrefix_some_iff _ _ _).mp h, List.append_assoc]
  exact stripPrefix_append _ _

/-- Bodies in chunks that are there to their end. -/
theorem readChunks_whole {n : Nat} {s b r : Str} (h : readChunks n s = (b, false, r)) (q : Str)
    {n' : Nat} (hn : n ≤ n') : readChunks n' (s ++ q) = (b, false, r ++ q) := by
  induction n generalizing s b n' with
  | zero => cases h
  | succ n ih =>
    obtain ⟨n', rfl⟩ : ∃ m, n' = m + 1 := ⟨n' - 1, by omega⟩
    rw [readChunks] at h ⊢
    cases hc : cutByte 0x0A s with
    | none => rw [hc] at h; cases h
    | some p =>
      obtain ⟨line, rest⟩ := p
      rw [hc] at h
      rw [cutByte_more hc]
      simp only at h ⊢
      cases hsz : chunkSize line with
      | none => rw [hsz] at h; cases h
      | some size =>
        rw [hsz] at h
        cases size with
        | zero =>
          simp only at h ⊢
          cases hh : readHead rest with
          | none => rw [hh] at h; cases h
          | some p =>
            rw [hh] at h
            rw [readHead_more hh]
            cases h
            rfl
        | succ size =>
          simp only at h ⊢
          split at h
          · cases h
          · rename_i hlen
            have hlen' : ¬ (rest ++ q).length < size + 1 := by
              rw [List.length_append]; omega
            rw [if_neg hlen', List.drop_append_of_le_length (by omega),
              List.take_append_of_le_length (by omega)]
            cases hp : stripPrefix crlf (rest.drop (size + 1)) with
            | none => rw [hp] at h; cases h
            | some rest' =>
              rw [hp] at h
              rw [stripPrefix_more hp]
              simp only at h ⊢
              cases hr : readChunks n rest' with
              | mk b' p =>
                obtain ⟨e', r'⟩ := p
                rw [hr] at h
                cases h
                rw [ih hr (by omega)]

/-- Bodies in chunks that break off. -/
theorem readChunks_broken {n : Nat} {s b r : Str} (h : readChunks n s = (b, true, r)) (q : Str)
    {n' : Nat} (hn : n ≤ n') : r = [] ∧ b <+: (readChunks n' (s ++ q)).1 := by
  induction n generalizing s b n' with
  | zero => cases h; exact ⟨rfl, List.nil_prefix⟩
  | succ n ih =>
    obtain ⟨n', rfl⟩ : ∃ m, n' = m + 1 := ⟨n' - 1, by omega⟩
    rw [readChunks] at h ⊢
    cases hc : cutByte 0x0A s with
    | none => rw [hc] at h; cases h; exact ⟨rfl, List.nil_prefix⟩
    | some p =>
      obtain ⟨line, rest⟩ := p
      rw [hc] at h
      rw [cutByte_more hc]
      simp only at h ⊢
      cases hsz : chunkSize line with
      | none => rw [hsz] at h; cases h; exact ⟨rfl, List.nil_prefix⟩
      | some size =>
        rw [hsz] at h
        cases size with
        | zero =>
          simp only at h ⊢
          cases hh : readHead rest with
          | none => rw [hh] at h; cases h; exact ⟨rfl, List.nil_prefix⟩
          | some p => rw [hh] at h; cases h
        | succ size =>
          simp only at h ⊢
          split at h
          · rename_i hlen
            cases h
            refine ⟨rfl, ?_⟩
            split
            · exact List.prefix_append _ _
            · rename_i hlen'
              have hpre : b <+: (b ++ q).take (size + 1) := by
                rw [List.take_append]
                rw [List.take_of_length_le (by omega)]
                exact List.prefix_append _ _
              split
              · exact hpre
              · exact hpre.trans (List.prefix_append _ _)
          · rename_i hlen
            have hlen' : ¬ (rest ++ q).length < size + 1 := by
              rw [List.length_append]; omega
            rw [if_neg hlen', List.drop_append_of_le_length (by omega),
              List.take_append_of_le_length (by omega)]
            cases hp : stripPrefix crlf (rest.drop (size + 1)) with
            | none =>
              rw [hp] at h
              cases h
              refine ⟨rfl, ?_⟩
              split
              · exact List.prefix_refl _
              · exact List.prefix_append _ _
            | some rest' =>
              rw [hp] at h
              rw [stripPrefix_more hp]
              simp only at h ⊢
              cases hr : readChunks n rest' with
              | mk b' p =>
                obtain ⟨e', r'⟩ := p
                rw [hr] at h
                cases h
                obtain ⟨h1, h2⟩ := ih hr (n' := n') (by omega)
                exact ⟨h1, (List.prefix_append_right_inj _).mpr h2⟩

/-- A body that is there to its end, and more follows, was read to its end or not at all before. -/
theorem readBody_cut {len : BodyLength} {s q b : Str} (hq : q ≠ [])
    (h : readBody len (s ++ q ++ [0]) = (b, false, [0])) :
    ∃ a, a <+: b ∧ readBody len s = (a, true, []) := by
  cases len with
  | chunked =>
    unfold readBody at h ⊢
    simp only at h ⊢
    rw [List.append_assoc] at h
    have hn : s.length + 1 ≤ (s ++ (q ++ [0])).length + 1 := by rw [List.length_append]; omega
    cases hr : readChunks (s.length + 1) s with
    | mk a p =>
      obtain ⟨e, r'⟩ := p
      cases e with
      | false =>
        rw [readChunks_whole hr _ hn] at h
        have h3 := congrArg (fun p => p.2.2) h
        simp only at h3
        have := congrArg List.length h3
        have hq' : 0 < q.length := List.length_pos_iff.mpr hq
        simp only [List.length_append, List.length_cons, List.length_nil] at this
        omega
      | true =>
        obtain ⟨rfl, h2⟩ := readChunks_broken hr (q ++ [0]) hn
        rw [h] at h2
        exact ⟨a, h2, rfl⟩
  | fixed n =>
    unfold readBody at h ⊢
    simp only [Prod.mk.injEq, decide_eq_false_iff_not] at h ⊢
    obtain ⟨h1, h2, h3⟩ := h
    have hq' : 0 < q.length := List.length_pos_iff.mpr hq
    have h4 := congrArg List.length h3
    simp only [List.length_append, List.length_drop, List.length_cons, List.length_nil] at h2 h4
    have hlt : s.length < n := by omega
    refine ⟨s, ?_, List.take_of_length_le (by omega), by simpa using hlt, List.drop_of_length_le (by omega)⟩
    rw [← h1, List.append_assoc, List.take_append, List.take_of_length_le (by omega)]
    exact List.prefix_append _ _
  | toEnd =>
    unfold readBody at h
    simp only [Prod.mk.injEq] at h
    exact absurd h.2.2 (by simp)

/-- The first bytes of a response that was read. -/
theorem readResponse_cut {p q : Str} {got : Response} (hq : q ≠ [])
    (h : readResponse (p ++ q ++ [0]) = some (got, [0])) (hb : got.bodyErr = false) :
    readResponse p = none ∨
      ∃ a, a <+: got.body ∧ readResponse p = some ({ got with body := a, bodyErr := true }, []) := by
  cases hp : readResponse p with
  | none => exact .inl rfl
  | some v =>
    right
    unfold readResponse at h hp
    obtain ⟨⟨line, rest⟩, h1, h2⟩ := Option.bind_eq_some_iff.mp hp
    obtain ⟨⟨proto, status⟩, h3, h4⟩ := Option.bind_eq_some_iff.mp h2
    rw [List.append_assoc, readLine_more h1] at h
    simp only [Option.bind_eq_bind, Option.bind_some, h3] at h h4
    split at h4
    · cases h4
    rename_i hc
    rw [if_neg hc] at h
    obtain ⟨⟨hd, rest1⟩, h5, h6⟩ := Option.bind_eq_some_iff.mp h4
    rw [readHead_more h5] at h
    obtain ⟨⟨hd', len⟩, h7, h8⟩ := Option.bind_eq_some_iff.mp h6
    simp only [Option.bind_some, h7] at h h8
    cases hr : readBody len (rest1 ++ (q ++ [0])) with
    | mk b t =>
      obtain ⟨e, r⟩ := t
      rw [hr] at h
      cases h
      simp only at hb
      subst hb
      rw [← List.append_assoc] at hr
      obtain ⟨a, ha, ha'⟩ := readBody_cut hq hr
      rw [ha'] at h8
      cases h8
      exact ⟨a, ha, rfl⟩

/-- The first bytes of a request that was read. -/
theorem readRequest_cut {p q : Str} {got : Request} {body : Str} (hq : q ≠ [])
    (h : readRequest (p ++ q ++ [0]) = some (got, [0])) (hb : got.bodyErr = false)
    (hbody : got.body = some body) :
    readRequest p = none ∨
      ∃ a, a <+: body ∧ readRequest p = some ({ got with body := some a, bodyErr := true }, []) := by
  cases hp : readRequest p with
  | none => exact .inl rfl
  | some v =>
    right
    unfold readRequest at h hp
    obtain ⟨⟨line, rest⟩, h1, h2⟩ := Option.bind_eq_some_iff.mp hp
    obtain ⟨⟨method, line2⟩, h3, h4⟩ := Option.bind_eq_some_iff.mp h2
    obtain ⟨⟨target, proto⟩, h3', h4'⟩ := Option.bind_eq_some_iff.mp h4
    rw [List.append_assoc, readLine_more h1] at h
    simp only [Option.bind_eq_bind, Option.bind_some, h3, h3'] at h h4'
    split at h4'
    · cases h4'
    rename_i hc
    rw [if_neg hc] at h
    obtain ⟨u, h9, h10⟩ := Option.bind_eq_some_iff.mp h4'
    rw [h9] at h
    obtain ⟨⟨hd, rest1⟩, h5, h6⟩ := Option.bind_eq_some_iff.mp h10
    simp only [Option.bind_some] at h
    rw [readHead_more h5] at h
    obtain ⟨⟨hd', len⟩, h7, h8⟩ := Option.bind_eq_some_iff.mp h6
    simp only [Option.bind_some, h7] at h h8
    split at h8
    · rename_i host hg
      split at h8
      · cases h8
      · rename_i hv
        simp only [hg] at h
        rw [if_neg hv] at h
        cases hr : readBody len (rest1 ++ (q ++ [0])) with
        | mk b t =>
          obtain ⟨e, r⟩ := t
          rw [hr] at h
          cases h
          simp only at hb hbody
          subst hb
          cases hbody
          rw [← List.append_assoc] at hr
          obtain ⟨a, ha, ha'⟩ := readBody_cut hq hr
          rw [ha'] at h8
          cases h8
          exact ⟨a, ha, rfl⟩
    · cases h8

theorem reached_says {x : Sending} {uri : Str} {u : URL} {values : Values} {clientID clientSecret : Str}
    {r : Request} (hu : parseURL uri = some u) (ha : Address u) (hx : HostText x.host)
    (h : buildFormRequest uri values clientID clientSecret = some r)
    (h1 : values.encode.length < 2 ^ 63) (rest : Str) :
    ∃ r', readRequest (requestText x u.requestURI r ++ rest) = some (r', rest) ∧ r'.bodyErr = false ∧
      r'.body = some values.encode ∧ r.body = some values.encode ∧ r.bodyErr = false ∧
      ∀ b e, SaysTheSame { r with body := some b, bodyErr := e } { r' with body := some b, bodyErr := e } := by
  obtain ⟨hp, hm, hpath, hq, hb, he, hf⟩ := build_plain h hu
  have hclean := buildFormRequest_clean h
  obtain ⟨t1, u', t2, t3, t4⟩ := target_spec ha
  have hasked : Asked x u.requestURI r := by
    refine ⟨?_, hp.kept, hclean.printable, hp.own, hx, t1, ?_⟩
    · rw [hm]; exact token_of_decide (by decide) (by decide)
    · rw [hb]; exact h1
  obtain ⟨r', g1, g2⟩ := request_reaches hasked t2 rest
  have hget : ∀ name, (∀ own ∈ [b!"Host", b!"User-Agent", b!"Content-Length", b!"Transfer-Encoding",
      b!"Accept-Encoding"], ¬ SameName name own) → ¬ SameName name b!"Cache-Control" →
      r.header.get name = r'.header.get name := by
    intro name hn hc
    have := each_cleaned (g2.header name hn fun h => absurd h hc) (plain_all hp name)
    rw [Header.get_eq, Header.get_eq, this]
  refine ⟨r', g1, g2.whole, by rw [g2.body, hb]; rfl, hb, he, fun b e => ?_⟩
  obtain ⟨v, v1, v2, v3⟩ := g2.url
  rw [t2] at v1
  cases v1
  refine says_same ?_ g2.method.symm ?_ rfl rfl ?_ (hget _ (by decide) (by decide))
    (hget _ (by decide) (by decide))
  · intro seg
    show LastSegment r.path seg ↔ LastSegment r'.path seg
    rw [v2, t4, hpath]
    exact lastSegment_slash _ _
  · show r.rawQuery = r'.rawQuery
    rw [v3, t3, hq]
  · show r.postForm = r'.postForm ∧ r.form = r'.form
    rw [hf.1, hf.2, g2.fresh.1, g2.fresh.2]; exact ⟨rfl, rfl⟩

/-- What arrives of a request, by the first bytes. -/
theorem arriving_says {x : Sending} {uri : Str} {u : URL} {values : Values} {clientID clientSecret : Str}
    {r : Request} (hu : parseURL uri = some u) (ha : Address u) (hx : HostText x.host)
    (h : buildFormRequest uri values clientID clientSecret = some r)
    (h1 : values.encode.length < 2 ^ 63) (there : Nat) :
    arriving x u there r = none ∨ ∃ r0 r1, arriving x u there r = some r1 ∧
      (r0 = r ∨ Interrupted r r0) ∧ SaysTheSame r0 r1 := by
  unfold arriving
  by_cases hlen : (requestText x u.requestURI r).length ≤ there
  · right
    obtain ⟨r', g1, g2, g3, g4, g5, g6⟩ := reached_says hu ha hx h h1 []
    rw [List.append_nil] at g1
    rw [List.take_of_length_le hlen, g1]
    refine ⟨r, r', rfl, .inl rfl, ?_⟩
    have := g6 values.encode false
    have e1 : { r with body := some values.encode, bodyErr := false } = r := by rw [← g4, ← g5]
    have e2 : { r' with body := some values.encode, bodyErr := false } = r' := by rw [← g3, ← g2]
    rw [e1, e2] at this
    exact this
  · obtain ⟨r', g1, g2, g3, g4, g5, g6⟩ := reached_says hu ha hx h h1 [0]
    have hq : (requestText x u.requestURI r).drop there ≠ [] := by
      intro e
      have := congrArg List.length e
      rw [List.length_drop, List.length_nil] at this
      omega
    rw [← List.take_append_drop there (requestText x u.requestURI r)] at g1
    rcases readRequest_cut hq g1 g2 g3 with k | ⟨a, ⟨b, k1⟩, k2⟩
    · left; rw [k]; rfl
    · right
      rw [k2]
      refine ⟨{ r with body := some a, bodyErr := true }, _, rfl, .inr ⟨a, b, ?_, rfl⟩, g6 a true⟩
      rw [g4, k1]

/-- What arrives of an answer, by the first bytes. -/
theorem answer_cut {y : Shipping} {s : Server} {coins : Str} {clock : Nat → Time} {r : Request}
    {res : Response} (hm : r.method ≠ b!"GET")
    (h : (step ⟨false, s⟩ { op := .serve r, coins := coins, clock := clock }).1 = .answered res)
    (hy : Ships y res.body) (hl : res.body.length < 2 ^ 63) (back : Nat) :
    readResponse ((responseText y res).take back) = none ∨
      ∃ res0 res1 rest, readResponse ((responseText y res).take back) = some (res1, rest) ∧
        Shortened res res0 ∧ SameResponse res0 res1 := by
  obtain ⟨p1, p2, p3⟩ := served_plain h
  have hty := served_type (r := r) rfl hm h
  have herr : res.bodyErr = false := by
    obtain ⟨_, _, _, _, _, _, w, _, rfl⟩ := answered_shape h
    unfold Recorder.result
    split <;> rfl
  have key : ∀ rest, ∃ got, readResponse (responseText y res ++ rest) = some (got, rest) ∧
      got.bodyErr = false ∧ SameResponse res got := by
    intro rest
    obtain ⟨got, a1, a2⟩ := response_arrives (plain_given p1 p2 hl) hy rest
    refine ⟨got, a1, a2.whole, a2.code, by rw [a2.status, p3], a2.body, by rw [a2.whole, herr], ?_⟩
    have := each_cleaned (a2.header b!"Content-Type" (by decide) (fun _ => hty)
      (fun h => absurd h (by decide))) (plain_all p1 _)
    rw [Header.get_eq, Header.get_eq, this]
  by_cases hlen : (responseText y res).length ≤ back
  · right
    obtain ⟨got, g1, g2, g3⟩ := key []
    rw [List.append_nil] at g1
    rw [List.take_of_length_le hlen, g1]
    exact ⟨res, got, [], rfl, ⟨[], res.bodyErr, (List.append_nil _).symm, rfl⟩, g3⟩
  · obtain ⟨got, g1, g2, g3⟩ := key [0]
    have hq : (responseText y res).drop back ≠ [] := by
      intro e
      have := congrArg List.length e
      rw [List.length_drop, List.length_nil] at this
      omega
    rw [← List.take_append_drop back (responseText y res)] at g1
    rcases readResponse_cut hq g1 g2 with k | ⟨a, ⟨b, k1⟩, k2⟩
    · left; exact k
    · right
      refine ⟨{ res with body := a, bodyErr := true }, _, [], k2, ⟨b, true, ?_, rfl⟩,
        g3.code, g3.status, rfl, rfl, g3.type⟩
      rw [← g3.body, ← k1]

/-- A connection of which only the first bytes get through is one that breaks. -/
theorem cutLine_unreliable {x : Sending} {y : Shipping} {uri : Str} {u : URL} {values : Values}
    {clientID clientSecret : Str} {r : Request} {s : Server} {coins : Str} {clock : Nat → Time}
    (hu : parseURL uri = some u) (ha : Address u) (hx : HostText x.host) (hy : ∀ body, Ships y body)
    (h : buildFormRequest uri values clientID clientSecret = some r)
    (h1 : values.encode.length < 2 ^ 63)
    {there : Nat} (h2 : ∀ r' res, arriving x u there r = some r' →
      Spec.wire ⟨false, s⟩ coins clock r' = some res → res.body.length < 2 ^ 63) (back : Nat) :
    ∃ line after, Unreliable ⟨false, s⟩ coins clock line after ∧
      after r = cutState x u ⟨false, s⟩ coins clock there r ∧
      ((cutLine x y u ⟨false, s⟩ coins clock there back r = none ∧ line r = none) ∨
        ∃ res res', cutLine x y u ⟨false, s⟩ coins clock there back r = some res' ∧ line r = some res ∧
          SameResponse res res') := by
  obtain ⟨hp, hm, -⟩ := build_plain h hu
  have hsend : r.header.sendable = true := plain_sendable hp (buildFormRequest_clean h)
  -- it is enough to say what happens to this request
  have build : ∀ (o : Option Response) (st : Shared Server),
      ((o = none ∧ st = ⟨false, s⟩) ∨ ∃ r', (r' = r ∨ Interrupted r r') ∧
        st = (step ⟨false, s⟩ { op := .serve r', coins := coins, clock := clock }).2 ∧
        (o = none ∨ ∃ res res',
          (step ⟨false, s⟩ { op := .serve r', coins := coins, clock := clock }).1 = .answered res ∧
          Shortened res res' ∧ o = some res')) →
      Unreliable ⟨false, s⟩ coins clock (fun q => if q = r then o else none)
        (fun q => if q = r then st else ⟨false, s⟩) := by
    intro o st hos q
    by_cases hq : q = r
    · subst hq
      simp only [if_pos]
      exact hos
    · left
      exact ⟨if_neg hq, if_neg hq⟩
  unfold cutLine cutState
  simp only [hsend, Bool.not_true, Bool.false_eq_true, if_false]
  rcases arriving_says hu ha hx h h1 there with g | ⟨r0, r1, g1, g2, g3⟩
  · refine ⟨_, _, build none ⟨false, s⟩ (.inl ⟨rfl, rfl⟩), ?_, .inl ⟨?_, ?_⟩⟩
    · simp only [if_true, g]
    · rw [g]; rfl
    · simp only [if_true]
  · have hstep : step ⟨false, s⟩ { op := .serve r1, coins := coins, clock := clock } =
        step ⟨false, s⟩ { op := .serve r0, coins := coins, clock := clock } :=
      (C70_same g3 s coins clock).symm
    have hwire : Spec.wire ⟨false, s⟩ coins clock r1 = Spec.wire ⟨false, s⟩ coins clock r0 := by
      unfold Spec.wire
      rw [hstep]
    have hm0 : r0.method ≠ b!"GET" := by
      rcases g2 with e | ⟨a, b, _, e⟩ <;> (rw [e]; show r.method ≠ _; rw [hm]; decide)
    cases hw : Spec.wire ⟨false, s⟩ coins clock r0 with
    | none =>
      refine ⟨_, _, build none _ (.inr ⟨r0, g2, rfl, .inl rfl⟩), ?_, .inl ⟨?_, ?_⟩⟩
      · simp only [if_true, g1, hstep]
      · simp only [g1, Option.bind_eq_bind, Option.bind_some, hwire, hw, Option.bind_none]
      · simp only [if_true]
    | some res =>
      have hans : (step ⟨false, s⟩ { op := .serve r0, coins := coins, clock := clock }).1 = .answered res := by
        unfold Spec.wire at hw
        split at hw
        · rename_i e; cases hw; exact e
        · cases hw
      rcases answer_cut hm0 hans (hy res.body) (h2 r1 res g1 (by rw [hwire, hw])) back with k | ⟨res0, res1, rest, k1, k2, k3⟩
      · refine ⟨_, _, build none _ (.inr ⟨r0, g2, rfl, .inl rfl⟩), ?_, .inl ⟨?_, ?_⟩⟩
        · simp only [if_true, g1, hstep]
        · simp only [g1, Option.bind_eq_bind, Option.bind_some, hwire, hw, k, Option.bind_none]
        · simp only [if_true]
      · refine ⟨_, _, build (some res0) _ (.inr ⟨r0, g2, rfl, .inr ⟨res, res0, hans, k2, rfl⟩⟩), ?_,
          .inr ⟨res0, res1, ?_, ?_, k3⟩⟩
        · simp only [if_true, g1, hstep]
        · simp only [g1, Option.bind_eq_bind, Option.bind_some, hwire, hw, k1]
          rfl
        · simp only [if_true]

/-- What the client library makes of such responses is the same. -/
theorem view_same {α : Type} {parse : Response → Int → Except GoErr α}
    (hp : ∀ {res res' : Response}, SameResponse res res' → ∀ limit, parse res' limit = parse res limit)
    {o o' : Option Response} (h : (o' = none ∧ o = none) ∨ ∃ res res', o' = some res' ∧ o = some res ∧
      SameResponse res res') (limit : Int) : view parse limit o' = view parse limit o := by
  rcases h with ⟨rfl, rfl⟩ | ⟨res, res', rfl, rfl, h⟩
  · rfl
  · unfold view
    simp only [h.code, h.error, hp h]

theorem same_token {res res' : Response} (h : SameResponse res res') (limit : Int) :
    parseTokenResponse res' limit = parseTokenResponse res limit := by
  simp only [parseTokenResponse, h.json]

theorem same_introspection {res res' : Response} (h : SameResponse res res') (limit : Int) :
    parseIntrospectionResponse res' limit = parseIntrospectionResponse res limit := by
  simp only [parseIntrospectionResponse, h.json]

end OAuth2

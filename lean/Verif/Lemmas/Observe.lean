import Verif.Lemmas.Served
import Verif.Spec.History
import Verif.Props.Redirects
import Verif.Props.Responses

/-! What an observer reads off the responses the server renders. -/

namespace OAuth2

open Spec

set_option linter.unusedSimpArgs false

/-! ### Paths -/

theorem lastSegment_iff (path seg : Str) :
    LastSegment path seg ↔ Server.lastSegment path = seg := by
  unfold LastSegment Server.lastSegment
  cases h : cutLastByte 0x2F path with
  | none =>
    have hn := (cutLastByte_none_iff _ _).mp h
    simp only
    constructor
    · rintro ⟨_, rfl | ⟨front, rfl⟩⟩
      · rfl
      · simp at hn
    · rintro rfl
      exact ⟨hn, .inl rfl⟩
  | some x =>
    obtain ⟨a, b⟩ := x
    obtain ⟨hp, hb⟩ := (cutLastByte_some_iff _ _ _ _).mp h
    simp only
    constructor
    · rintro ⟨hs, rfl | ⟨front, rfl⟩⟩
      · rw [hp] at hs; simp at hs
      · rw [List.append_assoc] at h
        rw [List.singleton_append, cutLastByte_append _ hs] at h
        cases h
        rfl
    · rintro rfl
      exact ⟨hb, .inr ⟨a, by simp [hp]⟩⟩

/-! ### Making one call -/

/-- What the caller of `ServeHTTP` observes. -/
def Reply.answer : Reply → Answer
  | .crash => .panicked {}
  | x => .answered (x.render {}).result

theorem step_serve {c : Call} {r : Request} (h : c.op = .serve r) (s : Server) :
    step ⟨false, s⟩ c = ((s.handle r c.local).1.answer, ⟨false, (s.handle r c.local).2⟩) := by
  unfold step
  rw [h]
  obtain ⟨l', he, hw⟩ := Server.serveHTTP_exec r s c.local
  simp only [he]
  have hw0 : c.local.w = {} := rfl
  rw [hw0] at hw
  cases hr : (s.handle r c.local).1 <;> rw [hr] at hw <;> simp only [Reply.outcome, Reply.answer, hw]
  rfl

theorem step_authorize {c : Call} {r : Request} {required : Scope} (h : c.op = .authorize r required)
    (s : Server) :
    step ⟨false, s⟩ c = (match s.authorizes r required (c.clock 0) with
      | none => .admitted
      | some e => .rejected (Server.challenge {} e).result, ⟨false, s⟩) := by
  unfold step
  rw [h]
  obtain ⟨l', he, hw⟩ := Server.authorize_exec r required s c.local
  have hw0 : c.local.w = {} := rfl
  have hc : c.local.clock c.local.tick = c.clock 0 := rfl
  rw [hc] at he hw
  simp only [he]
  cases ha : s.authorizes r required (c.clock 0) with
  | none => simp
  | some e => rw [ha] at hw; simp only [Option.isNone_some]; rw [hw]; rfl

theorem step_configure {c : Call} {cl us : GoMap ServerEntity} (h : c.op = .configure cl us)
    (s : Shared Server) :
    step s c = (.configured, { s with st := { s.st with clients := cl, users := us } }) := by
  unfold step; rw [h]

/-! ### JSON bodies -/

theorem jsonRecorder_result (h : Header) (json : Str) (status : Nat) :
    (jsonRecorder { header := h } json status).result =
      { statusCode := status, header := jsonHeader h, body := json ++ [0x0A] } := by
  rw [jsonRecorder_fresh ⟨rfl, rfl, rfl⟩]
  rfl

theorem jsonMember_iff {res : Response} {ms : List Member} (hne : ms ≠ [])
    (henc : ∀ m ∈ ms, Encodes 9999 m.text m.doc)
    (hb : res.body = jsonObject (ms.map fun m => (m.key, m.text)) ++ [0x0A]) (name value : Str) :
    JsonMember res name value ↔ ∃ m ∈ ms, sanitize m.key = name ∧ m.doc = .str value := by
  unfold JsonMember
  rw [hb, parseJSON_object ms hne henc]
  constructor
  · rintro ⟨members, h1, h2⟩
    cases h1
    obtain ⟨m, hm, he⟩ := List.mem_map.mp h2
    exact ⟨m, hm, (Prod.mk.inj he).1, (Prod.mk.inj he).2⟩
  · rintro ⟨m, hm, rfl, hd⟩
    exact ⟨_, rfl, List.mem_map.mpr ⟨m, hm, by rw [hd]⟩⟩

theorem ex_strMember {k v name value : Str} :
    (∃ m ∈ strMember k v, sanitize m.key = name ∧ m.doc = .str value) ↔
      v ≠ [] ∧ sanitize k = name ∧ value = sanitize v := by
  unfold strMember
  by_cases hv : v = []
  · simp [hv]
  · simp [hv, eq_comm]

theorem ex_scopeMember {s : Scope} {name value : Str} :
    (∃ m ∈ scopeMember s, sanitize m.key = name ∧ m.doc = .str value) →
      name = b!"scope" := by
  unfold scopeMember
  split
  · simp
  · rintro ⟨m, hm, h, _⟩
    rw [List.mem_singleton.mp hm] at h
    rw [← h]
    exact (by decide +kernel : sanitize b!"scope" = b!"scope")

theorem ex_intMember {k : Str} {v : Int} {name value : Str} :
    ¬ (∃ m ∈ intMember k v, sanitize m.key = name ∧ m.doc = .str value) := by
  unfold intMember
  split
  · simp
  · rintro ⟨m, hm, _, h⟩
    rw [List.mem_singleton.mp hm] at h
    cases h

theorem ex_append {ms ns : List Member} {P : Member → Prop} :
    (∃ m ∈ ms ++ ns, P m) ↔ (∃ m ∈ ms, P m) ∨ ∃ m ∈ ns, P m := by
  constructor
  · rintro ⟨m, hm, h⟩
    rcases List.mem_append.mp hm with hm | hm
    · exact .inl ⟨m, hm, h⟩
    · exact .inr ⟨m, hm, h⟩
  · rintro (⟨m, hm, h⟩ | ⟨m, hm, h⟩)
    · exact ⟨m, List.mem_append_left _ hm, h⟩
    · exact ⟨m, List.mem_append_right _ hm, h⟩

theorem ex_singleton {m : Member} {P : Member → Prop} : (∃ x ∈ [m], P x) ↔ P m := by simp

/-- Which string members a token response has. -/
theorem token_jsonMember {res : Response} {t : TokenResponse} (hb : res.body = t.json ++ [0x0A])
    (hst : t.state = []) (value : Str) :
    (JsonMember res b!"access_token" value ↔ value = sanitize t.accessToken) ∧
    (JsonMember res b!"refresh_token" value ↔
      t.refreshToken ≠ [] ∧ value = sanitize t.refreshToken) ∧
    ¬ JsonMember res b!"error" value ∧ ¬ JsonMember res b!"error_description" value := by
  rw [TokenResponse.json_members] at hb
  have key := fun n v => jsonMember_iff (name := n) (value := v) (by simp [TokenResponse.members])
    t.members_encode hb
  have hsc : ∀ n, n ≠ b!"scope" → ¬ (∃ m ∈ scopeMember t.scope, sanitize m.key = n ∧ m.doc = .str value) :=
    fun n hn h => hn (ex_scopeMember h)
  have e1 : sanitize b!"token_type" = b!"token_type" := by decide +kernel
  have e2 : sanitize b!"access_token" = b!"access_token" := by decide +kernel
  have e3 : sanitize b!"expires_in" = b!"expires_in" := by decide +kernel
  have e4 : sanitize b!"refresh_token" = b!"refresh_token" := by decide +kernel
  simp only [key]
  unfold TokenResponse.members
  simp only [ex_append, ex_strMember, hst]
  simp only [hsc b!"access_token" (by decide), hsc b!"refresh_token" (by decide),
    hsc b!"error" (by decide), hsc b!"error_description" (by decide)]
  simp [e1, e2, e3, e4]
  exact eq_comm

/-- Which string members an error has. -/
theorem error_jsonMember {res : Response} {e : Error} (hb : res.body = e.json ++ [0x0A])
    (value : Str) :
    (JsonMember res b!"error" value ↔ value = sanitize e.name) ∧
    (JsonMember res b!"error_description" value ↔
      e.description ≠ [] ∧ value = sanitize e.description) ∧
    ¬ JsonMember res b!"access_token" value ∧ ¬ JsonMember res b!"refresh_token" value := by
  rw [Error.json_members] at hb
  have key := fun n v => jsonMember_iff (name := n) (value := v) (by simp [Error.members])
    e.members_encode hb
  have hsc : ∀ n, n ≠ b!"scope" → ¬ (∃ m ∈ scopeMember e.scope, sanitize m.key = n ∧ m.doc = .str value) :=
    fun n hn h => hn (ex_scopeMember h)
  have e1 : sanitize b!"error" = b!"error" := by decide +kernel
  have e2 : sanitize b!"state" = b!"state" := by decide +kernel
  have e3 : sanitize b!"realm" = b!"realm" := by decide +kernel
  have e4 : sanitize b!"error_description" = b!"error_description" := by decide +kernel
  have e5 : sanitize b!"error_uri" = b!"error_uri" := by decide +kernel
  simp only [key]
  unfold Error.members
  simp only [ex_append, ex_strMember, ex_singleton]
  simp only [hsc b!"access_token" (by decide), hsc b!"refresh_token" (by decide),
    hsc b!"error" (by decide), hsc b!"error_description" (by decide)]
  simp [e1, e2, e3, e4, e5]
  exact eq_comm

/-- A body that is no JSON object has no members. -/
theorem no_jsonMember {res : Response} (hb : res.body = []) (name value : Str) :
    ¬ JsonMember res name value := by
  rintro ⟨m, h, _⟩
  rw [hb, (by decide +kernel : parseJSON [] = none)] at h
  cases h

theorem token_sanitize (t : HS256Token) : sanitize t.string = t.string :=
  sanitize_ascii fun c hc => (isTokChar_facts c (token_chars t c hc)).2.2.2.2.1

theorem token_ne_nil (t : HS256Token) : t.string ≠ [] := by
  unfold HS256Token.string
  simp

theorem string_injective {t u : HS256Token} (h : t.string = u.string) : t = u := by
  have hs : ∀ t : HS256Token, splitByte 0x2E t.string = [t.keyString, t.signatureString] := by
    intro t
    apply (splitByte_pair_iff _ _ _ _).mpr
    exact ⟨by simp [HS256Token.string], dot_not_mem_encode _, dot_not_mem_encode _⟩
  have h2 := hs t
  rw [h, hs u] at h2
  simp only [List.cons.injEq, and_true] at h2
  have h3 := b64RawURLEncode_injective h2.1
  have h4 := b64RawURLEncode_injective h2.2
  cases t; cases u
  simp only at h3 h4
  rw [h3, h4]

theorem parsed_signature_ne_nil {secret text : Str} {t : HS256Token}
    (h : HS256Token.parse secret text = .ok t) : t.signatureString ≠ [] := by
  obtain ⟨_, _, _, _, _, e⟩ := (parse_ok_iff _ _ _).mp h
  intro hn
  have hl : (b64RawURLEncode t.signature).length = 0 := by
    show t.signatureString.length = 0
    rw [hn]; rfl
  rw [b64RawURLEncode_length, e, hmac_length] at hl
  omega

/-! ### Locations -/

theorem redirectTo_result {h : Header} (hl : h.all b!"Location" = []) {uri : Str} {params : GoMap Str}
    {f : Bool} {L : Str} (hL : redirectLocation uri params f = some L) :
    (redirectTo { header := h } uri params f).result.header.all b!"Location" = [L] ∧
    (redirectTo { header := h } uri params f).result.body = [] ∧
    (redirectTo { header := h } uri params f).result.statusCode = 303 := by
  unfold redirectTo
  rw [hL]
  simp only
  rw [redirectRecorder_fresh ⟨rfl, rfl, rfl⟩]
  refine ⟨?_, rfl, rfl⟩
  show (redirectHeader h L).all _ = _
  rw [redirectHeader_location, hl]
  rfl

theorem split_last_unique {c : UInt8} {a a' b b' : Str} (h : a ++ [c] ++ b = a' ++ [c] ++ b')
    (hb : c ∉ b) (hb' : c ∉ b') : a = a' ∧ b = b' := by
  have h1 := cutLastByte_append (sep := c) a hb
  have h2 := cutLastByte_append (sep := c) a' hb'
  rw [List.append_assoc, List.append_assoc] at h
  simp only [List.singleton_append] at h
  rw [h, h2] at h1
  cases h1
  exact ⟨rfl, rfl⟩

theorem escape_fragment_no_hash (s : Str) : (0x23 : UInt8) ∉ escape .fragment s := by
  have hx : ∀ n, n < 16 → hexUpper n ≠ 0x23 := by decide +kernel
  have hs : shouldEscape 0x23 .fragment = true := by decide +kernel
  induction s with
  | nil => simp [escape]
  | cons c cs ih =>
    unfold escape
    split
    · simp only [List.mem_cons, not_or]
      first
        | exact ⟨by decide, ih⟩
        | (simp only [List.mem_append, List.mem_cons, not_or]; simp; exact ih)
    split
    · simp only [List.mem_append, List.mem_cons, List.not_mem_nil, or_false, not_or]
      have := c.toNat_lt
      refine ⟨by decide, ?_, ?_, ih⟩
      · exact fun h => hx _ (by omega) h.symm
      · exact fun h => hx _ (by omega) h.symm
    · rename_i hn
      simp only [List.mem_cons, not_or]
      refine ⟨?_, ih⟩
      rintro rfl
      exact hn (by simp [hs])

theorem encode_no_qm (v : Values) : (0x3F : UInt8) ∉ v.encode := by
  intro hc
  rcases encode_alphabet' v _ hc with h | h | h <;> revert h <;> decide +kernel

theorem encode_ne_nil {v : Values} (hn : v.keys.Nodup) {k : Str} (h : v.all k ≠ []) :
    v.encode ≠ [] := by
  intro he
  have h' := (parseQuery_encode hn).2 k
  rw [he] at h'
  exact h h'.symm

/-- The parameters in the fragment of a redirect. -/
theorem fragmentParameter_iff {res : Response} {uri : Str} {params : GoMap Str} {L : Str}
    (hp : params.keys.Nodup) (hne : params ≠ [])
    (hL : redirectLocation uri params true = some L) (hr : res.header.all b!"Location" = [L])
    (name value : Str) :
    FragmentParameter res name value ↔ params.get? name = some value := by
  obtain ⟨f, hf⟩ : ∃ f, params.foldl (fun f p => Values.add f p.1 p.2) [] = f := ⟨_, rfl⟩
  have hnd : f.keys.Nodup := by
    rw [← hf]; exact Values.nodup_foldl_add _ List.nodup_nil
  have hall : ∀ k, f.all k = (params.get? k).toList := by
    intro k; rw [← hf]; rw [params_all hp]; rfl
  have hen : f.encode ≠ [] := by
    obtain ⟨⟨k, x⟩, ps, rfl⟩ := List.exists_cons_of_ne_nil hne
    apply encode_ne_nil hnd (k := k)
    rw [hall, GoMap.get?_cons, if_pos rfl]
    simp
  have hL' : ∃ B, L = B ++ [0x23] ++ escape .fragment f.encode := by
    unfold redirectLocation at hL
    cases hu : parseRequestURI uri with
    | none => rw [hu] at hL; cases hL
    | some u =>
      rw [hu] at hL
      simp only [if_true, hf, URL.string, hen, ne_eq, not_false_eq_true, Option.some.injEq] at hL
      exact ⟨_, by rw [← hL, List.append_assoc _ [0x23]]; rfl⟩
  obtain ⟨B, rfl⟩ := hL'
  have hun := unescape_escape .fragment (by decide) (by decide) f.encode
  unfold FragmentParameter
  rw [hr]
  constructor
  · rintro ⟨front, fragment, ps, h1, h2, h3, h4⟩
    simp only [List.cons.injEq, and_true] at h1
    obtain ⟨_, rfl⟩ := split_last_unique h1 (escape_fragment_no_hash _) h2
    rw [hun] at h3
    cases h3
    rw [(parseQuery_encode hnd).2, hall] at h4
    cases hg : params.get? name with
    | none => rw [hg] at h4; cases h4
    | some x => rw [hg] at h4; cases h4; rfl
  · intro hg
    refine ⟨B, _, _, rfl, escape_fragment_no_hash _, hun, ?_⟩
    rw [(parseQuery_encode hnd).2, hall, hg]
    rfl

/-- The parameters added to the query by a redirect. -/
theorem addedParameter_iff {res : Response} {uri : Str} {params : GoMap Str} {L : Str}
    (hp : params.keys.Nodup) (hne : params ≠ [])
    (hL : redirectLocation uri params false = some L) (hr : res.header.all b!"Location" = [L])
    (name value : Str) :
    AddedParameter uri res name value ↔ params.get? name = some value := by
  unfold redirectLocation at hL
  cases hu : parseRequestURI uri with
  | none => rw [hu] at hL; cases hL
  | some u =>
    rw [hu] at hL
    obtain ⟨q, hq⟩ : ∃ q, params.foldl (fun q p => Values.add q p.1 p.2) u.query = q := ⟨_, rfl⟩
    have hnd : q.keys.Nodup := by
      rw [← hq]; exact Values.nodup_foldl_add _ (parseQuery_nodup _)
    have hall : ∀ k, q.all k = u.query.all k ++ (params.get? k).toList := by
      intro k; rw [← hq]; exact params_all hp _ k
    have hen : q.encode ≠ [] := by
      obtain ⟨⟨k, x⟩, ps, rfl⟩ := List.exists_cons_of_ne_nil hne
      apply encode_ne_nil hnd (k := k)
      rw [hall, GoMap.get?_cons, if_pos rfl]
      simp
    simp only [Bool.false_eq_true, if_false, hq, URL.string, hen, ne_eq, not_false_eq_true, or_true,
      if_true, C17_fragment_never_seen hu, not_true, List.append_nil, Option.some.injEq] at hL
    have hL' : ∃ B, L = B ++ [0x3F] ++ q.encode := ⟨_, by rw [← hL, List.append_assoc]; rfl⟩
    obtain ⟨B, rfl⟩ := hL'
    unfold AddedParameter
    rw [hr]
    constructor
    · rintro ⟨u', front, query, h0, h1, h2, h3⟩
      rw [hu] at h0
      cases h0
      simp only [List.cons.injEq, and_true] at h1
      obtain ⟨_, rfl⟩ := split_last_unique h1 (encode_no_qm _) h2
      rw [(parseQuery_encode hnd).2, hall] at h3
      have h3 := List.append_cancel_left h3
      cases hg : params.get? name with
      | none => rw [hg] at h3; cases h3
      | some x => rw [hg] at h3; cases h3; rfl
    · intro hg
      refine ⟨u, B, _, hu, rfl, encode_no_qm _, ?_⟩
      rw [(parseQuery_encode hnd).2, hall, hg]
      rfl

end OAuth2

import Verif.Spec.Client
import Verif.Lemmas.WireText
import Verif.Props.Headers
import Verif.Props.Endpoints
import Verif.Props.Reads

/-!
The answers of the server and the requests of the client, on a connection.
-/

namespace OAuth2

open Spec Rfc7230
open Rfc7235 (Token Tchar Blank)

/-! ### Headers -/

/-- Headers that go over the wire unchanged. -/
structure PlainHeader (own : List Str) (h : Header) : Prop where
  kept : Kept h
  own : ∀ k ∈ h.keys, k ∉ own
  value : ∀ e ∈ h, ∀ v ∈ e.2, Value v

theorem PlainHeader.nil {own : List Str} : PlainHeader own [] :=
  ⟨⟨List.nodup_nil, fun k hk => (by cases hk)⟩, fun k hk => (by cases hk), fun e he => (by cases he)⟩

theorem mem_keys_set {α : Type} {m : GoMap α} {k k' : Str} {v : α} (h : k' ∈ (GoMap.set m k v).keys) :
    k' = k ∨ k' ∈ m.keys := by
  unfold GoMap.set GoMap.keys at h
  rcases List.mem_map.mp h with ⟨e, he, rfl⟩
  rcases List.mem_cons.mp he with rfl | he
  · exact .inl rfl
  · exact .inr (List.mem_map.mpr ⟨e, (List.mem_filter.mp he).1, rfl⟩)

theorem PlainHeader.goSet {own : List Str} {h : Header} (hh : PlainHeader own h) {k : Str}
    {vs : List Str} (ht : k ≠ [] ∧ k.all validHeaderFieldByte = true ∧ canonicalKey k = k)
    (ho : k ∉ own) (hv : ∀ v ∈ vs, Value v) : PlainHeader own (GoMap.set h k vs) := by
  refine ⟨⟨GoMap.nodup_set hh.kept.once _ _, fun k' hk => ?_⟩, fun k' hk => ?_, fun e he => ?_⟩
  · rcases mem_keys_set hk with rfl | hk
    · exact ⟨token_of_decide ht.1 ht.2.1, ht.2.2⟩
    · exact hh.kept.name k' hk
  · rcases mem_keys_set hk with rfl | hk
    · exact ho
    · exact hh.own k' hk
  · rcases List.mem_cons.mp he with rfl | he
    · exact hv
    · exact hh.value e (List.mem_filter.mp he).1

theorem PlainHeader.set {own : List Str} {h : Header} (hh : PlainHeader own h) {k v : Str}
    (ht : canonicalKey k ≠ [] ∧ (canonicalKey k).all validHeaderFieldByte = true ∧
      canonicalKey (canonicalKey k) = canonicalKey k)
    (ho : canonicalKey k ∉ own) (hv : Value v) : PlainHeader own (h.set k v) :=
  hh.goSet ht ho fun x hx => by rw [List.mem_singleton.mp hx]; exact hv

instance (v : Str) : Decidable (Value v) :=
  decidable_of_iff ((∀ b ∈ v, b ≠ 0x0D ∧ b ≠ 0x0A) ∧ (∀ b ∈ v.head?.toList, b ≠ 0x20 ∧ b ≠ 0x09) ∧
      ∀ b ∈ v.getLast?.toList, b ≠ 0x20 ∧ b ≠ 0x09) <| by
    constructor
    · rintro ⟨h1, h2, h3⟩
      exact ⟨h1, fun b hb => h2 b (by simp [hb]), fun b hb => h3 b (by simp [hb])⟩
    · rintro ⟨h1, h2, h3⟩
      exact ⟨h1, fun b hb => h2 b (by simpa using hb), fun b hb => h3 b (by simpa using hb)⟩

theorem value_of_oneLine {v : Str} (h : OneLine v) (h1 : v.head? ≠ some 0x20)
    (h2 : v.getLast? ≠ some 0x20) : Value v := by
  have key : ∀ b : UInt8, 0x20 ≤ b → b ≠ 0x0D ∧ b ≠ 0x0A ∧ b ≠ 0x09 := by
    apply forall_u8 (P := fun b => 0x20 ≤ b → b ≠ 0x0D ∧ b ≠ 0x0A ∧ b ≠ 0x09)
    decide +kernel
  refine ⟨fun b hb => ?_, fun b hb => ⟨?_, ?_⟩, fun b hb => ⟨?_, ?_⟩⟩
  · have := key b (h b hb).1
    exact ⟨this.1, this.2.1⟩
  · rintro rfl; exact h1 hb
  · exact (key b (h b (List.mem_of_mem_head? hb)).1).2.2
  · rintro rfl; exact h2 hb
  · exact (key b (h b (List.mem_of_getLast? hb)).1).2.2

/-! ### The location of a redirect -/

theorem escape_no_space (mode : EncMode) (s : Str) : (0x20 : UInt8) ∉ escape mode s := by
  have hx : ∀ n, n < 16 → hexUpper n ≠ 0x20 := by decide
  have hs : shouldEscape 0x20 mode = true := by cases mode <;> decide
  induction s with
  | nil => simp [escape]
  | cons c cs ih =>
    unfold escape
    split
    · simp only [List.mem_cons, not_or]
      exact ⟨by decide, ih⟩
    split
    · simp only [List.mem_cons, not_or]
      have := c.toNat_lt
      exact ⟨by decide, fun h => hx _ (by omega) h.symm, fun h => hx _ (by omega) h.symm, ih⟩
    · rename_i hn
      simp only [List.mem_cons, not_or]
      refine ⟨?_, ih⟩
      rintro rfl
      exact hn (by simp [hs])

theorem encode_no_space (v : Values) : (0x20 : UInt8) ∉ v.encode := by
  intro hc
  rcases encode_alphabet' v _ hc with h | h | h <;> revert h <;> decide +kernel

theorem escapedPath_no_space (u : URL) : (0x20 : UInt8) ∉ u.escapedPath := by
  unfold URL.escapedPath
  split
  · rename_i h
    intro hc
    have := List.all_eq_true.mp h.2.1 _ hc
    revert this; decide
  split
  · decide
  · exact escape_no_space _ _

theorem base_first {uri : Str} {u : URL} (h : parseRequestURI uri = some u) :
    u.base.head? ≠ some 0x20 := by
  by_cases hstar : uri = b!"*"
  · subst hstar
    have : parseRequestURI b!"*" = some { path := b!"*" } := by decide
    rw [this] at h
    cases h
    decide
  have hp := parsed_of_request h hstar
  by_cases hs : u.scheme = []
  · have hrest : u.opaque_ = [] ∧ u.user = none ∧ u.host = [] := by
      rcases hp.rest with h | ⟨ho, p, -, -, -, h⟩
      · exact absurd hs h.1
      · rcases h with h | h
        · exact ⟨ho, h.1, h.2.1⟩
        · exact absurd hs h.1
    have : (0x20 : UInt8) ∉ u.base := by
      unfold URL.base
      simp only [hs, hrest.1, hrest.2.1, hrest.2.2]
      simp only [ne_eq, not_true_eq_false, if_false, or_self, and_false, List.append_nil,
        List.nil_append, List.mem_append, not_or]
      refine ⟨?_, escapedPath_no_space u⟩
      split <;> decide
    exact fun hh => this (List.mem_of_mem_head? hh)
  · obtain ⟨c, cs, hc⟩ := List.exists_cons_of_ne_nil hs
    have hb : u.base.head? = some c := by
      unfold URL.base
      simp only [hc]
      split <;> simp
    rw [hb]
    have hv := hp.scheme.resolve_left hs
    have := hv.1.bytes c (by rw [hc]; exact .head _)
    intro e
    cases e
    revert this; decide

theorem string_first {u : URL} (h : u.base.head? ≠ some 0x20) : u.string.head? ≠ some 0x20 := by
  unfold URL.string
  rw [List.append_assoc, List.head?_append]
  cases hb : u.base.head? with
  | some c => rw [hb] at h; simpa using h
  | none =>
    simp only [Option.none_or]
    split
    · simp
    · split <;> simp

theorem last_of_no_space {a z : Str} (hz : z ≠ []) (h : (0x20 : UInt8) ∉ z) :
    (a ++ z).getLast? ≠ some 0x20 := by
  rw [List.getLast?_append]
  obtain ⟨c, hc⟩ : ∃ c, z.getLast? = some c := by
    cases hl : z.getLast? with
    | none => exact absurd (List.getLast?_eq_none_iff.mp hl) hz
    | some c => exact ⟨c, rfl⟩
  rw [hc]
  simp only [Option.some_or]
  intro e
  cases e
  exact h (List.mem_of_getLast? hc)

theorem string_last {u : URL} (h : u.fragment ≠ [] ∨ (u.rawQuery ≠ [] ∧ (0x20 : UInt8) ∉ u.rawQuery)) :
    u.string.getLast? ≠ some 0x20 := by
  unfold URL.string
  have hf : (0x20 : UInt8) ∉ 0x23 :: escape .fragment u.fragment := by
    simp only [List.mem_cons, not_or]
    exact ⟨by decide, escape_no_space _ _⟩
  by_cases hx : u.fragment = []
  · obtain ⟨h1, h2⟩ := h.resolve_left (fun h => h hx)
    rw [if_neg (show ¬ u.fragment ≠ [] from fun h => h hx), List.append_nil, if_pos (Or.inr h1)]
    refine last_of_no_space (by simp) ?_
    simp only [List.mem_cons, not_or]
    exact ⟨by decide, h2⟩
  · rw [if_pos hx]
    exact last_of_no_space (by simp) hf

/-- The location of a redirect is sent as it is. -/
theorem location_value {uri : Str} {params : GoMap Str} {f : Bool} {L : Str}
    (hp : params.keys.Nodup) (hne : params ≠ []) (h : redirectLocation uri params f = some L) :
    Value L := by
  refine value_of_oneLine (location_oneLine h) ?_ ?_ <;> revert h <;> unfold redirectLocation <;>
    cases hu : parseRequestURI uri with
    | none => intro h; cases h
    | some u => ?_
  · simp only
    split
    · intro h
      cases h
      exact string_first (show u.base.head? ≠ some 0x20 from base_first hu)
    · intro h
      cases h
      exact string_first (show u.base.head? ≠ some 0x20 from base_first hu)
  · simp only
    obtain ⟨⟨k, x⟩, ps, rfl⟩ := List.exists_cons_of_ne_nil hne
    split
    · intro h
      cases h
      refine string_last (.inl ?_)
      show Values.encode _ ≠ []
      refine encode_ne_nil (Values.nodup_foldl_add _ List.nodup_nil) (k := k) ?_
      rw [params_all hp, GoMap.get?_cons, if_pos rfl]
      simp
    · intro h
      cases h
      refine string_last (.inr ⟨?_, encode_no_space _⟩)
      show Values.encode _ ≠ []
      refine encode_ne_nil (Values.nodup_foldl_add _ (parseQuery_nodup _)) (k := k) ?_
      rw [params_all hp, GoMap.get?_cons, if_pos rfl]
      simp

/-! ### The answers of the server -/

/-- What the server of `net/http` takes over. -/
abbrev takenOver : List Str :=
  [b!"Date", b!"Content-Length", b!"Connection", b!"Transfer-Encoding", b!"Trailer"]

theorem PlainHeader.json {h : Header} (hh : PlainHeader takenOver h) :
    PlainHeader takenOver (jsonHeader h) :=
  ((hh.set (by decide) (by decide) (by decide)).set (by decide) (by decide) (by decide)).set
    (by decide) (by decide) (by decide)

theorem PlainHeader.redirect {L : Str} (hL : Value L) : PlainHeader takenOver (redirectHeader [] L) := by
  refine ((PlainHeader.set ?_ (by decide) (by decide) (by decide)).set (by decide) (by decide)
    (by decide)).set (by decide) (by decide) (by decide)
  exact PlainHeader.nil.goSet (by decide) (by decide)
    (fun x hx => by
      have : x ∈ [L] := hx
      rw [List.mem_singleton.mp this]; exact hL)

/-- Statuses that allow a body. -/
abbrev WithBody (n : Nat) : Prop := 200 ≤ n ∧ n ≤ 999 ∧ n ≠ 204 ∧ n ≠ 304

theorem served_plain {s : Server} {c : Call} {res : Response} (h : (step ⟨false, s⟩ c).1 = .answered res) :
    PlainHeader takenOver res.header ∧ WithBody res.statusCode ∧
      res.status = statusLine res.statusCode := by
  obtain ⟨r, reply, s', hop, h1, h2, w, hw, rfl⟩ := answered_shape h
  cases hw with
  | json hdr json status hs hh =>
    refine ⟨?_, ?_, rfl⟩
    · show PlainHeader takenOver (jsonHeader hdr)
      refine PlainHeader.json ?_
      rcases hh with rfl | rfl
      · exact .nil
      · exact PlainHeader.nil.goSet (k := b!"Www-Authenticate") (by decide) (by decide) (by decide)
    · show WithBody status
      unfold WithBody
      omega
  | redirect rq hf hm params hp hne f L hL =>
    exact ⟨PlainHeader.redirect (location_value hp hne hL), (by decide : WithBody 303), rfl⟩
  | revoked => exact ⟨.nil, by decide, rfl⟩
  | notice => exact ⟨.nil, by decide, rfl⟩
  | notFound hd hh =>
    subst hh
    exact ⟨(PlainHeader.nil.set (by decide) (by decide) (by decide)).set (by decide) (by decide)
      (by decide), by decide, rfl⟩

theorem joinStr_last {sep : Str} {c : UInt8} {l : List Str} (hl : l ≠ [])
    (h : ∀ x ∈ l, x.getLast? = some c) : (joinStr sep l).getLast? = some c := by
  induction l with
  | nil => exact absurd rfl hl
  | cons x l ih =>
    cases l with
    | nil => exact h x (.head _)
    | cons y l =>
      have := ih (by simp) fun z hz => h z (.tail _ hz)
      show (x ++ sep ++ joinStr sep (y :: l)).getLast? = some c
      rw [List.getLast?_append, this]
      rfl

theorem authorizes_error {s : Server} {r : Request} {required : Scope} {t : Time} {e : Error}
    (ha : s.authorizes r required t = some e) :
    e = protectedResource ∨ e = invalidRequest b!"malformed authorization header" ∨
      e = invalidToken b!"malformed token" ∨ e = invalidToken b!"unknown token" ∨
      e = invalidToken b!"expired token" ∨ e = insufficientScope required := by
  unfold Server.authorizes at ha
  cases hb : parseBearerToken r with
  | error e' =>
    rw [hb] at ha
    cases ha
    rcases Server.parseBearerToken_error hb with h | h
    · exact .inl h
    · exact .inr (.inl h)
  | ok tk =>
    rw [hb] at ha
    simp only at ha
    repeat' split at ha
    all_goals first | (cases ha; done) | (cases ha; simp)

theorem rejected_plain {s : Server} {c : Call} (hc : Sane c) {res : Response}
    (h : (step ⟨false, s⟩ c).1 = .rejected res) :
    PlainHeader takenOver res.header ∧ WithBody res.statusCode ∧
      res.status = statusLine res.statusCode := by
  have hclean := C59_server s hc (.inr h)
  cases hop : c.op with
  | configure cl us => rw [step_configure hop] at h; cases h
  | serve r =>
    obtain ⟨reply, s', h1, h2, _⟩ := step_served hop s
    rw [h1] at h
    cases reply <;> cases h
  | authorize r required =>
    rw [step_authorize hop] at h
    simp only at h
    cases ha : s.authorizes r required (c.clock 0) with
    | none => rw [ha] at h; cases h
    | some e =>
      rw [ha] at h
      obtain rfl : (Server.challenge {} e).result = res := by cases h; rfl
      have hst : WithBody e.status.toNat := by
        rcases authorizes_error ha with rfl | rfl | rfl | rfl | rfl | rfl
        all_goals first | decide | exact (by decide : WithBody 403)
      refine ⟨?_, hst, rfl⟩
      have hlast : (if e.params = [] then b!"realm=\"OAuth2\"" else e.params).getLast? = some 0x22 := by
        split
        · decide
        · rename_i hne
          have hx := C11_params_exact e e.map (List.Perm.refl _)
          unfold Error.params at hne ⊢
          rw [hx] at hne ⊢
          refine joinStr_last ?_ ?_
          · intro h0
            rw [h0] at hne
            exact hne rfl
          · intro x hx
            obtain ⟨p, -, rfl⟩ := List.mem_map.mp hx
            unfold param
            rw [List.getLast?_append]
            rfl
      have hone := hclean (b!"Www-Authenticate", [b!"Bearer " ++
        (if e.params = [] then b!"realm=\"OAuth2\"" else e.params)]) (.head _) _ (.head _)
      refine PlainHeader.nil.goSet (k := b!"Www-Authenticate") (by decide) (by decide) ?_
      intro v hv
      rw [List.mem_singleton.mp hv]
      refine value_of_oneLine hone (by simp) ?_
      rw [List.getLast?_append, hlast]
      simp

theorem cleaned_unique {v v' : Str} (h : Cleaned v v') (hv : Value v) : v' = v := by
  obtain ⟨h', a, b, ha, hb, e⟩ := h
  have e1 : v.map (fun c => if c = 0x0D ∨ c = 0x0A then 0x20 else c) = v := by
    refine Eq.trans (List.map_congr_left fun c hc => ?_) (List.map_id v)
    have := hv.line c hc
    simp [this.1, this.2]
  rw [e1] at e
  have w : ∀ x : Str, Value x → ∀ a b, Blank a → Blank b → trimBy isWsp (a ++ x ++ b) = x :=
    fun x hx a b ha hb => trimBy_append (blank_wsp ha) (blank_wsp hb)
      (fun c hc => (isWsp_false_iff c).mpr (hx.first c hc))
      (fun c hc => (isWsp_false_iff c).mpr (hx.last c hc))
  have h1 := w v hv [] [] (by intro c hc; cases hc) (by intro c hc; cases hc)
  have h2 := w v' h' a b ha hb
  rw [← e] at h2
  rw [← h2]
  simpa using h1

/-- Cleaning changes nothing where there is nothing to clean. -/
theorem each_cleaned {l l' : List Str} (h : Each Cleaned l l') (hv : ∀ v ∈ l, Value v) : l' = l := by
  induction h with
  | nil => rfl
  | cons hc _ ih =>
    rename_i a b l l' _
    rw [ih fun v hm => hv v (.tail _ hm)]
    have e := cleaned_unique hc (hv a (.head _))
    rw [e]

theorem plain_all {own : List Str} {h : Header} (hh : PlainHeader own h) (name : Str) :
    ∀ v ∈ h.all name, Value v := by
  unfold Header.all
  cases hg : GoMap.get? h (canonicalKey name) with
  | none => intro v hv; cases hv
  | some vs => exact hh.value _ (GoMap.get?_some_mem hg)

theorem plain_given {res : Response} (h : PlainHeader takenOver res.header) (hs : WithBody res.statusCode)
    (hl : res.body.length < 2 ^ 63) : Given res := ⟨h.kept, h.own, hs, hl⟩

/-- Requests other than GET are answered with a content type, or with nothing. -/
theorem served_type {s : Server} {c : Call} {r : Request} {res : Response} (hop : c.op = .serve r)
    (hm : r.method ≠ b!"GET") (h : (step ⟨false, s⟩ c).1 = .answered res) :
    res.header.all b!"Content-Type" ≠ [] ∨ res.body = [] := by
  obtain ⟨r', reply, s', hop', h1, h2, w, hw, rfl⟩ := answered_shape h
  cases hw with
  | json hdr json status hs hh =>
    left
    show (jsonHeader hdr).all _ ≠ []
    rcases hh with rfl | rfl <;> decide +kernel
  | redirect rq hf hm params hp hne f L hL => exact .inr rfl
  | revoked => exact .inr rfl
  | notice =>
    rw [hop] at hop'
    cases hop'
    cases h2 with
    | notice _ _ hg => exact absurd hg hm
  | notFound hd hh =>
    subst hh
    left
    show Header.all _ _ ≠ []
    decide +kernel

/-- A request that was read says what the request said that was sent. -/
theorem says_same {r r' : Request} (hp : ∀ seg, LastSegment r.path seg ↔ LastSegment r'.path seg)
    (hm : r.method = r'.method) (hq : r.rawQuery = r'.rawQuery) (hb : r.body = r'.body)
    (he : r.bodyErr = r'.bodyErr) (hf : r.postForm = r'.postForm ∧ r.form = r'.form)
    (hc : r.header.get b!"Content-Type" = r'.header.get b!"Content-Type")
    (ha : r.header.get b!"Authorization" = r'.header.get b!"Authorization") : SaysTheSame r r' := by
  have hpf : parsePostForm r = parsePostForm r' := by
    unfold parsePostForm
    rw [hb, hc, he]
  have hform : r.parseForm.1.postForm = r'.parseForm.1.postForm ∧
      r.parseForm.1.form = r'.parseForm.1.form ∧ r.parseForm.2 = r'.parseForm.2 := by
    unfold Request.parseForm
    rw [hf.1, hf.2, hm, hpf, hq]
    cases r'.form <;> split <;> exact ⟨rfl, rfl, rfl⟩
  have hba : r.basicAuth = r'.basicAuth := by
    unfold Request.basicAuth
    rw [ha]
  have e1 : ∀ name, inBody r name = inBody r' name := fun name => by
    unfold inBody; rw [hform.1]
  have e2 : ∀ name, inForm r name = inForm r' name := fun name => by
    unfold inForm; rw [hform.2.1]
  refine ⟨hp, hm, hform.2.2, fun _ => ⟨?_, fun name _ => e1 name⟩, fun _ => ⟨hba, fun name _ => e1 name⟩,
    fun _ => ⟨fun name _ => e2 name, fun name _ => e1 name⟩⟩
  unfold presented
  rw [hba, e1, e1]

/-- What the client library looks at in a response. -/
structure SameResponse (res res' : Response) : Prop where
  code : res'.statusCode = res.statusCode
  status : res'.status = res.status
  body : res'.body = res.body
  err : res'.bodyErr = res.bodyErr
  type : res'.header.get b!"Content-Type" = res.header.get b!"Content-Type"

theorem SameResponse.error {res res' : Response} (h : SameResponse res res') (limit : Int) :
    parseRequestError res' limit = parseRequestError res limit := by
  unfold parseRequestError Response.readAll
  rw [h.code, h.status, h.body]

theorem SameResponse.json {res res' : Response} (h : SameResponse res res') (limit : Int) :
    readJSONBody res' limit = readJSONBody res limit := by
  unfold readJSONBody Response.readAll
  rw [h.body, h.err, h.type]

/-- The headers of the requests the library builds. -/
theorem build_plain {uri : Str} {values : Values} {clientID clientSecret : Str} {r : Request} {u : URL}
    (h : buildFormRequest uri values clientID clientSecret = some r) (hu : parseURL uri = some u) :
    PlainHeader [b!"Host", b!"User-Agent", b!"Content-Length", b!"Transfer-Encoding", b!"Trailer",
      b!"Accept-Encoding"] r.header ∧ r.method = b!"POST" ∧ r.path = u.path ∧
      r.rawQuery = u.rawQuery ∧ r.body = some values.encode ∧ r.bodyErr = false ∧
      r.postForm = none ∧ r.form = none := by
  unfold buildFormRequest newPostRequest at h
  rw [hu] at h
  simp only [Option.pure_def, Option.bind_eq_bind, Option.bind_some] at h
  cases h
  have hv : Value (b!"Basic " ++ b64StdEncode (clientID ++ [0x3A] ++ clientSecret)) := by
    refine value_of_oneLine ((by decide : OneLine b!"Basic ").append (b64Encode_oneLine _ (by decide) _))
      (by simp) ?_
    refine last_of_no_space ?_ ?_
    · intro h0
      have := b64Std_roundtrip (clientID ++ [0x3A] ++ clientSecret)
      rw [h0] at this
      have h1 : b64StdDecode [] = some [] := by decide
      rw [h1] at this
      have := congrArg List.length (Option.some.inj this)
      simp at this
    · intro hm
      have := b64StdEncode_alphabet _ _ hm
      revert this; decide
  split
  · refine ⟨PlainHeader.set ?_ (by decide) (by decide) (by decide), rfl, rfl, rfl, rfl, rfl, rfl, rfl⟩
    exact PlainHeader.nil.set (by decide) (by decide) hv
  · exact ⟨PlainHeader.nil.set (by decide) (by decide) (by decide), rfl, rfl, rfl, rfl, rfl, rfl, rfl⟩

theorem Spec.CleanHeader.printable {h : Header} (hh : CleanHeader h) :
    ∀ e ∈ h, ∀ v ∈ e.2, Printable v := fun e he v hv b hb => .inr (hh e he v hv b hb)

theorem plain_sendable {own : List Str} {h : Header} (hp : PlainHeader own h) (hh : CleanHeader h) :
    h.sendable = true := by
  unfold Header.sendable
  rw [List.all_eq_true]
  intro e he
  have h1 : validFieldName e.1 = true := by
    have ht := (hp.kept.name e.1 (List.mem_map.mpr ⟨e, he, rfl⟩)).1
    unfold validFieldName
    rw [token_valid ht]
    simp [ht.1]
  have h2 : e.2.all validFieldValue = true := by
    rw [List.all_eq_true]
    exact fun v hv => validFieldValue_printable (hh.printable e he v hv)
  rw [h1, h2]; rfl

theorem lastSegment_slash (p : Str) (seg : Str) :
    LastSegment p seg ↔ LastSegment (if p = [] then [0x2F] else p) seg := by
  rw [lastSegment_iff, lastSegment_iff]
  by_cases h : p = []
  · subst h
    have : Server.lastSegment [] = Server.lastSegment [0x2F] := by decide
    simp [this]
  · rw [if_neg h]

/-- One exchange over a connection. -/
theorem wire_exchange {x : Sending} {y : Shipping} {uri : Str} {u : URL} {values : Values}
    {clientID clientSecret : Str} {r : Request} {s : Server} {coins : Str} {clock : Nat → Time}
    (hu : parseURL uri = some u) (ha : Address u) (hx : HostText x.host) (hy : ∀ body, Ships y body)
    (h : buildFormRequest uri values clientID clientSecret = some r)
    (h1 : values.encode.length < 2 ^ 63)
    (h2 : ∀ res, Spec.wire ⟨false, s⟩ coins clock r = some res → res.body.length < 2 ^ 63) :
    (connection x y u (Spec.wire ⟨false, s⟩ coins clock) r = none ∧
      Spec.wire ⟨false, s⟩ coins clock r = none) ∨
    ∃ res res', connection x y u (Spec.wire ⟨false, s⟩ coins clock) r = some res' ∧
      Spec.wire ⟨false, s⟩ coins clock r = some res ∧ SameResponse res res' := by
  obtain ⟨hp, hm, hpath, hq, hb, he, hf⟩ := build_plain h hu
  have hclean := buildFormRequest_clean h
  obtain ⟨t1, u', t2, t3, t4⟩ := target_spec ha
  have hasked : Asked x u.requestURI r := by
    refine ⟨?_, hp.kept, hclean.printable, hp.own, hx, t1, ?_⟩
    · rw [hm]; exact token_of_decide (by decide) (by decide)
    · rw [hb]; exact h1
  obtain ⟨r', g1, g2⟩ := request_reaches hasked t2 []
  rw [List.append_nil] at g1
  have hget : ∀ name, (∀ own ∈ [b!"Host", b!"User-Agent", b!"Content-Length", b!"Transfer-Encoding",
      b!"Accept-Encoding"], ¬ SameName name own) → ¬ SameName name b!"Cache-Control" →
      r.header.get name = r'.header.get name := by
    intro name hn hc
    have := each_cleaned (g2.header name hn fun h => absurd h hc) (plain_all hp name)
    rw [Header.get_eq, Header.get_eq, this]
  have hsame : SaysTheSame r r' := by
    obtain ⟨v, v1, v2, v3⟩ := g2.url
    rw [t2] at v1
    cases v1
    refine says_same ?_ g2.method.symm ?_ ?_ ?_ ?_ (hget _ (by decide) (by decide))
      (hget _ (by decide) (by decide))
    · intro seg
      rw [v2, t4, hpath]
      exact lastSegment_slash _ _
    · rw [v3, t3, hq]
    · rw [g2.body, hb]; rfl
    · rw [g2.whole, he]
    · rw [hf.1, hf.2, g2.fresh.1, g2.fresh.2]; exact ⟨rfl, rfl⟩
  have hwire : Spec.wire ⟨false, s⟩ coins clock r' = Spec.wire ⟨false, s⟩ coins clock r := by
    unfold Spec.wire
    rw [C70_same hsame s coins clock]
  have hsend : r.header.sendable = true := plain_sendable hp hclean
  cases hw : Spec.wire ⟨false, s⟩ coins clock r with
  | none =>
    left
    refine ⟨?_, rfl⟩
    unfold connection
    simp only [hsend, g1, Bool.not_true, Bool.false_eq_true, if_false, Option.bind_eq_bind,
      Option.bind_some, hwire, hw, Option.bind_none]
  | some res =>
    right
    have hans : (step ⟨false, s⟩ { op := .serve r, coins := coins, clock := clock }).1 = .answered res := by
      unfold Spec.wire at hw
      split at hw
      · rename_i e; cases hw; exact e
      · cases hw
    obtain ⟨p1, p2, p3⟩ := served_plain hans
    have hty := served_type (r := r) rfl (by rw [hm]; decide) hans
    obtain ⟨got, a1, a2⟩ := response_arrives (plain_given p1 p2 (h2 res hw)) (hy res.body) []
    rw [List.append_nil] at a1
    refine ⟨res, got, ?_, rfl, a2.code, by rw [a2.status, p3], a2.body, ?_, ?_⟩
    · unfold connection
      simp only [hsend, g1, Bool.not_true, Bool.false_eq_true, if_false, Option.bind_eq_bind,
        Option.bind_some, hwire, hw, a1]
      rfl
    · rw [a2.whole]
      have : res.bodyErr = false := by
        obtain ⟨_, _, _, _, _, _, w, _, rfl⟩ := answered_shape hans
        unfold Recorder.result
        split <;> rfl
      exact this.symm
    · have := each_cleaned (a2.header b!"Content-Type" (by decide) (fun _ => hty)
        (fun h => absurd h (by decide))) (plain_all p1 _)
      rw [Header.get_eq, Header.get_eq, this]

theorem unescape_path_slash {t path : Str} (h : unescape .path (0x2F :: t) = some path) :
    ∃ q, path = 0x2F :: q := by
  rw [unescape_slash (by decide) (by decide)] at h
  obtain ⟨q, _, e⟩ := Option.map_eq_some_iff.mp h
  exact ⟨q, e.symm⟩

theorem setPath_slash {u v : URL} {p : Str} (hp : p = [] ∨ ∃ t, p = 0x2F :: t)
    (h : setPath u p = some v) :
    v.opaque_ = u.opaque_ ∧ v.rawQuery = u.rawQuery ∧
      ∀ p ∈ [v.path, v.rawPath], p = [] ∨ ∃ t, p = 0x2F :: t := by
  unfold setPath at h
  obtain ⟨path, h1, h2⟩ := Option.bind_eq_some_iff.mp h
  simp only [Option.pure_def, Option.some.injEq] at h2
  subst h2
  refine ⟨rfl, rfl, ?_⟩
  have hpath : path = [] ∨ ∃ t, path = 0x2F :: t := by
    rcases hp with rfl | ⟨t, rfl⟩
    · left
      have : unescape .path [] = some [] := by decide
      rw [this] at h1
      exact (Option.some.inj h1).symm
    · exact .inr (unescape_path_slash h1)
  intro q hq
  rcases List.mem_cons.mp hq with rfl | hq
  · exact hpath
  · rcases List.mem_cons.mp hq with rfl | hq
    · show (if p = escape .path path then [] else p) = [] ∨ _
      by_cases e : p = escape .path path
      · rw [if_pos e]; exact .inl rfl
      · rw [if_neg e]; exact hp
    · cases hq

theorem setPath_host {u v : URL} {p : Str} (h : setPath u p = some v) : v.host = u.host := by
  unfold setPath at h
  obtain ⟨path, h1, h2⟩ := Option.bind_eq_some_iff.mp h
  simp only [Option.pure_def, Option.some.injEq] at h2
  subst h2
  rfl

theorem parseRaw_host {t : Str} {u : URL} (h : parseRaw t false = some u) (hh : u.host ≠ []) :
    u.opaque_ = [] ∧ (∀ p ∈ [u.path, u.rawPath], p = [] ∨ ∃ t, p = 0x2F :: t) ∧
      ∀ b ∈ u.rawQuery, 0x20 ≤ b ∧ b ≠ 0x7F := by
  unfold parseRaw at h
  split at h
  · cases h
  rename_i hctl
  have hno := (containsCTL_false_iff t).mp (by simpa using hctl)
  split at h
  · cases h
  split at h
  · cases h; exact absurd rfl hh
  split at h
  · cases h
  rename_i scheme rest0 hsch
  have hsub : ∀ c ∈ rest0, c ∈ t := by
    rcases getScheme_spec hsch with ⟨_, rfl⟩ | ⟨_, e⟩
    · exact fun c hc => hc
    · rw [e]
      exact fun c hc => List.mem_append_right _ (.tail _ hc)
  obtain ⟨a, q, f, e, _, _, _, hq⟩ := splitQuery_spec rest0
  rw [e] at h
  simp only at h
  split at h
  · cases h; exact absurd rfl hh
  split at h
  · cases h
  split at h
  · cases h
  split at h
  · split at h
    · cases h
    rename_i user host _
    have hp : (match cutByte 0x2F (a.drop 2) with
          | some (a, r) => (a, 0x2F :: r)
          | none => (a.drop 2, [])).2 = [] ∨ ∃ t, (match cutByte 0x2F (a.drop 2) with
          | some (a, r) => (a, 0x2F :: r)
          | none => (a.drop 2, [])).2 = 0x2F :: t := by
      cases cutByte 0x2F (a.drop 2) with
      | none => exact .inl rfl
      | some p => exact .inr ⟨_, rfl⟩
    obtain ⟨h1, h2, h3⟩ := setPath_slash hp h
    refine ⟨h1, h3, fun b hb => ?_⟩
    rw [h2] at hb
    obtain ⟨k1, k2⟩ := hno b (hsub b (hq b hb))
    exact ⟨UInt8.not_lt.mp k1, k2⟩
  · exact absurd (setPath_host h) (by intro e; exact hh e)

/-- A URL with a host, without a user and without a blank in its query is one to send requests to. -/
theorem address_of_host {t : Str} {u : URL} (h : parseURL t = some u) (hh : u.host ≠ [])
    (hu : u.user = none) (hq : (0x20 : UInt8) ∉ u.rawQuery) : Address u := by
  have key : ∃ t, ∃ v : URL, parseRaw t false = some v ∧ v.host = u.host ∧ v.opaque_ = u.opaque_ ∧
      v.path = u.path ∧ v.rawPath = u.rawPath ∧ v.rawQuery = u.rawQuery := by
    unfold parseURL at h
    split at h
    · exact ⟨_, _, h, rfl, rfl, rfl, rfl, rfl⟩
    · obtain ⟨v, h1, h⟩ := Option.bind_eq_some_iff.mp h
      refine ⟨_, v, h1, ?_⟩
      split at h
      · cases h; exact ⟨rfl, rfl, rfl, rfl, rfl⟩
      · obtain ⟨f, _, h⟩ := Option.bind_eq_some_iff.mp h
        cases h; exact ⟨rfl, rfl, rfl, rfl, rfl⟩
  obtain ⟨t, v, h1, h2, h3, h4, h5, h6⟩ := key
  obtain ⟨g1, g2, g3⟩ := parseRaw_host h1 (by rw [h2]; exact hh)
  rw [h3] at g1
  rw [h4, h5] at g2
  rw [h6] at g3
  refine ⟨⟨g1, g2⟩, hu, fun b hb => ⟨?_, (g3 b hb).2⟩⟩
  refine UInt8.lt_iff_le_and_ne.mpr ⟨(g3 b hb).1, ?_⟩
  rintro rfl
  exact hq hb

end OAuth2

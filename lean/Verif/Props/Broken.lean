import Verif.Spec.Broken
import Verif.Props.Truncation
import Verif.Props.Responses
import Verif.Props.EndToEnd
import Verif.Lemmas.Served
import Verif.Lemmas.Replies
import Verif.Lemmas.Decide

/-!
C67: a connection that breaks yields no wrong answer and no half effect.
-/

namespace OAuth2

open Spec

/-! ### Requests -/

theorem parsePostForm_cut (r : Request) (a q : Str) (hb : r.body = some (a ++ q)) :
    (parsePostForm { r with body := some a, bodyErr := true }).2 = true ∨
    parsePostForm { r with body := some a, bodyErr := true } = parsePostForm r := by
  unfold parsePostForm
  simp only [hb]
  generalize (if r.header.get b!"Content-Type" = [] then _ else _ : Str) = ct
  by_cases hm : (parseMediaType ct).1 = b!"application/x-www-form-urlencoded"
  · left
    simp only [if_pos hm, Bool.true_and]
    by_cases hl : a.length ≤ maxFormSize
    · rw [if_pos (decide_eq_true hl)]
    · rw [if_neg (by simpa using hl), if_pos (by omega)]
  · right
    simp only [if_neg hm]

theorem parseForm_cut (r : Request) (a q : Str) (hb : r.body = some (a ++ q)) :
    (Request.parseForm { r with body := some a, bodyErr := true }).2 = true ∨
    ∃ pf f e, r.parseForm = ({ r with postForm := some pf, form := some f }, e) ∧
      Request.parseForm { r with body := some a, bodyErr := true } =
        ({ r with body := some a, bodyErr := true, postForm := some pf, form := some f }, e) := by
  have hc := parsePostForm_cut r a q hb
  unfold Request.parseForm
  simp only
  cases hpf : r.postForm with
  | some pf =>
    cases hf : r.form with
    | some f => exact .inr ⟨_, _, _, rfl, rfl⟩
    | none => exact .inr ⟨_, _, _, rfl, rfl⟩
  | none =>
    rcases hc with hc | hc
    · by_cases hm : r.method = b!"POST" ∨ r.method = b!"PUT" ∨ r.method = b!"PATCH"
      · left
        simp only [hpf] at hc
        simp only [if_pos hm, hc]
        cases hf : r.form <;> simp
      · right
        simp only [if_neg hm]
        cases hf : r.form with
        | some f => exact ⟨_, _, _, rfl, rfl⟩
        | none => exact ⟨_, _, _, rfl, rfl⟩
    · right
      simp only [hpf] at hc
      rw [hc]
      generalize hg : (if r.method = b!"POST" ∨ r.method = b!"PUT" ∨ r.method = b!"PATCH" then _
        else _ : Values × Bool) = x
      cases hf : r.form with
      | some f => exact ⟨_, _, _, rfl, rfl⟩
      | none => exact ⟨_, _, _, rfl, rfl⟩

theorem refused_cut {r : Request} (h : r.parseForm.2 = true) :
    (∃ d, parseAuthorizationRequest r = .error (invalidRequest d)) ∧
    (∃ d, parseTokenRequest r = .error (invalidRequest d)) ∧
    (∃ d, parseIntrospectionRequest r = .error (invalidRequest d)) ∧
    (∃ d, parseRevocationRequest r = .error (invalidRequest d)) := by
  refine ⟨?_, ?_, ?_, ?_⟩
  · unfold parseAuthorizationRequest
    split
    · exact ⟨_, rfl⟩
    · simp only [h, if_true]; exact ⟨_, rfl⟩
  · unfold parseTokenRequest
    split
    · exact ⟨_, rfl⟩
    · simp only [h, if_true]; exact ⟨_, rfl⟩
  · unfold parseIntrospectionRequest
    split
    · exact ⟨_, rfl⟩
    · simp only [h, if_true]; exact ⟨_, rfl⟩
  · unfold parseRevocationRequest
    split
    · exact ⟨_, rfl⟩
    · simp only [h, if_true]; exact ⟨_, rfl⟩

theorem handle_cut (st : Server) (l : Local) (r : Request) (a q : Str)
    (hb : r.body = some (a ++ q)) :
    st.handle { r with body := some a, bodyErr := true } l = st.handle r l ∨
    ∃ d, st.handle { r with body := some a, bodyErr := true } l =
      (.error (invalidRequest d), st) := by
  rcases parseForm_cut r a q hb with h | ⟨pf, f, e, h1, h2⟩
  · obtain ⟨⟨d1, h1⟩, ⟨d2, h2⟩, ⟨d3, h3⟩, ⟨d4, h4⟩⟩ := refused_cut h
    unfold Server.handle
    have k1 : ∃ d, st.authorizeReply { r with body := some a, bodyErr := true } l =
        (.error (invalidRequest d), st) := ⟨d1, by unfold Server.authorizeReply; rw [h1]⟩
    have k2 : ∃ d, st.tokenReply { r with body := some a, bodyErr := true } l =
        (.error (invalidRequest d), st) := ⟨d2, by unfold Server.tokenReply; rw [h2]⟩
    have k3 : ∃ d, st.introspectReply { r with body := some a, bodyErr := true } =
        (.error (invalidRequest d), st) := ⟨d3, by unfold Server.introspectReply; rw [h3]⟩
    have k4 : ∃ d, st.revokeReply { r with body := some a, bodyErr := true } =
        (.error (invalidRequest d), st) := ⟨d4, by unfold Server.revokeReply; rw [h4]⟩
    simp only
    split
    · exact .inr k1
    · split
      · exact .inr k2
      · split
        · exact .inr k3
        · split
          · exact .inr k4
          · exact .inl rfl
  · left
    have e1 : parseAuthorizationRequest { r with body := some a, bodyErr := true } =
        parseAuthorizationRequest r := by
      unfold parseAuthorizationRequest
      rw [h1, h2]
    have e2 : parseTokenRequest { r with body := some a, bodyErr := true } =
        parseTokenRequest r := by
      unfold parseTokenRequest
      rw [h1, h2]
      rfl
    have e3 : parseIntrospectionRequest { r with body := some a, bodyErr := true } =
        parseIntrospectionRequest r := by
      unfold parseIntrospectionRequest
      rw [h1, h2]
      rfl
    have e4 : parseRevocationRequest { r with body := some a, bodyErr := true } =
        parseRevocationRequest r := by
      unfold parseRevocationRequest
      rw [h1, h2]
      rfl
    unfold Server.handle Server.authorizeReply Server.tokenReply Server.introspectReply
      Server.revokeReply
    rw [e1, e2, e3, e4, h1, h2]

/-- **C67.** A request whose body ends early because the connection broke is never taken for a
shorter request. Either the server does what it would have done for the whole request (it does not
read the body), or it refuses it as malformed and nothing has changed. -/
theorem C67_request (st : Server) {r r' : Request} (hcut : Interrupted r r') (coins : Str)
    (clock : Nat → Time) :
    step ⟨false, st⟩ ⟨.serve r', coins, clock⟩ = step ⟨false, st⟩ ⟨.serve r, coins, clock⟩ ∨
    (RefusedWith (step ⟨false, st⟩ ⟨.serve r', coins, clock⟩).1 400 b!"invalid_request" ∧
      (step ⟨false, st⟩ ⟨.serve r', coins, clock⟩).2 = ⟨false, st⟩) := by
  obtain ⟨a, q, hb, rfl⟩ := hcut
  rw [step_serve (c := ⟨.serve _, coins, clock⟩) rfl, step_serve (c := ⟨.serve r, coins, clock⟩) rfl]
  rcases handle_cut st (Call.local ⟨.serve r, coins, clock⟩) r a q hb with h | ⟨d, h⟩
  · left
    exact congrArg (fun x : Reply × Server => (x.1.answer, (⟨false, x.2⟩ : Shared Server))) h
  · right
    have h' : st.handle { r with body := some a, bodyErr := true }
        (Call.local ⟨.serve { r with body := some a, bodyErr := true }, coins, clock⟩) =
        (.error (invalidRequest d), st) := h
    rw [h']
    exact ⟨refused_request d, rfl⟩

/-! ### Responses -/

theorem skipWs_nil_of_append {s q : Str} (h : skipWs (s ++ q) = []) : skipWs s = [] := by
  cases hs : skipWs s with
  | nil => rfl
  | cons c cs => rw [skipWs_append hs] at h; cases h

/-- Between a document and an extension of it there are only documents. -/
theorem parseJSON_between {s q q' : Str} {v w : JSON} (h1 : parseJSON s = some v)
    (hn : v.isNum = false) (h2 : parseJSON (s ++ q ++ q') = some w) : parseJSON (s ++ q) = some v := by
  unfold parseJSON at h1 h2 ⊢
  cases hv : parseValue (s.length + 1) 0 s with
  | none => simp [hv] at h1
  | some p =>
    obtain ⟨v', r⟩ := p
    simp only [hv] at h1
    split at h1
    · cases h1
      rw [List.append_assoc, (parse_append _).1 ((s ++ (q ++ q')).length + 1) 0 s (q ++ q') r v
        (by simp) (Or.inr hn) hv] at h2
      rw [(parse_append _).1 ((s ++ q).length + 1) 0 s q r v (by simp) (Or.inr hn) hv]
      simp only at h2 ⊢
      split at h2
      · rename_i h3
        rw [← List.append_assoc] at h3
        rw [if_pos (skipWs_nil_of_append h3)]
      · cases h2
    · cases h1

theorem unmarshal_between {α : Type} {f : List (Str × JSON) → Option α} {z : α} {U : Str → Option α}
    (hU : ∀ data, U data = match parseJSON data with
      | some (.obj l) => f l
      | some .null => some z
      | _ => none) {s q q' : Str} {t : α} {v : JSON}
    (h1 : U s = some t) (h2 : parseJSON (s ++ q ++ q') = some v) : U (s ++ q) = some t := by
  rw [hU] at h1 ⊢
  cases hp : parseJSON s with
  | none => simp [hp] at h1
  | some w =>
    have hn : w.isNum = false := by
      cases w <;> first | rfl | (simp [hp] at h1)
    rw [parseJSON_between hp hn h2]
    rw [hp] at h1
    exact h1

theorem unmarshal_document {α : Type} {f : List (Str × JSON) → Option α} {z : α}
    {U : Str → Option α} (hU : ∀ data, U data = match parseJSON data with
      | some (.obj l) => f l
      | some .null => some z
      | _ => none) {s : Str} {t : α} (h : U s = some t) :
    ∃ v, parseJSON s = some v ∧ v.isNum = false := by
  rw [hU] at h
  cases hp : parseJSON s with
  | none => simp [hp] at h
  | some v => exact ⟨v, rfl, by cases v <;> first | rfl | (simp [hp] at h)⟩

/-- No part of the body, only the whole of it, is a document other than a number. -/
def Whole (body : Str) : Prop :=
  ∀ s q v, body = s ++ q → parseJSON s = some v → v.isNum = false → ∃ w, parseJSON body = some w

theorem whole_document {body : Str} {v : JSON} (h : parseJSON body = some v) : Whole body :=
  fun _ _ _ _ _ _ => ⟨v, h⟩

theorem whole_nil : Whole [] := by
  intro s q v h h1 _
  obtain ⟨rfl, rfl⟩ := List.append_eq_nil_iff.mp h.symm
  exact ⟨v, h1⟩

/-- A part of the limited body, as the start of the limited whole. -/
theorem take_shortened {a q : Str} (n : Nat) :
    (a ++ q).take n = a.take n ++ q.take (n - a.length) := List.take_append

theorem shortened_unmarshal {α : Type} {f : List (Str × JSON) → Option α} {z : α}
    {U : Str → Option α} (hU : ∀ data, U data = match parseJSON data with
      | some (.obj l) => f l
      | some .null => some z
      | _ => none) {a q : Str} {n : Nat} {t : α} (hw : Whole (a ++ q)) (h : U (a.take n) = some t) :
    U ((a ++ q).take n) = some t := by
  obtain ⟨v, hv, hn⟩ := unmarshal_document hU h
  obtain ⟨w, hw⟩ := hw (a.take n) (a.drop n ++ q) v
    (by rw [← List.append_assoc, List.take_append_drop]) hv hn
  rw [take_shortened]
  refine unmarshal_between hU (q' := (a ++ q).drop n) (v := w) h ?_
  rw [← take_shortened, List.take_append_drop]
  exact hw

theorem shortened_token {res res' : Response} (hs : Shortened res res') (hb : res.bodyErr = false)
    (hw : Whole res.body) {limit : Int} {t : TokenResponse}
    (h : parseTokenResponse res' limit = .ok t) : parseTokenResponse res limit = .ok t := by
  obtain ⟨rest, seen, h1, h2⟩ := hs
  have hh : res'.header = res.header := by rw [h2]
  unfold parseTokenResponse at h ⊢
  cases hr : readJSONBody res' limit with
  | error e => rw [hr] at h; cases h
  | ok data =>
    obtain ⟨hd, k1, k2, _⟩ := readJSONBody_ok hr
    rw [hh] at k1 k2
    rw [readJSONBody_of k1 k2 (by simp [hb])]
    rw [hr] at h
    simp only at h ⊢
    subst hd
    cases hu : TokenResponse.unmarshal (res'.body.take limit.toNat) with
    | none => rw [hu] at h; cases h
    | some t' =>
      rw [hu] at h
      rw [h1] at hw ⊢
      rw [shortened_unmarshal tokenUnmarshal_eq hw hu]
      exact h

theorem shortened_introspection {res res' : Response} (hs : Shortened res res')
    (hb : res.bodyErr = false) (hw : Whole res.body) {limit : Int} {t : IntrospectionResponse}
    (h : parseIntrospectionResponse res' limit = .ok t) :
    parseIntrospectionResponse res limit = .ok t := by
  obtain ⟨rest, seen, h1, h2⟩ := hs
  have hh : res'.header = res.header := by rw [h2]
  unfold parseIntrospectionResponse at h ⊢
  cases hr : readJSONBody res' limit with
  | error e => rw [hr] at h; cases h
  | ok data =>
    obtain ⟨hd, k1, k2, _⟩ := readJSONBody_ok hr
    rw [hh] at k1 k2
    rw [readJSONBody_of k1 k2 (by simp [hb])]
    rw [hr] at h
    simp only at h ⊢
    subst hd
    cases hu : IntrospectionResponse.unmarshal (res'.body.take limit.toNat) with
    | none => rw [hu] at h; cases h
    | some t' =>
      rw [hu] at h
      rw [h1] at hw ⊢
      rw [shortened_unmarshal introspectionUnmarshal_eq hw hu]
      exact h

theorem shortened_error {res res' : Response} (hs : Shortened res res') (hw : Whole res.body)
    {limit : Int} {e : Error} (h : parseRequestError res' limit = .oauth e) :
    parseRequestError res limit = .oauth e := by
  obtain ⟨rest, seen, h1, h2⟩ := hs
  have hh : res'.statusCode = res.statusCode := by rw [h2]
  unfold parseRequestError Response.readAll at h ⊢
  simp only at h ⊢
  cases hu : Error.unmarshal (res'.body.take limit.toNat) with
  | none => rw [hu] at h; cases h
  | some t' =>
    rw [hu] at h
    rw [h1] at hw ⊢
    rw [shortened_unmarshal errorUnmarshal_eq hw hu, ← hh]
    exact h

/-! ### What the server sends is whole -/

theorem whole_of_take {body : Str}
    (h : ∀ n, n ≤ body.length → ((parseJSON (body.take n)).all JSON.isNum) = true) : Whole body := by
  intro s q v hb h1 hn
  have := h s.length (by rw [hb]; simp)
  rw [hb, List.take_left, h1] at this
  simp only [Option.all_some] at this
  rw [hn] at this
  cases this

theorem whole_notFound : Whole b!"404 page not found\n" :=
  whole_of_take (by decide +kernel)

theorem whole_notice : Whole Server.notice := whole_of_take (by decide +kernel)

theorem whole_redirect (uri : Str) (params : GoMap Str) (b : Bool) (h : Header) :
    Whole (redirectTo { header := h } uri params b).result.body := by
  unfold redirectTo
  cases redirectLocation uri params b <;> exact whole_nil

theorem whole_error (e : Error) : Whole ((Reply.error e).render {}).result.body := by
  by_cases hr : e.redirectURI = []
  · rw [error_result hr]
    obtain ⟨v, hv⟩ := parse_of_unmarshal errorUnmarshal_eq e.unmarshal_json
    exact whole_document hv
  · unfold Reply.render
    simp only [if_pos hr]
    exact whole_redirect _ _ _ _

theorem whole_token (t : TokenResponse) : Whole ((Reply.token t).render {}).result.body := by
  by_cases hr : t.redirectURI = []
  · rw [token_result hr]
    refine whole_document (v := ?_) ?_
    rotate_left
    · simp only
      rw [TokenResponse.json_members]
      exact parseJSON_object _ (by simp [TokenResponse.members]) t.members_encode
  · unfold Reply.render
    simp only [if_pos hr]
    exact whole_redirect _ _ _ _

theorem whole_introspection {i : IntrospectionResponse} (hi : i.extra = none) :
    Whole ((Reply.introspection i).render {}).result.body := by
  rw [introspection_result]
  refine whole_document (v := ?_) ?_
  rotate_left
  · simp only
    rw [IntrospectionResponse.json_members]
    exact parseJSON_object _ (by simp [IntrospectionResponse.members])
      (i.members_encode (by rw [hi]; exact representable_nil _))

theorem whole_answer {st : Server} {r : Request} {coins : Str} {clock : Nat → Time} {res : Response}
    (h : (step ⟨false, st⟩ ⟨.serve r, coins, clock⟩).1 = .answered res) :
    Whole res.body ∧ res.bodyErr = false := by
  rw [step_serve (c := ⟨.serve r, coins, clock⟩) rfl] at h
  have hs := Server.served st r (Call.local ⟨.serve r, coins, clock⟩)
  revert h hs
  generalize st.handle r (Call.local ⟨.serve r, coins, clock⟩) = x
  obtain ⟨reply, st'⟩ := x
  intro h hs
  simp only at h hs
  have hb : ∀ w : Recorder, w.result.bodyErr = false := by
    intro w
    unfold Recorder.result
    cases w.sent <;> rfl
  cases reply with
  | crash => cases h
  | error e => cases h; exact ⟨whole_error e, hb _⟩
  | token t => cases h; exact ⟨whole_token t, hb _⟩
  | code c => cases h; exact ⟨whole_redirect _ _ _ _, hb _⟩
  | introspection i =>
    cases h
    refine ⟨whole_introspection ?_, hb _⟩
    cases hs with
    | introspect _ _ _ _ _ _ _ _ _ hi =>
      rw [hi]
      repeat' split
      all_goals rfl
  | revoked => cases h; exact ⟨whole_nil, rfl⟩
  | notice => cases h; exact ⟨whole_notice, rfl⟩
  | notFound => cases h; exact ⟨whole_notFound, rfl⟩

/-! ### The client library -/

/-- What a client makes of a response over a lossy line. -/
theorem lossy_parse {α : Type} {parse : Response → Int → Except GoErr α}
    (hp : ∀ {res res' : Response}, Shortened res res' → res.bodyErr = false → Whole res.body →
      ∀ {limit t}, parse res' limit = .ok t → parse res limit = .ok t)
    (hl : ∀ {res limit e}, parse res limit ≠ .error (.oauth e))
    {res res' : Response} (hs : Shortened res res') (hb : res.bodyErr = false) (hw : Whole res.body)
    (limit : Int) :
    (if res'.statusCode ≠ 200 then .error (parseRequestError res' limit) else parse res' limit) =
      (if res.statusCode ≠ 200 then .error (parseRequestError res limit) else parse res limit) ∨
    ∃ err, (if res'.statusCode ≠ 200 then .error (parseRequestError res' limit)
      else parse res' limit) = .error err ∧ ∀ e, err ≠ .oauth e := by
  have hc : res'.statusCode = res.statusCode := by
    obtain ⟨_, _, _, h2⟩ := hs
    rw [h2]
  rw [hc]
  by_cases h200 : res.statusCode ≠ 200
  · simp only [if_pos h200]
    cases he : parseRequestError res' limit with
    | oauth e => left; rw [shortened_error hs hw he]
    | _ => exact .inr ⟨_, rfl, by intro e h; cases h⟩
  · simp only [if_neg h200]
    cases hx : parse res' limit with
    | ok t => left; rw [hp hs hb hw hx]
    | error err => exact .inr ⟨_, rfl, fun e h => hl (h ▸ hx)⟩

theorem parseToken_lib {res : Response} {limit : Int} {e : Error} :
    parseTokenResponse res limit ≠ .error (.oauth e) := by
  unfold parseTokenResponse
  cases hr : readJSONBody res limit with
  | error err =>
    unfold readJSONBody at hr
    simp only at hr
    repeat' split at hr
    all_goals first | (cases hr; intro h; cases h; done) | cases hr
  | ok data =>
    simp only
    cases TokenResponse.unmarshal data <;> (intro h; cases h)

theorem parseIntrospection_lib {res : Response} {limit : Int} {e : Error} :
    parseIntrospectionResponse res limit ≠ .error (.oauth e) := by
  unfold parseIntrospectionResponse
  cases hr : readJSONBody res limit with
  | error err =>
    unfold readJSONBody at hr
    simp only at hr
    repeat' split at hr
    all_goals first | (cases hr; intro h; cases h; done) | cases hr
  | ok data =>
    simp only
    cases IntrospectionResponse.unmarshal data <;> (intro h; cases h)

/-- What the methods of the client make of what comes back over the line. -/
def view {α : Type} (parse : Response → Int → Except GoErr α) (limit : Int) :
    Option Response → Except GoErr α
  | none => .error .lib
  | some res => if res.statusCode ≠ 200 then .error (parseRequestError res limit) else parse res limit

theorem authenticate_view (cfg : ClientConfig) (line : Transport) (rq : TokenRequest) :
    (newClient cfg line).authenticate rq =
      match buildTokenRequest (cfg.baseURI ++ cfg.tokenEndpoint) rq with
      | none => .error .lib
      | some r => view parseTokenResponse (ResponseLimit cfg) (line r) := by
  unfold Client.authenticate newClient view ResponseLimit
  split <;> rfl

theorem introspect_view (cfg : ClientConfig) (line : Transport) (rq : IntrospectionRequest) :
    (newClient cfg line).introspect rq =
      match buildIntrospectionRequest (cfg.baseURI ++ cfg.introspectionEndpoint) rq with
      | none => .error .lib
      | some r => view parseIntrospectionResponse (ResponseLimit cfg) (line r) := by
  unfold Client.introspect newClient view ResponseLimit
  split <;> rfl

/-- The error of a result, if it is one. -/
def errorOf {α : Type} : Except GoErr α → Option GoErr
  | .ok _ => none
  | .error e => some e

theorem revoke_view (cfg : ClientConfig) (line : Transport) (rq : RevocationRequest) :
    (newClient cfg line).revoke rq =
      match buildRevocationRequest (cfg.baseURI ++ cfg.revocationEndpoint) rq with
      | none => some .lib
      | some r => errorOf (view (fun _ _ => .ok ()) (ResponseLimit cfg) (line r)) := by
  unfold Client.revoke newClient view ResponseLimit
  cases hc : cfg.responseLimit == 0
  · have hc' : ¬ cfg.responseLimit = 0 := by simpa using hc
    simp only [if_neg hc']
    cases buildRevocationRequest (cfg.baseURI ++ cfg.revocationEndpoint) rq with
    | none => rfl
    | some r =>
      simp only
      cases line r with
      | none => rfl
      | some res =>
        simp only
        by_cases h : res.statusCode ≠ 200
        · simp only [if_pos h]; rfl
        · simp only [if_neg h]; rfl
  · have hc' : cfg.responseLimit = 0 := by simpa using hc
    simp only [if_pos hc']
    cases buildRevocationRequest (cfg.baseURI ++ cfg.revocationEndpoint) rq with
    | none => rfl
    | some r =>
      simp only
      cases line r with
      | none => rfl
      | some res =>
        simp only
        by_cases h : res.statusCode ≠ 200
        · simp only [if_pos h]; rfl
        · simp only [if_neg h]; rfl

/-- The three ways to read a response that the client has. -/
structure Reads {α : Type} (parse : Response → Int → Except GoErr α) : Prop where
  shortened : ∀ {res res' : Response}, Shortened res res' → res.bodyErr = false → Whole res.body →
      ∀ {limit t}, parse res' limit = .ok t → parse res limit = .ok t
  own : ∀ {res limit e}, parse res limit ≠ .error (.oauth e)

theorem reads_token : Reads parseTokenResponse := ⟨shortened_token, parseToken_lib⟩
theorem reads_introspection : Reads parseIntrospectionResponse :=
  ⟨shortened_introspection, parseIntrospection_lib⟩
theorem reads_revocation : Reads (fun _ _ => (.ok () : Except GoErr Unit)) :=
  ⟨fun _ _ _ _ _ h => h, by intro _ _ _ h; cases h⟩

theorem lossy_view {α : Type} {parse : Response → Int → Except GoErr α} (hp : Reads parse)
    {line line' : Transport} (hl : Lossy line line') (hj : SpeaksJSON line) (limit : Int)
    (r : Request) :
    view parse limit (line' r) = view parse limit (line r) ∨
    ∃ err, view parse limit (line' r) = .error err ∧ ∀ e, err ≠ .oauth e := by
  rcases hl r with h | ⟨res, res', h1, h2, h3⟩
  · rw [h]
    exact .inr ⟨_, rfl, by intro e h; cases h⟩
  · obtain ⟨hb, v, hv⟩ := hj r res h1
    rw [h1, h3]
    exact lossy_parse hp.shortened hp.own h2 hb (whole_document hv) limit

/-- **C67.** Whatever server is at the other end: if its responses are JSON documents and are lost
or cut off on the way, `Authenticate` returns what it would have returned over a good connection,
or an error of its own; never other tokens and never an OAuth2 error nobody sent. -/
theorem C67_lossy_authenticate {line line' : Transport} (hl : Lossy line line')
    (hj : SpeaksJSON line) (cfg : ClientConfig) (rq : TokenRequest) :
    (newClient cfg line').authenticate rq = (newClient cfg line).authenticate rq ∨
    ∃ err, (newClient cfg line').authenticate rq = .error err ∧ ∀ e, err ≠ .oauth e := by
  rw [authenticate_view, authenticate_view]
  cases buildTokenRequest (cfg.baseURI ++ cfg.tokenEndpoint) rq with
  | none => exact .inl rfl
  | some r => exact lossy_view reads_token hl hj _ r

/-- **C67.** The same for `Introspect`. -/
theorem C67_lossy_introspect {line line' : Transport} (hl : Lossy line line')
    (hj : SpeaksJSON line) (cfg : ClientConfig) (rq : IntrospectionRequest) :
    (newClient cfg line').introspect rq = (newClient cfg line).introspect rq ∨
    ∃ err, (newClient cfg line').introspect rq = .error err ∧ ∀ e, err ≠ .oauth e := by
  rw [introspect_view, introspect_view]
  cases buildIntrospectionRequest (cfg.baseURI ++ cfg.introspectionEndpoint) rq with
  | none => exact .inl rfl
  | some r => exact lossy_view reads_introspection hl hj _ r

/-! ### End to end -/

/-- The error of a client that sees a (possibly shortened) `invalid_request`. -/
theorem shortened_invalidRequest {d : Str} {res' : Response}
    (hs : Shortened ((Reply.error (invalidRequest d)).render {}).result res') {limit : Int} {e : Error}
    (h : parseRequestError res' limit = .oauth e) :
    e.status = 400 ∧ e.name = b!"invalid_request" := by
  have h := shortened_error hs (whole_error _) h
  rw [error_result rfl] at h
  unfold parseRequestError Response.readAll at h
  simp only at h
  cases hu : Error.unmarshal
      (((invalidRequest d).json ++ [0x0A]).take limit.toNat) with
  | none => rw [hu] at h; cases h
  | some t =>
    rw [hu] at h
    cases h
    refine ⟨rfl, ?_⟩
    obtain ⟨v, hv⟩ := parse_of_unmarshal errorUnmarshal_eq (invalidRequest d).unmarshal_json
    have hq := List.take_append_drop limit.toNat ((invalidRequest d).json ++ [0x0A])
    have := unmarshal_prefix errorUnmarshal_eq hu
      (q := ((invalidRequest d).json ++ [0x0A]).drop limit.toNat) (v := v) (by rw [hq]; exact hv)
    rw [hq, (invalidRequest d).unmarshal_json] at this
    have hn := congrArg Error.name (Option.some.inj this)
    exact hn.symm.trans (sanitize_ascii (by decide) : sanitize b!"invalid_request" = _)

theorem unreliable_view {α : Type} {parse : Response → Int → Except GoErr α} (hp : Reads parse)
    {st : Server} {coins : Str} {clock : Nat → Time} {line : Transport}
    {after : Request → Shared Server} (hu : Unreliable ⟨false, st⟩ coins clock line after)
    (limit : Int) (r : Request) :
    (∀ t, view parse limit (line r) = .ok t →
      view parse limit (wire ⟨false, st⟩ coins clock r) = .ok t ∧
      after r = (step ⟨false, st⟩ ⟨.serve r, coins, clock⟩).2) ∧
    (∀ e, view parse limit (line r) = .error (.oauth e) →
      view parse limit (wire ⟨false, st⟩ coins clock r) = .error (.oauth e) ∨
      (e.status = 400 ∧ e.name = b!"invalid_request")) := by
  have hnone : line r = none → (∀ t, view parse limit (line r) = .ok t →
      view parse limit (wire ⟨false, st⟩ coins clock r) = .ok t ∧
      after r = (step ⟨false, st⟩ ⟨.serve r, coins, clock⟩).2) ∧
    (∀ e, view parse limit (line r) = .error (.oauth e) →
      view parse limit (wire ⟨false, st⟩ coins clock r) = .error (.oauth e) ∨
      (e.status = 400 ∧ e.name = b!"invalid_request")) := by
    intro h
    rw [h]
    exact ⟨fun t ht => (nomatch ht), fun e he => (nomatch he)⟩
  rcases hu r with ⟨h, _⟩ | ⟨r', hr, ha, h | ⟨res, res', h1, h2, h3⟩⟩
  · exact hnone h
  · exact hnone h
  · have hsame : (step ⟨false, st⟩ ⟨.serve r', coins, clock⟩) =
        (step ⟨false, st⟩ ⟨.serve r, coins, clock⟩) ∨
        ∃ d, res = ((Reply.error (invalidRequest d)).render {}).result := by
      rcases hr with rfl | ⟨a, q, hb, rfl⟩
      · exact .inl rfl
      · rw [step_serve (c := ⟨.serve _, coins, clock⟩) rfl] at h1
        rw [step_serve (c := ⟨.serve _, coins, clock⟩) rfl,
          step_serve (c := ⟨.serve r, coins, clock⟩) rfl]
        rcases handle_cut st (Call.local ⟨.serve r, coins, clock⟩) r a q hb with h | ⟨d, h⟩
        · left
          exact congrArg (fun x : Reply × Server => (x.1.answer, (⟨false, x.2⟩ : Shared Server))) h
        · right
          have h' : st.handle { r with body := some a, bodyErr := true }
              (Call.local ⟨.serve { r with body := some a, bodyErr := true }, coins, clock⟩) =
              (.error (invalidRequest d), st) := h
          rw [h'] at h1
          cases h1
          exact ⟨d, rfl⟩
    rw [h3]
    rcases hsame with hsame | ⟨d, rfl⟩
    · rw [hsame] at h1 ha
      have hw : wire ⟨false, st⟩ coins clock r = some res := by
        unfold wire
        rw [h1]
      rw [hw]
      obtain ⟨k1, k2⟩ := whole_answer h1
      have := lossy_parse hp.shortened hp.own h2 k2 k1 limit
      rcases this with h | ⟨err, h, hn⟩
      · refine ⟨fun t ht => ⟨?_, ha⟩, fun e he => .inl ?_⟩
        · exact h.symm.trans ht
        · exact h.symm.trans he
      · refine ⟨fun t ht => ?_, fun e he => ?_⟩
        · have := h.symm.trans ht
          cases this
        · have := h.symm.trans he
          cases this
          exact absurd rfl (hn e)
    · have hc : res'.statusCode = 400 := by
        obtain ⟨_, _, _, h⟩ := h2
        rw [h, error_result rfl]
        rfl
      unfold view
      simp only [hc]
      refine ⟨fun t ht => (nomatch ht), fun e he => .inr ?_⟩
      have he' : parseRequestError res' limit = .oauth e := by
        have := he
        simp only [ne_eq, Nat.reduceEqDiff, not_false_eq_true, if_true, Except.error.injEq] at this
        exact this
      exact shortened_invalidRequest h2 he'

/-- **C67.** A request over a connection that may break anywhere takes full effect or none. -/
theorem C67_effect {st : Server} {coins : Str} {clock : Nat → Time} {line : Transport}
    {after : Request → Shared Server} (hu : Unreliable ⟨false, st⟩ coins clock line after)
    (r : Request) :
    after r = ⟨false, st⟩ ∨ after r = (step ⟨false, st⟩ ⟨.serve r, coins, clock⟩).2 := by
  rcases hu r with ⟨_, h⟩ | ⟨r', hr, ha, _⟩
  · exact .inl h
  · rcases hr with rfl | hr
    · exact .inr ha
    · rcases C67_request st hr coins clock with h | ⟨_, h⟩
      · exact .inr (by rw [ha, h])
      · exact .inl (by rw [ha, h])

/-- **C67.** `Authenticate` over a connection that may break anywhere: tokens it returns are those
the server handed out, for this request; an OAuth2 error it returns is the one the server reported,
or `invalid_request` from a server that got half a request. -/
theorem C67_authenticate {st : Server} {coins : Str} {clock : Nat → Time} {line : Transport}
    {after : Request → Shared Server} (hu : Unreliable ⟨false, st⟩ coins clock line after)
    (cfg : ClientConfig) (rq : TokenRequest) :
    (∀ t, (newClient cfg line).authenticate rq = .ok t →
      ∃ r, Authenticates cfg ⟨false, st⟩ rq ⟨.serve r, coins, clock⟩ (.ok t) ∧
        after r = (step ⟨false, st⟩ ⟨.serve r, coins, clock⟩).2) ∧
    (∀ e, (newClient cfg line).authenticate rq = .error (.oauth e) →
      (∃ r, Authenticates cfg ⟨false, st⟩ rq ⟨.serve r, coins, clock⟩ (.error (.oauth e))) ∨
      (e.status = 400 ∧ e.name = b!"invalid_request")) := by
  rw [authenticate_view]
  cases hb : buildTokenRequest (cfg.baseURI ++ cfg.tokenEndpoint) rq with
  | none => exact ⟨fun t ht => (nomatch ht), fun e he => (nomatch he)⟩
  | some r =>
    obtain ⟨h1, h2⟩ := unreliable_view reads_token hu (ResponseLimit cfg) r
    have hc : ∀ x, view parseTokenResponse (ResponseLimit cfg) (wire ⟨false, st⟩ coins clock r) = x →
        Authenticates cfg ⟨false, st⟩ rq ⟨.serve r, coins, clock⟩ x := by
      intro x hx
      refine ⟨⟨r, hb, rfl⟩, ?_⟩
      unfold connected
      rw [authenticate_view, hb]
      exact hx
    exact ⟨fun t ht => ⟨r, hc _ (h1 t ht).1, (h1 t ht).2⟩, fun e he => (h2 e he).imp
      (fun h => ⟨r, hc _ h⟩) id⟩

/-- **C67.** The same for `Introspect`. -/
theorem C67_introspect {st : Server} {coins : Str} {clock : Nat → Time} {line : Transport}
    {after : Request → Shared Server} (hu : Unreliable ⟨false, st⟩ coins clock line after)
    (cfg : ClientConfig) (rq : IntrospectionRequest) :
    (∀ i, (newClient cfg line).introspect rq = .ok i →
      ∃ r, Introspects cfg ⟨false, st⟩ rq ⟨.serve r, coins, clock⟩ (.ok i)) ∧
    (∀ e, (newClient cfg line).introspect rq = .error (.oauth e) →
      (∃ r, Introspects cfg ⟨false, st⟩ rq ⟨.serve r, coins, clock⟩ (.error (.oauth e))) ∨
      (e.status = 400 ∧ e.name = b!"invalid_request")) := by
  rw [introspect_view]
  cases hb : buildIntrospectionRequest (cfg.baseURI ++ cfg.introspectionEndpoint) rq with
  | none => exact ⟨fun t ht => (nomatch ht), fun e he => (nomatch he)⟩
  | some r =>
    obtain ⟨h1, h2⟩ := unreliable_view reads_introspection hu (ResponseLimit cfg) r
    have hc : ∀ x, view parseIntrospectionResponse (ResponseLimit cfg)
        (wire ⟨false, st⟩ coins clock r) = x →
        Introspects cfg ⟨false, st⟩ rq ⟨.serve r, coins, clock⟩ x := by
      intro x hx
      refine ⟨⟨r, hb, rfl⟩, ?_⟩
      unfold connected
      rw [introspect_view, hb]
      exact hx
    exact ⟨fun t ht => ⟨r, hc _ (h1 t ht).1⟩, fun e he => (h2 e he).imp (fun h => ⟨r, hc _ h⟩) id⟩

/-- **C67.** `Revoke` returns nil only if the server got the whole request and revoked. -/
theorem C67_revoke {st : Server} {coins : Str} {clock : Nat → Time} {line : Transport}
    {after : Request → Shared Server} (hu : Unreliable ⟨false, st⟩ coins clock line after)
    (cfg : ClientConfig) (rq : RevocationRequest) :
    ((newClient cfg line).revoke rq = none →
      ∃ r, RevokesToken cfg ⟨false, st⟩ rq ⟨.serve r, coins, clock⟩ none ∧
        after r = (step ⟨false, st⟩ ⟨.serve r, coins, clock⟩).2) ∧
    (∀ e, (newClient cfg line).revoke rq = some (.oauth e) →
      (∃ r, RevokesToken cfg ⟨false, st⟩ rq ⟨.serve r, coins, clock⟩ (some (.oauth e))) ∨
      (e.status = 400 ∧ e.name = b!"invalid_request")) := by
  rw [revoke_view]
  cases hb : buildRevocationRequest (cfg.baseURI ++ cfg.revocationEndpoint) rq with
  | none => exact ⟨fun ht => (nomatch ht), fun e he => (nomatch he)⟩
  | some r =>
    obtain ⟨h1, h2⟩ := unreliable_view reads_revocation hu (ResponseLimit cfg) r
    have hc : ∀ x, errorOf (view (fun _ _ => .ok ()) (ResponseLimit cfg)
        (wire ⟨false, st⟩ coins clock r)) = x →
        RevokesToken cfg ⟨false, st⟩ rq ⟨.serve r, coins, clock⟩ x := by
      intro x hx
      refine ⟨⟨r, hb, rfl⟩, ?_⟩
      unfold connected
      rw [revoke_view, hb]
      exact hx
    refine ⟨fun ht => ?_, fun e he => ?_⟩
    · simp only at ht
      cases hv : view (fun _ _ => (.ok () : Except GoErr Unit)) (ResponseLimit cfg) (line r) with
      | error err => rw [hv] at ht; cases ht
      | ok u =>
        obtain ⟨k1, k2⟩ := h1 u hv
        exact ⟨r, hc _ (by rw [k1]; rfl), k2⟩
    · simp only at he
      cases hv : view (fun _ _ => (.ok () : Except GoErr Unit)) (ResponseLimit cfg) (line r) with
      | ok u => rw [hv] at he; cases he
      | error err =>
        rw [hv] at he
        cases he
        exact (h2 e hv).imp (fun h => ⟨r, hc _ (by rw [h]; rfl)⟩) id

/-! ### The hypotheses can be met -/

/-- The connection to the server, but only `n` bytes of the answer's body come back. -/
def shortLine (s : Shared Server) (coins : Str) (clock : Nat → Time) (n : Nat) (seen : Bool) :
    Transport := fun r =>
  (wire s coins clock r).map fun res => { res with body := res.body.take n, bodyErr := seen }

theorem shortened_take (res : Response) (n : Nat) (seen : Bool) :
    Shortened res { res with body := res.body.take n, bodyErr := seen } :=
  ⟨res.body.drop n, seen, (List.take_append_drop _ _).symm, rfl⟩

theorem shortLine_unreliable (s : Shared Server) (coins : Str) (clock : Nat → Time) (n : Nat)
    (seen : Bool) : Unreliable s coins clock (shortLine s coins clock n seen)
      fun r => (step s ⟨.serve r, coins, clock⟩).2 := by
  intro r
  refine .inr ⟨r, .inl rfl, rfl, ?_⟩
  cases hw : (step s ⟨.serve r, coins, clock⟩).1 with
  | answered res =>
    refine .inr ⟨res, _, rfl, shortened_take res n seen, ?_⟩
    unfold shortLine wire
    rw [hw]
    rfl
  | _ =>
    left
    unfold shortLine wire
    rw [hw]
    rfl

/-- Non-vacuity of `C67_authenticate`: the last byte of the answer, a newline, is lost without the
client noticing, and the tokens arrive; if one more byte is lost, or the loss is noticed, there is an
error, though the server has handed out the tokens. -/
example : let s : Shared Server := ⟨false, Demo.server⟩
    let rq : TokenRequest := {
      grantType := b!"password", username := b!"u1", password := b!"p1", scope := some [b!"foo"],
      clientID := b!"c1", clientSecret := b!"s1" }
    let clock : Nat → Time := fun n => (1000 + n) * second
    let line := fun n seen => newClient demoClient (shortLine s [1, 2, 3, 4] clock n seen)
    (line 186 false).authenticate rq = .ok {
      tokenType := b!"bearer", accessToken := Demo.a1.string, expiresIn := 3600,
      refreshToken := Demo.r1.string, scope := some [b!"foo"] } ∧
    (line 186 true).authenticate rq = .error .lib ∧
    (line 185 false).authenticate rq = .error .lib := by
  refine ⟨by decide +kernel, by decide +kernel, by decide +kernel⟩

/-- Non-vacuity of `C67_request`: the request for the scope `foo bar` that breaks off after `foo` is
not taken for a request for `foo`. -/
example : let r : Request := {
      method := b!"POST", path := b!"/oauth2/token", header := [
        (b!"Content-Type", [b!"application/x-www-form-urlencoded"]),
        (b!"Authorization", [b!"Basic YzE6czE="])],
      body := some b!"grant_type=client_credentials&scope=foo+bar" }
    let r' : Request := {
      r with body := some b!"grant_type=client_credentials&scope=foo", bodyErr := true }
    Interrupted r r' ∧
    (step ⟨false, Demo.server⟩ ⟨.serve r', [1, 2, 3, 4], fun _ => 0⟩).1.response.statusCode = 400 ∧
    (step ⟨false, Demo.server⟩ ⟨.serve { r' with bodyErr := false }, [1, 2, 3, 4],
      fun _ => 0⟩).1.response.statusCode = 200 := by
  refine ⟨⟨_, b!"+bar", rfl, rfl⟩, by decide +kernel, by decide +kernel⟩

/-- Non-vacuity of `C67_lossy_authenticate`: a connection to some server. -/
example : let line : Transport := fun _ => some {
      statusCode := 200, header := [(b!"Content-Type", [b!"application/json"])],
      body := b!"{\"access_token\":\"a\"}" }
    SpeaksJSON line ∧ Lossy line (fun r => (line r).map fun res =>
      { res with body := res.body.take 10, bodyErr := true }) := by
  refine ⟨?_, fun r => .inr ⟨_, _, rfl, shortened_take _ 10 true, rfl⟩⟩
  intro r res h
  cases h
  exact ⟨rfl, Option.isSome_iff_exists.mp (by decide +kernel)⟩

end OAuth2

import Verif.Spec.Headers
import Verif.Props.Bearer
import Verif.Props.Redirects
import Verif.Props.Responses
import Verif.Lemmas.Shape
import Verif.Lemmas.Demo

/-!
C59: no request can smuggle a line break, and with it a header, into a response, or the other way
round.
-/

namespace OAuth2

open Spec

set_option linter.unusedSimpArgs false

/-! ### Text without control characters -/

theorem oneLine_iff (s : Str) : OneLine s ↔ NoCTL s := by
  unfold OneLine NoCTL
  simp only [UInt8.not_lt]

theorem Spec.OneLine.append {a b : Str} (ha : OneLine a) (hb : OneLine b) : OneLine (a ++ b) := by
  rw [oneLine_iff] at *
  exact ha.append hb

theorem Spec.OneLine.nil : OneLine [] := fun c hc => by cases hc

theorem Spec.OneLine.cons {c : UInt8} {s : Str} (hc : 0x20 ≤ c ∧ c ≠ 0x7F) (hs : OneLine s) :
    OneLine (c :: s) := by
  intro d hd
  rcases List.mem_cons.mp hd with rfl | hd
  · exact hc
  · exact hs d hd

theorem Spec.OneLine.ite {p : Prop} [Decidable p] {a b : Str} (ha : OneLine a) (hb : OneLine b) :
    OneLine (if p then a else b) := by
  split
  · exact ha
  · exact hb

instance (s : Str) : Decidable (OneLine s) := by unfold OneLine; infer_instance

theorem escape_oneLine (mode : EncMode) (s : Str) : OneLine (escape mode s) := by
  have h1 : ∀ n : Nat, n < 16 → (0x20 : UInt8) ≤ hexUpper n ∧ hexUpper n ≠ 0x7F := by decide
  have h2 : ∀ c : UInt8, ∀ mode, shouldEscape c mode = false → 0x20 ≤ c ∧ c ≠ 0x7F := by
    intro c mode
    revert c
    cases mode <;> exact forall_u8 (by decide +kernel)
  induction s with
  | nil => exact .nil
  | cons c s ih =>
    unfold escape
    split
    · exact .cons (by decide) ih
    split
    · have := c.toNat_lt
      exact .cons (by decide) (.cons (h1 _ (by omega)) (.cons (h1 _ (by omega)) ih))
    · rename_i h
      exact .cons (h2 c mode (by simpa using h)) ih

theorem escapedPath_oneLine (u : URL) : OneLine u.escapedPath := by
  unfold URL.escapedPath
  split
  · rename_i h
    have h2 : ∀ c : UInt8, (b!"!$&'()*+,;=:@[]%".contains c || !shouldEscape c .path) = true →
        0x20 ≤ c ∧ c ≠ 0x7F := forall_u8 (by decide +kernel)
    intro c hc
    exact h2 c (List.all_eq_true.mp h.2.1 c hc)
  split
  · exact by decide
  · exact escape_oneLine _ _

theorem base_oneLine {uri : Str} {u : URL} (h : parseRequestURI uri = some u) : OneLine u.base := by
  obtain ⟨hs, ho⟩ : OneLine u.scheme ∧ OneLine u.opaque_ := by
    by_cases hstar : uri = b!"*"
    · subst hstar
      have : parseRequestURI b!"*" = some { path := b!"*" } := by decide
      rw [this] at h
      cases h
      exact ⟨.nil, .nil⟩
    · have hp := parsed_of_request h hstar
      constructor
      · rcases hp.scheme with h | ⟨h, _⟩
        · rw [h]; exact .nil
        · rw [oneLine_iff]
          intro c hc
          have := (lowerByte_facts c).2.2.2 (h.bytes c hc)
          exact ⟨this.1, this.2.1⟩
      · rcases hp.rest with h | ⟨h, _⟩
        · rw [oneLine_iff]; exact h.2.2.2.2.2.1
        · rw [h]; exact .nil
  have hpre : OneLine (if u.scheme ≠ [] then u.scheme ++ [0x3A] else []) := by
    split
    · exact hs.append (by decide)
    · exact .nil
  unfold URL.base
  simp only
  split
  · exact hpre.append ho
  · refine (((hpre.append ?_).append ?_).append ?_).append (escapedPath_oneLine u)
    · split
      · refine OneLine.append (OneLine.append ?_ ?_) ?_
        · exact .ite (by decide) .nil
        · split
          · rename_i ui _
            refine OneLine.append ?_ (by decide)
            unfold Userinfo.string
            refine (escape_oneLine _ _).append ?_
            split
            · exact .cons (by decide) (escape_oneLine _ _)
            · exact .nil
          · exact .nil
        · split
          · exact escape_oneLine _ _
          · exact .nil
      · exact .nil
    · exact .ite (by decide) .nil
    · exact .ite (by decide) .nil

theorem location_oneLine {uri : Str} {params : GoMap Str} {useFragment : Bool} {location : Str}
    (h : redirectLocation uri params useFragment = some location) : OneLine location := by
  unfold redirectLocation at h
  cases hu : parseRequestURI uri with
  | none => rw [hu] at h; cases h
  | some u =>
    rw [hu] at h
    simp only at h
    have hq : OneLine u.rawQuery := by
      by_cases hstar : uri = b!"*"
      · subst hstar
        have : parseRequestURI b!"*" = some { path := b!"*" } := by decide
        rw [this] at hu
        cases hu
        exact .nil
      · rw [oneLine_iff]
        exact (parsed_of_request hu hstar).query.2.1
    split at h
    · cases h
      unfold URL.string
      have hb := base_oneLine hu
      refine OneLine.append (OneLine.append (show OneLine u.base from hb) ?_) ?_
      · split
        · exact .cons (by decide) hq
        · exact .nil
      · split
        · exact .cons (by decide) (escape_oneLine _ _)
        · exact .nil
    · cases h
      unfold URL.string
      have hb := base_oneLine hu
      refine OneLine.append (OneLine.append (show OneLine u.base from hb) ?_) ?_
      · split
        · exact .cons (by decide) ((oneLine_iff _).mpr (encode_noCTL _))
        · exact .nil
      · split
        · exact .cons (by decide) (escape_oneLine _ _)
        · exact .nil

/-! ### Headers -/

theorem Spec.CleanHeader.nil : CleanHeader [] := fun e he => by cases he

theorem cleanHeader_goSet {h : Header} (hh : CleanHeader h) (k : Str) {vs : List Str}
    (hv : ∀ v ∈ vs, OneLine v) : CleanHeader (GoMap.set h k vs) := by
  intro e he
  rcases List.mem_cons.mp he with rfl | he
  · exact hv
  · exact hh e (List.mem_filter.mp he).1

theorem Spec.CleanHeader.set {h : Header} (hh : CleanHeader h) (k : Str) {v : Str} (hv : OneLine v) :
    CleanHeader (h.set k v) :=
  cleanHeader_goSet hh _ (by intro x hx; rw [List.mem_singleton.mp hx]; exact hv)

theorem Spec.CleanHeader.all {h : Header} (hh : CleanHeader h) (k : Str) : ∀ v ∈ h.all k, OneLine v := by
  unfold Header.all
  cases hg : GoMap.get? h (canonicalKey k) with
  | none => intro v hv; cases hv
  | some vs => exact hh _ (GoMap.get?_some_mem hg)

theorem Spec.CleanHeader.add {h : Header} (hh : CleanHeader h) (k : Str) {v : Str} (hv : OneLine v) :
    CleanHeader (h.add k v) := by
  refine cleanHeader_goSet hh _ fun x hx => ?_
  rcases List.mem_append.mp hx with hx | hx
  · exact hh.all k x hx
  · rw [List.mem_singleton.mp hx]; exact hv

theorem Spec.CleanHeader.json {h : Header} (hh : CleanHeader h) : CleanHeader (jsonHeader h) :=
  ((hh.set _ (by decide)).set _ (by decide)).set _ (by decide)

theorem Spec.CleanHeader.redirect {h : Header} (hh : CleanHeader h) {location : Str}
    (hl : OneLine location) : CleanHeader (redirectHeader h location) :=
  (((hh.add _ hl).set _ (by decide)).set _ (by decide)).set _ (by decide)

theorem Spec.CleanHeader.added {h : Header} (hh : CleanHeader h) {m : GoMap Str}
    (hm : ∀ e ∈ m, OneLine e.2) : CleanHeader (m.foldl (fun h p => h.set p.1 p.2) h) := by
  induction m generalizing h with
  | nil => exact hh
  | cons p m ih =>
    exact ih (hh.set _ (hm p (.head _))) fun e he => hm e (.tail _ he)

theorem redirectTo_clean {w : Recorder} (hw : w.Fresh) (hh : CleanHeader w.header) (uri : Str)
    (params : GoMap Str) (useFragment : Bool) :
    CleanHeader (redirectTo w uri params useFragment).result.header := by
  unfold redirectTo
  cases h : redirectLocation uri params useFragment with
  | none =>
    simp only [Recorder.result, hw.sent]
    exact hh
  | some location =>
    simp only
    rw [redirectRecorder_fresh hw]
    exact hh.redirect (location_oneLine h)

theorem json_clean {w : Recorder} (hw : w.Fresh) (hh : CleanHeader w.header) (json : Str)
    (status : Nat) : CleanHeader (jsonRecorder w json status).result.header := by
  rw [jsonRecorder_fresh hw]
  exact hh.json

theorem reply_clean {reply : Reply}
    (he : ∀ e, reply = .error e → ∀ p ∈ e.headers, OneLine p.2) :
    CleanHeader (reply.render {}).result.header := by
  have hf := Recorder.fresh_empty
  cases reply with
  | crash => exact .nil
  | error e =>
    have hh : CleanHeader (e.addHeaders []) := (Spec.CleanHeader.nil).added (he e rfl)
    have hf' : Recorder.Fresh { header := e.addHeaders [] } := ⟨rfl, rfl, rfl⟩
    simp only [Reply.render]
    split
    · exact redirectTo_clean hf' hh _ _ _
    · exact json_clean hf' hh _ _
  | token t =>
    simp only [Reply.render]
    split
    · exact redirectTo_clean hf .nil _ _ _
    · exact json_clean hf .nil _ _
  | code c => exact redirectTo_clean hf .nil _ _ _
  | introspection i => exact json_clean hf .nil _ _
  | revoked => exact .nil
  | notice => exact .nil
  | notFound => exact ((Spec.CleanHeader.nil).set _ (by decide)).set _ (by decide)

theorem joinStr_oneLine {sep : Str} (hs : OneLine sep) {l : List Str} (h : ∀ x ∈ l, OneLine x) :
    OneLine (joinStr sep l) := by
  induction l with
  | nil => exact .nil
  | cons x l ih =>
    cases l with
    | nil => exact h x (.head _)
    | cons y l =>
      exact ((h x (.head _)).append hs).append (ih fun z hz => h z (.tail _ hz))

theorem b64Char_oneLine (url : Bool) (n : Nat) :
    (0x20 : UInt8) ≤ b64Char url n ∧ b64Char url n ≠ 0x7F := by
  by_cases h : n < 64
  · have key : ∀ url : Bool, ∀ i : Fin 64,
        (0x20 : UInt8) ≤ b64Char url i.val ∧ b64Char url i.val ≠ 0x7F := by decide +kernel
    exact key url ⟨n, h⟩
  · unfold b64Char
    rw [if_neg (by omega), if_neg (by omega), if_neg (by omega), if_neg (by omega)]
    cases url <;> decide

theorem b64Encode_oneLine (url : Bool) {pad : Str} (hp : OneLine pad) (s : Str) :
    OneLine (b64Encode url pad s) := by
  have hb := b64Char_oneLine url
  induction s using b64Encode.induct with
  | case1 => exact .nil
  | case2 a => exact ((OneLine.cons (hb _) (.cons (hb _) .nil)).append hp).append hp
  | case3 a b => exact (OneLine.cons (hb _) (.cons (hb _) (.cons (hb _) .nil))).append hp
  | case4 a b c rest ih => exact .cons (hb _) (.cons (hb _) (.cons (hb _) (.cons (hb _) ih)))

theorem params_oneLine {e : Error} (h : ∀ p ∈ parameters e, OneLine p.2) : OneLine e.params := by
  have hk : ∀ p ∈ parameters e, OneLine p.1 := by
    intro p hp
    unfold parameters at hp
    simp only [List.mem_append, List.mem_filter, List.mem_cons, List.not_mem_nil, or_false] at hp
    rcases hp with (⟨rfl | rfl | rfl | rfl, _⟩ | hp) | ⟨rfl, _⟩
    all_goals first
      | exact (by decide : OneLine b!"error")
      | exact (by decide : OneLine b!"error_description")
      | exact (by decide : OneLine b!"error_uri")
      | exact (by decide : OneLine b!"realm")
      | exact (by decide : OneLine b!"state")
      | skip
    split at hp
    · cases hp
    · rw [List.mem_singleton.mp hp]
      exact (by decide : OneLine b!"scope")
  have hx := C11_params_exact e e.map (List.Perm.refl _)
  unfold Error.params
  rw [hx]
  refine joinStr_oneLine (by decide) fun x hx => ?_
  obtain ⟨p, hp, rfl⟩ := List.mem_map.mp hx
  exact (((hk p hp).append (by decide)).append (h p hp)).append (by decide)

theorem challenge_clean {w : Recorder} (hw : w.Fresh) (hh : CleanHeader w.header) {e : Error}
    (h : ∀ p ∈ parameters e, OneLine p.2) : CleanHeader (Server.challenge w e).result.header := by
  have hc : CleanHeader (w.header.set b!"WWW-Authenticate" (b!"Bearer " ++
      (if e.params = [] then b!"realm=\"OAuth2\"" else e.params))) :=
    hh.set _ ((by decide : OneLine b!"Bearer ").append (.ite (by decide) (params_oneLine h)))
  unfold Server.challenge
  simp only [Recorder.write, Recorder.writeHeader, hw.sent, Recorder.result]
  exact hc

/-! ### C59 -/

/-- **C59.** Whatever is written into the redirect URI and the parameters, `WriteRedirect` does not
send a header with a control character in it. -/
theorem C59_redirect {σ : Type} (uri : Str) (params : GoMap Str) (useFragment : Bool)
    (s : Shared σ) (l : Local) (hw : l.w.Fresh) (hh : CleanHeader l.w.header) :
    CleanHeader (exec (writeRedirect uri params useFragment) s l).2.2.w.result.header := by
  have h := redirectTo_clean hw hh uri params useFragment
  rw [exec_writeRedirect]
  unfold redirectTo at h
  cases hr : redirectLocation uri params useFragment with
  | none => rw [hr] at h; exact h
  | some location => rw [hr] at h; exact h

/-- **C59.** `WriteBearerError` does not either, if the fields of the error are free of them. -/
theorem C59_bearer {σ : Type} {e : Error} (h : ∀ p ∈ parameters e, OneLine p.2)
    (h500 : e.status ≠ 500) (h1 : 100 ≤ e.status) (h2 : e.status ≤ 999)
    (s : Shared σ) (l : Local) (hw : l.w.Fresh) (hh : CleanHeader l.w.header) :
    CleanHeader (exec (writeBearerError (.oauth e)) s l).2.2.w.result.header := by
  have hc := challenge_clean hw hh h
  have hx : exec (writeBearerError (.oauth e) : Prog σ Bool) s l =
      (.ret true, s, { l with w := Server.challenge l.w e }) := by
    unfold writeBearerError
    simp only [GoErr.asError, h500, if_false, exec_respond_bind]
    rw [exec_writeHeader_bind h1 h2]
    rfl
  rw [hx]
  exact hc

/-- **C59.** No request makes the server send a header with a control character in it. -/
theorem C59_server (s : Server) {c : Call} (hc : Sane c) {res : Response}
    (h : (step ⟨false, s⟩ c).1 = .answered res ∨ (step ⟨false, s⟩ c).1 = .rejected res) :
    CleanHeader res.header := by
  cases hop : c.op with
  | configure cl us =>
    rw [step_configure hop] at h
    rcases h with h | h <;> cases h
  | authorize r required =>
    rw [step_authorize hop] at h
    simp only at h
    cases ha : s.authorizes r required (c.clock 0) with
    | none => rw [ha] at h; rcases h with h | h <;> cases h
    | some e =>
      rw [ha] at h
      obtain rfl : (Server.challenge {} e).result = res := by rcases h with h | h <;> cases h; rfl
      refine challenge_clean Recorder.fresh_empty .nil fun p hp => ?_
      have hscope : OneLine required.string := joinStr_oneLine (by decide) (hc r required hop)
      have herr : e = protectedResource ∨ e = invalidRequest b!"malformed authorization header" ∨
          e = invalidToken b!"malformed token" ∨ e = invalidToken b!"unknown token" ∨
          e = invalidToken b!"expired token" ∨ e = insufficientScope required := by
        unfold Server.authorizes at ha
        cases hb : parseBearerToken r with
        | error e' =>
          rw [hb] at ha
          cases ha
          rcases Server.parseBearerToken_error hb with h | h
          · exact .inl h
          · exact .inr (.inl h)
        | ok tk =>
          rw [hb] at ha
          simp only at ha
          repeat' split at ha
          all_goals first | (cases ha; done) | (cases ha; simp)
      rcases herr with rfl | rfl | rfl | rfl | rfl | rfl
      · revert hp; revert p; exact (by decide : ∀ p ∈ parameters protectedResource, OneLine p.2)
      · revert hp; revert p
        exact (by decide : ∀ p ∈ parameters (invalidRequest b!"malformed authorization header"), OneLine p.2)
      · revert hp; revert p
        exact (by decide : ∀ p ∈ parameters (invalidToken b!"malformed token"), OneLine p.2)
      · revert hp; revert p
        exact (by decide : ∀ p ∈ parameters (invalidToken b!"unknown token"), OneLine p.2)
      · revert hp; revert p
        exact (by decide : ∀ p ∈ parameters (invalidToken b!"expired token"), OneLine p.2)
      · unfold parameters insufficientScope at hp
        simp only [List.mem_append, List.mem_filter, List.mem_cons, List.not_mem_nil,
          or_false] at hp
        rcases hp with (⟨rfl | rfl | rfl | rfl, h2⟩ | hp) | ⟨rfl, h2⟩
        · exact (by decide : OneLine b!"insufficient_scope")
        · exact .nil
        · exact .nil
        · exact .nil
        · split at hp
          · cases hp
          · rw [List.mem_singleton.mp hp]
            exact hscope
        · exact .nil
  | serve r =>
    obtain ⟨reply, s', h1, h2, _⟩ := step_served hop s
    rw [h1] at h
    have hclean : CleanHeader (reply.render {}).result.header := by
      refine reply_clean fun e he p hp => ?_
      subst he
      have key : e.headers = [] ∨ e.headers = [(b!"WWW-Authenticate", b!"Basic realm=\"OAuth2\"")] := by
        cases h2 with
        | refused _ _ _ _ hh => exact hh
        | refusedRedirect rq _ _ e' he' => rcases he' with rfl | rfl <;> exact .inl rfl
        | replay => exact .inl rfl
        | revokeHalf => exact .inr rfl
      rcases key with h | h
      · rw [h] at hp; cases hp
      · rw [h] at hp
        rw [List.mem_singleton.mp hp]
        exact (by decide : OneLine b!"Basic realm=\"OAuth2\"")
    have hres : res = (reply.render {}).result := by
      cases reply <;> rcases h with h | h <;> cases h <;> rfl
    rw [hres]
    exact hclean

theorem buildFormRequest_clean {uri : Str} {values : Values} {clientID clientSecret : Str}
    {r : Request} (h : buildFormRequest uri values clientID clientSecret = some r) :
    CleanHeader r.header := by
  unfold buildFormRequest newPostRequest at h
  cases hu : parseURL uri with
  | none => rw [hu] at h; cases h
  | some u =>
    rw [hu] at h
    simp only [Option.pure_def, Option.bind_eq_bind, Option.bind_some] at h
    cases h
    refine Spec.CleanHeader.set ?_ _ (by decide)
    split
    · exact (Spec.CleanHeader.nil).set _
        ((by decide : OneLine b!"Basic ").append (b64Encode_oneLine _ (by decide) _))
    · exact .nil

/-- **C59.** And the other way round: whatever the client id and secret are, the requests the library
builds have no header with a control character in it. -/
theorem C59_requests {uri : Str} {r : Request}
    (h : (∃ rq, buildTokenRequest uri rq = some r) ∨ (∃ rq, buildIntrospectionRequest uri rq = some r) ∨
      ∃ rq, buildRevocationRequest uri rq = some r) : CleanHeader r.header := by
  rcases h with ⟨_, h⟩ | ⟨_, h⟩ | ⟨_, h⟩ <;> exact buildFormRequest_clean h

/-- A redirect with line breaks in a parameter. -/
example : redirectLocation b!"http://example.com/cb"
    [(b!"state", b!"x" ++ [0x0D, 0x0A] ++ b!"Set-Cookie: a=b")] false =
    some b!"http://example.com/cb?state=x%0D%0ASet-Cookie%3A+a%3Db" := by decide +kernel

/-- The calls of the session are sane. -/
example : Sane Demo.c1 := by
  intro r required h
  cases h

example : CleanHeader (match (step ⟨false, Demo.server⟩ Demo.c1).1 with
    | .answered res => res.header | _ => []) := by
  rw [Demo.step1]
  exact C59_server Demo.server (c := Demo.c1) (by intro r required h; cases h)
    (by rw [Demo.step1]; exact .inl rfl)

end OAuth2

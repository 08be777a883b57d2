import Verif.Spec.Errors
import Verif.Props.Carried
import Verif.Props.Bearer
/-
C93: the functions that make errors and responses make what their names say.
-/

namespace OAuth2

open Spec

variable {σ : Type}

/-- What the table says about the fields. -/
theorem kind_fields {k : ErrorKind} (hk : k ∈ errorKinds) (d : Str) :
    ∃ h, k.make d = { name := k.name, description := d, status := k.status, headers := h } ∧
      h = k.challenge.map (b!"WWW-Authenticate", ·) ∧ k.name ≠ [] ∧ sanitize k.name = k.name ∧
      100 ≤ k.status ∧ k.status ≤ 999 := by
  simp only [errorKinds, List.mem_cons, List.not_mem_nil, or_false] at hk
  rcases hk with rfl | rfl | rfl | rfl | rfl | rfl | rfl | rfl | rfl | rfl | rfl | rfl <;>
    exact ⟨_, rfl, rfl, by decide, by decide +kernel, by decide, by decide⟩

/-- **C93.** An error made by one of the functions that take a description is written with the
status of its kind, with the challenge of its kind and no other, and reads back as the error with
the name of its kind, the description (invalid UTF-8 replaced) and nothing else. -/
theorem C93_document {k : ErrorKind} (hk : k ∈ errorKinds) (d : Str) (s : Shared σ) (l : Local)
    (hw : l.w = {}) (limit : Int) :
    ∃ l', exec (writeError (.oauth (k.make d))) s l = (.ret true, s, l') ∧
      l'.w.result.statusCode = k.status ∧
      l'.w.result.header.all b!"WWW-Authenticate" = k.challenge ∧
      l'.w.result.header.all b!"Location" = [] ∧
      ((l'.w.result.body.length : Int) ≤ limit →
        ∃ d', Replaced d d' ∧ parseRequestError l'.w.result limit =
          .oauth { name := k.name, description := d', status := k.status }) := by
  obtain ⟨h, he, hh, hn, hs, h1, h2⟩ := kind_fields hk d
  have hr : (k.make d).redirectURI = [] := by rw [he]
  have hst : (k.make d).status = k.status := by rw [he]
  have hlen : k.challenge.length ≤ 1 := by
    revert hk
    simp only [errorKinds, List.mem_cons, List.not_mem_nil, or_false]
    rintro (rfl | rfl | rfl | rfl | rfl | rfl | rfl | rfl | rfl | rfl | rfl | rfl) <;> decide
  refine ⟨_, exec_writeError hr (by omega) (by omega) s l (by rw [hw]; exact ⟨rfl, rfl, rfl⟩),
    ?_, ?_, ?_, ?_⟩
  · simp only [Recorder.result]; omega
  · simp only [Recorder.result]
    rw [hw, he, errorHeader, hh]
    cases hc : k.challenge with
    | nil =>
      simp only [List.map_nil, List.foldl_nil, jsonHeader]
      decide
    | cons c cs =>
      cases cs with
      | nil =>
        simp only [List.map_cons, List.map_nil, List.foldl_cons, List.foldl_nil, jsonHeader]
        simp (decide := true) only [Header.all_set, if_false, if_true]
      | cons c' cs => rw [hc] at hlen; simp at hlen
  · simp only [Recorder.result]
    rw [hw, he, errorHeader, hh]
    cases hc : k.challenge with
    | nil =>
      simp only [List.map_nil, List.foldl_nil, jsonHeader]
      decide
    | cons c cs =>
      cases cs with
      | nil =>
        simp only [List.map_cons, List.map_nil, List.foldl_cons, List.foldl_nil, jsonHeader]
        simp (decide := true) only [Header.all_set, if_false]
      | cons c' cs => rw [hc] at hlen; simp at hlen
  · intro hl
    refine ⟨sanitize d, sanitize_replaced _, ?_⟩
    have htake : ((k.make d).json ++ [0x0A]).take limit.toNat = (k.make d).json ++ [0x0A] := by
      apply List.take_of_length_le
      simp only [Recorder.result] at hl
      omega
    unfold parseRequestError Response.readAll
    simp only [Recorder.result, htake, Error.unmarshal_json]
    have : (((k.make d).status.toNat : Nat) : Int) = k.status := by omega
    rw [this, Error.wire, he]
    simp only [hs]
    rfl

/-- **C93.** Sent to a redirect URI, it carries the name of its kind, the description and the
state, in the fragment or in the query as asked for, and nothing else. -/
theorem C93_redirect {k : ErrorKind} (hk : k ∈ errorKinds) (d : Str) {uri : Str} {u : URL}
    (hu : RedirectURI uri u) (state : Str) (fragment : Bool) (s : Shared σ) (l : Local)
    (hw : l.w = {}) :
    ∃ l', exec (writeError (.oauth ((k.make d).setRedirect uri state fragment))) s l =
        (.ret true, s, l') ∧
      RedirectsWith l'.w.result u fragment [(b!"error", some k.name),
        (b!"error_description", unlessEmpty d), (b!"state", unlessEmpty state)] := by
  obtain ⟨h, he, hh, hn, -⟩ := kind_fields hk d
  obtain ⟨l', h1, h2, L, v, ps, h3, h4, h5, h6, h7⟩ := C53_error_redirect
    (e := (k.make d).setRedirect uri state fragment) hu (by
      rw [he]
      simp only [Error.setRedirect, hh, List.mem_map]
      rintro p ⟨c, -, rfl⟩
      show canonicalKey b!"WWW-Authenticate" ≠ b!"Location"
      decide) s l hw
  refine ⟨l', h1, h2, L, v, ps, h3, h4, h5, ?_, ?_⟩
  · rw [he] at h6
    simp only [Error.setRedirect, List.mem_cons, List.not_mem_nil, or_false, forall_eq_or_imp,
      forall_eq] at h6 ⊢
    refine ⟨?_, h6.2.1, h6.2.2.1⟩
    rw [h6.1, unlessEmpty, if_neg hn]
  · intro key hkey
    by_cases hx : key ∈ [b!"scope", b!"error_uri", b!"realm"]
    · rw [he] at h6
      simp only [Error.setRedirect, List.mem_cons, List.not_mem_nil, or_false, forall_eq_or_imp,
        forall_eq] at h6 hx
      rcases hx with rfl | rfl | rfl
      · exact h6.2.2.2.1
      · exact h6.2.2.2.2.1
      · exact h6.2.2.2.2.2
    · apply h7
      simp only [List.map_cons, List.map_nil, List.mem_cons, List.not_mem_nil, or_false,
        not_or] at hkey hx ⊢
      exact ⟨hkey.1, hkey.2.1, hkey.2.2, hx⟩

/-- **C93.** As a bearer challenge, it has the status of its kind, the name of its kind and the
description if there is one, and no body; a server error is written as a document instead. -/
theorem C93_bearer {k : ErrorKind} (hk : k ∈ errorKinds) (h500 : k.name ≠ b!"server_error") (d : Str)
    (s : Shared σ) (l : Local) (hw : l.w = {}) :
    ∃ l', exec (writeBearerError (.oauth (k.make d))) s l = (.ret true, s, l') ∧
      l'.w.result.statusCode = k.status ∧ l'.w.result.body = [] ∧
      l'.w.result.header.all b!"WWW-Authenticate" = [b!"Bearer error=\"" ++ k.name ++ b!"\"" ++
        if d = [] then [] else b!", error_description=\"" ++ d ++ b!"\""] := by
  obtain ⟨h, he, hh, hn, hs, h1, h2⟩ := kind_fields hk d
  have hst : (k.make d).status = k.status := by rw [he]
  have h5 : k.status ≠ 500 := by
    revert hk h500
    simp only [errorKinds, List.mem_cons, List.not_mem_nil, or_false]
    rintro (rfl | rfl | rfl | rfl | rfl | rfl | rfl | rfl | rfl | rfl | rfl | rfl) <;> decide
  obtain ⟨l', hd, x1, x2, x3, _, x4, _⟩ := C10_challenge (k.make d) (by omega) (by omega)
    (by omega) s l (by rw [hw]; exact ⟨rfl, rfl, rfl⟩)
  refine ⟨l', x1, ?_, ?_, ?_⟩
  · simp only [Recorder.result, x2]; omega
  · simp only [Recorder.result, x2, x3]
  · simp only [Recorder.result, x2]
    rw [x4, he]
    by_cases h0 : d = []
    · subst h0
      simp [parameters, hn, param, joinStr, Scope.items]
    · simp [parameters, hn, h0, param, joinStr, Scope.items]

/-- **C93.** `InsufficientScope` is a 403 challenge that names the necessary scope, and
`ProtectedResource` is a 401 challenge with nothing but the realm. -/
theorem C93_bearer_other (necessary : Scope) (s : Shared σ) (l : Local) (hw : l.w = {}) :
    (∃ l', exec (writeBearerError (.oauth (insufficientScope necessary))) s l =
        (.ret true, s, l') ∧ l'.w.result.statusCode = 403 ∧ l'.w.result.body = [] ∧
      l'.w.result.header.all b!"WWW-Authenticate" = [b!"Bearer error=\"insufficient_scope\"" ++
        if necessary.items = [] then []
        else b!", scope=\"" ++ joinStr b!" " necessary.items ++ b!"\""]) ∧
    ∃ l', exec (writeBearerError (.oauth protectedResource)) s l =
        (.ret true, s, l') ∧ l'.w.result.statusCode = 401 ∧ l'.w.result.body = [] ∧
      l'.w.result.header.all b!"WWW-Authenticate" = [b!"Bearer realm=\"OAuth2\""] := by
  have hf : l.w.Fresh := by rw [hw]; exact ⟨rfl, rfl, rfl⟩
  constructor
  · obtain ⟨l', hd, x1, x2, x3, _, x4, _⟩ := C10_challenge (insufficientScope necessary)
      (show (403 : Int) ≠ 500 by decide) (show (100 : Int) ≤ 403 by decide)
      (show (403 : Int) ≤ 999 by decide) s l hf
    refine ⟨l', x1, ?_, ?_, ?_⟩
    · simp only [Recorder.result, x2]; rfl
    · simp only [Recorder.result, x2, x3]
    · simp only [Recorder.result, x2]
      rw [x4]
      by_cases h0 : necessary.items = []
      · simp [parameters, insufficientScope, param, joinStr, h0]
      · have : necessary.string = joinStr b!" " necessary.items := rfl
        simp [parameters, insufficientScope, param, joinStr, h0, this]
  · obtain ⟨l', hd, x1, x2, x3, _, x4, _⟩ := C10_challenge protectedResource
      (by decide) (by decide) (by decide) s l hf
    refine ⟨l', x1, ?_, ?_, ?_⟩
    · simp only [Recorder.result, x2]; rfl
    · simp only [Recorder.result, x2, x3]
    · simp only [Recorder.result, x2]
      rw [x4]
      decide

/-- **C93.** As a Go error it prints its name and its description, and the names tell the errorKinds
apart. -/
theorem C93_string {k : ErrorKind} (hk : k ∈ errorKinds) (d : Str) :
    (k.make d).string = k.name ++ b!": " ++ d ∧
      ∀ k' ∈ errorKinds, ∀ d', (k'.make d').string = (k.make d).string → k'.name = k.name ∧ d' = d := by
  obtain ⟨h, he, -⟩ := kind_fields hk d
  have hstr : (k.make d).string = k.name ++ b!": " ++ d := by rw [he]; rfl
  refine ⟨hstr, ?_⟩
  intro k' hk' d' heq
  obtain ⟨h', he', -⟩ := kind_fields hk' d'
  have hstr' : (k'.make d').string = k'.name ++ b!": " ++ d' := by rw [he']; rfl
  rw [hstr, hstr'] at heq
  have hno : ∀ {j : ErrorKind}, j ∈ errorKinds → (0x3A : UInt8) ∉ j.name := by
    intro j hj
    revert hj
    simp only [errorKinds, List.mem_cons, List.not_mem_nil, or_false]
    rintro (rfl | rfl | rfl | rfl | rfl | rfl | rfl | rfl | rfl | rfl | rfl | rfl) <;> decide
  have key : ∀ (a b x y : Str), (0x3A : UInt8) ∉ a → (0x3A : UInt8) ∉ b →
      a ++ b!": " ++ x = b ++ b!": " ++ y → a = b ∧ x = y := by
    intro a
    induction a with
    | nil =>
      intro b x y _ hb h
      cases b with
      | nil => exact ⟨rfl, by simpa using h⟩
      | cons c b =>
        simp only [List.nil_append, List.cons_append] at h
        have h := (List.cons.inj h).1
        exact absurd (h ▸ List.mem_cons_self) hb
    | cons c a ih =>
      intro b x y ha hb h
      cases b with
      | nil =>
        simp only [List.nil_append, List.cons_append] at h
        have h := (List.cons.inj h).1
        exact absurd (h ▸ List.mem_cons_self) ha
      | cons c' b =>
        simp only [List.cons_append] at h
        obtain ⟨h0, h1⟩ := List.cons.inj h
        have := ih b x y (fun m => ha (List.mem_cons_of_mem _ m))
          (fun m => hb (List.mem_cons_of_mem _ m)) (by simpa using h1)
        exact ⟨by rw [h0, this.1], this.2⟩
  exact key _ _ _ _ (hno hk') (hno hk) heq

/-- **C93.** A token response made by `NewTokenResponse` carries the token type, the token and the
lifetime it was made from and nothing else, as a document and in a redirect, where the state joins
them; `NewBearerTokenResponse` is the one for the token type `bearer`. -/
theorem C93_token (tokenType token : Str) {n : Int} (hn : isInt64 n) (s : Shared σ) (l : Local)
    (hw : l.w = {}) (limit : Int) :
    newBearerTokenResponse token n = newTokenResponse b!"bearer" token n ∧
    (∃ l', exec (writeTokenResponse (newTokenResponse tokenType token n)) s l =
        (.ret true, s, l') ∧ l'.w.result.statusCode = 200 ∧
      ((l'.w.result.body.length : Int) ≤ limit →
        ∃ tt at', Replaced tokenType tt ∧ Replaced token at' ∧
          parseTokenResponse l'.w.result limit =
            .ok { tokenType := tt, accessToken := at', expiresIn := n })) ∧
    ∀ {uri : Str} {u : URL}, RedirectURI uri u → ∀ state,
      ∃ l', exec (writeTokenResponse ((newTokenResponse tokenType token n).setRedirect uri state))
          s l = (.ret true, s, l') ∧
        RedirectsWith l'.w.result u true [(b!"token_type", some tokenType),
          (b!"access_token", some token), (b!"expires_in", some (itoa n)),
          (b!"state", unlessEmpty state)] := by
  refine ⟨rfl, ?_, ?_⟩
  · refine ⟨_, exec_writeTokenResponse rfl s l (by rw [hw]; exact ⟨rfl, rfl, rfl⟩), rfl, ?_⟩
    intro hl
    refine ⟨_, _, sanitize_replaced _, sanitize_replaced _, ?_⟩
    exact (parseTokenResponse_written hn _ hl).trans rfl
  · intro uri u hu state
    obtain ⟨l', h1, h2, L, v, ps, h3, h4, h5, h6, h7⟩ := C53_token_redirect
      (r := (newTokenResponse tokenType token n).setRedirect uri state) hu s l hw
    refine ⟨l', h1, h2, L, v, ps, h3, h4, h5, ?_, ?_⟩
    · simp only [TokenResponse.setRedirect, newTokenResponse, List.mem_cons, List.not_mem_nil,
        or_false, forall_eq_or_imp, forall_eq] at h6 ⊢
      exact ⟨h6.1, h6.2.1, h6.2.2.1, h6.2.2.2.2.2⟩
    · intro key hkey
      by_cases hx : key ∈ [b!"refresh_token", b!"scope"]
      · simp only [TokenResponse.setRedirect, newTokenResponse, List.mem_cons, List.not_mem_nil,
          or_false, forall_eq_or_imp, forall_eq] at h6 hx
        rcases hx with rfl | rfl
        · exact h6.2.2.2.1
        · exact h6.2.2.2.2.1
      · apply h7
        simp only [List.map_cons, List.map_nil, List.mem_cons, List.not_mem_nil, or_false,
          not_or] at hkey hx ⊢
        exact ⟨hkey.1, hkey.2.1, hkey.2.2.1, hx.1, hx.2, hkey.2.2.2⟩

/-- **C93.** A code response made by `NewCodeResponse` is a redirect to the URI it was made from
that adds the code and the state to the query and nothing else. -/
theorem C93_code (code state : Str) {uri : Str} {u : URL} (hu : RedirectURI uri u)
    (s : Shared σ) (l : Local) (hw : l.w = {}) :
    ∃ l', exec (writeCodeResponse (newCodeResponse code uri state)) s l = (.ret true, s, l') ∧
      RedirectsWith l'.w.result u false [
        (b!"code", some code), (b!"state", unlessEmpty state)] :=
  C53_code_redirect (r := newCodeResponse code uri state) hu s l hw

/-- **C93.** An introspection response made by `NewIntrospectionResponse`, if it is inactive or of a
known token type, is written with status 200 and reads back as whether the token is active, the
scope, the client, the user and the token type it was made from, and nothing else. -/
theorem C93_introspection (active : Bool) (scope : Scope) (clientID username tokenType : Str)
    (hk : active = true → tokenType = b!"access_token" ∨ tokenType = b!"refresh_token")
    (s : Shared σ) (l : Local) (hw : l.w = {}) (limit : Int) :
    ∃ l', exec (writeIntrospectionResponse
          (newIntrospectionResponse active scope clientID username tokenType)) s l =
        (.ret true, s, l') ∧ l'.w.result.statusCode = 200 ∧
      ((l'.w.result.body.length : Int) ≤ limit →
        ∃ sc id un tt, Replaced scope.string sc ∧ Replaced clientID id ∧ Replaced username un ∧
          Replaced tokenType tt ∧ parseIntrospectionResponse l'.w.result limit =
            .ok { active := active, scope := Scope.parse sc, clientID := id, username := un,
                  tokenType := tt }) := by
  have hk' : (newIntrospectionResponse active scope clientID username tokenType).active = true →
      knownTokenType (newIntrospectionResponse active scope clientID username tokenType).tokenType =
        true := by
    intro h
    show knownTokenType tokenType = true
    rcases hk h with h | h <;> rw [h] <;> decide
  have hx : Representable 9999 (.obj
      ((newIntrospectionResponse active scope clientID username tokenType).extra.getD [])) :=
    .obj (n := 9998) (l := []) List.Pairwise.nil (fun _ h => absurd h List.not_mem_nil)
  refine ⟨_, exec_writeIntrospectionResponse hk' hx s l (by rw [hw]; exact ⟨rfl, rfl, rfl⟩), rfl,
    ?_⟩
  intro hl
  refine ⟨_, _, _, _, sanitize_replaced _, sanitize_replaced _, sanitize_replaced _,
    sanitize_replaced _, ?_⟩
  have h0 : isInt64 0 := by unfold isInt64; decide
  exact (parseIntrospectionResponse_written h0 h0 h0 hx _ hl).trans rfl

/-- The table has twelve kinds, with twelve names. -/
example : errorKinds.length = 12 ∧ (errorKinds.map (·.name)).Nodup := by decide +kernel

/-- A description with a quote and a colon, and a redirect with a query of its own. -/
example : (exec (writeBearerError (σ := Unit) (.oauth (unauthorizedClient b!"no: \"you\"")))
      ⟨false, ()⟩ { clock := fun _ => 0 }).2.2.w.result.header.all b!"WWW-Authenticate" =
    [b!"Bearer error=\"unauthorized_client\", error_description=\"no: \"you\"\""] := by
  decide +kernel

example : RedirectURI b!"https://example.com/cb?x=1"
    ((parseRequestURI b!"https://example.com/cb?x=1").getD {}) :=
  ⟨by decide +kernel, by decide +kernel, by decide, .inl (by decide)⟩

example : (exec (writeError (σ := Unit) (.oauth ((temporarilyUnavailable b!"later").setRedirect
      b!"https://example.com/cb?x=1" b!"s" false)))
      ⟨false, ()⟩ { clock := fun _ => 0 }).2.2.w.result.header.all b!"Location" =
    [b!"https://example.com/cb?error=temporarily_unavailable&error_description=later&state=s&x=1"] := by
  decide +kernel

end OAuth2

import Verif.Spec.Writer
import Verif.Lemmas.Exec
import Verif.Lemmas.Demo

/-!
C60: a response writer that fails, misbehaves or panics cannot harm the server.
-/

namespace OAuth2

open Spec

set_option linter.unusedSimpArgs false

/-! ### Programs that change the state before they answer -/

namespace Prog

variable {σ α β : Type}

/-- Changes no shared state and does not touch the mutex. -/
def Still : Prog σ α → Prop
  | ret _ => True
  | panic => True
  | lock _ => False
  | unlock _ => False
  | get k => ∀ s, Still (k s)
  | modify _ _ => False
  | now k => ∀ t, Still (k t)
  | rand _ k => ∀ b, Still (k b)
  | resp _ k => Still k

/-- Never uses the response writer, and does not touch the mutex. -/
def Mute : Prog σ α → Prop
  | ret _ => True
  | panic => True
  | lock _ => False
  | unlock _ => False
  | get k => ∀ s, Mute (k s)
  | modify _ k => Mute k
  | now k => ∀ t, Mute (k t)
  | rand _ k => ∀ b, Mute (k b)
  | resp _ _ => False

/-- Changes no shared state after it used the response writer, and does not touch the mutex. -/
def Tidy : Prog σ α → Prop
  | ret _ => True
  | panic => True
  | lock _ => False
  | unlock _ => False
  | get k => ∀ s, Tidy (k s)
  | modify _ k => Tidy k
  | now k => ∀ t, Tidy (k t)
  | rand _ k => ∀ b, Tidy (k b)
  | resp _ k => Still k

theorem Still.tidy {p : Prog σ α} (h : Still p) : Tidy p := by
  induction p with
  | ret a => trivial
  | panic => trivial
  | lock k ih => exact h
  | unlock k ih => exact h
  | get k ih => exact fun s => ih s (h s)
  | modify g k ih => exact h.elim
  | now k ih => exact fun s => ih s (h s)
  | rand n k ih => exact fun s => ih s (h s)
  | resp g k ih => exact h

theorem Still.bind {p : Prog σ α} {f : α → Prog σ β} (h : Still p) (hf : ∀ a, Still (f a)) :
    Still (p >>= f) := by
  change Still (Prog.bind p f)
  induction p with
  | ret a => exact hf a
  | panic => trivial
  | lock k ih => exact h
  | unlock k ih => exact h
  | get k ih => exact fun s => ih s (h s)
  | modify g k ih => exact h.elim
  | now k ih => exact fun s => ih s (h s)
  | rand n k ih => exact fun s => ih s (h s)
  | resp g k ih => exact ih h

theorem Mute.bind {p : Prog σ α} {f : α → Prog σ β} (h : Mute p) (hf : ∀ a, Mute (f a)) :
    Mute (p >>= f) := by
  change Mute (Prog.bind p f)
  induction p with
  | ret a => exact hf a
  | panic => trivial
  | lock k ih => exact h
  | unlock k ih => exact h
  | get k ih => exact fun s => ih s (h s)
  | modify g k ih => exact ih h
  | now k ih => exact fun s => ih s (h s)
  | rand n k ih => exact fun s => ih s (h s)
  | resp g k ih => exact h.elim

theorem Mute.tidy_bind {p : Prog σ α} {f : α → Prog σ β} (h : Mute p)
    (hf : ∀ a, Tidy (f a)) : Tidy (p >>= f) := by
  change Tidy (Prog.bind p f)
  induction p with
  | ret a => exact hf a
  | panic => trivial
  | lock k ih => exact h
  | unlock k ih => exact h
  | get k ih => exact fun s => ih s (h s)
  | modify g k ih => exact ih h
  | now k ih => exact fun s => ih s (h s)
  | rand n k ih => exact fun s => ih s (h s)
  | resp g k ih => exact h.elim

theorem getS_mute : Mute (getS : Prog σ σ) := fun _ => trivial
theorem modifyS_mute (f : σ → σ) : Mute (modifyS f) := trivial
theorem timeNow_mute : Mute (timeNow : Prog σ Time) := fun _ => trivial
theorem respond_still (f : Recorder → Recorder) : Still (respond f : Prog σ Unit) := trivial

theorem writeHeader_still (code : Int) : Still (writeHeader code : Prog σ Unit) := by
  unfold writeHeader
  split
  · trivial
  · trivial

/-- A quiet program leaves the shared state as it is, whatever the writer does. -/
theorem Still.exec {p : Prog σ α} (h : Still p) (b : WriterBehaviour) (s : Shared σ) (l : Local) :
    (exec (p.withWriter b) s l).2.1 = s := by
  induction p generalizing b s l with
  | ret a => rfl
  | panic => rfl
  | lock k ih => exact h.elim
  | unlock k ih => exact h.elim
  | get k ih => exact ih _ (h _) _ _ _
  | modify g k ih => exact h.elim
  | now k ih => exact ih _ (h _) _ _ _
  | rand n k ih =>
    simp only [withWriter, OAuth2.exec]
    split
    · exact ih _ (h _) _ _ _
    · exact ih _ (h _) _ _ _
  | resp g k ih =>
    simp only [withWriter]
    split
    · rfl
    · exact ih h _ _ _

theorem Tidy.exec {p : Prog σ α} (h : Tidy p) (b b' : WriterBehaviour) (s : Shared σ)
    (l l' : Local) (hc : l.coins = l'.coins) (hk : l.clock = l'.clock) (ht : l.tick = l'.tick) :
    (exec (p.withWriter b) s l).2.1 = (exec (p.withWriter b') s l').2.1 := by
  induction p generalizing b b' s l l' with
  | ret a => rfl
  | panic => rfl
  | lock k ih => exact h.elim
  | unlock k ih => exact h.elim
  | get k ih => exact ih _ (h _) _ _ _ _ _ hc hk ht
  | modify g k ih => exact ih h _ _ _ _ _ hc hk ht
  | now k ih =>
    simp only [withWriter, OAuth2.exec, hk, ht]
    exact ih _ (h _) _ _ _ _ _ hc rfl rfl
  | rand n k ih =>
    simp only [withWriter, OAuth2.exec, hc]
    split
    · exact ih _ (h _) _ _ _ _ _ rfl hk ht
    · exact ih _ (h _) _ _ _ _ _ rfl hk ht
  | resp g k ih =>
    have h1 := Still.exec (p := .resp g k) h b s l
    have h2 := Still.exec (p := .resp g k) h b' s l'
    rw [h1, h2]

theorem withWriter_reliable (p : Prog σ α) : p.withWriter .reliable = p := by
  induction p with
  | ret a => rfl
  | panic => rfl
  | lock k ih => simp only [withWriter, ih]
  | unlock k ih => simp only [withWriter, ih]
  | get k ih => simp only [withWriter, ih]
  | modify g k ih => simp only [withWriter, ih]
  | now k ih => simp only [withWriter, ih]
  | rand n k ih => simp only [withWriter, ih]
  | resp g k ih =>
    simp only [withWriter, WriterBehaviour.reliable, id]
    exact congrArg (resp g) ih

/-- A program ends the same way with every writer, unless the writer panics. -/
theorem withWriter_outcome {p : Prog σ α} (b : WriterBehaviour) (s : Shared σ)
    (l l' : Local) (hc : l.coins = l'.coins) (hk : l.clock = l'.clock) (ht : l.tick = l'.tick) :
    (exec (p.withWriter b) s l).1 = (exec p s l').1 ∨
      (exec (p.withWriter b) s l).1 = .panic ∧ ∃ i, b i = none := by
  induction p generalizing b s l l' with
  | ret a => exact .inl rfl
  | panic => exact .inl rfl
  | lock k ih =>
    simp only [withWriter, OAuth2.exec]
    split
    · exact .inl rfl
    · exact ih _ _ _ _ hc hk ht
  | unlock k ih => exact ih _ _ _ _ hc hk ht
  | get k ih => exact ih _ _ _ _ _ hc hk ht
  | modify g k ih => exact ih _ _ _ _ hc hk ht
  | now k ih =>
    simp only [withWriter, OAuth2.exec, hk, ht]
    exact ih _ _ _ _ _ hc rfl rfl
  | rand n k ih =>
    simp only [withWriter, OAuth2.exec, hc]
    split
    · exact ih _ _ _ _ _ rfl hk ht
    · exact ih _ _ _ _ _ rfl hk ht
  | resp g k ih =>
    simp only [withWriter]
    split
    · rename_i h0
      exact .inr ⟨rfl, 0, h0⟩
    · rename_i f _
      rcases ih (fun i => b (i + 1)) s { l with w := f g l.w } { l' with w := g l'.w } hc hk ht with h | ⟨h, i, hi⟩
      · exact .inl h
      · exact .inr ⟨h, i + 1, hi⟩

end Prog

/-! ### The handlers -/

open Prog

section

variable {σ : Type}

theorem write_still (json : Str) (status : Int) : Still (write json status : Prog σ Bool) :=
  (respond_still _).bind fun _ => (respond_still _).bind fun _ => (respond_still _).bind fun _ =>
    (writeHeader_still _).bind fun _ => (respond_still _).bind fun _ => trivial

theorem writeUnencodable_still (status : Int) : Still (writeUnencodable status : Prog σ Bool) :=
  (respond_still _).bind fun _ => (respond_still _).bind fun _ => (respond_still _).bind fun _ =>
    (writeHeader_still _).bind fun _ => trivial

theorem writeRedirect_still (uri : Str) (params : GoMap Str) (f : Bool) :
    Still (writeRedirect uri params f : Prog σ Bool) := by
  unfold writeRedirect
  split
  · trivial
  · exact (respond_still _).bind fun _ => (respond_still _).bind fun _ =>
      (respond_still _).bind fun _ => (respond_still _).bind fun _ =>
      (writeHeader_still _).bind fun _ => (respond_still _).bind fun _ => trivial

theorem writeError_still (e : GoErr) : Still (writeError e : Prog σ Bool) := by
  unfold writeError
  refine (respond_still _).bind fun _ => ?_
  split
  · exact writeRedirect_still _ _ _
  · exact write_still _ _

theorem writeBearerError_still (e : GoErr) : Still (writeBearerError e : Prog σ Bool) := by
  have h : Still (do
      .writeHeader 500
      .respond (·.write [])
      return true : Prog σ Bool) :=
    (writeHeader_still _).bind fun _ => (respond_still _).bind fun _ => trivial
  unfold writeBearerError
  split
  · exact h
  · split
    · exact h
    · exact (respond_still _).bind fun _ => (writeHeader_still _).bind fun _ =>
        (respond_still _).bind fun _ => trivial

theorem writeTokenResponse_still (r : TokenResponse) :
    Still (writeTokenResponse r : Prog σ Bool) := by
  unfold writeTokenResponse
  split
  · exact writeRedirect_still _ _ _
  · exact write_still _ _

theorem writeCodeResponse_still (r : CodeResponse) :
    Still (writeCodeResponse r : Prog σ Bool) := writeRedirect_still _ _ _

theorem writeIntrospectionResponse_still (r : IntrospectionResponse) :
    Still (writeIntrospectionResponse r : Prog σ Bool) := by
  unfold writeIntrospectionResponse
  split
  · trivial
  · split
    · exact write_still _ _
    · exact writeUnencodable_still _

end

namespace Server

theorem ignore_still {p : Handler Bool} (h : Still p) : Still (ignore p) :=
  h.bind fun _ => trivial

theorem fail_still (e : Error) : Still (fail e) := ignore_still (writeError_still _)

theorem failBearer_still (e : Error) : Still (failBearer e) :=
  ignore_still (writeBearerError_still _)

theorem mustGenerate_mute (c : ServerConfig) : Mute (c.mustGenerate : Handler HS256Token) := by
  unfold ServerConfig.mustGenerate HS256Token.mustGenerate HS256Token.generate
  split
  · trivial
  · intro b
    cases b <;> trivial

theorem revokeToken_mute (id : Str) (access : Bool) (sig : Str) :
    Mute (revokeToken id access sig) := by
  refine getS_mute.bind fun s => ?_
  split
  · trivial
  · split
    · trivial
    · split
      · trivial
      · trivial

theorem issueTokens_mute (b : Bool) (scope : Scope) (id user code : Str) :
    Mute (issueTokens b scope id user code) := by
  refine getS_mute.bind fun s => (mustGenerate_mute _).bind fun a => ?_
  refine Mute.bind ?_ fun t => ?_
  · split
    · exact getS_mute.bind fun s => (mustGenerate_mute _).bind fun t => trivial
    · trivial
  · refine getS_mute.bind fun s => timeNow_mute.bind fun now => (modifyS_mute _).bind fun _ => ?_
    split
    · trivial
    · exact timeNow_mute.bind fun now => (modifyS_mute _).bind fun _ => trivial

theorem ite_tidy {α : Type} {c : Prop} [Decidable c] {p q : Handler α} (hp : Tidy p) (hq : Tidy q) :
    Tidy (if c then p else q) := by
  split
  · exact hp
  · exact hq

theorem implicit_tidy (u p : Str) (rq : AuthorizationRequest) : Tidy (handleImplicitGrant u p rq) := by
  refine getS_mute.tidy_bind fun s => ?_
  split
  · exact (fail_still _).tidy
  · refine getS_mute.tidy_bind fun s => ?_
    dsimp only
    exact ite_tidy (fail_still _).tidy ((issueTokens_mute _ _ _ _ _).tidy_bind fun r =>
      (ignore_still (writeTokenResponse_still _)).tidy)

theorem code_tidy (u p : Str) (rq : AuthorizationRequest) :
    Tidy (handleAuthorizationCodeGrantAuthorization u p rq) := by
  refine getS_mute.tidy_bind fun s => ?_
  split
  · exact (fail_still _).tidy
  · refine getS_mute.tidy_bind fun s => ?_
    dsimp only
    exact ite_tidy (fail_still _).tidy (getS_mute.tidy_bind fun s =>
      (mustGenerate_mute _).tidy_bind fun c => timeNow_mute.tidy_bind fun now =>
      (modifyS_mute _).tidy_bind fun _ => (ignore_still (writeCodeResponse_still _)).tidy)

theorem authorization_tidy (r : Request) : Tidy (authorizationEndpoint r) := by
  unfold authorizationEndpoint
  split
  · exact (fail_still _).tidy
  · split
    · exact (fail_still _).tidy
    · refine getS_mute.tidy_bind fun s => ?_
      split
      · exact (fail_still _).tidy
      · split
        · exact (fail_still _).tidy
        · split
          · exact (respond_still _).tidy
          · dsimp only
            split
            · exact implicit_tidy _ _ _
            · split
              · exact code_tidy _ _ _
              · trivial

theorem password_tidy (rq : TokenRequest) : Tidy (handleResourceOwnerPasswordCredentialsGrant rq) := by
  refine getS_mute.tidy_bind fun s => ?_
  dsimp only
  refine ite_tidy (fail_still _).tidy (getS_mute.tidy_bind fun s => ?_)
  refine ite_tidy (fail_still _).tidy ?_
  exact (issueTokens_mute _ _ _ _ _).tidy_bind fun r =>
    (ignore_still (writeTokenResponse_still _)).tidy

theorem client_tidy (rq : TokenRequest) : Tidy (handleClientCredentialsGrant rq) := by
  refine getS_mute.tidy_bind fun s => ?_
  split
  · trivial
  · split
    · exact (fail_still _).tidy
    · refine getS_mute.tidy_bind fun s => ?_
      split
      · exact (fail_still _).tidy
      · exact (issueTokens_mute _ _ _ _ _).tidy_bind fun r =>
          (ignore_still (writeTokenResponse_still _)).tidy

theorem exchange_tidy (rq : TokenRequest) : Tidy (handleAuthorizationCodeGrant rq) := by
  refine getS_mute.tidy_bind fun s => ?_
  split
  · exact (fail_still _).tidy
  · refine getS_mute.tidy_bind fun s => ?_
    split
    · exact (fail_still _).tidy
    · split
      · exact (modifyS_mute _).tidy_bind fun _ => (modifyS_mute _).tidy_bind fun _ =>
          (fail_still _).tidy
      · refine timeNow_mute.tidy_bind fun now => ?_
        split
        · exact (fail_still _).tidy
        · split
          · exact (fail_still _).tidy
          · split
            · exact (fail_still _).tidy
            · exact (issueTokens_mute _ _ _ _ _).tidy_bind fun r =>
                (modifyS_mute _).tidy_bind fun _ =>
                (ignore_still (writeTokenResponse_still _)).tidy

theorem refresh_tidy (rq : TokenRequest) : Tidy (handleRefreshTokenGrant rq) := by
  refine getS_mute.tidy_bind fun s => ?_
  split
  · exact (fail_still _).tidy
  · refine getS_mute.tidy_bind fun s => ?_
    split
    · exact (fail_still _).tidy
    · refine timeNow_mute.tidy_bind fun now => ?_
      split
      · exact (fail_still _).tidy
      · split
        · exact (fail_still _).tidy
        · dsimp only
          exact ite_tidy (fail_still _).tidy ((issueTokens_mute _ _ _ _ _).tidy_bind fun r =>
            (modifyS_mute _).tidy_bind fun _ =>
            (ignore_still (writeTokenResponse_still _)).tidy)

theorem token_tidy (r : Request) : Tidy (tokenEndpoint r) := by
  unfold tokenEndpoint
  split
  · exact (fail_still _).tidy
  · split
    · exact (fail_still _).tidy
    · refine getS_mute.tidy_bind fun s => ?_
      split
      · exact (fail_still _).tidy
      · split
        · exact (fail_still _).tidy
        · split
          · exact password_tidy _
          · split
            · exact client_tidy _
            · split
              · exact exchange_tidy _
              · split
                · exact refresh_tidy _
                · trivial

theorem revocation_tidy (r : Request) : Tidy (revocationEndpoint r) := by
  unfold revocationEndpoint
  split
  · exact (fail_still _).tidy
  · rename_i req _
    split
    · exact (fail_still _).tidy
    · refine getS_mute.tidy_bind fun s => ?_
      split
      · exact (fail_still _).tidy
      · split
        · exact (fail_still _).tidy
        · refine getS_mute.tidy_bind fun s => ?_
          split
          · exact (fail_still _).tidy
          · rename_i token _
            have hr : Tidy (do
                let s ← Prog.getS
                match s.refreshTokens.get? token.signatureString with
                | some refreshToken =>
                  if refreshToken.clientID ≠ req.clientID then fail (invalidClient b!"wrong client")
                  else do
                    revokeToken req.clientID false token.signatureString
                    .writeHeader 200
                | none => .writeHeader 200 : Handler Unit) := by
              refine getS_mute.tidy_bind fun s => ?_
              split
              · split
                · exact (fail_still _).tidy
                · exact (revokeToken_mute _ _ _).tidy_bind fun _ => (writeHeader_still _).tidy
              · exact (writeHeader_still _).tidy
            refine getS_mute.tidy_bind fun s => ?_
            split
            · split
              · exact (fail_still _).tidy
              · exact (revokeToken_mute _ _ _).tidy_bind fun _ => hr
            · exact hr

theorem introspection_still (r : Request) : Tidy (introspectionEndpoint r) := by
  unfold introspectionEndpoint
  split
  · exact (fail_still _).tidy
  · rename_i req _
    split
    · exact (fail_still _).tidy
    · refine getS_mute.tidy_bind fun s => ?_
      split
      · exact (fail_still _).tidy
      · split
        · exact (fail_still _).tidy
        · refine getS_mute.tidy_bind fun s => ?_
          split
          · exact (fail_still _).tidy
          · rename_i token _
            have hr : ∀ res : IntrospectionResponse, Tidy (do
                let s ← Prog.getS
                match s.refreshTokens.get? token.signatureString with
                | some refreshToken =>
                  if refreshToken.clientID ≠ req.clientID then fail (invalidClient b!"wrong client")
                  else
                    ignore (writeIntrospectionResponse { res with
                      active := true, scope := refreshToken.scope,
                      clientID := refreshToken.clientID, username := refreshToken.username,
                      tokenType := RefreshToken, expiresAt := refreshToken.expiresAt.unix })
                | none => ignore (writeIntrospectionResponse res) : Handler Unit) := by
              intro res
              refine getS_mute.tidy_bind fun s => ?_
              split
              · split
                · exact (fail_still _).tidy
                · exact (ignore_still (writeIntrospectionResponse_still _)).tidy
              · exact (ignore_still (writeIntrospectionResponse_still _)).tidy
            refine getS_mute.tidy_bind fun s => ?_
            split
            · split
              · exact (fail_still _).tidy
              · exact hr _
            · exact hr _

theorem serveLocked_tidy (r : Request) : Tidy (serveLocked r) := by
  unfold serveLocked
  dsimp only
  split
  · exact authorization_tidy r
  · split
    · exact token_tidy r
    · split
      · exact introspection_still r
      · split
        · exact revocation_tidy r
        · exact ((respond_still _).bind fun _ => (respond_still _).bind fun _ =>
            (writeHeader_still _).bind fun _ => respond_still _).tidy

theorem authorizeLocked_still (r : Request) (required : Scope) :
    Still (authorizeLocked r required) := by
  have hf : ∀ e : Error, Still (do
      failBearer e
      return false : Handler Bool) := fun e => (failBearer_still e).bind fun _ => trivial
  have hg : Still (Prog.getS : Handler Server) := fun _ => trivial
  unfold authorizeLocked
  split
  · exact hf _
  · refine hg.bind fun s => ?_
    split
    · exact hf _
    · refine hg.bind fun s => ?_
      split
      · exact hf _
      · refine Still.bind (fun _ => trivial) fun now => ?_
        split
        · exact hf _
        · split
          · exact hf _
          · trivial

end Server

/-! ### C60 -/

theorem tidy_no_deadlock {σ α : Type} {p : Prog σ α} (h : Tidy p) (b : WriterBehaviour)
    (s : Shared σ) (l : Local) : (exec (p.withWriter b) s l).1 ≠ .deadlock := by
  have hq : ∀ {p : Prog σ α}, Still p → ∀ b s l, (exec (p.withWriter b) s l).1 ≠ .deadlock := by
    intro p h b s l
    induction p generalizing b s l with
    | ret a => exact nofun
    | panic => exact nofun
    | lock k ih => exact h.elim
    | unlock k ih => exact h.elim
    | get k ih => exact ih _ (h _) _ _ _
    | modify g k ih => exact h.elim
    | now k ih => exact ih _ (h _) _ _ _
    | rand n k ih =>
      simp only [withWriter, OAuth2.exec]
      split
      · exact ih _ (h _) _ _ _
      · exact ih _ (h _) _ _ _
    | resp g k ih =>
      simp only [withWriter]
      split
      · exact nofun
      · exact ih h _ _ _
  induction p generalizing b s l with
  | ret a => exact nofun
  | panic => exact nofun
  | lock k ih => exact h.elim
  | unlock k ih => exact h.elim
  | get k ih => exact ih _ (h _) _ _ _
  | modify g k ih => exact ih h _ _ _
  | now k ih => exact ih _ (h _) _ _ _
  | rand n k ih =>
    simp only [withWriter, OAuth2.exec]
    split
    · exact ih _ (h _) _ _ _
    · exact ih _ (h _) _ _ _
  | resp g k ih => exact hq (p := .resp g k) h _ _ _

theorem exec_locked_with {σ α : Type} {p : Prog σ α} (h : Tidy p) (b : WriterBehaviour) (s : σ)
    (l : Local) :
    exec (.lock (.deferUnlock (p.withWriter b))) ⟨false, s⟩ l =
      ((exec (p.withWriter b) ⟨true, s⟩ l).1, { (exec (p.withWriter b) ⟨true, s⟩ l).2.1 with locked := false },
        (exec (p.withWriter b) ⟨true, s⟩ l).2.2) := by
  show exec (Prog.deferUnlock (p.withWriter b)) ⟨true, s⟩ l = _
  rw [exec_deferUnlock]
  have hd := tidy_no_deadlock h b ⟨true, s⟩ l
  generalize exec (p.withWriter b) ⟨true, s⟩ l = x at hd
  obtain ⟨o, s', l'⟩ := x
  cases o with
  | ret a => rfl
  | panic => rfl
  | deadlock => exact (hd rfl).elim

theorem with_tidy {σ α : Type} {p : Prog σ α} (h : Tidy p) (b : WriterBehaviour) (s : σ) (l : Local) :
    (exec (.lock (.deferUnlock (p.withWriter b))) ⟨false, s⟩ l).2.1 =
        (exec (.lock (.deferUnlock p)) ⟨false, s⟩ l).2.1 ∧
      (exec (.lock (.deferUnlock (p.withWriter b))) ⟨false, s⟩ l).2.1.locked = false ∧
      ((exec (.lock (.deferUnlock (p.withWriter b))) ⟨false, s⟩ l).1 =
          (exec (.lock (.deferUnlock p)) ⟨false, s⟩ l).1 ∨
        (exec (.lock (.deferUnlock (p.withWriter b))) ⟨false, s⟩ l).1 = .panic ∧ ∃ i, b i = none) := by
  have h1 := exec_locked_with h b s l
  have h2 := exec_locked_with h .reliable s l
  rw [withWriter_reliable] at h2
  rw [h1, h2]
  refine ⟨?_, rfl, ?_⟩
  · have := h.exec b .reliable ⟨true, s⟩ l l rfl rfl rfl
    rw [withWriter_reliable] at this
    simp only [this]
  · exact withWriter_outcome b ⟨true, s⟩ l l rfl rfl rfl

/-- C60: whatever the response writer makes of the calls on it, also if it panics in the middle of
the answer, `ServeHTTP` leaves the server as if the answer had been written, releases the mutex,
and returns unless the writer panicked. -/
theorem C60_serve (b : WriterBehaviour) (r : Request) (s : Server) (l : Local) :
    (exec (Server.serveHTTPWith b r) ⟨false, s⟩ l).2.1 =
        (exec (Server.serveHTTP r) ⟨false, s⟩ l).2.1 ∧
      (exec (Server.serveHTTPWith b r) ⟨false, s⟩ l).2.1.locked = false ∧
      ((exec (Server.serveHTTPWith b r) ⟨false, s⟩ l).1 =
          (exec (Server.serveHTTP r) ⟨false, s⟩ l).1 ∨
        (exec (Server.serveHTTPWith b r) ⟨false, s⟩ l).1 = .panic ∧ ∃ i, b i = none) :=
  with_tidy (Server.serveLocked_tidy r) b s l

/-- C60: the same of `Authorize`; in particular a writer that cannot report the refusal never turns
it into an admission. -/
theorem C60_authorize (b : WriterBehaviour) (r : Request) (required : Scope) (s : Server) (l : Local) :
    (exec (Server.authorizeWith b r required) ⟨false, s⟩ l).2.1 = ⟨false, s⟩ ∧
      ((exec (Server.authorizeWith b r required) ⟨false, s⟩ l).1 =
          (exec (Server.authorize r required) ⟨false, s⟩ l).1 ∨
        (exec (Server.authorizeWith b r required) ⟨false, s⟩ l).1 = .panic ∧ ∃ i, b i = none) := by
  have hq := Server.authorizeLocked_still r required
  refine ⟨?_, (with_tidy hq.tidy b s l).2.2⟩
  show (exec (.lock (.deferUnlock _)) ⟨false, s⟩ l).2.1 = _
  rw [exec_locked_with hq.tidy, hq.exec]

/-- C60: after any calls, each with its own response writer, the server is the one it would be if
every writer worked, so every later call is answered as if nothing had happened. -/
theorem C60_run (s : Server) (cs : List (Call × WriterBehaviour)) :
    runWith ⟨false, s⟩ cs = (runAll ⟨false, s⟩ (cs.map (·.1))).2 := by
  have hstep : ∀ (s : Server) (c : Call) b, (stepWith b ⟨false, s⟩ c).1 = (step ⟨false, s⟩ c).2 ∧
      (stepWith b ⟨false, s⟩ c).1.locked = false := by
    intro s c b
    unfold stepWith step
    cases c.op with
    | serve r =>
      obtain ⟨h1, h2, _⟩ := C60_serve b r s c.local
      dsimp only
      rcases hx : exec (Server.serveHTTPWith b r) ⟨false, s⟩ c.local with ⟨o, s', l'⟩
      rcases hy : exec (Server.serveHTTP r) ⟨false, s⟩ c.local with ⟨o', s'', l''⟩
      rw [hx, hy] at h1
      rw [hx] at h2
      cases o <;> cases o' <;> exact ⟨h1, h2⟩
    | authorize r required =>
      obtain ⟨h1, h2, _⟩ := with_tidy (Server.authorizeLocked_still r required).tidy b s c.local
      change (exec (Server.authorizeWith b r required) ⟨false, s⟩ c.local).2.1 =
        (exec (Server.authorize r required) ⟨false, s⟩ c.local).2.1 at h1
      change (exec (Server.authorizeWith b r required) ⟨false, s⟩ c.local).2.1.locked = false at h2
      dsimp only
      rcases hx : exec (Server.authorizeWith b r required) ⟨false, s⟩ c.local with ⟨o, s', l'⟩
      rcases hy : exec (Server.authorize r required) ⟨false, s⟩ c.local with ⟨o', s'', l''⟩
      rw [hx, hy] at h1
      rw [hx] at h2
      cases o <;> rcases o' with ((_ | _) | _ | _) <;> exact ⟨h1, h2⟩
    | configure clients users => exact ⟨rfl, rfl⟩
  induction cs generalizing s with
  | nil => rfl
  | cons cb cs ih =>
    obtain ⟨c, b⟩ := cb
    obtain ⟨h1, h2⟩ := hstep s c b
    simp only [runWith, List.map_cons, runAll]
    rw [h1] at h2 ⊢
    generalize (step ⟨false, s⟩ c).2 = x at h2
    obtain ⟨locked, s'⟩ := x
    cases h2
    exact ih _

/-- The writer panics at the first call on it. -/
def panicky : WriterBehaviour := fun _ => none

/-- Non-vacuity: the client of the refresh request `Demo.c4` never gets its answer, and the refresh
token it presented is used up all the same. -/
example : stepWith panicky ⟨false, Demo.s3⟩ Demo.c4 = (⟨false, Demo.s4⟩, true) ∧
    Demo.s3 ≠ Demo.s4 := by decide +kernel

/-- Non-vacuity: a writer that drops every byte does not make the call panic. -/
example : (stepWith (fun _ => some fun _ w => w) ⟨false, Demo.s3⟩ Demo.c4) =
    (⟨false, Demo.s4⟩, false) := by decide +kernel

end OAuth2

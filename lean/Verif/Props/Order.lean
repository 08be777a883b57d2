import Verif.Spec.Order
import Verif.Props.Local
import Verif.Props.Store
import Verif.Props.Secrets
import Verif.Props.Concurrent
import Verif.Lemmas.Decide
import Verif.Lemmas.Strangers

/-!
C101: the order of calls that have nothing to do with each other makes no difference.
-/

namespace OAuth2

open Spec

variable {s : Server} {c d : Call}

theorem proper_once (h : Proper s) : KeysOnce s := ⟨h.1, h.2.1⟩

theorem proper_step (h : Proper s) (c : Call) : Proper (step ⟨false, s⟩ c).2.st := by
  obtain ⟨_, s₁, _, h1, _, h3⟩ := step_like (K := s.config) (C := fun _ => True)
    (U := fun _ => True) (X := fun _ => True) (s := s) (s' := s)
    ⟨rfl, h, h, fun _ _ => rfl, fun _ _ => rfl, fun _ _ => ⟨rfl, rfl, rfl⟩, rfl⟩ c
    (fun _ _ => trivial) (fun _ _ => trivial) (fun _ _ _ _ => trivial)
  rw [h1]
  exact h3.proper

theorem registered_step (h : ∀ clients users, c.op ≠ .configure clients users) :
    (step ⟨false, s⟩ c).2.st.clients = s.clients ∧ (step ⟨false, s⟩ c).2.st.users = s.users := by
  cases hop : c.op with
  | configure cl us => exact absurd hop (h _ _)
  | authorize r required =>
    rw [step_authorize hop]
    exact ⟨rfl, rfl⟩
  | serve r =>
    obtain ⟨reply, s', he, hv, _⟩ := step_served hop s
    rw [he]
    cases hv <;> exact ⟨rfl, rfl⟩

/-! ### What events are about -/

section
variable {cfg : ServerConfig} {e : Event}

theorem about_redeems {x : HS256Token} (h : Redeems cfg e x) : About cfg e x.signatureString := by
  obtain ⟨rq, res, a, ⟨r, h1, h2, h3, _⟩, h4, ⟨t, h5, h6⟩, _⟩ := h
  rw [← h6]
  exact .carried (.code ⟨r, h1, h2, h3⟩ h4) h5

theorem about_replays {sig : Str} (h : Replays cfg e sig) : About cfg e sig := by
  obtain ⟨rq, res, c, ⟨r, h1, h2, h3, _⟩, h4, h5, h6, _⟩ := h
  rw [← h6]
  exact .carried (.code ⟨r, h1, h2, h3⟩ h4) h5

theorem replays_ne_nil {sig : Str} (h : Replays cfg e sig) : sig ≠ [] := by
  obtain ⟨rq, res, c, _, _, h5, h6, _⟩ := h
  rw [← h6]
  exact parsed_signature_ne_nil h5

theorem about_usesUp {x : HS256Token} (h : UsesUp cfg e x) : About cfg e x.signatureString := by
  obtain ⟨rq, res, a, ⟨r, h1, h2, h3, _⟩, h4, ⟨t, h5, h6⟩, _⟩ := h
  rw [← h6]
  exact .carried (.refreshToken ⟨r, h1, h2, h3⟩ h4) h5

theorem about_revokes {x : HS256Token} (h : Revokes cfg e x) : About cfg e x.signatureString := by
  obtain ⟨rq, res, ⟨r, h1, h2, h3, _⟩, ⟨t, h5, h6⟩, _⟩ := h
  rw [← h6]
  exact .carried (.revocation ⟨r, h1, h2, h3⟩) h5

theorem about_halfRevokes {x : HS256Token} {id : Str} (h : HalfRevokes cfg e x id) :
    About cfg e x.signatureString := by
  obtain ⟨rq, res, ⟨r, h1, h2, h3, _⟩, ⟨t, h5, h6⟩, _⟩ := h
  rw [← h6]
  exact .carried (.revocation ⟨r, h1, h2, h3⟩) h5

/-- What the event is not about, it withdraws only by replaying a code. -/
theorem withdraws_replays {k : Kind} {sig : Str} {cred : ServerCredential} (hw : Withdraws s e k sig cred)
    (ha : ¬ About s.config e sig) : Replays s.config e cred.code := by
  rcases hw with ⟨t, rfl, h⟩ | ⟨_, _, h⟩ | ⟨_, t, rfl, h⟩ | ⟨_, t, rfl, h⟩
  · exact absurd (about_revokes h) ha
  · exact h
  · exact absurd (about_usesUp h) ha
  · exact absurd (about_halfRevokes h) ha

end

theorem independent_symm (h : Independent s c d) : Independent s d c :=
  ⟨h.right, h.left, fun sig h1 h2 => h.apart sig h2 h1, h.spoiled, h.spoils⟩

/-- What the event of a call is not about and what it does not replay stays as it is. -/
theorem agreeAt_step (hp : Proper s) {sig : Str} (ha : ¬ About s.config (byItself s c) sig)
    (hr : ∀ k cred, (tokens s k).get? sig = some cred → ¬ Replays s.config (byItself s c) cred.code) :
    AgreeAt s (step ⟨false, s⟩ c).2.st sig := by
  have ht : ∀ k, (tokens s k).get? sig = (tokens (step ⟨false, s⟩ c).2.st k).get? sig := by
    intro k
    apply Option.ext
    intro cred
    rw [C73_tokens s (proper_once hp) c k sig cred]
    constructor
    · intro h
      refine .inr ⟨?_, h, ?_⟩
      · rintro t ht rfl
        exact ha (.handed ht)
      · intro hw
        exact hr k cred h (withdraws_replays hw ha)
    · rintro (⟨t, ht, rfl, _⟩ | ⟨_, h, _⟩)
      · exact absurd (.handed ht) ha
      · exact h
  refine ⟨ht .access, ht .refresh, ?_⟩
  apply Option.ext
  intro cred
  rw [C73_codes s c sig cred]
  constructor
  · intro h
    refine .inr ⟨?_, cred, h, .inr ⟨?_, rfl⟩⟩
    · rintro t hc rfl
      exact ha (.code hc)
    · rintro x rfl hx
      exact ha (about_redeems hx)
  · rintro (⟨x, _, _, _, hx, rfl, _⟩ | ⟨_, old, h, ⟨⟨x, rfl, hx⟩, _⟩ | ⟨_, rfl⟩⟩)
    · exact absurd (.code hx) ha
    · exact absurd (about_redeems hx) ha
    · exact h

/-- So each call leaves what the other names and carries. -/
theorem independent_agreeOn (hp : Proper s) (h : Independent s c d) :
    AgreeOn d s (step ⟨false, s⟩ c).2.st := by
  obtain ⟨h1, h2⟩ := registered_step (s := s) h.left
  refine ⟨fun _ _ => by rw [h1], fun _ _ => by rw [h2], ?_⟩
  intro text t ht hpt
  refine agreeAt_step hp (fun ha => h.apart _ ha (.carried ht hpt)) ?_
  intro k cred hk hr
  exact h.spoils ⟨k, text, t, cred, ht, hpt, hk, hr⟩

/-- And the other is answered as if it were alone. -/
theorem independent_answer (hp : Proper s) (h : Independent s c d) :
    byItself (step ⟨false, s⟩ c).2.st d = byItself s d := by
  unfold byItself
  rw [C58_answer (step_config s c).symm hp (proper_step hp c) (independent_agreeOn hp h)]

/-! ### Both calls -/

theorem agreeOn_symm {s' : Server} (hc : s'.config = s.config) (h : AgreeOn c s s') : AgreeOn c s' s := by
  refine ⟨fun id hi => (h.clients id hi).symm, fun id hi => (h.users id hi).symm, ?_⟩
  intro text t h1 h2
  obtain ⟨a, b, c⟩ := h.carried text t h1 (by rw [← hc]; exact h2)
  exact ⟨a.symm, b.symm, c.symm⟩

theorem records_congr {s' : Server} {e : Event} {k : Kind} {cred : ServerCredential}
    (hc : s'.config = s.config) (hx : AgreeOn e.call s s')
    (h : Records s e k cred) : Records s' e k cred := by
  cases h with
  | implicit h1 h2 => rw [← hc]; exact .implicit h1 h2
  | password h1 h2 => rw [← hc]; exact .password h1 h2
  | client h1 h2 => rw [← hc]; exact .client h1 h2
  | @exchange rq res x code h1 h2 h3 h4 =>
    obtain ⟨r, g1, g2, g3, _⟩ := id h1
    have := hx.carried _ _ (.code ⟨r, g1, g2, g3⟩ h2) h3
    rw [← hc]
    exact .exchange h1 h2 (by rw [hc]; exact h3) (by rw [← this.2.2]; exact h4)
  | @refresh rq res x old h1 h2 h3 h4 =>
    obtain ⟨r, g1, g2, g3, _⟩ := id h1
    have := hx.carried _ _ (.refreshToken ⟨r, g1, g2, g3⟩ h2) h3
    rw [← hc]
    exact .refresh h1 h2 (by rw [hc]; exact h3) (by rw [← this.2.1]; exact h4)

theorem withdraws_congr {s' : Server} {e : Event} {k : Kind} {sig : Str} {cred : ServerCredential}
    (hc : s'.config = s.config) (hx : AgreeOn e.call s s')
    (h : Withdraws s e k sig cred) : Withdraws s' e k sig cred := by
  unfold Withdraws
  rw [hc]
  rcases h with h | ⟨code, h1, h2⟩ | h | h
  · exact .inl h
  · refine .inr (.inl ⟨code, ?_, h2⟩)
    obtain ⟨rq, res, c, ⟨r, g1, g2, g3, _⟩, g4, g5, g6, _⟩ := h2
    rw [← g6] at h1 ⊢
    rw [← (hx.carried _ _ (.code ⟨r, g1, g2, g3⟩ g4) g5).2.2]
    exact h1
  · exact .inr (.inr (.inl h))
  · exact .inr (.inr (.inr h))

/-- What is recorded of a token was issued for a code that the event carries, or for none. -/
theorem records_code {e : Event} {k : Kind} {cred : ServerCredential} (h : Records s e k cred) :
    cred.code = [] ∨ About s.config e cred.code := by
  cases h with
  | implicit => exact .inl rfl
  | password => exact .inl rfl
  | client => exact .inl rfl
  | exchange h1 h2 h3 h4 =>
    obtain ⟨r, g1, g2, g3, _⟩ := id h1
    exact .inr (.carried (.code ⟨r, g1, g2, g3⟩ h2) h3)
  | refresh => exact .inl rfl

/-- After both calls, the tokens of the first are there, those of the second, and those that neither
withdraws. -/
theorem tokens_both (hp : Proper s) (h : Independent s c d) (k : Kind) (sig : Str)
    (cred : ServerCredential)
    (hg : (tokens (step ⟨false, (step ⟨false, s⟩ c).2.st⟩ d).2.st k).get? sig = some cred) :
    (tokens (step ⟨false, (step ⟨false, s⟩ d).2.st⟩ c).2.st k).get? sig = some cred := by
  have hc : ∀ {d}, (step ⟨false, s⟩ d).2.st.config = s.config := step_config s _
  have hcd := independent_agreeOn hp h
  have hdc := independent_agreeOn hp (independent_symm h)
  have e1 : (⟨d, (step ⟨false, (step ⟨false, s⟩ c).2.st⟩ d).1⟩ : Event) = byItself s d := independent_answer hp h
  have e2 : (⟨c, (step ⟨false, (step ⟨false, s⟩ d).2.st⟩ c).1⟩ : Event) = byItself s c :=
    independent_answer hp (independent_symm h)
  have hdc' := agreeOn_symm hc hdc
  have hcd' := agreeOn_symm hc hcd
  rw [C73_tokens _ (proper_once (proper_step hp c)), e1, hc] at hg
  rw [C73_tokens _ (proper_once (proper_step hp d)), e2, hc]
  rcases hg with ⟨t, h1, rfl, h2, h3⟩ | ⟨h1, h2, h3⟩
  · have ha : About s.config (byItself s d) t.signatureString := .handed h1
    have h2' : Records s (byItself s d) k cred :=
      records_congr (s := (step ⟨false, s⟩ c).2.st) hc.symm hcd' h2
    refine .inr ⟨fun t' g1 g2 => h.apart _ (.handed g1) (g2 ▸ ha), ?_, ?_⟩
    · rw [C73_tokens s (proper_once hp)]
      exact .inl ⟨t, h1, rfl, h2', h3⟩
    · intro hw
      have hr := withdraws_replays (withdraws_congr (s := (step ⟨false, s⟩ d).2.st) hc.symm hdc' hw)
        fun g => h.apart _ g ha
      rcases records_code h2' with g | g
      · exact replays_ne_nil hr g
      · exact h.apart _ (about_replays hr) g
  · rw [C73_tokens s (proper_once hp)] at h2
    change (∃ t, Hands (byItself s c) k t ∧ _ ∧ Records s (byItself s c) k cred ∧ _) ∨ _ at h2
    rcases h2 with ⟨t, g1, rfl, g2, g3⟩ | ⟨g1, g2, g3⟩
    · exact .inl ⟨t, g1, rfl, records_congr hc hdc g2, g3⟩
    · refine .inr ⟨g1, ?_, fun hw => g3 (withdraws_congr (s := (step ⟨false, s⟩ d).2.st) hc.symm hdc' hw)⟩
      rw [C73_tokens s (proper_once hp)]
      refine .inr ⟨h1, g2, fun hw => h3 (withdraws_congr hc hcd hw)⟩

/-- The same for codes. -/
theorem codes_both (hp : Proper s) (h : Independent s c d) (sig : Str) (cred : ServerCredential)
    (hg : (step ⟨false, (step ⟨false, s⟩ c).2.st⟩ d).2.st.authorizationCodes.get? sig = some cred) :
    (step ⟨false, (step ⟨false, s⟩ d).2.st⟩ c).2.st.authorizationCodes.get? sig = some cred := by
  have hc : ∀ {d}, (step ⟨false, s⟩ d).2.st.config = s.config := step_config s _
  have e1 : (⟨d, (step ⟨false, (step ⟨false, s⟩ c).2.st⟩ d).1⟩ : Event) = byItself s d :=
    independent_answer hp h
  have e2 : (⟨c, (step ⟨false, (step ⟨false, s⟩ d).2.st⟩ c).1⟩ : Event) = byItself s c :=
    independent_answer hp (independent_symm h)
  rw [C73_codes, e1, hc] at hg
  rw [C73_codes, e2, hc]
  rcases hg with ⟨x, rq, u, res, h1, rfl, h2, h3⟩ | ⟨h1, old, h2, h3⟩
  · have ha : About s.config (byItself s d) x.signatureString := .code h1
    refine .inr ⟨fun t' g1 g2 => h.apart _ (.code g1) (g2 ▸ ha), cred, ?_, .inr ⟨?_, rfl⟩⟩
    · rw [C73_codes]
      exact .inl ⟨x, rq, u, res, h1, rfl, h2, h3⟩
    · intro x' g1 g2
      exact h.apart _ (g1 ▸ about_redeems g2) ha
  · rw [C73_codes] at h2
    change (∃ x rq u res, HandsCode (byItself s c) x ∧ _ ∧ AuthorizationCall (byItself s c) rq u res ∧ _) ∨
      _ at h2
    rcases h2 with ⟨x, rq, u, res, g1, rfl, g2, g3⟩ | ⟨g1, first, g2, g3⟩
    · have ha : About s.config (byItself s c) x.signatureString := .code g1
      refine .inl ⟨x, rq, u, res, g1, rfl, g2, ?_⟩
      rcases h3 with ⟨⟨x', k1, k2⟩, _⟩ | ⟨_, rfl⟩
      · exact (h.apart _ ha (k1 ▸ about_redeems k2)).elim
      · exact g3
    · refine .inr ⟨g1, ?_⟩
      rcases g3 with ⟨⟨x, rfl, k1⟩, rfl⟩ | ⟨k1, rfl⟩
      · -- redeemed by the first, so not by the second
        have ha : About s.config (byItself s c) x.signatureString := about_redeems k1
        refine ⟨first, ?_, .inl ⟨⟨x, rfl, k1⟩, ?_⟩⟩
        · rw [C73_codes]
          refine .inr ⟨h1, first, g2, .inr ⟨fun x' k2 k3 => ?_, rfl⟩⟩
          exact h.apart _ ha (k2 ▸ about_redeems k3)
        · rcases h3 with ⟨⟨x', k2, k3⟩, _⟩ | ⟨_, rfl⟩
          · exact (h.apart _ ha (k2 ▸ about_redeems k3)).elim
          · rfl
      · refine ⟨cred, ?_, .inr ⟨k1, rfl⟩⟩
        rw [C73_codes]
        exact .inr ⟨h1, old, g2, h3⟩

/-- **C101.** Two calls that have nothing to do with each other get, in either order, the answers that each
gets alone, and leave the same behind. -/
theorem C101_two (hp : Proper s) (h : Independent s c d) :
    (runAll ⟨false, s⟩ [c, d]).1 = [(step ⟨false, s⟩ c).1, (step ⟨false, s⟩ d).1] ∧
    (runAll ⟨false, s⟩ [d, c]).1 = [(step ⟨false, s⟩ d).1, (step ⟨false, s⟩ c).1] ∧
    SameContents (runAll ⟨false, s⟩ [c, d]).2.st (runAll ⟨false, s⟩ [d, c]).2.st := by
  have hs : ∀ c, (step ⟨false, s⟩ c).2 = ⟨false, (step ⟨false, s⟩ c).2.st⟩ := by
    intro c
    have := step_unlocked s c
    generalize (step ⟨false, s⟩ c).2 = x at this
    obtain ⟨l, st⟩ := x
    cases this
    rfl
  have h' := independent_symm h
  have e1 := congrArg Event.answer (independent_answer hp h)
  have e2 := congrArg Event.answer (independent_answer hp h')
  change (step _ _).1 = (step _ _).1 at e1
  change (step _ _).1 = (step _ _).1 at e2
  have r1 : runAll ⟨false, s⟩ [c, d] = ([(step ⟨false, s⟩ c).1, (step ⟨false, s⟩ d).1],
      (step ⟨false, (step ⟨false, s⟩ c).2.st⟩ d).2) := by
    simp only [runAll]
    rw [hs c, e1]
  have r2 : runAll ⟨false, s⟩ [d, c] = ([(step ⟨false, s⟩ d).1, (step ⟨false, s⟩ c).1],
      (step ⟨false, (step ⟨false, s⟩ d).2.st⟩ c).2) := by
    simp only [runAll]
    rw [hs d, e2]
  rw [r1, r2]
  refine ⟨rfl, rfl, ?_, fun id => ?_, fun name => ?_, fun sig => ⟨?_, ?_, ?_⟩⟩
  · simp only [step_config]
  · simp only [(registered_step h.left).1, (registered_step h.right).1]
  · simp only [(registered_step h.left).2, (registered_step h.right).2]
  · exact Option.ext fun cred => ⟨tokens_both hp h .access sig cred, tokens_both hp h' .access sig cred⟩
  · exact Option.ext fun cred => ⟨tokens_both hp h .refresh sig cred, tokens_both hp h' .refresh sig cred⟩
  · exact Option.ext fun cred => ⟨codes_both hp h sig cred, codes_both hp h' sig cred⟩

/-! ### Many calls -/

theorem sameContents_refl (s : Server) : SameContents s s :=
  ⟨rfl, fun _ => rfl, fun _ => rfl, fun _ => ⟨rfl, rfl, rfl⟩⟩

theorem sameContents_trans {s s' s'' : Server} (h : SameContents s s') (h' : SameContents s' s'') :
    SameContents s s'' :=
  ⟨h.config.trans h'.config, fun i => (h.clients i).trans (h'.clients i),
    fun i => (h.users i).trans (h'.users i), fun i => ⟨(h.stored i).1.trans (h'.stored i).1,
      (h.stored i).2.1.trans (h'.stored i).2.1, (h.stored i).2.2.trans (h'.stored i).2.2⟩⟩

/-- Servers that hold the same answer the same, and hold the same afterwards. -/
theorem sameContents_run {s' : Server} (hp : Proper s) (hp' : Proper s') (h : SameContents s s')
    (cs : List Call) : (runAll ⟨false, s⟩ cs).1 = (runAll ⟨false, s'⟩ cs).1 ∧
    SameContents (runAll ⟨false, s⟩ cs).2.st (runAll ⟨false, s'⟩ cs).2.st := by
  obtain ⟨h1, s₁, s₁', h2, h3, h4⟩ := runAll_like (K := s.config) (C := fun _ => True)
    (U := fun _ => True) (X := fun _ => True) cs
    ⟨h.config, hp, hp', fun i _ => h.clients i, fun i _ => h.users i, fun i _ => h.stored i, rfl⟩
    (fun _ _ _ _ => trivial) (fun _ _ _ _ => trivial) (fun _ _ _ _ _ _ => trivial)
  rw [h2, h3]
  exact ⟨h1, h4.config, fun i => h4.clients i trivial, fun i => h4.users i trivial,
    fun i => h4.at_ i trivial⟩

/-- The server after the calls. -/
theorem runAll_unlocked (s : Server) (cs : List Call) :
    (runAll ⟨false, s⟩ cs).2 = ⟨false, (runAll ⟨false, s⟩ cs).2.st⟩ := by
  induction cs generalizing s with
  | nil => rfl
  | cons c cs ih =>
    have hs : (step ⟨false, s⟩ c).2 = ⟨false, (step ⟨false, s⟩ c).2.st⟩ := by
      have := step_unlocked s c
      generalize (step ⟨false, s⟩ c).2 = x at this
      obtain ⟨l, st⟩ := x
      cases this
      rfl
    simp only [runAll]
    rw [hs]
    exact ih _

theorem runAll_cons (s : Server) (c : Call) (cs : List Call) : runAll ⟨false, s⟩ (c :: cs) =
    ((step ⟨false, s⟩ c).1 :: (runAll ⟨false, (step ⟨false, s⟩ c).2.st⟩ cs).1,
      (runAll ⟨false, (step ⟨false, s⟩ c).2.st⟩ cs).2) := by
  have hs : (step ⟨false, s⟩ c).2 = ⟨false, (step ⟨false, s⟩ c).2.st⟩ := runAll_unlocked s [c]
  simp only [runAll]
  rw [← hs]

theorem proper_run (hp : Proper s) (cs : List Call) : Proper (runAll ⟨false, s⟩ cs).2.st := by
  induction cs generalizing s with
  | nil => exact hp
  | cons c cs ih =>
    rw [runAll_cons]
    exact ih (proper_step hp c)

/-- Two calls stay independent when a third is made that is independent of both. -/
theorem independent_after {x : Call} (hp : Proper s) (hc : Independent s x c) (hd : Independent s x d)
    (h : Independent s c d) : Independent (step ⟨false, s⟩ x).2.st c d := by
  have e1 := independent_answer hp hc
  have e2 := independent_answer hp hd
  have spoils : ∀ {c d}, Independent s x d → ¬ Spoils s (byItself s c) (byItself s d) →
      ¬ Spoils (step ⟨false, s⟩ x).2.st (byItself s c) (byItself s d) := by
    intro c d hd h
    rintro ⟨k, text, t, cred, h1, h2, h3, h4⟩
    rw [step_config] at h2 h4
    refine h ⟨k, text, t, cred, h1, h2, ?_, h4⟩
    have := (independent_agreeOn hp hd).carried text t h1 h2
    cases k with
    | access => exact this.1.trans h3
    | refresh => exact this.2.1.trans h3
  refine ⟨h.left, h.right, ?_, ?_, ?_⟩
  · rw [e1, e2, step_config]
    exact h.apart
  · rw [e1, e2]
    exact spoils hd h.spoils
  · rw [e1, e2]
    exact spoils hc h.spoiled

/-- **C101.** However many calls are made, if no two have to do with each other, each gets the answer that
it would get alone. -/
theorem C101_alone (hp : Proper s) {cs : List Call} (h : cs.Pairwise (Independent s)) :
    (runAll ⟨false, s⟩ cs).1 = cs.map fun c => (step ⟨false, s⟩ c).1 := by
  induction cs generalizing s with
  | nil => rfl
  | cons c cs ih =>
    rw [List.pairwise_cons] at h
    have h' : cs.Pairwise (Independent (step ⟨false, s⟩ c).2.st) := by
      refine List.Pairwise.imp_of_mem ?_ h.2
      intro a b ha hb hab
      exact independent_after hp (h.1 a ha) (h.1 b hb) hab
    rw [runAll_cons, ih (proper_step hp c) h', List.map_cons]
    refine congrArg (List.cons _) (List.map_congr_left ?_)
    intro d hd
    exact congrArg Event.answer (independent_answer hp (h.1 d hd))

/-- **C101.** And in whatever order they are made, the server holds the same afterwards, and gives the same
answers to all that comes later. -/
theorem C101_order (hp : Proper s) {cs cs' : List Call} (hperm : cs.Perm cs')
    (h : cs.Pairwise (Independent s)) :
    SameContents (runAll ⟨false, s⟩ cs).2.st (runAll ⟨false, s⟩ cs').2.st ∧
    ∀ later, (runAll (runAll ⟨false, s⟩ cs).2 later).1 = (runAll (runAll ⟨false, s⟩ cs').2 later).1 := by
  suffices key : SameContents (runAll ⟨false, s⟩ cs).2.st (runAll ⟨false, s⟩ cs').2.st by
    refine ⟨key, fun later => ?_⟩
    rw [runAll_unlocked s cs, runAll_unlocked s cs']
    exact (sameContents_run (proper_run hp _) (proper_run hp _) key later).1
  induction hperm generalizing s with
  | nil => exact sameContents_refl _
  | @cons c cs cs' hperm ih =>
    rw [List.pairwise_cons] at h
    rw [runAll_cons, runAll_cons]
    exact ih (proper_step hp c) (List.Pairwise.imp_of_mem
      (fun ha hb hab => independent_after hp (h.1 _ ha) (h.1 _ hb) hab) h.2)
  | swap c d cs =>
    have hdc : Independent s d c := by
      rw [List.pairwise_cons] at h
      exact h.1 c (List.mem_cons_self ..)
    have h2 := (C101_two hp hdc).2.2
    have hrun : ∀ c d, (runAll ⟨false, s⟩ (c :: d :: cs)).2 =
        (runAll ⟨false, (runAll ⟨false, s⟩ [c, d]).2.st⟩ cs).2 := by
      intro c d
      rw [runAll_cons, runAll_cons, runAll_cons, runAll_cons]
      rfl
    rw [hrun, hrun]
    exact (sameContents_run (proper_run hp _) (proper_run hp _) h2 cs).2
  | trans p1 p2 ih1 ih2 =>
    exact sameContents_trans (ih1 hp h) (ih2 hp (p1.pairwise h fun h => independent_symm h))

/-! ### Calls that are made at the same time -/

theorem runAll_append (x : Shared Server) (cs ds : List Call) : runAll x (cs ++ ds) =
    ((runAll x cs).1 ++ (runAll (runAll x cs).2 ds).1, (runAll (runAll x cs).2 ds).2) := by
  induction cs generalizing x with
  | nil => rfl
  | cons c cs ih =>
    simp only [List.cons_append, runAll, ih]

/-- What a history says is what comes of making its calls. -/
theorem history_runAll {s₀ : Server} {h : List Event} {x : Shared Server} (hh : History s₀ h x) :
    runAll ⟨false, s₀⟩ (h.reverse.map (·.call)) = (h.reverse.map (·.answer), x) := by
  induction hh with
  | start => rfl
  | next c _ ih =>
    rw [List.reverse_cons, List.map_append, List.map_append, runAll_append, ih]
    rfl

/-- **C101.** If no two calls that are made at the same time have to do with each other, then under every
schedule each gets the answer that it would get alone. -/
theorem C101_concurrent {s₀ : Server} {tr : List Act} {w : World} (hp : Proper s₀) (hr : Run s₀ tr w)
    (hd : w.Done) (h : ∀ i j e f, Observed tr i e → Observed tr j f → i ≠ j →
      Independent s₀ e.call f.call) {i : Nat} {e : Event} (he : Observed tr i e) :
    e.answer = (step ⟨false, s₀⟩ e.call).1 := by
  obtain ⟨order, h1, h2, h3, _⟩ := C47_sequential hr hd
  have h4 := history_runAll h1
  have h5 : order.reverse.Pairwise fun a b => Independent s₀ a.2.call b.2.call := by
    have h6 : order.Pairwise fun a b => a.1 ≠ b.1 := List.pairwise_map.mp h2
    rw [List.pairwise_reverse]
    refine List.Pairwise.imp_of_mem ?_ h6
    intro a b ha hb hab
    exact h _ _ _ _ ((h3 b.1 b.2).mpr hb) ((h3 a.1 a.2).mpr ha) hab.symm
  have h6 : ((order.map (·.2)).reverse.map (·.call)).Pairwise (Independent s₀) := by
    rw [← List.map_reverse, List.map_map]
    exact List.pairwise_map.mpr h5
  have h7 := C101_alone hp h6
  rw [h4, List.map_map] at h7
  refine (List.map_inj_left.mp h7) e ?_
  exact List.mem_reverse.mpr (List.mem_map.mpr ⟨(i, e), (h3 i e).mp he, rfl⟩)

/-- **C101.** And when all are answered, the server holds what it holds after making the calls one after
the other, in any order. -/
theorem C101_settled {s₀ : Server} {tr : List Act} {w : World} (hp : Proper s₀) (hr : Run s₀ tr w)
    (hd : w.Done) (h : ∀ i j e f, Observed tr i e → Observed tr j f → i ≠ j →
      Independent s₀ e.call f.call) {es : List (Nat × Event)} (hn : (es.map (·.1)).Nodup)
    (hes : ∀ i e, Observed tr i e ↔ (i, e) ∈ es) :
    SameContents (runAll ⟨false, s₀⟩ (es.map (·.2.call))).2.st w.shared.st := by
  obtain ⟨order, h1, h2, h3, _⟩ := C47_sequential hr hd
  have h4 := history_runAll h1
  have h5 : es.Perm order.reverse := by
    have nodup : ∀ {l : List (Nat × Event)}, (l.map (·.1)).Nodup → l.Nodup := fun h =>
      (List.pairwise_map.mp h).imp fun h h' => h (congrArg Prod.fst h')
    refine (List.perm_ext_iff_of_nodup (nodup hn) ?_).mpr fun a => ?_
    · exact List.pairwise_reverse.mpr ((nodup h2).imp fun h h' => h h'.symm)
    · rw [List.mem_reverse, ← h3 a.1 a.2, hes]
  have h6 : (es.map (·.2.call)).Pairwise (Independent s₀) := by
    refine List.pairwise_map.mpr (List.Pairwise.imp_of_mem ?_ (List.pairwise_map.mp hn))
    intro a b ha hb hab
    exact h _ _ _ _ ((hes a.1 a.2).mpr ha) ((hes b.1 b.2).mpr hb) hab
  have h7 := (C101_order hp (h5.map (·.2.call)) h6).1
  have h8 : order.reverse.map (·.2.call) = (order.map (·.2)).reverse.map (·.call) := by
    rw [← List.map_reverse, List.map_map]
    rfl
  rw [h8, h4] at h7
  exact h7

/-! ### Deciding it -/

/-- The texts that a call carries. -/
def carriedBy (c : Call) : List Str :=
  (match asksToken c with
    | some rq => [rq.code, rq.refreshToken]
    | none => []) ++
  (match asksIntrospection c with
    | some rq => [rq.token]
    | none => []) ++
  (match asksRevocation c with
    | some rq => [rq.token]
    | none => []) ++
  (match c.op with
    | .authorize r _ => match parseBearerToken r with
      | .ok text => [text]
      | .error _ => []
    | _ => [])

theorem carries_mem {c : Call} {text : Str} (h : Carries c text) : text ∈ carriedBy c := by
  unfold carriedBy
  simp only [List.mem_append]
  cases h with
  | code h1 h2 =>
    rw [(asksToken_iff _ _).mp h1]
    exact .inl (.inl (.inl (by simp)))
  | refreshToken h1 h2 =>
    rw [(asksToken_iff _ _).mp h1]
    exact .inl (.inl (.inl (by simp)))
  | introspection h1 =>
    rw [(asksIntrospection_iff _ _).mp h1]
    exact .inl (.inl (.inr (by simp)))
  | revocation h1 =>
    rw [(asksRevocation_iff _ _).mp h1]
    exact .inl (.inr (by simp))
  | bearer h1 =>
    obtain ⟨r, h1, h2⟩ := h1
    rw [h1]
    simp only [(C09_bearer_accept_iff _ _).mpr h2]
    exact .inr (by simp)

/-- The signatures of the tokens and codes an event is about, and maybe more. -/
def concerns (cfg : ServerConfig) (e : Event) : List Str :=
  (carriedBy e.call).filterMap (fun text => match HS256Token.parse cfg.secret text with
    | .ok t => some t.signatureString
    | .error _ => none) ++
  (handed e .access ++ handed e .refresh ++ handedCodes e).filterMap fun text =>
    (cutLastByte 0x2E text).map (·.2)

theorem about_mem {cfg : ServerConfig} {e : Event} {sig : Str} (h : About cfg e sig) :
    sig ∈ concerns cfg e := by
  have hc : ∀ t : HS256Token, (cutLastByte 0x2E t.string).map (·.2) = some t.signatureString := by
    intro t
    have := cutLastByte_append (sep := 0x2E) t.keyString (dot_not_mem_encode t.signature)
    unfold HS256Token.string HS256Token.signatureString
    rw [List.append_assoc, List.singleton_append, this]
    rfl
  unfold concerns
  rw [List.mem_append]
  cases h with
  | carried h1 h2 => exact .inl (List.mem_filterMap.mpr ⟨_, carries_mem h1, by rw [h2]⟩)
  | @handed k t h1 =>
    refine .inr (List.mem_filterMap.mpr ⟨_, ?_, hc t⟩)
    simp only [List.mem_append]
    cases k with
    | access => exact .inl (.inl (hands_handed h1))
    | refresh => exact .inl (.inr (hands_handed h1))
  | @code t h1 =>
    refine .inr (List.mem_filterMap.mpr ⟨_, ?_, hc t⟩)
    simp only [List.mem_append]
    exact .inr (handsCode_handed h1)

/-- The tokens an event carries were not issued for a code that another replays. -/
def unspoilt (s : Server) (e f : Event) : Bool :=
  (carriedBy f.call).all fun text => match HS256Token.parse s.config.secret text with
    | .ok t => [Kind.access, Kind.refresh].all fun k => match (tokens s k).get? t.signatureString with
      | some cred => !decide (Replays s.config e cred.code)
      | none => true
    | .error _ => true

theorem not_spoils {e f : Event} (h : unspoilt s e f = true) : ¬ Spoils s e f := by
  rintro ⟨k, text, t, cred, h1, h2, h3, h4⟩
  have := List.all_eq_true.mp h text (carries_mem h1)
  simp only [h2] at this
  have := List.all_eq_true.mp this k (by cases k <;> simp)
  simp only [h3] at this
  simp [h4] at this

def configures (c : Call) : Bool := match c.op with
  | .configure _ _ => true
  | _ => false

/-- A test for independence. -/
def apart (s : Server) (c d : Call) : Bool :=
  !configures c && !configures d &&
  (concerns s.config (byItself s c)).all (fun sig => !(concerns s.config (byItself s d)).contains sig) &&
  unspoilt s (byItself s c) (byItself s d) && unspoilt s (byItself s d) (byItself s c)

theorem independent_of_apart (h : apart s c d = true) : Independent s c d := by
  unfold apart at h
  simp only [Bool.and_eq_true, Bool.not_eq_true'] at h
  obtain ⟨⟨⟨⟨h1, h2⟩, h3⟩, h4⟩, h5⟩ := h
  refine ⟨fun _ _ h => ?_, fun _ _ h => ?_, fun sig h6 h7 => ?_, not_spoils h4, not_spoils h5⟩
  · simp [configures, h] at h1
  · simp [configures, h] at h2
  · have := List.all_eq_true.mp h3 sig (about_mem h6)
    simp [about_mem h7] at this

theorem pairwise_of_apart {cs : List Call} (h : cs.Pairwise fun c d => apart s c d = true) :
    cs.Pairwise (Independent s) := h.imp fun h => independent_of_apart h

/-! ### Examples -/

/-- A code is redeemed, an access token is revoked, a refresh token is used, tokens are issued to a client and
a code to a user: none of these calls has to do with another. -/
def Demo.several : List Call :=
  [Demo.c3, Demo.c6, Demo.post b!"/token" b!"c1:s1"
    (b!"grant_type=refresh_token&refresh_token=" ++ Demo.r1.string) [31, 32, 33, 34] 1020,
    Demo.c8, Demo.c9]

theorem Demo.several_independent : Demo.several.Pairwise (Independent Demo.s2) :=
  pairwise_of_apart (by decide +kernel)

example : Proper Demo.s2 ∧ Demo.several.Pairwise (Independent Demo.s2) ∧
    (Demo.several.map fun c => (step ⟨false, Demo.s2⟩ c).1.response.statusCode) = [200, 200, 200, 200, 303] :=
  ⟨by decide +kernel, Demo.several_independent, by decide +kernel⟩

example : Independent Demo.s2 Demo.c3 Demo.c6 :=
  independent_of_apart (by decide +kernel)

/-- Two of them at the same time: the second call waits for the mutex while the first is served. -/
def Demo.together : List Act × World :=
  Demo.follow (Demo.world Demo.s2) [] (
    [.invoke 1 Demo.c3] ++ List.replicate 5 (.step 1) ++ [.invoke 2 Demo.c6, .step 2, .step 1, .step 2] ++
    List.replicate 60 (.step 1) ++ List.replicate 60 (.step 2) ++ [.answer 2, .answer 1])

theorem Demo.together_run : Run Demo.s2 Demo.together.1 Demo.together.2 := Demo.follow_run _ .start

theorem Demo.together_independent {i j : Nat} {e f : Event} (h1 : Observed Demo.together.1 i e)
    (h2 : Observed Demo.together.1 j f) (hij : i ≠ j) : Independent Demo.s2 e.call f.call := by
  have key : ∀ x ∈ Demo.events Demo.together.1, ∀ y ∈ Demo.events Demo.together.1, x.1 = y.1 ∨
      apart Demo.s2 x.2.call y.2.call = true := by decide +kernel
  rcases key _ (Demo.mem_events.mpr h1) _ (Demo.mem_events.mpr h2) with h | h
  · exact absurd h hij
  · exact independent_of_apart h

example : Proper Demo.s2 ∧ Run Demo.s2 Demo.together.1 Demo.together.2 ∧ Demo.together.2.Done ∧
    (∀ i j e f, Observed Demo.together.1 i e → Observed Demo.together.1 j f → i ≠ j →
      Independent Demo.s2 e.call f.call) ∧
    (Demo.events Demo.together.1).map (fun x => (x.1, x.2.answer.response.statusCode)) =
      [(2, 200), (1, 200)] :=
  ⟨by decide +kernel, Demo.together_run, Demo.done_of Demo.together_run (by decide +kernel),
    fun _ _ _ _ h1 h2 h => Demo.together_independent h1 h2 h, by decide +kernel⟩

/-- Even a replay is independent of the revocation of a token that was not issued for that code. -/
example : Independent Demo.s4 Demo.c5 Demo.c6 ∧
    ∃ sig, Replays Demo.s4.config (byItself Demo.s4 Demo.c5) sig :=
  ⟨independent_of_apart (by decide +kernel), Demo.x2.signatureString, by decide +kernel⟩

/-- Calls that do have to do with each other may be answered otherwise: the same refresh token is used twice,
and a token that is revoked is presented. -/
example : (runAll ⟨false, Demo.s1⟩ [Demo.c6, Demo.present Demo.a1.string none 1100]).1.map
      (·.response.statusCode) ≠
    ((runAll ⟨false, Demo.s1⟩ [Demo.present Demo.a1.string none 1100, Demo.c6]).1.map
      (·.response.statusCode)).reverse := by decide +kernel

end OAuth2

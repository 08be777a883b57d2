import Verif.Lemmas.ConformanceTests
import Verif.Props.Suite

/-!
What passing the integration tests of package oauth2test says about any server (C78).
-/

namespace OAuth2

open Conformance

section

variable {σ : Type} {handler : Request → Prog σ Unit} {draws : Nat → Suite.Draw} {s : Shared σ}
  {spec : Suite.Spec}

/-- Everything the lemmas about the run give. -/
theorem conforms_shows (hm : Maps spec) (h : Conforms handler draws s spec) :
    Suite.After (Suite.shown spec) (conversation handler draws (Suite.run spec) s 0) := by
  obtain ⟨s', n, h⟩ := h
  exact Suite.plays_run hm _ _ _ _ _ _ _ _ h

theorem mem_whenever {α : Type} {p : Prop} [Decidable p] {rows : List α} {x : α} :
    x ∈ whenever p rows ↔ p ∧ x ∈ rows := by
  unfold whenever
  by_cases h : p
  · simp [h]
  · simp [h]

/-- C78: if the tests pass, then every request in the table was made and answered as the table
says. -/
theorem C78_requirements (hm : Maps spec) (h : Conforms handler draws s spec) :
    ∀ q ∈ requirements spec, ∃ e ∈ conversation handler draws (Suite.run spec) s 0, q.Met e := by
  have h := conforms_shows hm h
  unfold Suite.shown at h
  have h1 := h _ (.head _) trivial
  have h2 := h _ (.tail _ (.head _))
  have h3 := h _ (.tail _ (.tail _ (.head _)))
  have h4 := h _ (.tail _ (.tail _ (.tail _ (.head _))))
  have h5 := h _ (.tail _ (.tail _ (.tail _ (.tail _ (.head _)))))
  have h6 := h _ (.tail _ (.tail _ (.tail _ (.tail _ (.tail _ (.head _))))))
  have h7 := h _ (.tail _ (.tail _ (.tail _ (.tail _ (.tail _ (.tail _ (.head _)))))))
  have h8 := h _ (.tail _ (.tail _ (.tail _ (.tail _ (.tail _ (.tail _ (.tail _ (.head _))))))))
  have h9 := h _ (.tail _ (.tail _ (.tail _ (.tail _ (.tail _ (.tail _ (.tail _ (.tail _
    (.head _)))))))))
  have h10 := h _ (.tail _ (.tail _ (.tail _ (.tail _ (.tail _ (.tail _ (.tail _ (.tail _
    (.tail _ (.head _))))))))))
  intro q hq
  unfold requirements at hq
  simp only [List.mem_append, mem_whenever] at hq
  rcases hq with ((((((((hq | ⟨c, hq⟩) | ⟨c, hq⟩) | ⟨c, hq⟩) | ⟨c, hq⟩) | ⟨c, hq⟩) | ⟨c, hq⟩) |
    ⟨c, hq⟩) | ⟨c, hq⟩) | ⟨c, hq⟩
  · exact h1 q hq
  · refine h2 ?_ q hq
    unfold Grants at c
    show (_ || _ || _ || _) = true
    simp only [Bool.or_eq_true]
    rcases c with c | c | c | c
    · exact .inl (.inl (.inl c))
    · exact .inl (.inl (.inr c))
    · exact .inl (.inr c)
    · exact .inr c
  · refine h3 ?_ q hq
    show (_ || _) = true
    simpa only [Bool.or_eq_true] using c
  · exact (h4 c).1 q hq
  · exact (h5 c).1 q hq
  · exact (h6 c).1 q hq
  · exact (h7 c).1 q (List.mem_append.mpr hq)
  · exact (h8 c).1 q hq
  · exact h9 c q hq
  · exact (h10 c).1 q hq

theorem conversation_mayAnswer {α : Type} {t : Suite.Test α} {s : Shared σ} {n : Nat} {e : Exchange}
    (h : e ∈ conversation handler draws t s n) : MayAnswer handler e.request e.answer := by
  induction t generalizing s n with
  | ret a => cases h
  | panic => cases h
  | check ok k ih => exact ih h
  | send r k ih =>
    unfold conversation at h
    split at h
    · cases h
    · next req hr =>
      split at h
      · next s1 l he =>
        rcases List.mem_cons.mp h with rfl | h
        · exact ⟨s, s1, draws n, l, he, rfl⟩
        · exact ih _ h
      · cases h

/-- C78: a server that cannot give one of the answers in the table does not pass. -/
theorem C78_flawed {q : Requirement} (hm : Maps spec) (hq : q ∈ requirements spec)
    (hflaw : ∀ r w, q.asked r → MayAnswer handler r w → ¬ q.answered w) :
    ¬ Conforms handler draws s spec := by
  intro h
  obtain ⟨e, he, h1, h2⟩ := C78_requirements hm h q hq
  exact hflaw _ _ h1 (conversation_mayAnswer he) h2

/-- C78: with the password grant, the password gave tokens, and these lived as they should. -/
theorem C78_password (hm : Maps spec) (hs : spec.passwordGrantSupport = true)
    (h : Conforms handler draws s spec) :
    ∃ accessToken refreshToken a r, InOrder (conversation handler draws (Suite.run spec) s 0)
      (grantLife spec (owning spec.resourceOwnerUsername spec.resourceOwnerPassword
        spec.validScope) accessToken refreshToken a r) :=
  (conforms_shows hm h _ (.tail _ (.tail _ (.tail _ (.head _)))) hs).2

/-- C78: with the client credentials grant, the credentials gave tokens, and these lived as they
should. -/
theorem C78_client_credentials (hm : Maps spec) (hs : spec.clientCredentialsGrantSupport = true)
    (h : Conforms handler draws s spec) :
    ∃ accessToken refreshToken a r, InOrder (conversation handler draws (Suite.run spec) s 0)
      (grantLife spec (crediting spec.validScope) accessToken refreshToken a r) :=
  (conforms_shows hm h _ (.tail _ (.tail _ (.tail _ (.tail _ (.head _))))) hs).2

/-- C78: with the implicit grant, an access token was given in a fragment, and lived as it should.
-/
theorem C78_implicit (hm : Maps spec) (hs : spec.implicitGrantSupport = true)
    (h : Conforms handler draws s spec) :
    ∃ accessToken, InOrder (conversation handler draws (Suite.run spec) s 0)
      (implicitLife spec accessToken) :=
  (conforms_shows hm h _ (.tail _ (.tail _ (.tail _ (.tail _ (.tail _ (.head _)))))) hs).2

/-- C78: with the authorization code grant, a code that others could not use gave tokens, which
lived as they should, and another code gave tokens only once. -/
theorem C78_code (hm : Maps spec) (hs : spec.authorizationCodeGrantSupport = true)
    (h : Conforms handler draws s spec) :
    ∃ code accessToken refreshToken a r code' accessToken' refreshToken',
      InOrder (conversation handler draws (Suite.run spec) s 0)
        (codeLife spec code accessToken refreshToken a r ++
          codeReplay spec code' accessToken' refreshToken') :=
  (conforms_shows hm h _ (.tail _ (.tail _ (.tail _ (.tail _ (.tail _ (.tail _ (.head _))))))) hs).2

/-- C78: with the refresh token grant, the refresh token of the specification lived as it should. -/
theorem C78_refresh (hm : Maps spec) (hs : spec.refreshTokenGrantSupport = true)
    (h : Conforms handler draws s spec) :
    ∃ a r, InOrder (conversation handler draws (Suite.run spec) s 0)
      (refreshLife spec spec.validRefreshToken a r) :=
  (conforms_shows hm h _ (.tail _ (.tail _ (.tail _ (.tail _ (.tail _ (.tail _ (.tail _
    (.head _)))))))) hs).2

/-- C78: with a revocation endpoint, the access token of the specification lived as it should. -/
theorem C78_revocation (hm : Maps spec) (hs : spec.revocationEndpoint ≠ [])
    (h : Conforms handler draws s spec) :
    InOrder (conversation handler draws (Suite.run spec) s 0) (accessLife spec spec.validToken) :=
  (conforms_shows hm h _ (.tail _ (.tail _ (.tail _ (.tail _ (.tail _ (.tail _ (.tail _ (.tail _
    (.tail _ (.head _)))))))))) hs).2

theorem run_congr {α : Type} {handler' : Request → Prog σ Unit} {t : Suite.Test α} {s : Shared σ}
    {n : Nat} {x : α × Bool × Shared σ × Nat} (hr : t.run handler draws s n = some x)
    (h : ∀ e ∈ conversation handler draws t s n, handler' e.request = handler e.request) :
    t.run handler' draws s n = some x := by
  induction t generalizing s n x with
  | ret a => exact hr
  | panic => cases hr
  | check ok k ih =>
    unfold Suite.Test.run at hr ⊢
    split at hr
    · cases hr
    · next a p s1 n1 hk => rw [ih hk h]; exact hr
  | send r k ih =>
    unfold Suite.Test.run at hr ⊢
    unfold conversation at h
    split at hr
    · cases hr
    · next req hq =>
      split at hr
      · next s1 l he =>
        rw [hq] at h
        simp only at h
        rw [he] at h
        simp only at h ⊢
        rw [h _ List.mem_cons_self, he]
        exact ih _ hr fun e hm => h e (List.mem_cons_of_mem _ hm)
      · cases hr

/-- C78: and this is all there is to it: a server that passes may answer whatever it likes to
requests that were not made. -/
theorem C78_blind {handler' : Request → Prog σ Unit} (h : Conforms handler draws s spec)
    (hsame : ∀ e ∈ conversation handler draws (Suite.run spec) s 0,
      handler' e.request = handler e.request) : Conforms handler' draws s spec := by
  obtain ⟨s', n, h⟩ := h
  exact ⟨s', n, run_congr h hsame⟩

end

/-! The hypotheses are met: by the server that server_test.go sets up. -/

namespace ServerTest

theorem maps : Maps (spec count) := by
  refine ⟨?_, ?_⟩
  · show [b!"username", b!"password"].Nodup
    decide
  · show [b!"username", b!"password"].Nodup
    decide

theorem conforms : Conforms handler run ⟨false, server count noon⟩ (spec count) := by
  obtain ⟨s', n, h, -⟩ := run_passes
  exact ⟨s', n, h⟩

example : ∃ a r a' r', InOrder
    (conversation handler run (Suite.run (spec count)) ⟨false, server count noon⟩ 0)
    (grantLife (spec count) (owning b!"user1" b!"foo" b!"foo bar") a r a' r') :=
  C78_password maps rfl conforms

/-- In the table: the resource is refused without a token. -/
example : ∃ e ∈ conversation handler run (Suite.run (spec count)) ⟨false, server count noon⟩ 0,
    Fetch (spec count) [] e.request ∧ Status 401 e.answer ∧ HasRealm e.answer ∧
      e.answer.body = [] :=
  C78_requirements maps conforms
    ⟨Fetch (spec count) [], fun w => Status 401 w ∧ HasRealm w ∧ w.body = []⟩
    (by simp [requirements, resourceRows])

/-- A server whose resource is open to everybody. -/
def careless (r : Request) : Handler Unit :=
  if b!"/oauth2/".isPrefixOf r.path then Server.serveHTTP r else .respond (·.write b!"OK")

/-- It does not pass, whatever tokens, users and clients it knows. -/
theorem careless_fails (draws : Nat → Suite.Draw) (s : Shared Server) :
    ¬ Conforms careless draws s (spec count) := by
  refine C78_flawed maps (q := ⟨Fetch (spec count) [],
    fun w => Status 401 w ∧ HasRealm w ∧ w.body = []⟩) (by simp [requirements, resourceRows]) ?_
  rintro r w ⟨⟨-, u, hu, hp, -⟩, -⟩ ⟨s, s', d, l, he, hw⟩ ⟨h1, -, -⟩
  have hu' : u = { path := b!"/api/protected" } := by
    have : parseURL b!"/api/protected" = some { path := b!"/api/protected" } := by decide +kernel
    rw [show (spec count).protectedResource = b!"/api/protected" from rfl, this] at hu
    exact (Option.some.inj hu).symm
  subst hu'
  unfold careless at he
  rw [hp, if_neg (by decide)] at he
  cases he
  subst hw
  have : (200 : Nat) = 401 := h1
  cases this

end ServerTest

end OAuth2

import Verif.Spec.Kinds
import Verif.Props.Lives
import Verif.Props.Fresh
import Verif.Props.Secrets
import Verif.Props.Removal
/-
C107: tokens of one kind are worth nothing as tokens of another.
-/

namespace OAuth2

open Spec

variable {s₀ : Server} {h : List Event} {s : Shared Server} {c : Call} {text : Str}

theorem codes_known (h0 : Started s₀) (hh : History s₀ h s) {sig : Str} {cred : ServerCredential}
    (hs : s.st.authorizationCodes.get? sig = some cred) : ∃ e ∈ h, ∃ x, HandsCode e x ∧ x.signatureString = sig := by
  induction hh generalizing cred with
  | start =>
    have : s₀.authorizationCodes.get? sig = some cred := hs
    rw [h0.codes] at this
    cases this
  | @next h s c hh ih =>
    obtain ⟨st, rfl, _⟩ := history_state h0 hh
    rcases (C73_codes st c sig cred).mp hs with ⟨x, _, _, _, h1, h2, _⟩ | ⟨_, old, h1, _⟩
    · exact ⟨_, List.mem_cons_self, x, h1, h2⟩
    · obtain ⟨e, he, x, h2⟩ := ih h1
      exact ⟨e, List.mem_cons_of_mem _ he, x, h2⟩

theorem tokens_known (h0 : Started s₀) (hh : History s₀ h s) {k : Kind} {sig : Str} {cred : ServerCredential}
    (hs : (tokens s.st k).get? sig = some cred) : ∃ e ∈ h, ∃ x, Hands e k x ∧ x.signatureString = sig := by
  apply Classical.byContradiction
  intro hn
  have := C73_gone (started_keysOnce h0) hh (k := k) (sig := sig)
    (by cases k <;> simp only [tokens, h0.access, h0.refresh] <;> rfl)
    (fun e he t ht hx => hn ⟨e, he, t, ht, hx⟩)
  rw [this] at hs
  cases hs

/-- **C107.** A text under whose signature no access token was handed out is not admitted; one under whose signature no
refresh token was handed out refreshes nothing; one under whose signature no code was handed out is not exchanged, and
does not count as a code that turns up again. Using it so is in vain. -/
theorem C107_never (h0 : Started s₀) (hh : History s₀ h s) {kind : TokenSort}
    (hn : NeverAs s₀.config h kind text) (hu : UsesAs c kind text) : InVain s c := by
  have hh₀ := hh
  obtain ⟨st, rfl, ex⟩ := history_state h0 hh
  cases kind with
  | access =>
    obtain ⟨required, hu⟩ := hu
    have hna : (step ⟨false, st⟩ c).1 ≠ .admitted := by
      rw [ne_eq, C73_admits_iff]
      rintro ⟨required', text', t', cred, h3, h4, h5, _⟩
      obtain rfl := presents_unique hu h3
      obtain ⟨e, he, x, hx, hxs⟩ := tokens_known h0 hh₀ (k := .access) h5
      exact hn e he x hx ⟨t', ex.config ▸ h4, hxs.symm⟩
    obtain ⟨r, hop, _⟩ := hu
    refine ⟨hna, ?_, by rw [step_authorize hop]⟩
    have o : Quiet s₀.config ⟨c, (step ⟨false, st⟩ c).1⟩ := by
      refine (silent_of_answer ?_).quiet
      rw [step_authorize hop]
      simp only
      split <;> exact fun res hh => nomatch hh
    exact ⟨fun k t => o.not_hands, fun x hx => nomatch (o.code x).mp hx⟩
  | refresh =>
    obtain ⟨rq, hc, hg, rfl⟩ := hu
    obtain ⟨r, hop, hp, hq⟩ := hc
    rw [lastSegment_iff] at hp
    refine ⟨?_, ?_⟩
    · rw [step_serve hop]
      intro ha
      cases hx : (st.handle r c.local).1 <;> rw [hx] at ha <;> cases ha
    obtain ⟨reply, st', h1, h2, _⟩ := step_served hop st
    rw [h1]
    have quiet : Quiet st.config ⟨c, reply.answer⟩ → GivesNothing ⟨c, reply.answer⟩ :=
      fun o => ⟨fun k t => o.not_hands, fun x hx => nomatch (o.code x).mp hx⟩
    have same : ∀ {rq'}, Server.TokenRequestFor st r rq' → rq' = rq := by
      intro rq' hf
      have := hf.parsed
      rw [hq] at this
      cases this
      rfl
    cases h2 with
    | notFound _ h2 => exact absurd hp h2
    | refused e hs hr hp hh hcode hrev => exact ⟨quiet (quiet_refused hop hs hr hh), rfl⟩
    | crash hs hp => exact ⟨quiet (silent_of_answer (by intro res hh; cases hh)).quiet, rfl⟩
    | notice rq hf hm => exact absurd (hp.symm.trans hf.path) (by decide)
    | introspect rq hp' => exact absurd (hp.symm.trans hp') (by decide)
    | refusedRedirect rq hf hm err herr => exact absurd (hp.symm.trans hf.path) (by decide)
    | replay rq' hf ht =>
      obtain rfl := same hf
      exact absurd (ht.symm.trans hg) (by decide)
    | revokeHalf rq hp' => exact absurd (hp.symm.trans hp') (by decide)
    | revoke rq hp' => exact absurd (hp.symm.trans hp') (by decide)
    | implicit rq hf hm ht hs hu a hg => exact absurd (hp.symm.trans hf.path) (by decide)
    | code rq hf hm ht hs hu x rest hg => exact absurd (hp.symm.trans hf.path) (by decide)
    | password rq' hf ht =>
      obtain rfl := same hf
      exact absurd (ht.symm.trans hg) (by decide)
    | client rq' hf ht =>
      obtain rfl := same hf
      exact absurd (ht.symm.trans hg) (by decide)
    | exchange rq' hf ht =>
      obtain rfl := same hf
      exact absurd (ht.symm.trans hg) (by decide)
    | refresh rq' hf ht x hx stored hst =>
      obtain rfl := same hf
      obtain ⟨e, he, y, hy, hys⟩ := tokens_known h0 hh₀ (k := .refresh) hst
      exact (hn e he y hy ⟨x, ex.config ▸ hx, hys.symm⟩).elim
  | code =>
    obtain ⟨rq, hc, hg, rfl⟩ := hu
    obtain ⟨r, hop, hp, hq⟩ := hc
    rw [lastSegment_iff] at hp
    refine ⟨?_, ?_⟩
    · rw [step_serve hop]
      intro ha
      cases hx : (st.handle r c.local).1 <;> rw [hx] at ha <;> cases ha
    obtain ⟨reply, st', h1, h2, _⟩ := step_served hop st
    rw [h1]
    have quiet : Quiet st.config ⟨c, reply.answer⟩ → GivesNothing ⟨c, reply.answer⟩ :=
      fun o => ⟨fun k t => o.not_hands, fun x hx => nomatch (o.code x).mp hx⟩
    have same : ∀ {rq'}, Server.TokenRequestFor st r rq' → rq' = rq := by
      intro rq' hf
      have := hf.parsed
      rw [hq] at this
      cases this
      rfl
    cases h2 with
    | notFound _ h2 => exact absurd hp h2
    | refused e hs hr hp hh hcode hrev => exact ⟨quiet (quiet_refused hop hs hr hh), rfl⟩
    | crash hs hp => exact ⟨quiet (silent_of_answer (by intro res hh; cases hh)).quiet, rfl⟩
    | notice rq hf hm => exact absurd (hp.symm.trans hf.path) (by decide)
    | introspect rq hp' => exact absurd (hp.symm.trans hp') (by decide)
    | refusedRedirect rq hf hm err herr => exact absurd (hp.symm.trans hf.path) (by decide)
    | replay rq' hf ht x hx stored hst =>
      obtain rfl := same hf
      obtain ⟨e, he, y, hy, hys⟩ := codes_known h0 hh₀ hst
      exact (hn e he y hy ⟨x, ex.config ▸ hx, hys.symm⟩).elim
    | revokeHalf rq hp' => exact absurd (hp.symm.trans hp') (by decide)
    | revoke rq hp' => exact absurd (hp.symm.trans hp') (by decide)
    | implicit rq hf hm ht hs hu a hg => exact absurd (hp.symm.trans hf.path) (by decide)
    | code rq hf hm ht hs hu x rest hg => exact absurd (hp.symm.trans hf.path) (by decide)
    | password rq' hf ht =>
      obtain rfl := same hf
      exact absurd (ht.symm.trans hg) (by decide)
    | client rq' hf ht =>
      obtain rfl := same hf
      exact absurd (ht.symm.trans hg) (by decide)
    | exchange rq' hf ht x hx stored hst =>
      obtain rfl := same hf
      obtain ⟨e, he, y, hy, hys⟩ := codes_known h0 hh₀ hst
      exact (hn e he y hy ⟨x, ex.config ▸ hx, hys.symm⟩).elim
    | refresh rq' hf ht =>
      obtain rfl := same hf
      exact absurd (ht.symm.trans hg) (by decide)

/-- **C107.** What was handed out as a token of one kind is worth nothing as a token of another, however it is spelled, as
long as tokens of different kinds do not have the same signature. -/
theorem C107_kinds (h0 : Started s₀) (hh : History s₀ h s) (hd : KindsApart h) {e : Event} (he : e ∈ h)
    {i j : TokenSort} {t : HS256Token} (ht : HandsAs e i t) (hx : SameToken s₀.config text t) (hij : i ≠ j)
    (hu : UsesAs c j text) : InVain s c := by
  refine C107_never h0 hh (fun e' he' t' ht' hx' => hij ?_) hu
  obtain ⟨x, h1, h2⟩ := hx
  obtain ⟨x', h3, h4⟩ := hx'
  rw [h1] at h3
  cases h3
  exact hd e he e' he' i j t t' ht ht' (h2.symm.trans h4)

theorem hands_not_code {e : Event} {k : Kind} {t x : HS256Token} (h1 : Hands e k t) (h2 : HandsCode e x) : False := by
  obtain ⟨rq, u, res, hc, hr, _⟩ := h2
  rcases h1 with ⟨rq', res', hc', _⟩ | ⟨_, rq', u', res', hc', hr', _⟩
  · obtain ⟨r, hop, hp, _⟩ := hc
    obtain ⟨r', hop', hp', _⟩ := hc'
    rw [hop] at hop'
    cases hop'
    rw [lastSegment_iff] at hp hp'
    exact absurd (hp.symm.trans hp') (by decide)
  · obtain ⟨r, hop, _, _, hq, _⟩ := hc
    obtain ⟨r', hop', _, _, hq', _⟩ := hc'
    rw [hop] at hop'
    cases hop'
    rw [hq] at hq'
    cases hq'
    exact absurd (hr.symm.trans hr') (by decide)

theorem handsAs_issues {e : Event} {i : TokenSort} {t : HS256Token} (h : HandsAs e i t) : Issues e t := by
  cases i with
  | access => exact .inl ⟨_, h⟩
  | refresh => exact .inl ⟨_, h⟩
  | code => exact .inr h

/-- Keys that do not repeat keep the kinds apart. -/
theorem fresh_kindsApart (h0 : Started s₀) (hh : History s₀ h s) (hf : Fresh s₀.config h) : KindsApart h := by
  intro x hx y hy i j t t' ht ht' hs
  obtain ⟨new, old, rfl⟩ := List.append_of_mem hx
  rcases List.mem_append.mp hy with hy | hy
  · exact absurd hs.symm (fresh_new h0 hh hf hy (handsAs_issues ht) (handsAs_issues ht'))
  rcases List.mem_cons.mp hy with rfl | hy
  · cases i <;> cases j
    case access.access => rfl
    case refresh.refresh => rfl
    case code.code => rfl
    case access.refresh => exact absurd hs (fresh_within h0 hh hf ht ht')
    case refresh.access => exact absurd hs.symm (fresh_within h0 hh hf ht' ht)
    all_goals first | exact (hands_not_code ht ht').elim | exact (hands_not_code ht' ht).elim
  · exact absurd hs (fresh_old h0 hh hf hy (handsAs_issues ht) (handsAs_issues ht'))

/-- **C107.** With keys that do not repeat, what was handed out as a token of one kind is worth nothing as a token of
another. -/
theorem C107_fresh (h0 : Started s₀) (hh : History s₀ h s) (hf : Fresh s₀.config h) {e : Event} (he : e ∈ h)
    {i j : TokenSort} {t : HS256Token} (ht : HandsAs e i t) (hx : SameToken s₀.config text t) (hij : i ≠ j)
    (hu : UsesAs c j text) : InVain s c :=
  C107_kinds h0 hh (fresh_kindsApart h0 hh hf) he ht hx hij hu

/-- **C107.** Revoking what was handed out neither as an access token nor as a refresh token, such as a code, changes
nothing. -/
theorem C107_not_revoked (h0 : Started s₀) (hh : History s₀ h s) (ha : NeverAs s₀.config h .access text)
    (hr : NeverAs s₀.config h .refresh text) {rq : RevocationRequest} (hc : AsksRevocation c rq) (ht : rq.token = text) :
    (step s c).2 = s := by
  have hh₀ := hh
  obtain ⟨st, rfl, ex⟩ := history_state h0 hh
  subst ht
  have none : ∀ k t, HS256Token.parse st.config.secret rq.token = .ok t → (tokens st k).get? t.signatureString = none := by
    intro k t hx
    cases hg : (tokens st k).get? t.signatureString with
    | none => rfl
    | some cred =>
      obtain ⟨e, he, y, hy, hys⟩ := tokens_known h0 hh₀ (k := k) hg
      cases k with
      | access => exact (ha e he y hy ⟨t, ex.config ▸ hx, hys.symm⟩).elim
      | refresh => exact (hr e he y hy ⟨t, ex.config ▸ hx, hys.symm⟩).elim
  obtain ⟨r, hop, hp, hq⟩ := hc
  rw [lastSegment_iff] at hp
  obtain ⟨reply, st', h1, h2, _⟩ := step_served hop st
  rw [h1]
  have no : ∀ {rq'}, ¬ Server.TokenRequestFor st r rq' :=
    fun hf => absurd (hp.symm.trans hf.path) (by decide)
  have no' : ∀ {rq'}, ¬ Server.AuthorizationFor st r rq' :=
    fun hf => absurd (hp.symm.trans hf.path) (by decide)
  cases h2 with
  | notFound _ h2 => rfl
  | refused e hs hr hp hh hcode hrev => rfl
  | crash hs hp => rfl
  | notice rq hf hm => rfl
  | introspect rq hp' => rfl
  | refusedRedirect rq hf hm err herr => rfl
  | replay rq' hf ht => exact (no hf).elim
  | revokeHalf rq' hp' hq' hc' t ht' ca hca =>
    rw [hq] at hq'
    cases hq'
    have := none .access t ht'
    simp only [tokens] at this
    rw [this] at hca
    cases hca
  | revoke rq' hp' hq' hc' t ht' =>
    rw [hq] at hq'
    cases hq'
    have h3 := none .access t ht'
    have h4 := none .refresh t ht'
    simp only [tokens] at h3 h4
    rw [Server.del_of_none h3, Server.del_of_none h4]
  | implicit rq hf hm ht hs hu a hg => exact (no' hf).elim
  | code rq hf hm ht hs hu x rest hg => exact (no' hf).elim
  | password rq' hf ht => exact (no hf).elim
  | client rq' hf ht => exact (no hf).elim
  | exchange rq' hf ht => exact (no hf).elim
  | refresh rq' hf ht => exact (no hf).elim

theorem demo_apart : KindsApart [Demo.e1] := by
  have hc : ∀ x, ¬ HandsCode Demo.e1 x := by
    rintro x ⟨rq, u, res, hcall, _⟩
    obtain ⟨r, hop, hp, _⟩ := hcall
    cases hop
    exact absurd hp (by decide +kernel)
  have ha : ∀ {x}, Hands Demo.e1 .access x → x.signatureString = Demo.a1.signatureString :=
    fun h => by rw [hands_only (a := Demo.a1) (by decide +kernel) h]
  have hr : ∀ {x}, Hands Demo.e1 .refresh x → x.signatureString = Demo.r1.signatureString :=
    fun h => by rw [hands_only (a := Demo.r1) (by decide +kernel) h]
  have hne : Demo.a1.signatureString ≠ Demo.r1.signatureString := by decide +kernel
  intro e he e' he' i j t t' h1 h2 h3
  obtain rfl := List.mem_singleton.mp he
  obtain rfl := List.mem_singleton.mp he'
  cases i <;> cases j
  case access.access => rfl
  case refresh.refresh => rfl
  case code.code => rfl
  case access.refresh => exact (hne ((ha h1).symm.trans (h3.trans (hr h2)))).elim
  case refresh.access => exact (hne ((ha h2).symm.trans (h3.symm.trans (hr h1)))).elim
  all_goals first | exact (hc _ h1).elim | exact (hc _ h2).elim

theorem demo_never : NeverAs Demo.server.config [Demo.e2, Demo.e1] .access Demo.x2.string ∧
    NeverAs Demo.server.config [Demo.e2, Demo.e1] .refresh Demo.x2.string := by
  have hx : HS256Token.parse Demo.server.config.secret Demo.x2.string = .ok Demo.x2 := by decide +kernel
  have key : ∀ {t}, SameToken Demo.server.config Demo.x2.string t →
      Demo.x2.signatureString = t.signatureString := by
    rintro t ⟨t', h1, h2⟩
    rw [hx] at h1
    cases h1
    exact h2
  constructor
  · intro e he t ht hs
    rcases List.mem_cons.mp he with rfl | he
    · exact hands_none (by decide +kernel) ht
    · obtain rfl := List.mem_singleton.mp he
      have := key hs
      rw [hands_only (a := Demo.a1) (by decide +kernel) ht] at this
      exact absurd this (by decide +kernel)
  · intro e he t ht hs
    rcases List.mem_cons.mp he with rfl | he
    · exact hands_none (by decide +kernel) ht
    · obtain rfl := List.mem_singleton.mp he
      have := key hs
      rw [hands_only (a := Demo.r1) (by decide +kernel) ht] at this
      exact absurd this (by decide +kernel)

/-- Non-vacuity: a code that was handed out is given to the revocation endpoint. -/
example : Started Demo.server ∧ History Demo.server [Demo.e2, Demo.e1] ⟨false, Demo.s2⟩ ∧ HandsCode Demo.e2 Demo.x2 ∧
    NeverAs Demo.server.config [Demo.e2, Demo.e1] .access Demo.x2.string ∧
    NeverAs Demo.server.config [Demo.e2, Demo.e1] .refresh Demo.x2.string ∧
    AsksRevocation (Demo.post b!"/oauth2/revoke" b!"c1:s1" (b!"token=" ++ Demo.x2.string) [] 100)
      { token := Demo.x2.string, clientID := b!"c1", clientSecret := b!"s1" } :=
  ⟨Demo.started, Demo.history2, by decide +kernel, demo_never.1, demo_never.2,
    ⟨_, rfl, by decide +kernel, by decide +kernel⟩⟩

/-- Non-vacuity: a refresh token and an access token that were handed out, and calls that use the one as a bearer token
and the other as a refresh token and as a code. -/
example : Started Demo.server ∧ History Demo.server [Demo.e1] ⟨false, Demo.s1⟩ ∧ KindsApart [Demo.e1] ∧
    HandsAs Demo.e1 .refresh Demo.r1 ∧ SameToken Demo.server.config Demo.r1.string Demo.r1 ∧
    UsesAs (Demo.present Demo.r1.string [b!"foo"] 100) .access Demo.r1.string ∧
    HandsAs Demo.e1 .access Demo.a1 ∧ SameToken Demo.server.config Demo.a1.string Demo.a1 ∧
    UsesAs (Demo.post b!"/oauth2/token" [] (b!"grant_type=refresh_token&client_id=c1&client_secret=s1&refresh_token=" ++
      Demo.a1.string) [] 100) .refresh Demo.a1.string ∧
    UsesAs (Demo.post b!"/oauth2/token" [] (b!"grant_type=authorization_code&client_id=c1&client_secret=s1&code=" ++
      Demo.a1.string) [] 100) .code Demo.a1.string := by
  refine ⟨Demo.started, Demo.history1, demo_apart, by unfold HandsAs; decide +kernel,
    ⟨Demo.r1, by decide +kernel, rfl⟩, ⟨[b!"foo"], _, rfl, (C09_bearer_accept_iff _ _).mp (by decide +kernel)⟩, by unfold HandsAs; decide +kernel,
    ⟨Demo.a1, by decide +kernel, rfl⟩,
    ⟨{ grantType := b!"refresh_token", clientID := b!"c1", clientSecret := b!"s1", refreshToken := Demo.a1.string },
      ⟨_, rfl, by decide +kernel, by decide +kernel⟩, rfl, rfl⟩,
    ⟨{ grantType := b!"authorization_code", clientID := b!"c1", clientSecret := b!"s1", code := Demo.a1.string },
      ⟨_, rfl, by decide +kernel, by decide +kernel⟩, rfl, rfl⟩⟩

end OAuth2

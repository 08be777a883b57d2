import Verif.Spec.Strangers
import Verif.Props.Local

/-! What a call leaves alone, and two parties side by side. -/

namespace OAuth2

open Spec

variable {K : ServerConfig} {c : Call} {s s' : Server}

/-! ### One call -/

theorem gen_draws_key {coins rest : Str} {t : HS256Token} (hc : c.coins = coins)
    (h : Server.gen K coins = some (t, rest)) : Draws K c t.signatureString := by
  obtain ⟨_, _, h3, _⟩ := Server.gen_some h
  refine ⟨0, by omega, ?_⟩
  rw [h3]
  unfold signatureOf draw
  rw [hc]
  simp

theorem mint_draws_key {coins : Str} {w : Bool} {a : HS256Token} {b : Option HS256Token}
    (hc : c.coins = coins) (h : Server.mint K w coins = some (a, b)) :
    Draws K c a.signatureString ∧ ∀ t, b = some t → Draws K c t.signatureString := by
  unfold Server.mint at h
  cases hg : Server.gen K coins with
  | none => rw [hg] at h; cases h
  | some x =>
    obtain ⟨a', rest⟩ := x
    rw [hg] at h
    simp only at h
    have ha := gen_draws_key hc hg
    cases w with
    | false =>
      cases h
      exact ⟨ha, fun t ht => by cases ht⟩
    | true =>
      simp only [if_true] at h
      cases hg2 : Server.gen K rest with
      | none => rw [hg2] at h; cases h
      | some y =>
        obtain ⟨b', rest'⟩ := y
        rw [hg2] at h
        cases h
        refine ⟨ha, fun t ht => ?_⟩
        cases ht
        obtain ⟨_, _, _, h4⟩ := Server.gen_some hg
        obtain ⟨_, _, h5, _⟩ := Server.gen_some hg2
        refine ⟨1, by omega, ?_⟩
        rw [h5, h4]
        unfold signatureOf draw
        rw [hc, Nat.one_mul]

/-- What a call can do to what is stored under a signature that it does not draw. -/
def Kept (K : ServerConfig) (c : Call) (m m' : GoMap ServerCredential) : Prop :=
  ∀ sig, ¬ Draws K c sig → m'.get? sig = m.get? sig ∨
    m'.get? sig = none ∧ (Names K c sig ∨ ∃ cred, m.get? sig = some cred ∧ Names K c cred.code)

/-- Where tokens come from. -/
def Rooted (s : Server) (m m' : GoMap ServerCredential) : Prop :=
  ∀ sig cred, m'.get? sig = some cred → m.get? sig = some cred ∨ cred.code = [] ∨
    ∃ x, s.authorizationCodes.get? cred.code = some x

/-- What a call can do. -/
structure Frame (K : ServerConfig) (c : Call) (s s' : Server) : Prop where
  config : s'.config = s.config
  clients : s'.clients = s.clients
  users : s'.users = s.users
  access : Kept K c s.accessTokens s'.accessTokens
  refresh : Kept K c s.refreshTokens s'.refreshTokens
  codes : ∀ sig, ¬ Draws K c sig →
    s'.authorizationCodes.get? sig = s.authorizationCodes.get? sig ∨
      Names K c sig ∧ ∃ cred, s.authorizationCodes.get? sig = some cred
  accessRoot : Rooted s s.accessTokens s'.accessTokens
  refreshRoot : Rooted s s.refreshTokens s'.refreshTokens

theorem Kept.refl (m : GoMap ServerCredential) : Kept K c m m := fun _ _ => .inl rfl

theorem Rooted.refl (m : GoMap ServerCredential) : Rooted s m m := fun _ _ h => .inl h

theorem Frame.refl (s : Server) : Frame K c s s :=
  ⟨rfl, rfl, rfl, .refl _, .refl _, fun _ _ => .inl rfl, .refl _, .refl _⟩

theorem Kept.set {sig : Str} (h : Draws K c sig) (m : GoMap ServerCredential) (v : ServerCredential) :
    Kept K c m (m.set sig v) := by
  intro x hx
  rw [GoMap.get?_set, if_neg (fun e : x = sig => hx (e ▸ h))]
  exact .inl rfl

theorem Kept.del {sig : Str} (h : Names K c sig) (m : GoMap ServerCredential) :
    Kept K c m (m.del sig) := by
  intro x hx
  rw [GoMap.get?_del]
  by_cases e : x = sig
  · rw [if_pos e]; exact .inr ⟨rfl, .inl (e ▸ h)⟩
  · rw [if_neg e]; exact .inl rfl

theorem Kept.deleteByCode {sig : Str} (h : Names K c sig) {m : GoMap ServerCredential}
    (hm : m.keys.Nodup) : Kept K c m (Server.deleteByCode m sig) := by
  intro x hx
  cases hg : m.get? x with
  | none =>
    left
    cases hd : (Server.deleteByCode m sig).get? x with
    | none => rfl
    | some cred =>
      have := ((get?_deleteByCode hm _ _ _).mp hd).1
      rw [hg] at this
      cases this
  | some cred =>
    by_cases e : cred.code = sig
    · right
      refine ⟨?_, .inr ⟨cred, rfl, e ▸ h⟩⟩
      cases hd : (Server.deleteByCode m sig).get? x with
      | none => rfl
      | some cred' =>
        obtain ⟨h1, h2⟩ := (get?_deleteByCode hm _ _ _).mp hd
        rw [hg] at h1
        cases h1
        exact absurd e h2
    · exact .inl ((get?_deleteByCode hm _ _ _).mpr ⟨hg, e⟩)

theorem Rooted.set {sig : Str} {m : GoMap ServerCredential} {v : ServerCredential}
    (h : v.code = [] ∨ ∃ x, s.authorizationCodes.get? v.code = some x) : Rooted s m (m.set sig v) := by
  intro x cred hx
  rw [GoMap.get?_set] at hx
  split at hx
  · cases hx; exact .inr h
  · exact .inl hx

theorem Rooted.del (sig : Str) (m : GoMap ServerCredential) : Rooted s m (m.del sig) := by
  intro x cred hx
  rw [GoMap.get?_del] at hx
  split at hx
  · cases hx
  · exact .inl hx

theorem Rooted.deleteByCode (sig : Str) {m : GoMap ServerCredential} (hm : m.keys.Nodup) :
    Rooted s m (Server.deleteByCode m sig) :=
  fun _ _ hx => .inl ((get?_deleteByCode hm _ _ _).mp hx).1

theorem grant_frame {a : HS256Token} {b : Option HS256Token}
    (ha : Draws K c a.signatureString) (hb : ∀ t, b = some t → Draws K c t.signatureString)
    (t₁ t₂ : Time) {cred : ServerCredential}
    (hr : cred.code = [] ∨ ∃ x, s.authorizationCodes.get? cred.code = some x) :
    Frame K c s (s.grant a b t₁ t₂ cred) := by
  refine ⟨rfl, rfl, rfl, .set ha _ _, ?_, fun _ _ => .inl rfl, .set hr, ?_⟩
  · cases b with
    | none => exact .refl _
    | some b => exact .set (hb b rfl) _ _
  · cases b with
    | none => exact .refl _
    | some b => exact .set hr

/-- What a request can do. -/
theorem step_frame (hK : s.config = K) (hp : Proper s) (hc : ∀ clients users, c.op ≠ .configure clients users) :
    Frame K c s (step ⟨false, s⟩ c).2.st := by
  cases hop : c.op with
  | configure clients users => exact absurd hop (hc _ _)
  | authorize r required => rw [step_authorize hop]; exact .refl s
  | serve r =>
    obtain ⟨reply, s', h1, h2, _⟩ := step_served hop s
    rw [h1]
    show Frame K c s s'
    have asksT : ∀ {rq}, Server.TokenRequestFor s r rq → AsksToken c rq := fun h =>
      ⟨r, hop, (lastSegment_iff _ _).mpr h.path, h.parsed⟩
    have hl : c.coins = c.local.coins := rfl
    cases h2 with
    | implicit rq h hm ht hs hu a hg =>
      rw [hK] at hg
      obtain ⟨d1, d2⟩ := mint_draws_key hl hg
      exact grant_frame d1 d2 _ _ (.inl rfl)
    | code rq h hm ht hs hu x rest hg =>
      rw [hK] at hg
      have d1 := gen_draws_key hl hg
      refine ⟨rfl, rfl, rfl, .refl _, .refl _, fun sig hx => ?_, .refl _, .refl _⟩
      simp only [GoMap.get?_set]
      rw [if_neg (fun e : sig = x.signatureString => hx (e ▸ d1))]
      exact .inl rfl
    | password rq h ht hs hu a b hg =>
      rw [hK] at hg
      obtain ⟨d1, d2⟩ := mint_draws_key hl hg
      exact grant_frame d1 d2 _ _ (.inl rfl)
    | client rq h ht hc' hs a b hg =>
      rw [hK] at hg
      obtain ⟨d1, d2⟩ := mint_draws_key hl hg
      exact grant_frame d1 d2 _ _ (.inl rfl)
    | replay rq h ht x hx stored hst hu =>
      rw [hK] at hx
      have hn : Names K c x.signatureString := ⟨_, x, .code (asksT h) ht, hx, rfl⟩
      exact ⟨rfl, rfl, rfl, .deleteByCode hn hp.1, .deleteByCode hn hp.2.1, fun _ _ => .inl rfl,
        .deleteByCode _ hp.1, .deleteByCode _ hp.2.1⟩
    | exchange rq h ht x hx stored hst hu hx' ho hr a b hg =>
      rw [hK] at hx hg
      have hn : Names K c x.signatureString := ⟨_, x, .code (asksT h) ht, hx, rfl⟩
      obtain ⟨d1, d2⟩ := mint_draws_key hl hg
      have f := grant_frame (s := s) (c := c) d1 d2 (c.local.clock (c.local.tick + 1))
        (c.local.clock (c.local.tick + 2)) 
        (cred := { clientID := rq.clientID, username := stored.username, scope := stored.scope, code := x.signatureString })
        (.inr ⟨_, hst⟩)
      refine ⟨rfl, rfl, rfl, f.access, f.refresh, fun sig hx => ?_, f.accessRoot, f.refreshRoot⟩
      simp only [GoMap.get?_update]
      by_cases e : sig = x.signatureString
      · exact .inr ⟨e ▸ hn, stored, e ▸ hst⟩
      · rw [if_neg e]; exact .inl rfl
    | refresh rq h ht t ht' stored hst hx ho scope hsc hs a b hg =>
      rw [hK] at ht' hg
      have hn : Names K c t.signatureString := ⟨_, t, .refreshToken (asksT h) ht, ht', rfl⟩
      obtain ⟨d1, d2⟩ := mint_draws_key hl hg
      have f := grant_frame (s := s) (c := c) d1 d2 (c.local.clock (c.local.tick + 1))
        (c.local.clock (c.local.tick + 2)) 
        (cred := { clientID := rq.clientID, username := stored.username, scope := scope }) (.inl rfl)
      refine ⟨rfl, rfl, rfl, f.access, fun sig hx => ?_, f.codes, f.accessRoot, ?_⟩
      · simp only [GoMap.get?_del]
        by_cases e : sig = t.signatureString
        · rw [if_pos e]; exact .inr ⟨rfl, .inl (e ▸ hn)⟩
        · rw [if_neg e]; exact f.refresh sig hx
      · intro sig cred hx
        simp only [GoMap.get?_del] at hx
        split at hx
        · cases hx
        · exact f.refreshRoot sig cred hx
    | revoke rq hp' hq hc' t ht ha hr =>
      rw [hK] at ht
      have hn : Names K c t.signatureString :=
        ⟨_, t, .revocation ⟨r, hop, (lastSegment_iff _ _).mpr hp', hq⟩, ht, rfl⟩
      exact ⟨rfl, rfl, rfl, .del hn _, .del hn _, fun _ _ => .inl rfl, .del _ _, .del _ _⟩
    | revokeHalf rq hp' hq hc' t ht =>
      rw [hK] at ht
      have hn : Names K c t.signatureString :=
        ⟨_, t, .revocation ⟨r, hop, (lastSegment_iff _ _).mpr hp', hq⟩, ht, rfl⟩
      exact ⟨rfl, rfl, rfl, .del hn _, .refl _, fun _ _ => .inl rfl, .del _ _, .refl _⟩
    | _ => exact .refl s

/-! ### A party on a server of its own -/

/-- Everything that is stored was drawn by the party, and so were the codes it came from. -/
structure Own (D : Str → Prop) (s : Server) : Prop where
  access : ∀ sig cred, s.accessTokens.get? sig = some cred → D sig ∧ (cred.code = [] ∨ D cred.code)
  refresh : ∀ sig cred, s.refreshTokens.get? sig = some cred → D sig ∧ (cred.code = [] ∨ D cred.code)
  codes : ∀ sig cred, s.authorizationCodes.get? sig = some cred → D sig

theorem Own.step {D : Str → Prop} (h : Own D s) (f : Frame K c s s') (hD : ∀ sig, Draws K c sig → D sig) :
    Own D s' := by
  have tokens : ∀ {m m'}, Kept K c m m' → Rooted s m m' →
      (∀ sig cred, m.get? sig = some cred → D sig ∧ (cred.code = [] ∨ D cred.code)) →
      ∀ sig cred, m'.get? sig = some cred → D sig ∧ (cred.code = [] ∨ D cred.code) := by
    intro m m' hk hr hm sig cred hx
    constructor
    · by_cases hd : Draws K c sig
      · exact hD _ hd
      · rcases hk sig hd with e | ⟨e, _⟩
        · rw [e] at hx; exact (hm _ _ hx).1
        · rw [e] at hx; cases hx
    · rcases hr sig cred hx with e | e | ⟨x, e⟩
      · exact (hm _ _ e).2
      · exact .inl e
      · exact .inr (h.codes _ _ e)
  refine ⟨tokens f.access f.accessRoot h.access, tokens f.refresh f.refreshRoot h.refresh, ?_⟩
  intro sig cred hx
  by_cases hd : Draws K c sig
  · exact hD _ hd
  · rcases f.codes sig hd with e | ⟨_, x, e⟩
    · rw [e] at hx; exact h.codes _ _ hx
    · exact h.codes _ _ e

theorem names_ne {sig : Str} (h : Names K c sig) : sig ≠ [] := by
  obtain ⟨text, t, _, hp, rfl⟩ := h
  exact parsed_signature_ne_nil hp

/-- The server `s` that two parties use, and the server `s₁` that one of them has for itself. It draws
the signatures in `D`, and the other one those in `E`. -/
structure Beside (K : ServerConfig) (D E : Str → Prop) (s s₁ : Server) : Prop where
  like : Like K (fun _ => True) (fun _ => True) (fun sig => ¬ E sig) s s₁
  own : Own D s₁

variable {D E : Str → Prop} {s₁ : Server}

/-- The party makes a call on both servers. -/
theorem Beside.mine (h : Beside K D E s s₁) (hc : ∀ clients users, c.op ≠ .configure clients users)
    (hD : ∀ sig, Draws K c sig → D sig) (hn : ∀ sig, Names K c sig → ¬ E sig) :
    ∃ answer t t₁, step ⟨false, s⟩ c = (answer, ⟨false, t⟩) ∧
      step ⟨false, s₁⟩ c = (answer, ⟨false, t₁⟩) ∧ Beside K D E t t₁ := by
  obtain ⟨h1, t, t₁, h2, h3, h4⟩ := step_like h.like c (fun _ _ => trivial) (fun _ _ => trivial)
    (fun text t hx hp => hn _ ⟨text, t, hx, by rw [← h.like.fixed]; exact hp, rfl⟩)
  refine ⟨(step ⟨false, s⟩ c).1, t, t₁, by rw [← h2], by rw [h1, ← h3], h4, ?_⟩
  have f := step_frame (c := c) (h.like.config.symm.trans h.like.fixed) h.like.proper' hc
  rw [h3] at f
  exact h.own.step f hD

/-- The other party makes a call. -/
theorem Beside.theirs (h : Beside K D E s s₁) (hc : ∀ clients users, c.op ≠ .configure clients users)
    (hE : ∀ sig, Draws K c sig → E sig) (hn : ∀ sig, Names K c sig → ¬ D sig) {t : Server}
    (ht : (step ⟨false, s⟩ c).2 = ⟨false, t⟩) : Beside K D E t s₁ := by
  have f := step_frame (c := c) h.like.fixed h.like.proper hc
  obtain ⟨_, t', _, h2, _, h4⟩ := step_like (C := fun _ => True) (U := fun _ => True)
    (X := fun _ => True) (K := K) (s := s) (s' := s)
    ⟨rfl, h.like.proper, h.like.proper, fun _ _ => rfl, fun _ _ => rfl, fun _ _ => ⟨rfl, rfl, rfl⟩,
      h.like.fixed⟩ c (fun _ _ => trivial) (fun _ _ => trivial) (fun _ _ _ _ => trivial)
  rw [ht] at f h2
  obtain rfl : t = t' := by injection h2
  have f : Frame K c s t := f
  have tokens : ∀ {m m' m₁ : GoMap ServerCredential}, Kept K c m m' →
      (∀ sig cred, m₁.get? sig = some cred → D sig ∧ (cred.code = [] ∨ D cred.code)) →
      ∀ sig, ¬ E sig → m.get? sig = m₁.get? sig → m'.get? sig = m₁.get? sig := by
    intro m m' m₁ hk ho sig hs he
    rcases hk sig fun hd => hs (hE _ hd) with e | ⟨e, e' | ⟨cred, e1, e2⟩⟩
    · rw [e, he]
    · rw [e]
      cases hg : m₁.get? sig with
      | none => rfl
      | some cred => exact absurd (ho _ _ hg).1 (hn _ e')
    · rw [he] at e1
      rcases (ho _ _ e1).2 with e3 | e3
      · exact absurd e3 (names_ne e2)
      · exact absurd e3 (hn _ e2)
  refine ⟨⟨f.config.trans h.like.config, h4.proper, h.like.proper', fun id _ => ?_, fun name _ => ?_,
    fun sig hs => ?_, f.config.trans h.like.fixed⟩, h.own⟩
  · rw [f.clients]; exact h.like.clients _ trivial
  · rw [f.users]; exact h.like.users _ trivial
  · obtain ⟨a1, a2, a3⟩ := h.like.at_ sig hs
    refine ⟨tokens f.access h.own.access sig hs a1, tokens f.refresh h.own.refresh sig hs a2, ?_⟩
    rcases f.codes sig fun hd => hs (hE _ hd) with e | ⟨e, cred, e1⟩
    · rw [e, a3]
    · rw [a3] at e1
      exact absurd (h.own.codes _ _ e1) (hn _ e)

/-! ### Two parties -/

/-- The other one. -/
def Spec.Party.other : Party → Party
  | .first => .second
  | .second => .first

theorem Spec.Party.eq_or (me who : Party) : who = me ∨ who = me.other := by
  cases me <;> cases who <;> simp [Party.other]

theorem Spec.Party.other_ne (me : Party) : me.other ≠ me := by cases me <;> simp [Party.other]

theorem together_alone {strategy : Party → Strategy} (hr : ∀ me, (strategy me).OnlyRequests)
    (tape : Nat → Str) {D : Party → Str → Prop} {s' : Party → Server} (order : List Party) (i : Nat)
    (seen : Party → List Answer) (hb : ∀ me, Beside K (D me) (D me.other) s (s' me))
    (hD : ∀ me, ∀ x ∈ alone me (strategy me) tape i ⟨false, s' me⟩ (seen me) order,
      (∀ sig, Draws K x.call sig → D me sig) ∧ ∀ sig, Names K x.call sig → ¬ D me.other sig) (me : Party) :
    movesOf me (together strategy tape i ⟨false, s⟩ seen order) =
      alone me (strategy me) tape i ⟨false, s' me⟩ (seen me) order := by
  induction order generalizing i seen s s' me with
  | nil => rfl
  | cons who order ih =>
    have hd := hD who
    simp only [alone, if_true] at hd
    obtain ⟨hd1, hd2⟩ := hd _ (.head _)
    simp only at hd1 hd2
    obtain ⟨answer, t, t₁, e1, e2, e3⟩ := (hb who).mine (c := (strategy who).next (seen who) (tape i))
      (hr who (seen who)) hd1 hd2
    rw [e2] at hd
    have e4 := (hb who.other).theirs (c := (strategy who).next (seen who) (tape i))
      (hr who (seen who)) (t := t)
      (by cases who <;> exact hd1) (by cases who <;> exact hd2) (by rw [e1])
    have key := ih (s := t) (s' := fun me => if me = who then t₁ else s' me) (i + 1)
      (fun other => if other = who then answer :: seen who else seen other)
      (fun me => by
        rcases Party.eq_or who me with rfl | rfl
        · rw [if_pos rfl]; exact e3
        · rw [if_neg who.other_ne]; exact e4)
      (fun me => by
        rcases Party.eq_or who me with rfl | rfl
        · rw [if_pos rfl, if_pos rfl]; exact fun x hx => hd x (.tail _ hx)
        · rw [if_neg who.other_ne, if_neg who.other_ne]
          have h := hD who.other
          simp only [alone] at h
          rw [if_neg (Ne.symm who.other_ne)] at h
          exact h) me
    simp only [together, e1]
    unfold movesOf at key ⊢
    rcases Party.eq_or who me with rfl | rfl
    · rw [if_pos rfl, if_pos rfl] at key
      rw [List.filter_cons_of_pos (by simp), key]
      simp only [alone, if_true, e2]
    · rw [if_neg who.other_ne, if_neg who.other_ne] at key
      rw [List.filter_cons_of_neg (by simpa using Ne.symm who.other_ne), key]
      simp only [alone]
      rw [if_neg (Ne.symm who.other_ne)]

/-! ### Moves alone -/

variable {me : Party} {p : Strategy} {tape tape' : Nat → Str}

theorem alone_mem {order : List Party} {i : Nat} {s : Shared Server} {seen : List Answer} {x : Move}
    (h : x ∈ alone me p tape i s seen order) :
    ∃ j, x.number = i + j ∧ order[j]? = some me ∧ x.who = me ∧ x.call.coins = tape x.number := by
  induction order generalizing i s seen with
  | nil => cases h
  | cons who order ih =>
    unfold alone at h
    split at h
    · rename_i hw
      rcases List.mem_cons.mp h with rfl | h
      · exact ⟨0, rfl, by simp [hw], rfl, rfl⟩
      · obtain ⟨j, h1, h2, h3⟩ := ih h
        exact ⟨j + 1, by omega, by simpa using h2, h3⟩
    · obtain ⟨j, h1, h2, h3⟩ := ih h
      exact ⟨j + 1, by omega, by simpa using h2, h3⟩

theorem alone_unique {order : List Party} {i : Nat} {s : Shared Server} {seen : List Answer} {x y : Move}
    (hx : x ∈ alone me p tape i s seen order) (hy : y ∈ alone me p tape i s seen order)
    (h : x.number = y.number) : x = y := by
  induction order generalizing i s seen with
  | nil => cases hx
  | cons who order ih =>
    unfold alone at hx hy
    split at hx
    · rename_i hw
      rw [if_pos hw] at hy
      rcases List.mem_cons.mp hx with rfl | hx <;> rcases List.mem_cons.mp hy with rfl | hy
      · rfl
      · obtain ⟨j, h1, _⟩ := alone_mem hy
        simp only at h
        omega
      · obtain ⟨j, h1, _⟩ := alone_mem hx
        simp only at h
        omega
      · exact ih hx hy
    · rename_i hw
      rw [if_neg hw] at hy
      exact ih hx hy

theorem alone_congr {order : List Party} {i : Nat} {s : Shared Server} {seen : List Answer}
    (h : ∀ j, order[j]? = some me → tape (i + j) = tape' (i + j)) :
    alone me p tape i s seen order = alone me p tape' i s seen order := by
  induction order generalizing i s seen with
  | nil => rfl
  | cons who order ih =>
    have hn : ∀ j, order[j]? = some me → tape (i + 1 + j) = tape' (i + 1 + j) := by
      intro j hj
      have := h (j + 1) (by simpa using hj)
      rw [show i + 1 + j = i + (j + 1) by omega]
      exact this
    unfold alone
    split
    · rename_i hw
      have h0 : tape i = tape' i := h 0 (by simp [hw])
      simp only [h0]
      rw [ih hn]
    · exact ih hn

/-! ### What a call names -/

theorem carriesBearer_unique {header a b : Str} (h1 : CarriesBearer header a)
    (h2 : CarriesBearer header b) : a = b := by
  obtain ⟨w, e1, hw, _⟩ := h1
  obtain ⟨w', e2, hw', _⟩ := h2
  have hl : w.length = w'.length := by
    have l1 := anyCase_length hw
    have l2 := anyCase_length hw'
    rw [l1, l2]
  rw [e1, List.append_assoc, List.append_assoc] at e2
  exact (List.cons.inj (List.append_inj e2 hl).2).2

theorem segment_unique {path a b : Str} (h1 : LastSegment path a) (h2 : LastSegment path b) : a = b :=
  ((lastSegment_iff _ _).mp h1).symm.trans ((lastSegment_iff _ _).mp h2)

theorem asksToken_unique {x y : TokenRequest} (hx : AsksToken c x) (hy : AsksToken c y) : x = y := by
  obtain ⟨r, h1, _, h3⟩ := hx
  obtain ⟨r', h1', _, h3'⟩ := hy
  rw [h1] at h1'
  cases h1'
  rw [h3] at h3'
  cases h3'
  rfl

theorem carries_unique {x y : Str} (hx : Carries c x) (hy : Carries c y) : x = y := by
  cases hx with
  | code h hg =>
    cases hy with
    | code h' _ => rw [asksToken_unique h h']
    | refreshToken h' hg' =>
      rw [asksToken_unique h h', hg'] at hg
      exact absurd hg (by decide)
    | introspection h' =>
      obtain ⟨r, h1, h2, _⟩ := h; obtain ⟨r', h1', h2', _⟩ := h'
      rw [h1] at h1'; cases h1'
      exact absurd (segment_unique h2 h2') (by decide)
    | revocation h' =>
      obtain ⟨r, h1, h2, _⟩ := h; obtain ⟨r', h1', h2', _⟩ := h'
      rw [h1] at h1'; cases h1'
      exact absurd (segment_unique h2 h2') (by decide)
    | bearer h' =>
      obtain ⟨r, h1, h2, _⟩ := h; obtain ⟨r', h1', h2'⟩ := h'
      rw [h1] at h1'; cases h1'
  | refreshToken h hg =>
    cases hy with
    | refreshToken h' _ => rw [asksToken_unique h h']
    | code h' hg' =>
      rw [asksToken_unique h h', hg'] at hg
      exact absurd hg (by decide)
    | introspection h' =>
      obtain ⟨r, h1, h2, _⟩ := h; obtain ⟨r', h1', h2', _⟩ := h'
      rw [h1] at h1'; cases h1'
      exact absurd (segment_unique h2 h2') (by decide)
    | revocation h' =>
      obtain ⟨r, h1, h2, _⟩ := h; obtain ⟨r', h1', h2', _⟩ := h'
      rw [h1] at h1'; cases h1'
      exact absurd (segment_unique h2 h2') (by decide)
    | bearer h' =>
      obtain ⟨r, h1, h2, _⟩ := h; obtain ⟨r', h1', h2'⟩ := h'
      rw [h1] at h1'; cases h1'
  | introspection h =>
    obtain ⟨r, h1, h2, h3⟩ := h
    cases hy with
    | code h' _ =>
      obtain ⟨r', h1', h2', _⟩ := h'
      rw [h1] at h1'; cases h1'
      exact absurd (segment_unique h2 h2') (by decide)
    | refreshToken h' _ =>
      obtain ⟨r', h1', h2', _⟩ := h'
      rw [h1] at h1'; cases h1'
      exact absurd (segment_unique h2 h2') (by decide)
    | introspection h' =>
      obtain ⟨r', h1', _, h3'⟩ := h'
      rw [h1] at h1'; cases h1'
      rw [h3] at h3'; cases h3'
      rfl
    | revocation h' =>
      obtain ⟨r', h1', h2', _⟩ := h'
      rw [h1] at h1'; cases h1'
      exact absurd (segment_unique h2 h2') (by decide)
    | bearer h' =>
      obtain ⟨r', h1', h2'⟩ := h'
      rw [h1] at h1'; cases h1'
  | revocation h =>
    obtain ⟨r, h1, h2, h3⟩ := h
    cases hy with
    | code h' _ =>
      obtain ⟨r', h1', h2', _⟩ := h'
      rw [h1] at h1'; cases h1'
      exact absurd (segment_unique h2 h2') (by decide)
    | refreshToken h' _ =>
      obtain ⟨r', h1', h2', _⟩ := h'
      rw [h1] at h1'; cases h1'
      exact absurd (segment_unique h2 h2') (by decide)
    | revocation h' =>
      obtain ⟨r', h1', _, h3'⟩ := h'
      rw [h1] at h1'; cases h1'
      rw [h3] at h3'; cases h3'
      rfl
    | introspection h' =>
      obtain ⟨r', h1', h2', _⟩ := h'
      rw [h1] at h1'; cases h1'
      exact absurd (segment_unique h2 h2') (by decide)
    | bearer h' =>
      obtain ⟨r', h1', h2'⟩ := h'
      rw [h1] at h1'; cases h1'
  | bearer h =>
    obtain ⟨r, h1, h2⟩ := h
    cases hy with
    | code h' _ =>
      obtain ⟨r', h1', h2', _⟩ := h'
      rw [h1] at h1'; cases h1'
    | refreshToken h' _ =>
      obtain ⟨r', h1', h2', _⟩ := h'
      rw [h1] at h1'; cases h1'
    | revocation h' =>
      obtain ⟨r', h1', h2', _⟩ := h'
      rw [h1] at h1'; cases h1'
    | introspection h' =>
      obtain ⟨r', h1', h2', _⟩ := h'
      rw [h1] at h1'; cases h1'
    | bearer h' =>
      obtain ⟨r', h1', h2'⟩ := h'
      rw [h1] at h1'; cases h1'
      exact carriesBearer_unique h2 h2'

theorem names_unique {x y : Str} (hx : Names K c x) (hy : Names K c y) : x = y := by
  obtain ⟨t, a, h1, h2, rfl⟩ := hx
  obtain ⟨t', a', h1', h2', rfl⟩ := hy
  obtain rfl := carries_unique h1 h1'
  rw [h2] at h2'
  cases h2'
  rfl

end OAuth2

import Verif.Lemmas.SuiteReply
import Verif.Lemmas.Exact

/-!
What a run of the integration tests does to the server: states that agree outside a set of
signatures, and tokens that were not drawn yet.
-/

namespace OAuth2.Suite

open _root_.OAuth2.Spec

set_option linter.unusedSimpArgs false

/-- The second server is the first one but for the tokens and codes with signatures in the set. -/
structure Agree (X : Str → Prop) (a b : Server) : Prop where
  config : b.config = a.config
  clients : b.clients = a.clients
  users : b.users = a.users
  access : ∀ k, ¬ X k → b.accessTokens.get? k = a.accessTokens.get? k
  refresh : ∀ k, ¬ X k → b.refreshTokens.get? k = a.refreshTokens.get? k
  codes : ∀ k, ¬ X k → b.authorizationCodes.get? k = a.authorizationCodes.get? k
  entries : ∀ e ∈ b.accessTokens ++ b.refreshTokens,
    X e.1 ∨ e ∈ a.accessTokens ++ a.refreshTokens

namespace Agree

variable {X Y : Str → Prop} {a b c : Server}

theorem refl (X : Str → Prop) (a : Server) : Agree X a a :=
  ⟨rfl, rfl, rfl, fun _ _ => rfl, fun _ _ => rfl, fun _ _ => rfl, fun _ h => .inr h⟩

theorem mono (h : Agree X a b) (hxy : ∀ k, X k → Y k) : Agree Y a b :=
  ⟨h.config, h.clients, h.users, fun k hk => h.access k fun hx => hk (hxy k hx),
    fun k hk => h.refresh k fun hx => hk (hxy k hx), fun k hk => h.codes k fun hx => hk (hxy k hx),
    fun e he => (h.entries e he).imp_left (hxy _)⟩

theorem trans (h : Agree X a b) (h' : Agree X b c) : Agree X a c :=
  ⟨h'.config.trans h.config, h'.clients.trans h.clients, h'.users.trans h.users,
    fun k hk => (h'.access k hk).trans (h.access k hk),
    fun k hk => (h'.refresh k hk).trans (h.refresh k hk),
    fun k hk => (h'.codes k hk).trans (h.codes k hk),
    fun e he => (h'.entries e he).elim .inl (h.entries e)⟩

theorem mem_del {m : GoMap ServerCredential} {k : Str} {e : Str × ServerCredential}
    (h : e ∈ m.del k) : e ∈ m := (List.mem_filter.mp h).1

theorem mem_set {m : GoMap ServerCredential} {k : Str} {v : ServerCredential}
    {e : Str × ServerCredential} (h : e ∈ m.set k v) : e = (k, v) ∨ (e ∈ m ∧ e.1 ≠ k) := by
  rcases List.mem_cons.mp h with h | h
  · exact .inl h
  · refine .inr ⟨mem_del h, ?_⟩
    have := (List.mem_filter.mp h).2
    simpa using this

theorem delAccess (s : Server) {k : Str} (hk : X k) :
    Agree X s { s with accessTokens := s.accessTokens.del k } := by
  refine ⟨rfl, rfl, rfl, fun j hj => ?_, fun _ _ => rfl, fun _ _ => rfl, fun e he => ?_⟩
  · exact GoMap.get?_del_of_ne _ fun h => hj (h ▸ hk)
  · rcases List.mem_append.mp he with h | h
    · exact .inr (List.mem_append_left _ (mem_del h))
    · exact .inr (List.mem_append_right _ h)

theorem delRefresh (s : Server) {k : Str} (hk : X k) :
    Agree X s { s with refreshTokens := s.refreshTokens.del k } := by
  refine ⟨rfl, rfl, rfl, fun _ _ => rfl, fun j hj => ?_, fun _ _ => rfl, fun e he => ?_⟩
  · exact GoMap.get?_del_of_ne _ fun h => hj (h ▸ hk)
  · rcases List.mem_append.mp he with h | h
    · exact .inr (List.mem_append_left _ h)
    · exact .inr (List.mem_append_right _ (mem_del h))

theorem setAccess (s : Server) {k : Str} (c : ServerCredential) (hk : X k) :
    Agree X s { s with accessTokens := s.accessTokens.set k c } := by
  refine ⟨rfl, rfl, rfl, fun j hj => ?_, fun _ _ => rfl, fun _ _ => rfl, fun e he => ?_⟩
  · rw [GoMap.get?_set, if_neg (fun h : j = k => hj (h ▸ hk))]
  · rcases List.mem_append.mp he with h | h
    · rcases mem_set h with h | h
      · exact .inl (h ▸ hk)
      · exact .inr (List.mem_append_left _ h.1)
    · exact .inr (List.mem_append_right _ h)

theorem setRefresh (s : Server) {k : Str} (c : ServerCredential) (hk : X k) :
    Agree X s { s with refreshTokens := s.refreshTokens.set k c } := by
  refine ⟨rfl, rfl, rfl, fun _ _ => rfl, fun j hj => ?_, fun _ _ => rfl, fun e he => ?_⟩
  · rw [GoMap.get?_set, if_neg (fun h : j = k => hj (h ▸ hk))]
  · rcases List.mem_append.mp he with h | h
    · exact .inr (List.mem_append_left _ h)
    · rcases mem_set h with h | h
      · exact .inl (h ▸ hk)
      · exact .inr (List.mem_append_right _ h.1)

theorem setCode (s : Server) {k : Str} (c : ServerCredential) (hk : X k) :
    Agree X s { s with authorizationCodes := s.authorizationCodes.set k c } := by
  refine ⟨rfl, rfl, rfl, fun _ _ => rfl, fun _ _ => rfl, fun j hj => ?_, fun e he => .inr he⟩
  rw [GoMap.get?_set, if_neg (fun h : j = k => hj (h ▸ hk))]

theorem updateCode (s : Server) {k : Str} (f : ServerCredential → ServerCredential) (hk : X k) :
    Agree X s { s with authorizationCodes := s.authorizationCodes.update k f } := by
  refine ⟨rfl, rfl, rfl, fun _ _ => rfl, fun _ _ => rfl, fun j hj => ?_, fun e he => .inr he⟩
  rw [GoMap.get?_update, if_neg (fun h : j = k => hj (h ▸ hk))]

theorem granted (s : Server) {x : HS256Token} {y : Option HS256Token} (t₁ t₂ : Time)
    (cred : ServerCredential) (hx : X x.signatureString)
    (hy : ∀ z, y = some z → X z.signatureString) : Agree X s (s.grant x y t₁ t₂ cred) := by
  cases y with
  | none => exact setAccess s _ hx
  | some z => exact (setAccess s _ hx).trans (setRefresh _ _ (hy z rfl))

theorem mem_deleteByCode {m : GoMap ServerCredential} {code : Str} {e : Str × ServerCredential}
    (h : e ∈ Server.deleteByCode m code) : e ∈ m := by
  unfold Server.deleteByCode at h
  suffices key : ∀ (l acc : GoMap ServerCredential),
      e ∈ l.foldl (fun acc e => if e.2.code = code then GoMap.del acc e.1 else acc) acc → e ∈ acc
    from key m m h
  intro l
  induction l with
  | nil => exact fun _ h => h
  | cons x l ih =>
    intro acc h
    rw [List.foldl_cons] at h
    have := ih _ h
    split at this
    · exact mem_del this
    · exact this

theorem get?_deleteByCode_of_ne {m : GoMap ServerCredential} {code k : Str}
    (h : ∀ e ∈ m, e.1 = k → e.2.code ≠ code) :
    (Server.deleteByCode m code).get? k = m.get? k := by
  unfold Server.deleteByCode
  rw [deleteByCode_aux, if_neg]
  rintro ⟨e, he, h1, h2⟩
  exact h e he h2 h1

theorem get?_deleteByCode_self {m : GoMap ServerCredential} {code k : Str} {c : ServerCredential}
    (h : m.get? k = some c) (hc : c.code = code) :
    (Server.deleteByCode m code).get? k = none := by
  unfold Server.deleteByCode
  rw [deleteByCode_aux, if_pos ⟨_, GoMap.get?_some_mem h, hc, rfl⟩]

theorem replayed {s : Server} {code : Str}
    (h : ∀ e ∈ s.accessTokens ++ s.refreshTokens, X e.1 ∨ e.2.code ≠ code) :
    Agree X s { s with
      accessTokens := Server.deleteByCode s.accessTokens code
      refreshTokens := Server.deleteByCode s.refreshTokens code } := by
  refine ⟨rfl, rfl, rfl, fun j hj => ?_, fun j hj => ?_, fun _ _ => rfl, fun e he => ?_⟩
  · refine get?_deleteByCode_of_ne fun e he hk => ?_
    exact (h e (List.mem_append_left _ he)).resolve_left fun hx => hj (hk ▸ hx)
  · refine get?_deleteByCode_of_ne fun e he hk => ?_
    exact (h e (List.mem_append_right _ he)).resolve_left fun hx => hj (hk ▸ hx)
  · rcases List.mem_append.mp he with h | h
    · exact .inr (List.mem_append_left _ (mem_deleteByCode h))
    · exact .inr (List.mem_append_right _ (mem_deleteByCode h))

end Agree

/-! ### The setting -/

/-- Everything that is assumed about a run. -/
structure Setting (handler : Request → Handler Unit) (draws : Nat → Draw) (spec : Spec) (σ : Server)
    (required : Scope) (T₀ T₁ : Time) : Prop where
  routes : Routes spec required handler
  fits : Matches spec σ required T₀ T₁
  fair : Fair spec σ draws T₀ T₁

section

variable (σ : Server) (draws : Nat → Draw)

/-- The signature of a token made during request `m`. -/
def drawn (m i : Nat) : Str := drawnSignature σ.config (draws m).coins i

/-- The signature of a token made during one of the first `n` requests. -/
def Drawn (n : Nat) (k : Str) : Prop := ∃ m, m < n ∧ ∃ i, i < 2 ∧ k = drawn σ draws m i

theorem Drawn.mono {σ : Server} {draws : Nat → Draw} {n n' : Nat} {k : Str} (h : Drawn σ draws n k)
    (hn : n ≤ n') : Drawn σ draws n' k := by
  obtain ⟨m, hm, i, hi, h⟩ := h
  exact ⟨m, by omega, i, hi, h⟩

theorem Drawn.last (n : Nat) {i : Nat} (hi : i < 2) : Drawn σ draws (n + 1) (drawn σ draws n i) :=
  ⟨n, by omega, i, hi, rfl⟩

/-- After `n` requests the server is the one at the start but for tokens made since then, and for
those with signatures in the set. -/
def Inv (gone : Str → Prop) (n : Nat) (s : Server) : Prop :=
  Agree (fun k => gone k ∨ Drawn σ draws n k) σ s

end

section

variable {handler : Request → Handler Unit} {draws : Nat → Draw} {spec : Spec} {σ : Server}
  {required : Scope} {T₀ T₁ : Time} {gone : Str → Prop} {n n' : Nat} {s s' : Server}

theorem Inv.step (h : Inv σ draws gone n s) (hn : n ≤ n')
    (h' : Agree (fun k => gone k ∨ Drawn σ draws n' k) s s') : Inv σ draws gone n' s' :=
  Agree.trans (h.mono fun _ hk => hk.imp_right (·.mono hn)) h'

theorem Inv.later (h : Inv σ draws gone n s) (hn : n ≤ n') : Inv σ draws gone n' s :=
  h.mono fun _ hk => hk.imp_right (·.mono hn)

/-- Nothing is stored under the signature of a token that is yet to be made. -/
theorem Setting.fresh (S : Setting handler draws spec σ required T₀ T₁)
    (hg : ∀ k, gone k → ∀ m < requests, ∀ i < 2, k ≠ drawn σ draws m i)
    (h : Inv σ draws gone n s) {m i : Nat} (hm : n ≤ m) (hr : m < requests) (hi : i < 2) :
    s.accessTokens.get? (drawn σ draws m i) = none ∧
    s.refreshTokens.get? (drawn σ draws m i) = none ∧
    s.authorizationCodes.get? (drawn σ draws m i) = none ∧
    ∀ e ∈ s.accessTokens ++ s.refreshTokens, (gone e.1 ∨ Drawn σ draws n e.1) ∨
      e.2.code ≠ drawn σ draws m i := by
  have hx : ¬ (gone (drawn σ draws m i) ∨ Drawn σ draws n (drawn σ draws m i)) := by
    rintro (h1 | ⟨m', hm', i', hi', h1⟩)
    · exact hg _ h1 m hr i hi rfl
    · have := (S.fair.distinct m hr m' (by omega) i hi i' hi' h1).1
      omega
  obtain ⟨h1, h2, h3, h4, _⟩ := S.fair.new m hr i hi
  refine ⟨(h.access _ hx).trans h1, (h.refresh _ hx).trans h2, (h.codes _ hx).trans h3, ?_⟩
  intro e he
  exact (h.entries e he).imp_right (h4 e)

/-- A text of the specification is none of the tokens that are made. -/
theorem Setting.mentioned (S : Setting handler draws spec σ required T₀ T₁) {text sig : Str}
    (ht : text ∈ mentioned spec) (hs : Genuine σ text sig) {m i : Nat} (hr : m < requests)
    (hi : i < 2) : sig ≠ drawn σ draws m i := by
  rintro rfl
  exact (S.fair.new m hr i hi).2.2.2.2 text ht hs

theorem Setting.not_drawn (S : Setting handler draws spec σ required T₀ T₁) {text sig : Str}
    (ht : text ∈ OAuth2.Spec.mentioned spec) (hs : Genuine σ text sig) (hn : n ≤ requests) :
    ¬ Drawn σ draws n sig := by
  rintro ⟨m, hm, i, hi, h⟩
  exact S.mentioned ht hs (by omega) hi h

/-- The token made first during a request. -/
theorem Setting.gen (S : Setting handler draws spec σ required T₀ T₁) (hn : n < requests)
    (hc : s.config = σ.config) :
    ∃ a rest, Server.gen s.config (draws n).coins = some (a, rest) ∧
      a.signatureString = drawn σ draws n 0 ∧
      HS256Token.parse s.config.secret a.string = .ok a := by
  have h1 := S.fair.keyLength
  have h2 := S.fair.coins n hn
  unfold Server.gen
  rw [hc, if_neg (by omega)]
  refine ⟨_, _, rfl, ?_, C01_token_roundtrip _ _⟩
  unfold drawn drawnSignature
  simp

/-- The two tokens made during a request. -/
theorem Setting.mint (S : Setting handler draws spec σ required T₀ T₁) (hn : n < requests)
    (hc : s.config = σ.config) :
    ∃ a b, Server.mint s.config true (draws n).coins = some (a, some b) ∧
      a.signatureString = drawn σ draws n 0 ∧ b.signatureString = drawn σ draws n 1 ∧
      HS256Token.parse s.config.secret a.string = .ok a ∧
      HS256Token.parse s.config.secret b.string = .ok b := by
  have h1 := S.fair.keyLength
  have h2 := S.fair.coins n hn
  unfold Server.mint Server.gen
  rw [hc, if_neg (by omega)]
  simp only [if_true]
  rw [if_neg (by rw [List.length_drop]; omega)]
  refine ⟨_, _, rfl, ?_, ?_, C01_token_roundtrip _ _, C01_token_roundtrip _ _⟩
  · unfold drawn drawnSignature
    simp
  · unfold drawn drawnSignature
    simp

/-- The one token made by the implicit grant. -/
theorem Setting.mint_access (S : Setting handler draws spec σ required T₀ T₁) (hn : n < requests)
    (hc : s.config = σ.config) :
    ∃ a, Server.mint s.config false (draws n).coins = some (a, none) ∧
      a.signatureString = drawn σ draws n 0 ∧
      HS256Token.parse s.config.secret a.string = .ok a := by
  obtain ⟨a, rest, h1, h2, h3⟩ := S.gen (s := s) hn hc
  refine ⟨a, ?_, h2, h3⟩
  unfold Server.mint
  rw [h1]
  rfl

end

end OAuth2.Suite

import Verif.Spec.Pointer
import Verif.Lemmas.Exec
import Verif.Lemmas.Map

namespace OAuth2

open Spec (Fill contents Memory Whole Unshared Kept stored entitiesOf credentialsOf)

/-! ### Programs without state -/

/-- The same program over two kinds of state, neither of which it touches. -/
inductive Twin {ρ σ α : Type} : Prog ρ α → Prog σ α → Prop where
  | ret (a : α) : Twin (.ret a) (.ret a)
  | panic : Twin .panic .panic
  | now {k : Time → Prog ρ α} {k' : Time → Prog σ α} (h : ∀ t, Twin (k t) (k' t)) :
      Twin (.now k) (.now k')
  | rand (n : Nat) {k : Option Str → Prog ρ α} {k' : Option Str → Prog σ α}
      (h : ∀ t, Twin (k t) (k' t)) : Twin (.rand n k) (.rand n k')
  | resp (f : Recorder → Recorder) {k : Prog ρ α} {k' : Prog σ α} (h : Twin k k') :
      Twin (.resp f k) (.resp f k')

namespace Twin

variable {ρ σ α β : Type}

theorem bind {p : Prog ρ α} {q : Prog σ α} {f : α → Prog ρ β} {g : α → Prog σ β} (h : Twin p q)
    (hf : ∀ a, Twin (f a) (g a)) : Twin (p >>= f) (q >>= g) := by
  show Twin (Prog.bind p f) (Prog.bind q g)
  induction h with
  | ret a => exact hf a
  | panic => exact .panic
  | now _ ih => exact .now ih
  | rand n _ ih => exact .rand n ih
  | resp f _ ih => exact .resp f ih

theorem exec {p : Prog ρ α} {q : Prog σ α} (h : Twin p q) (b : Bool) (r : ρ) (s : σ) (l : Local) :
    ∃ o l', OAuth2.exec p ⟨b, r⟩ l = (o, ⟨b, r⟩, l') ∧ OAuth2.exec q ⟨b, s⟩ l = (o, ⟨b, s⟩, l') := by
  induction h generalizing l with
  | ret a => exact ⟨_, _, rfl, rfl⟩
  | panic => exact ⟨_, _, rfl, rfl⟩
  | now _ ih => exact ih _ _
  | rand n _ ih =>
    simp only [OAuth2.exec]
    split
    · exact ih _ _
    · exact ih _ _
  | resp f _ ih => exact ih _

theorem pure (a : α) : Twin (Pure.pure a : Prog ρ α) (Pure.pure a : Prog σ α) := .ret a

theorem respond (f : Recorder → Recorder) :
    Twin (Prog.respond f : Prog ρ Unit) (Prog.respond f : Prog σ Unit) := .resp f (.ret ())

theorem writeHeader (c : Int) :
    Twin (Prog.writeHeader c : Prog ρ Unit) (Prog.writeHeader c : Prog σ Unit) := by
  unfold Prog.writeHeader
  split
  · exact .panic
  · exact .respond _

theorem write (j : Str) (c : Int) : Twin (write j c : Prog ρ Bool) (OAuth2.write j c : Prog σ Bool) :=
  bind (respond _) fun _ => bind (respond _) fun _ => bind (respond _) fun _ =>
    bind (writeHeader _) fun _ => bind (respond _) fun _ => pure _

theorem writeUnencodable (c : Int) :
    Twin (writeUnencodable c : Prog ρ Bool) (OAuth2.writeUnencodable c : Prog σ Bool) :=
  bind (respond _) fun _ => bind (respond _) fun _ => bind (respond _) fun _ =>
    bind (writeHeader _) fun _ => pure _

theorem writeRedirect (u : Str) (m : GoMap Str) (f : Bool) :
    Twin (writeRedirect u m f : Prog ρ Bool) (OAuth2.writeRedirect u m f : Prog σ Bool) := by
  unfold OAuth2.writeRedirect
  split
  · exact pure _
  · exact bind (respond _) fun _ => bind (respond _) fun _ => bind (respond _) fun _ =>
      bind (respond _) fun _ => bind (writeHeader _) fun _ => bind (respond _) fun _ => pure _

theorem writeError (e : GoErr) :
    Twin (writeError e : Prog ρ Bool) (OAuth2.writeError e : Prog σ Bool) := by
  refine bind (respond _) fun _ => ?_
  split
  · exact writeRedirect _ _ _
  · exact write _ _

theorem writeBearerError (e : GoErr) :
    Twin (writeBearerError e : Prog ρ Bool) (OAuth2.writeBearerError e : Prog σ Bool) := by
  unfold OAuth2.writeBearerError
  split
  · exact bind (writeHeader _) fun _ => bind (respond _) fun _ => pure _
  · split
    · exact bind (writeHeader _) fun _ => bind (respond _) fun _ => pure _
    · exact bind (respond _) fun _ => bind (writeHeader _) fun _ => bind (respond _) fun _ => pure _

theorem writeTokenResponse (r : TokenResponse) :
    Twin (writeTokenResponse r : Prog ρ Bool) (OAuth2.writeTokenResponse r : Prog σ Bool) := by
  unfold OAuth2.writeTokenResponse
  split
  · exact writeRedirect _ _ _
  · exact write _ _

theorem writeCodeResponse (r : CodeResponse) :
    Twin (writeCodeResponse r : Prog ρ Bool) (OAuth2.writeCodeResponse r : Prog σ Bool) :=
  writeRedirect _ _ _

theorem writeIntrospectionResponse (r : IntrospectionResponse) :
    Twin (writeIntrospectionResponse r : Prog ρ Bool)
      (OAuth2.writeIntrospectionResponse r : Prog σ Bool) := by
  unfold OAuth2.writeIntrospectionResponse
  split
  · exact pure _
  · split
    · exact write _ _
    · exact writeUnencodable _

theorem fail (e : Error) : Twin (RefServer.fail e) (Server.fail e) :=
  bind (writeError _) fun _ => pure _

theorem failBearer (e : Error) : Twin (RefServer.failBearer e) (Server.failBearer e) :=
  bind (writeBearerError _) fun _ => pure _

theorem notFound : Twin RefServer.notFound Server.notFound :=
  bind (respond _) fun _ => bind (respond _) fun _ => bind (writeHeader _) fun _ => respond _

theorem mustGenerate (c : ServerConfig) :
    Twin (c.mustGenerate : Prog ρ HS256Token) (c.mustGenerate : Prog σ HS256Token) := by
  unfold ServerConfig.mustGenerate HS256Token.mustGenerate
  refine bind ?_ fun a => ?_
  · unfold HS256Token.generate
    split
    · exact .panic
    · refine bind (.rand _ fun _ => .ret _) fun a => ?_
      split
      · exact pure _
      · exact pure _
  · split
    · exact .panic
    · exact pure _

end Twin

/-! ### What stays in memory -/

/-- What every piece of a handler preserves. -/
structure Steps (r r' : RefServer) : Prop where
  kept : Kept r r'
  memory : Memory r → Memory r'
  whole : Whole r → Whole r'
  unshared : Memory r → Unshared r → Unshared r'

namespace Steps

theorem refl (r : RefServer) : Steps r r :=
  ⟨⟨rfl, rfl, rfl, rfl, fun _ _ h => .inl h⟩, id, id, fun _ h => h⟩

theorem trans {r r' r'' : RefServer} (h : Steps r r') (h' : Steps r' r'') : Steps r r'' := by
  refine ⟨⟨h'.kept.config.trans h.kept.config, h'.kept.clients.trans h.kept.clients,
    h'.kept.users.trans h.kept.users, h'.kept.entities.trans h.kept.entities, ?_⟩,
    h'.memory ∘ h.memory, h'.whole ∘ h.whole, fun hm hu => h'.unshared (h.memory hm) (h.unshared hm hu)⟩
  intro a c hc
  rcases h.kept.credentials a c hc with h1 | h1
  · exact h'.kept.credentials a c h1
  · rcases h'.kept.credentials a _ h1 with h2 | h2
    · exact .inr h2
    · exact .inr h2

end Steps

/-- The maps without some of their entries. -/
structure Fewer (r r' : RefServer) : Prop where
  config : r'.config = r.config
  clients : r'.clients = r.clients
  users : r'.users = r.users
  entities : r'.entities = r.entities
  credentials : r'.credentials = r.credentials
  access : (r'.accessTokens.getD []).Sublist (r.accessTokens.getD [])
  refresh : (r'.refreshTokens.getD []).Sublist (r.refreshTokens.getD [])
  codes : r'.authorizationCodes = r.authorizationCodes
  accessMade : r.accessTokens ≠ none → r'.accessTokens ≠ none
  refreshMade : r.refreshTokens ≠ none → r'.refreshTokens ≠ none

theorem Fewer.stored {r r' : RefServer} (h : Fewer r r') {e : Str × Ptr} (he : e ∈ stored r') :
    e ∈ stored r := by
  unfold Spec.stored at *
  rw [h.codes] at he
  simp only [List.mem_append] at he ⊢
  rcases he with (he | he) | he
  · exact .inl (.inl (h.access.subset he))
  · exact .inl (.inr (h.refresh.subset he))
  · exact .inr he

theorem Fewer.steps {r r' : RefServer} (h : Fewer r r') : Steps r r' where
  kept := ⟨h.config, h.clients, h.users, h.entities, fun a c hc => .inl (h.credentials ▸ hc)⟩
  memory hm := {
    accessKeys := hm.accessKeys.sublist (h.access.map _)
    refreshKeys := hm.refreshKeys.sublist (h.refresh.map _)
    codeKeys := h.codes ▸ hm.codeKeys
    valid := fun k a hk => h.credentials ▸ hm.valid k a (h.stored hk) }
  whole hw := {
    accessTokens := h.accessMade hw.accessTokens
    refreshTokens := h.refreshMade hw.refreshTokens
    authorizationCodes := h.codes ▸ hw.authorizationCodes
    entities := fun k p hk => by
      have := hw.entities k p (by rw [← h.clients, ← h.users]; exact hk)
      unfold RefServer.entity at *
      rw [h.entities]; exact this
    credentials := fun k p hk => by
      have := hw.credentials k p (h.stored hk)
      unfold RefServer.credential at *
      rw [h.credentials]; exact this }
  unshared _ hu := {
    codes := fun k k' a h1 h2 => hu.codes k k' a (h.codes ▸ h1) (h.codes ▸ h2)
    tokens := fun k k' a h1 h2 => by
      refine hu.tokens k k' a (h.codes ▸ h1) ?_
      simp only [List.mem_append] at h2 ⊢
      exact h2.imp (fun h2 => h.access.subset h2) (fun h2 => h.refresh.subset h2) }

/-- One more object, stored under one more key of one of the maps. -/
structure Added (r r' : RefServer) (c : ServerCredential) (k : Str) (slot : Nat) : Prop where
  config : r'.config = r.config
  clients : r'.clients = r.clients
  users : r'.users = r.users
  entities : r'.entities = r.entities
  credentials : r'.credentials = r.credentials ++ [c]
  access : ∀ e ∈ r'.accessTokens.getD [], e ∈ r.accessTokens.getD [] ∨
    (e = (k, some r.credentials.length) ∧ slot = 0)
  refresh : ∀ e ∈ r'.refreshTokens.getD [], e ∈ r.refreshTokens.getD [] ∨
    (e = (k, some r.credentials.length) ∧ slot = 1)
  codes : ∀ e ∈ r'.authorizationCodes.getD [], e ∈ r.authorizationCodes.getD [] ∨
    (e = (k, some r.credentials.length) ∧ slot = 2)
  accessKeys : (GoMap.keys (r.accessTokens.getD [])).Nodup →
    (GoMap.keys (r'.accessTokens.getD [])).Nodup
  refreshKeys : (GoMap.keys (r.refreshTokens.getD [])).Nodup →
    (GoMap.keys (r'.refreshTokens.getD [])).Nodup
  codeKeys : (GoMap.keys (r.authorizationCodes.getD [])).Nodup →
    (GoMap.keys (r'.authorizationCodes.getD [])).Nodup
  accessMade : r.accessTokens ≠ none → r'.accessTokens ≠ none
  refreshMade : r.refreshTokens ≠ none → r'.refreshTokens ≠ none
  codesMade : r.authorizationCodes ≠ none → r'.authorizationCodes ≠ none

namespace Added

variable {r r' : RefServer} {c : ServerCredential} {k : Str} {slot : Nat}

theorem stored (h : Added r r' c k slot) {e : Str × Ptr} (he : e ∈ stored r') :
    e ∈ Spec.stored r ∨ e = (k, some r.credentials.length) := by
  unfold Spec.stored at *
  simp only [List.mem_append] at he ⊢
  rcases he with (he | he) | he
  · exact (h.access e he).imp (fun h => .inl (.inl h)) (·.1)
  · exact (h.refresh e he).imp (fun h => .inl (.inr h)) (·.1)
  · exact (h.codes e he).imp .inr (·.1)

theorem credential (h : Added r r' c k slot) {p : Ptr} {v : ServerCredential}
    (hp : r.credential p = some v) : r'.credential p = some v := by
  unfold RefServer.credential at *
  cases p with
  | none => cases hp
  | some a =>
    simp only [Option.bind_some] at hp ⊢
    rw [h.credentials, List.getElem?_append_left (by
      exact (List.getElem?_eq_some_iff.1 hp).1)]
    exact hp

theorem old {e : Str × Ptr} {a : Nat} (hm : Memory r) (he : e ∈ Spec.stored r)
    (ha : e.2 = some a) : a < r.credentials.length := by
  obtain ⟨k, p⟩ := e
  cases ha
  exact hm.valid k a he

theorem steps (h : Added r r' c k slot) : Steps r r' where
  kept := by
    refine ⟨h.config, h.clients, h.users, h.entities, fun a c hc => .inl ?_⟩
    rw [h.credentials, List.getElem?_append_left (by
      exact (List.getElem?_eq_some_iff.1 hc).1)]
    exact hc
  memory hm := {
    accessKeys := h.accessKeys hm.accessKeys
    refreshKeys := h.refreshKeys hm.refreshKeys
    codeKeys := h.codeKeys hm.codeKeys
    valid := fun k' a hk => by
      rw [h.credentials, List.length_append]
      rcases h.stored hk with h1 | h1
      · have := hm.valid k' a h1
        simp only [List.length_singleton]; omega
      · simp only [Prod.mk.injEq, Option.some.injEq] at h1
        simp only [List.length_singleton]; omega }
  whole hw := {
    accessTokens := h.accessMade hw.accessTokens
    refreshTokens := h.refreshMade hw.refreshTokens
    authorizationCodes := h.codesMade hw.authorizationCodes
    entities := fun k p hk => by
      have := hw.entities k p (by rw [← h.clients, ← h.users]; exact hk)
      unfold RefServer.entity at *
      rw [h.entities]; exact this
    credentials := fun k' p hk => by
      rcases h.stored hk with h1 | h1
      · have := hw.credentials k' p h1
        cases hv : r.credential p with
        | none => rw [hv] at this; cases this
        | some v => rw [h.credential hv]; rfl
      · simp only [Prod.mk.injEq] at h1
        rw [h1.2]
        unfold RefServer.credential
        rw [h.credentials]
        simp }
  unshared hm hu := by
    have fresh : ∀ k', (k', some r.credentials.length) ∉ Spec.stored r := fun k' hk =>
      Nat.lt_irrefl _ (hm.valid k' _ hk)
    have code_old : ∀ {e}, e ∈ r.authorizationCodes.getD [] → e ∈ Spec.stored r := fun he => by
      unfold Spec.stored; simp only [List.mem_append]; exact .inr he
    have tokens_old : ∀ {e}, e ∈ r.accessTokens.getD [] ++ r.refreshTokens.getD [] →
        e ∈ Spec.stored r := fun he => by
      unfold Spec.stored; simp only [List.mem_append] at he ⊢; exact .inl he
    have tokens_new : ∀ {e}, e ∈ r'.accessTokens.getD [] ++ r'.refreshTokens.getD [] →
        e ∈ r.accessTokens.getD [] ++ r.refreshTokens.getD [] ∨
          (e = (k, some r.credentials.length) ∧ slot ≠ 2) := fun {e} he => by
      simp only [List.mem_append] at he ⊢
      rcases he with he | he
      · exact (h.access e he).imp .inl fun h => ⟨h.1, by omega⟩
      · exact (h.refresh e he).imp .inr fun h => ⟨h.1, by omega⟩
    refine ⟨fun k1 k2 a h1 h2 => ?_, fun k1 k2 a h1 h2 => ?_⟩
    · rcases h.codes _ h1 with h1 | ⟨h1, _⟩ <;> rcases h.codes _ h2 with h2 | ⟨h2, _⟩
      · exact hu.codes k1 k2 a h1 h2
      · simp only [Prod.mk.injEq, Option.some.injEq] at h2
        exact absurd (code_old (h2.2 ▸ h1)) (fresh k1)
      · simp only [Prod.mk.injEq, Option.some.injEq] at h1
        exact absurd (code_old (h1.2 ▸ h2)) (fresh k2)
      · simp only [Prod.mk.injEq, Option.some.injEq] at h1 h2
        rw [h1.1, h2.1]
    · rcases h.codes _ h1 with h1 | ⟨h1, h3⟩ <;> rcases tokens_new h2 with h2 | ⟨h2, h4⟩
      · exact hu.tokens k1 k2 a h1 h2
      · simp only [Prod.mk.injEq, Option.some.injEq] at h2
        exact fresh k1 (code_old (h2.2 ▸ h1))
      · simp only [Prod.mk.injEq, Option.some.injEq] at h1
        exact fresh k2 (tokens_old (h1.2 ▸ h2))
      · exact h4 h3

end Added

theorem mem_set {α : Type} {m : GoMap α} {k : Str} {v : α} {e : Str × α} (h : e ∈ m.set k v) :
    e ∈ m ∨ e = (k, v) := by
  unfold GoMap.set at h
  rcases List.mem_cons.1 h with h | h
  · exact .inr h
  · exact .inl (List.mem_filter.1 h).1

theorem added_access {r : RefServer} {m : GoMap Ptr} (hm : r.accessTokens = some m) (k : Str)
    (c : ServerCredential) :
    Added r { r with
      accessTokens := some (m.set k (some r.credentials.length))
      credentials := r.credentials ++ [c] } c k 0 where
  config := rfl
  clients := rfl
  users := rfl
  entities := rfl
  credentials := rfl
  access e he := by
    rw [hm]
    exact (mem_set he).imp id fun h => ⟨h, rfl⟩
  refresh e he := .inl he
  codes e he := .inl he
  accessKeys h := by
    rw [hm] at h
    exact GoMap.nodup_set h _ _
  refreshKeys h := h
  codeKeys h := h
  accessMade _ := Option.some_ne_none _
  refreshMade h := h
  codesMade h := h

theorem added_refresh {r : RefServer} {m : GoMap Ptr} (hm : r.refreshTokens = some m) (k : Str)
    (c : ServerCredential) :
    Added r { r with
      refreshTokens := some (m.set k (some r.credentials.length))
      credentials := r.credentials ++ [c] } c k 1 where
  config := rfl
  clients := rfl
  users := rfl
  entities := rfl
  credentials := rfl
  access e he := .inl he
  refresh e he := by
    rw [hm]
    exact (mem_set he).imp id fun h => ⟨h, rfl⟩
  codes e he := .inl he
  accessKeys h := h
  refreshKeys h := by
    rw [hm] at h
    exact GoMap.nodup_set h _ _
  codeKeys h := h
  accessMade h := h
  refreshMade _ := Option.some_ne_none _
  codesMade h := h

theorem added_code {r : RefServer} {m : GoMap Ptr} (hm : r.authorizationCodes = some m) (k : Str)
    (c : ServerCredential) :
    Added r { r with
      authorizationCodes := some (m.set k (some r.credentials.length))
      credentials := r.credentials ++ [c] } c k 2 where
  config := rfl
  clients := rfl
  users := rfl
  entities := rfl
  credentials := rfl
  access e he := .inl he
  refresh e he := .inl he
  codes e he := by
    rw [hm]
    exact (mem_set he).imp id fun h => ⟨h, rfl⟩
  accessKeys h := h
  refreshKeys h := h
  codeKeys h := by
    rw [hm] at h
    exact GoMap.nodup_set h _ _
  accessMade h := h
  refreshMade h := h
  codesMade _ := Option.some_ne_none _

/-- Marking an object. -/
theorem marked_steps (r : RefServer) (a : Nat) :
    Steps r { r with credentials := r.credentials.modify a fun c => { c with used := true } } where
  kept := by
    refine ⟨rfl, rfl, rfl, rfl, fun b c hc => ?_⟩
    simp only [List.getElem?_modify, hc]
    by_cases hab : a = b
    · exact .inr (by simp [hab])
    · exact .inl (by simp [hab])
  memory hm := ⟨hm.accessKeys, hm.refreshKeys, hm.codeKeys, fun k b hk => by
    simp only [List.length_modify]
    exact hm.valid k b hk⟩
  whole hw := ⟨hw.accessTokens, hw.refreshTokens, hw.authorizationCodes, hw.entities,
    fun k p hk => by
      have := hw.credentials k p hk
      unfold RefServer.credential at *
      cases p with
      | none => cases this
      | some b =>
        simp only [Option.bind_some] at this ⊢
        simp only [List.getElem?_modify]
        simpa using this⟩
  unshared _ hu := ⟨hu.codes, hu.tokens⟩

/-! ### The contents of the memory -/

theorem get?_mapped {α β : Type} (f : α → β) (m : GoMap α) (k : Str) :
    GoMap.get? (m.map fun e => (e.1, f e.2)) k = (GoMap.get? m k).map f := by
  induction m with
  | nil => rfl
  | cons e m ih =>
    obtain ⟨k', v⟩ := e
    simp only [List.map_cons, GoMap.get?_cons, ih]
    split <;> rfl

theorem del_mapped {α β : Type} (f : α → β) (m : GoMap α) (k : Str) :
    GoMap.del (m.map fun e => (e.1, f e.2)) k = (GoMap.del m k).map fun e => (e.1, f e.2) := by
  unfold GoMap.del
  rw [List.filter_map]
  rfl

variable {d : Fill} {r : RefServer}

theorem contents_client (k : Str) : GoMap.get? (contents d r).clients k =
    (r.clients.lookup k).map fun p => (r.entity p).getD d.entity :=
  get?_mapped (fun p => (r.entity p).getD d.entity) (Option.getD r.clients []) k

theorem contents_user (k : Str) : GoMap.get? (contents d r).users k =
    (r.users.lookup k).map fun p => (r.entity p).getD d.entity :=
  get?_mapped (fun p => (r.entity p).getD d.entity) (Option.getD r.users []) k

theorem contents_access (k : Str) : GoMap.get? (contents d r).accessTokens k =
    (r.accessTokens.lookup k).map fun p => (r.credential p).getD d.credential :=
  get?_mapped (fun p => (r.credential p).getD d.credential) (Option.getD r.accessTokens []) k

theorem contents_refresh (k : Str) : GoMap.get? (contents d r).refreshTokens k =
    (r.refreshTokens.lookup k).map fun p => (r.credential p).getD d.credential :=
  get?_mapped (fun p => (r.credential p).getD d.credential) (Option.getD r.refreshTokens []) k

theorem contents_code (k : Str) : GoMap.get? (contents d r).authorizationCodes k =
    (r.authorizationCodes.lookup k).map fun p => (r.credential p).getD d.credential :=
  get?_mapped (fun p => (r.credential p).getD d.credential) (Option.getD r.authorizationCodes []) k

theorem credentialsOf_delete (m : RefMap) (k : Str) :
    credentialsOf r d (m.delete k) = GoMap.del (credentialsOf r d m) k := by
  unfold credentialsOf RefMap.delete
  rw [del_mapped (fun p => (r.credential p).getD d.credential)]
  cases m <;> rfl

theorem lookup_mem {m : RefMap} {k : Str} {p : Ptr} (h : m.lookup k = some p) :
    (k, p) ∈ Option.getD m [] := GoMap.get?_some_mem h

theorem mem_stored_access {e : Str × Ptr} (h : e ∈ r.accessTokens.getD []) : e ∈ stored r := by
  unfold Spec.stored; simp only [List.mem_append]; exact .inl (.inl h)

theorem mem_stored_refresh {e : Str × Ptr} (h : e ∈ r.refreshTokens.getD []) : e ∈ stored r := by
  unfold Spec.stored; simp only [List.mem_append]; exact .inl (.inr h)

theorem mem_stored_code {e : Str × Ptr} (h : e ∈ r.authorizationCodes.getD []) : e ∈ stored r := by
  unfold Spec.stored; simp only [List.mem_append]; exact .inr h

/-- An object more changes nothing for the pointers that are there. -/
theorem credentialsOf_append {r r' : RefServer} {c : ServerCredential}
    (hc : r'.credentials = r.credentials ++ [c]) {m : GoMap Ptr}
    (hm : ∀ k a, (k, some a) ∈ m → a < r.credentials.length) :
    credentialsOf r' d (some m) = credentialsOf r d (some m) := by
  unfold credentialsOf
  refine List.map_congr_left fun e he => ?_
  obtain ⟨k, p⟩ := e
  unfold RefServer.credential
  cases p with
  | none => rfl
  | some a =>
    simp only [Option.bind_some]
    rw [hc, List.getElem?_append_left (hm k a he)]

theorem credentialsOf_getD (m : RefMap) : credentialsOf r d m = credentialsOf r d (some (m.getD [])) :=
  rfl

theorem credentialsOf_set {r r' : RefServer} {c : ServerCredential}
    (hc : r'.credentials = r.credentials ++ [c]) {m : GoMap Ptr}
    (hm : ∀ k a, (k, some a) ∈ m → a < r.credentials.length) (k : Str) :
    credentialsOf r' d (some (m.set k (some r.credentials.length))) =
      GoMap.set (credentialsOf r d (some m)) k c := by
  have h1 : credentialsOf r' d (some (m.set k (some r.credentials.length))) =
      (k, c) :: credentialsOf r' d (some (m.del k)) := by
    unfold credentialsOf GoMap.set
    simp [RefServer.credential, hc]
  rw [h1, credentialsOf_append (m := m.del k) hc fun k' a h => hm k' a (List.mem_filter.1 h).1]
  unfold GoMap.set
  rw [show credentialsOf r d (some (m.del k)) = GoMap.del (credentialsOf r d (some m)) k from
    credentialsOf_delete (some m) k]

theorem contents_put_access (hr : Memory r) {m : GoMap Ptr} (hm : r.accessTokens = some m) (k : Str)
    (c : ServerCredential) :
    contents d { r with
      accessTokens := some (m.set k (some r.credentials.length))
      credentials := r.credentials ++ [c] } =
    { contents d r with accessTokens := GoMap.set (contents d r).accessTokens k c } := by
  unfold contents
  simp only [Server.mk.injEq, true_and]
  refine ⟨rfl, rfl, ?_, ?_, ?_⟩
  · rw [hm]
    exact credentialsOf_set rfl (fun k' a h => hr.valid k' a (mem_stored_access (by rw [hm]; exact h))) k
  · rw [credentialsOf_getD, credentialsOf_getD (r := r)]
    exact credentialsOf_append rfl fun k' a h => hr.valid k' a (mem_stored_refresh h)
  · rw [credentialsOf_getD, credentialsOf_getD (r := r)]
    exact credentialsOf_append rfl fun k' a h => hr.valid k' a (mem_stored_code h)

theorem contents_put_refresh (hr : Memory r) {m : GoMap Ptr} (hm : r.refreshTokens = some m)
    (k : Str) (c : ServerCredential) :
    contents d { r with
      refreshTokens := some (m.set k (some r.credentials.length))
      credentials := r.credentials ++ [c] } =
    { contents d r with refreshTokens := GoMap.set (contents d r).refreshTokens k c } := by
  unfold contents
  simp only [Server.mk.injEq, true_and]
  refine ⟨rfl, rfl, ?_, ?_, ?_⟩
  · rw [credentialsOf_getD, credentialsOf_getD (r := r)]
    exact credentialsOf_append rfl fun k' a h => hr.valid k' a (mem_stored_access h)
  · rw [hm]
    exact credentialsOf_set rfl
      (fun k' a h => hr.valid k' a (mem_stored_refresh (by rw [hm]; exact h))) k
  · rw [credentialsOf_getD, credentialsOf_getD (r := r)]
    exact credentialsOf_append rfl fun k' a h => hr.valid k' a (mem_stored_code h)

theorem contents_put_code (hr : Memory r) {m : GoMap Ptr} (hm : r.authorizationCodes = some m)
    (k : Str) (c : ServerCredential) :
    contents d { r with
      authorizationCodes := some (m.set k (some r.credentials.length))
      credentials := r.credentials ++ [c] } =
    { contents d r with
      authorizationCodes := GoMap.set (contents d r).authorizationCodes k c } := by
  unfold contents
  simp only [Server.mk.injEq, true_and]
  refine ⟨rfl, rfl, ?_, ?_, ?_⟩
  · rw [credentialsOf_getD, credentialsOf_getD (r := r)]
    exact credentialsOf_append rfl fun k' a h => hr.valid k' a (mem_stored_access h)
  · rw [credentialsOf_getD, credentialsOf_getD (r := r)]
    exact credentialsOf_append rfl fun k' a h => hr.valid k' a (mem_stored_refresh h)
  · rw [hm]
    exact credentialsOf_set rfl
      (fun k' a h => hr.valid k' a (mem_stored_code (by rw [hm]; exact h))) k

theorem fewer_access (r : RefServer) (k : Str) :
    Fewer r { r with accessTokens := r.accessTokens.delete k } where
  config := rfl
  clients := rfl
  users := rfl
  entities := rfl
  credentials := rfl
  access := by
    show (Option.getD (RefMap.delete _ k) []).Sublist _
    unfold RefMap.delete
    cases r.accessTokens with
    | none => exact .refl _
    | some m => exact List.filter_sublist
  refresh := .refl _
  codes := rfl
  accessMade h := by
    show RefMap.delete _ k ≠ none
    unfold RefMap.delete
    cases hm : r.accessTokens with
    | none => exact absurd hm h
    | some m => exact Option.some_ne_none _
  refreshMade h := h

theorem fewer_refresh (r : RefServer) (k : Str) :
    Fewer r { r with refreshTokens := r.refreshTokens.delete k } where
  config := rfl
  clients := rfl
  users := rfl
  entities := rfl
  credentials := rfl
  access := .refl _
  refresh := by
    show (Option.getD (RefMap.delete _ k) []).Sublist _
    unfold RefMap.delete
    cases r.refreshTokens with
    | none => exact .refl _
    | some m => exact List.filter_sublist
  codes := rfl
  accessMade h := h
  refreshMade h := by
    show RefMap.delete _ k ≠ none
    unfold RefMap.delete
    cases hm : r.refreshTokens with
    | none => exact absurd hm h
    | some m => exact Option.some_ne_none _

theorem contents_delete_access (k : Str) :
    contents d { r with accessTokens := r.accessTokens.delete k } =
    { contents d r with accessTokens := GoMap.del (contents d r).accessTokens k } := by
  unfold contents
  simp only [Server.mk.injEq, true_and]
  exact ⟨rfl, rfl, credentialsOf_delete _ _, rfl, rfl⟩

theorem contents_delete_refresh (k : Str) :
    contents d { r with refreshTokens := r.refreshTokens.delete k } =
    { contents d r with refreshTokens := GoMap.del (contents d r).refreshTokens k } := by
  unfold contents
  simp only [Server.mk.injEq, true_and]
  exact ⟨rfl, rfl, rfl, credentialsOf_delete _ _, rfl⟩

/-! ### Marks -/

theorem lookup_of_mem {m : RefMap} (hn : (GoMap.keys (Option.getD m [])).Nodup) {e : Str × Ptr}
    (he : e ∈ Option.getD m []) : m.lookup e.1 = some e.2 := GoMap.get?_of_mem hn he

theorem spreadMap_entries {s : Server} {m : RefMap} (hn : (GoMap.keys (Option.getD m [])).Nodup)
    (g : Str → Ptr → ServerCredential) :
    Spec.spreadMap r s m ((Option.getD m []).map fun e => (e.1, g e.1 e.2)) =
      (Option.getD m []).map fun e =>
        (e.1, { g e.1 e.2 with used := (g e.1 e.2).used || Spec.usedPointer r s e.2 }) := by
  unfold Spec.spreadMap
  rw [List.map_map]
  refine List.map_congr_left fun e he => ?_
  simp only [Function.comp]
  rw [lookup_of_mem hn he]
  rfl

theorem usedPointer_contents (hr : Memory r) (p : Ptr) :
    Spec.usedPointer r (contents d r) p = true →
      ((r.credential p).getD d.credential).used = true := by
  unfold Spec.usedPointer
  intro h
  obtain ⟨e, he, h⟩ := List.any_eq_true.1 h
  simp only [Bool.and_eq_true, decide_eq_true_eq] at h
  rw [contents_code, lookup_of_mem hr.codeKeys he] at h
  rw [← h.1]
  exact h.2

theorem used_or (c : ServerCredential) (b : Bool) (h : b = true → c.used = true) :
    { c with used := c.used || b } = c := by
  cases c with | mk => cases b <;> simp_all

theorem spread_contents (hr : Memory r) : Spec.spread r (contents d r) = contents d r := by
  have key : ∀ m : RefMap, (GoMap.keys (Option.getD m [])).Nodup →
      Spec.spreadMap r (contents d r) m (credentialsOf r d m) = credentialsOf r d m := by
    intro m hn
    unfold credentialsOf
    rw [spreadMap_entries hn fun _ p => (r.credential p).getD d.credential]
    refine List.map_congr_left fun e _ => ?_
    rw [used_or _ _ (usedPointer_contents hr e.2)]
  unfold Spec.spread
  rw [key r.accessTokens hr.accessKeys |> fun h => (show Spec.spreadMap r (contents d r)
      r.accessTokens (contents d r).accessTokens = (contents d r).accessTokens from h),
    key r.refreshTokens hr.refreshKeys |> fun h => (show Spec.spreadMap r (contents d r)
      r.refreshTokens (contents d r).refreshTokens = (contents d r).refreshTokens from h),
    key r.authorizationCodes hr.codeKeys |> fun h => (show Spec.spreadMap r (contents d r)
      r.authorizationCodes (contents d r).authorizationCodes = (contents d r).authorizationCodes
      from h)]

/-- The memory after `p.Used = true`. -/
def markedAt (r : RefServer) (a : Nat) : RefServer :=
  { r with credentials := r.credentials.modify a fun c => { c with used := true } }

theorem credential_marked {a : Nat} {c : ServerCredential} (hc : r.credential (some a) = some c)
    (p : Ptr) : ((markedAt r a).credential p).getD d.credential =
      { (r.credential p).getD d.credential with
        used := ((r.credential p).getD d.credential).used || decide (p = some a) } := by
  cases p with
  | none => simp [RefServer.credential]
  | some b =>
    unfold RefServer.credential markedAt at *
    simp only [Option.bind_some, List.getElem?_modify] at *
    by_cases hab : a = b
    · subst hab
      simp [hc]
    · have hba : b ≠ a := fun h => hab h.symm
      simp [hab, hba]

theorem get?_update {α : Type} (m : GoMap α) (k j : Str) (f : α → α) :
    (m.update k f).get? j = if j = k then (m.get? j).map f else m.get? j := by
  induction m with
  | nil => simp [GoMap.update, GoMap.get?_nil]
  | cons e m ih =>
    obtain ⟨k', v⟩ := e
    unfold GoMap.update at ih ⊢
    simp only [List.map_cons]
    by_cases h1 : k' = k <;> by_cases h2 : j = k <;> by_cases h3 : k' = j <;>
      simp_all [GoMap.get?_cons]

/-- A code once the one stored under `k` is used. -/
def codeAfter (d : Fill) (r : RefServer) (k j : Str) (p : Ptr) : ServerCredential :=
  if j = k then { (r.credential p).getD d.credential with used := true }
  else (r.credential p).getD d.credential

theorem contents_marked (hr : Memory r) {k : Str} {a : Nat} {c : ServerCredential}
    (hk : r.authorizationCodes.lookup k = some (some a)) (hc : r.credential (some a) = some c) :
    contents d (markedAt r a) = Spec.spread (markedAt r a)
      { contents d r with
        authorizationCodes := GoMap.update (contents d r).authorizationCodes k
          fun c => { c with used := true } } := by
  generalize hs : ({ contents d r with
    authorizationCodes := GoMap.update (contents d r).authorizationCodes k
      fun c => { c with used := true } } : Server) = s
  have hcodes : s.authorizationCodes =
      GoMap.update (contents d r).authorizationCodes k fun c => { c with used := true } := by
    rw [← hs]
  have huniq : ∀ e ∈ Option.getD r.authorizationCodes [], e.1 = k → e.2 = some a := by
    intro e he hek
    have := lookup_of_mem hr.codeKeys he
    rw [hek, hk] at this
    exact (Option.some.inj this).symm
  have hused : ∀ p, (((r.credential p).getD d.credential).used || decide (p = some a)) =
      (((r.credential p).getD d.credential).used || Spec.usedPointer (markedAt r a) s p) := by
    intro p
    by_cases hp : p = some a
    · subst hp
      have : Spec.usedPointer (markedAt r a) s (some a) = true := by
        unfold Spec.usedPointer
        refine List.any_eq_true.2 ⟨(k, some a), lookup_mem hk, ?_⟩
        simp only [decide_true, Bool.true_and]
        rw [hcodes, get?_update, if_pos rfl, contents_code, hk]
        rfl
      rw [this]
      simp
    · cases hu : ((r.credential p).getD d.credential).used with
      | true => simp
      | false =>
        have : Spec.usedPointer (markedAt r a) s p = false := by
          cases h : Spec.usedPointer (markedAt r a) s p with
          | false => rfl
          | true =>
            unfold Spec.usedPointer at h
            obtain ⟨e, he, h⟩ := List.any_eq_true.1 h
            simp only [Bool.and_eq_true, decide_eq_true_eq] at h
            have hne : e.1 ≠ k := fun h1 => hp (h.1.symm.trans (huniq e he h1))
            rw [hcodes, get?_update, if_neg hne, contents_code, lookup_of_mem hr.codeKeys he] at h
            have h2 : ((r.credential e.2).getD d.credential).used = true := h.2
            rw [h.1, hu] at h2
            cases h2
        rw [this]
        simp [hp]
  have plain : ∀ m : RefMap, (GoMap.keys (Option.getD m [])).Nodup →
      credentialsOf (markedAt r a) d m =
        Spec.spreadMap (markedAt r a) s m (credentialsOf r d m) := by
    intro m hn
    unfold credentialsOf
    rw [spreadMap_entries hn fun _ p => (r.credential p).getD d.credential]
    refine List.map_congr_left fun e _ => ?_
    rw [credential_marked hc, hused]
  have code : credentialsOf (markedAt r a) d r.authorizationCodes =
      Spec.spreadMap (markedAt r a) s r.authorizationCodes s.authorizationCodes := by
    have : s.authorizationCodes = (Option.getD r.authorizationCodes []).map fun e =>
        (e.1, codeAfter d r k e.1 e.2) := by
      rw [hcodes]
      show GoMap.update ((Option.getD r.authorizationCodes []).map _) k _ = _
      unfold GoMap.update
      rw [List.map_map]
      refine List.map_congr_left fun e _ => ?_
      simp only [Function.comp, codeAfter]
      split <;> rfl
    rw [this, spreadMap_entries hr.codeKeys (codeAfter d r k)]
    unfold credentialsOf
    refine List.map_congr_left fun e he => ?_
    rw [credential_marked hc]
    unfold codeAfter
    by_cases h1 : e.1 = k
    · simp only [h1, if_true, huniq e he h1]
      simp
    · simp only [if_neg h1]
      rw [hused]
  have h1 : (contents d r).accessTokens = s.accessTokens := by rw [← hs]
  have h2 : (contents d r).refreshTokens = s.refreshTokens := by rw [← hs]
  have h3 : (contents d r).clients = s.clients := by rw [← hs]
  have h4 : (contents d r).users = s.users := by rw [← hs]
  have h5 : (contents d r).config = s.config := by rw [← hs]
  unfold Spec.spread
  rw [← h1, ← h2, ← h3, ← h4, ← h5]
  have e1 := plain r.accessTokens hr.accessKeys
  have e2 := plain r.refreshTokens hr.refreshKeys
  show Server.mk _ _ _ (credentialsOf (markedAt r a) d r.accessTokens)
    (credentialsOf (markedAt r a) d r.refreshTokens)
    (credentialsOf (markedAt r a) d r.authorizationCodes) = _
  rw [e1, e2, code]
  rfl

end OAuth2

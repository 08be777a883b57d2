import Verif.Spec.Conformance
import Verif.Lemmas.SuiteRequest
import Verif.Lemmas.Document

/-!
Running the integration tests against any server: what a run that passes shows.
-/

namespace OAuth2.Suite

open _root_.OAuth2.Conformance

set_option linter.unusedSimpArgs false

variable {α β : Type}

/-! ### What a run shows -/

/-- Whatever the test is run against, if it passes then this holds of its result and of what was
said. -/
def Plays (t : Test α) (K : α → List Exchange → Prop) : Prop :=
  ∀ (σ : Type) (handler : Request → Prog σ Unit) (draws : Nat → Draw) (s : Shared σ) (n : Nat)
    (a : α) (s' : Shared σ) (n' : Nat), t.run handler draws s n = some (a, true, s', n') →
    K a (conversation handler draws t s n)

theorem Plays.mono {t : Test α} {K K' : α → List Exchange → Prop} (h : Plays t K)
    (hk : ∀ a tr, K a tr → K' a tr) : Plays t K' :=
  fun σ handler draws s n a s' n' hr => hk _ _ (h σ handler draws s n a s' n' hr)

theorem plays_ret {a : α} {K : α → List Exchange → Prop} (h : K a []) : Plays (pure a) K := by
  intro σ handler draws s n b s' n' hr
  have : Test.run handler draws (.ret a) s n = some (b, true, s', n') := hr
  unfold Test.run at this
  cases this
  exact h

theorem run_send {r : Req} {k : Recorder → Test α} {σ : Type} {handler : Request → Prog σ Unit}
    {draws : Nat → Draw} {s s1 : Shared σ} {n : Nat} {req : Request} {l : Local}
    (hr : r.request = some req)
    (he : exec (handler req) s { coins := (draws n).coins, clock := (draws n).clock } =
      (.ret (), s1, l)) :
    Test.run handler draws (.send r k) s n = (k l.w).run handler draws s1 (n + 1) := by
  rw [Test.run, hr]
  simp only
  rw [he]

theorem conversation_send {r : Req} {k : Recorder → Test α} {σ : Type}
    {handler : Request → Prog σ Unit} {draws : Nat → Draw} {s s1 : Shared σ} {n : Nat}
    {req : Request} {l : Local} (hr : r.request = some req)
    (he : exec (handler req) s { coins := (draws n).coins, clock := (draws n).clock } =
      (.ret (), s1, l)) :
    conversation handler draws (.send r k) s n =
      ⟨req, l.w⟩ :: conversation handler draws (k l.w) s1 (n + 1) := by
  rw [conversation, hr]
  simp only
  rw [he]

theorem bind_run {t : Test α} {f : α → Test β} {σ : Type} {handler : Request → Prog σ Unit}
    {draws : Nat → Draw} {s : Shared σ} {n : Nat} {b : β} {s' : Shared σ} {n' : Nat}
    (h : (t >>= f).run handler draws s n = some (b, true, s', n')) :
    ∃ a s1 n1, t.run handler draws s n = some (a, true, s1, n1) ∧
      (f a).run handler draws s1 n1 = some (b, true, s', n') ∧
      conversation handler draws (t >>= f) s n =
        conversation handler draws t s n ++ conversation handler draws (f a) s1 n1 := by
  change (t.bind f).run handler draws s n = _ at h
  show ∃ a s1 n1, _ ∧ _ ∧ conversation handler draws (t.bind f) s n = _
  induction t generalizing s n with
  | ret a => exact ⟨a, s, n, rfl, h, rfl⟩
  | panic => unfold Test.bind Test.run at h; cases h
  | check ok k ih =>
    unfold Test.bind Test.run at h
    cases hk : (k.bind f).run handler draws s n with
    | none => rw [hk] at h; cases h
    | some x =>
      obtain ⟨b', p, s1, n1⟩ := x
      rw [hk] at h
      simp only [Option.some.injEq, Prod.mk.injEq, Bool.and_eq_true] at h
      obtain ⟨rfl, ⟨rfl, rfl⟩, rfl, rfl⟩ := h
      obtain ⟨a, s2, n2, h1, h2, h3⟩ := ih hk
      refine ⟨a, s2, n2, ?_, h2, h3⟩
      unfold Test.run; rw [h1]; rfl
  | send r k ih =>
    unfold Test.bind Test.run at h
    cases hr : r.request with
    | none => rw [hr] at h; cases h
    | some req =>
      rw [hr] at h
      simp only at h
      cases he : exec (handler req) s { coins := (draws n).coins, clock := (draws n).clock } with
      | mk o rest =>
        obtain ⟨s1, l⟩ := rest
        rw [he] at h
        cases o with
        | ret u =>
          simp only at h
          obtain ⟨a, s2, n2, h1, h2, h3⟩ := ih l.w h
          refine ⟨a, s2, n2, ?_, h2, ?_⟩
          · rw [run_send hr he]; exact h1
          · show conversation handler draws (.send r fun w => (k w).bind f) s n = _
            rw [conversation_send hr he, conversation_send hr he, h3]
            rfl
        | _ => cases h

theorem plays_bind {t : Test α} {f : α → Test β} {K : α → List Exchange → Prop}
    {K' : β → List Exchange → Prop} (h1 : Plays t K)
    (h2 : ∀ a tr, K a tr → Plays (f a) fun b tr' => K' b (tr ++ tr')) : Plays (t >>= f) K' := by
  intro σ handler draws s n b s' n' hr
  obtain ⟨a, s1, n1, h3, h4, h5⟩ := bind_run hr
  rw [h5]
  exact h2 a _ (h1 _ _ _ _ _ _ _ _ h3) _ _ _ _ _ _ _ _ h4

theorem plays_assert {ok : Bool} {f : Unit → Test β} {K : β → List Exchange → Prop}
    (h : ok = true → Plays (f ()) K) : Plays (Test.assert ok >>= f) K := by
  intro σ handler draws s n b s' n' hr
  obtain ⟨a, s1, n1, h3, h4, h5⟩ := bind_run hr
  unfold Test.assert Test.run Test.run at h3
  simp only [Option.some.injEq, Prod.mk.injEq, Bool.and_true] at h3
  obtain ⟨-, h3, rfl, rfl⟩ := h3
  rw [h5]
  exact h h3 _ _ _ _ _ _ _ _ h4

theorem plays_assert_last {ok : Bool} {K : Unit → List Exchange → Prop}
    (h : ok = true → K () []) : Plays (Test.assert ok) K := by
  intro σ handler draws s n b s' n' hr
  unfold Test.assert Test.run Test.run at hr
  simp only [Option.some.injEq, Prod.mk.injEq, Bool.and_true] at hr
  exact h hr.2.1

theorem plays_must {ok : Bool} {f : Unit → Test β} {K : β → List Exchange → Prop}
    (h : ok = true → Plays (f ()) K) : Plays (Test.must ok >>= f) K := by
  intro σ handler draws s n b s' n' hr
  obtain ⟨a, s1, n1, h3, h4, h5⟩ := bind_run hr
  rw [h5]
  unfold Test.must at h3 ⊢
  cases ok with
  | false => simp [Test.run] at h3
  | true =>
    simp only [if_true, Test.run, Option.some.injEq, Prod.mk.injEq] at h3
    obtain ⟨-, -, rfl, rfl⟩ := h3
    exact h rfl _ _ _ _ _ _ _ _ h4

theorem plays_ofOption {o : Option α} {f : α → Test β} {K : β → List Exchange → Prop}
    (h : ∀ a, o = some a → Plays (f a) K) : Plays (Test.ofOption o >>= f) K := by
  intro σ handler draws s n b s' n' hr
  obtain ⟨a, s1, n1, h3, h4, h5⟩ := bind_run hr
  rw [h5]
  cases o with
  | none => simp [Test.ofOption, Test.run] at h3
  | some x =>
    simp only [Test.ofOption, Test.run, Option.some.injEq, Prod.mk.injEq] at h3
    obtain ⟨rfl, -, rfl, rfl⟩ := h3
    exact h _ rfl _ _ _ _ _ _ _ _ h4

theorem plays_do {r : Req} {f : Recorder → Test β} {K : β → List Exchange → Prop}
    (h : ∀ req w, r.request = some req → Plays (f w) fun b tr => K b (⟨req, w⟩ :: tr)) :
    Plays (Test.Do r >>= f) K := by
  intro σ handler draws s n b s' n' hr
  change Test.run handler draws (.send r f) s n = _ at hr
  show K b (conversation handler draws (.send r f) s n)
  unfold Test.run at hr
  unfold conversation
  cases hq : r.request with
  | none => rw [hq] at hr; cases hr
  | some req =>
    rw [hq] at hr
    simp only at hr ⊢
    cases he : exec (handler req) s { coins := (draws n).coins, clock := (draws n).clock } with
    | mk o rest =>
      obtain ⟨s1, l⟩ := rest
      rw [he] at hr
      cases o with
      | ret u => exact h req l.w hq _ _ _ _ _ _ _ _ hr
      | _ => cases hr

theorem bind_assoc {γ : Type} (t : Test α) (f : α → Test β) (g : β → Test γ) :
    (t >>= f) >>= g = t >>= fun a => f a >>= g := by
  show (t.bind f).bind g = t.bind fun a => (f a).bind g
  induction t with
  | ret a => rfl
  | panic => rfl
  | check ok k ih => unfold Test.bind; rw [← ih]; rfl
  | send r k ih =>
    have : (fun w => ((k w).bind f).bind g) = fun w => (k w).bind fun a => (f a).bind g :=
      funext ih
    unfold Test.bind
    show Test.send r (fun w => ((k w).bind f).bind g) = _
    rw [this]

theorem plays_assoc {γ : Type} {t : Test α} {f : α → Test β} {g : β → Test γ}
    {K : γ → List Exchange → Prop} (h : Plays (t >>= fun a => f a >>= g) K) :
    Plays ((t >>= f) >>= g) K := by
  rw [bind_assoc]; exact h

theorem plays_pure_bind {a : α} {f : α → Test β} {K : β → List Exchange → Prop}
    (h : Plays (f a) K) : Plays (pure a >>= f) K := h

/-! ### Exchanges in order -/

theorem inOrder_append {tr tr' : List Exchange} {ps qs : List (Exchange → Prop)}
    (h1 : InOrder tr ps) (h2 : InOrder tr' qs) : InOrder (tr ++ tr') (ps ++ qs) := by
  induction ps generalizing tr with
  | nil =>
    cases qs with
    | nil => exact trivial
    | cons q qs =>
      obtain ⟨b, e, a, rfl, h3, h4⟩ := h2
      exact ⟨tr ++ b, e, a, by simp, h3, h4⟩
  | cons p ps ih =>
    obtain ⟨b, e, a, rfl, h3, h4⟩ := h1
    exact ⟨b, e, a ++ tr', by simp, h3, ih h4⟩

theorem inOrder_cons {e : Exchange} {tr : List Exchange} {p : Exchange → Prop}
    {ps : List (Exchange → Prop)} (h1 : p e) (h2 : InOrder tr ps) : InOrder (e :: tr) (p :: ps) :=
  ⟨[], e, tr, rfl, h1, h2⟩

theorem inOrder_front {tr tr' : List Exchange} {ps : List (Exchange → Prop)} (h : InOrder tr ps) :
    InOrder (tr ++ tr') ps := by
  have := inOrder_append (tr' := tr') (qs := []) h trivial
  rwa [List.append_nil] at this

theorem inOrder_back {tr tr' : List Exchange} {ps : List (Exchange → Prop)} (h : InOrder tr' ps) :
    InOrder (tr ++ tr') ps :=
  inOrder_append (tr := tr) (ps := []) trivial h

theorem inOrder_skip {e : Exchange} {tr : List Exchange} {ps : List (Exchange → Prop)}
    (h : InOrder tr ps) : InOrder (e :: tr) ps := inOrder_back (tr := [e]) h

/-- All requirements are met by some exchange. -/
def AllMet (rows : List Requirement) (tr : List Exchange) : Prop :=
  ∀ q ∈ rows, ∃ e ∈ tr, q.Met e

theorem allMet_nil (tr : List Exchange) : AllMet [] tr := fun _ h => nomatch h

theorem allMet_cons {q : Requirement} {rows : List Requirement} {e : Exchange}
    {tr : List Exchange} (h1 : q.Met e) (h2 : AllMet rows tr) : AllMet (q :: rows) (e :: tr) := by
  intro p hp
  rcases List.mem_cons.mp hp with rfl | hp
  · exact ⟨e, List.mem_cons_self, h1⟩
  · obtain ⟨e', h3, h4⟩ := h2 p hp
    exact ⟨e', List.mem_cons_of_mem _ h3, h4⟩

theorem allMet_append {rows rows' : List Requirement} {tr tr' : List Exchange}
    (h1 : AllMet rows tr) (h2 : AllMet rows' tr') : AllMet (rows ++ rows') (tr ++ tr') := by
  intro p hp
  rcases List.mem_append.mp hp with hp | hp
  · obtain ⟨e', h3, h4⟩ := h1 p hp
    exact ⟨e', List.mem_append_left _ h3, h4⟩
  · obtain ⟨e', h3, h4⟩ := h2 p hp
    exact ⟨e', List.mem_append_right _ h3, h4⟩

theorem allMet_front {rows : List Requirement} {tr tr' : List Exchange} (h : AllMet rows tr) :
    AllMet rows (tr ++ tr') := fun p hp =>
  let ⟨e, h3, h4⟩ := h p hp
  ⟨e, List.mem_append_left _ h3, h4⟩

theorem allMet_back {rows : List Requirement} {tr tr' : List Exchange} (h : AllMet rows tr') :
    AllMet rows (tr ++ tr') := fun p hp =>
  let ⟨e, h3, h4⟩ := h p hp
  ⟨e, List.mem_append_right _ h3, h4⟩

theorem allMet_skip {rows : List Requirement} {e : Exchange} {tr : List Exchange}
    (h : AllMet rows tr) : AllMet rows (e :: tr) := allMet_back (tr := [e]) h

/-! ### Requests -/

theorem request_some {r : Req} {req : Request} (h : r.request = some req) :
    Sent r.method r.path req ∧ req.header = r.head ∧ req.postForm = some (setValues r.form) := by
  unfold Req.request at h
  cases hu : parseURL r.path with
  | none => rw [hu] at h; cases h
  | some u =>
    rw [hu] at h
    simp only [Option.some.injEq] at h
    subst h
    exact ⟨⟨rfl, u, hu, rfl, rfl⟩, rfl, rfl⟩

theorem form_of {req : Request} {form : GoMap Str} (hn : form.keys.Nodup)
    (h : req.postForm = some (setValues form)) : Form (fields form) req := by
  intro name
  rw [h]
  show Values.all (setValues form) name = _
  unfold setValues Values.all fields
  rw [foldl_set_get? form (fun x => [x]) hn]
  cases form.get? name <;> rfl

theorem basic_of {r : Req} {req : Request} (h : r.request = some req) (hu : r.username ≠ []) :
    Basic r.username r.password req := by
  obtain ⟨-, h1, -⟩ := request_some h
  unfold Basic Authorization
  rw [h1]
  unfold Req.head
  rw [if_pos hu, Header.get_set, if_pos rfl]

theorem noAuth_of {r : Req} {req : Request} (h : r.request = some req) (hu : r.username = [])
    (hh : r.header = []) : Authorization req [] := by
  obtain ⟨-, h1, -⟩ := request_some h
  unfold Authorization
  rw [h1]
  unfold Req.head
  rw [hu, hh]
  rfl

theorem fetch_of {spec : Spec} {token : Str} {req : Request}
    (h : (protectedReq spec token).request = some req) : FetchWith spec token req := by
  obtain ⟨h0, h1, -⟩ := request_some h
  refine ⟨h0, ?_⟩
  unfold Authorization
  rw [h1]
  rfl

theorem fetch_header {spec : Spec} {value : Str} {req : Request}
    (h : (Req.mk b!"GET" spec.protectedResource [(b!"Authorization", value)] [] [] []).request =
      some req) : Fetch spec value req := by
  obtain ⟨h0, h1, -⟩ := request_some h
  refine ⟨h0, ?_⟩
  unfold Authorization
  rw [h1]
  rfl

theorem fetch_none {spec : Spec} {req : Request}
    (h : (Req.mk b!"GET" spec.protectedResource [] [] [] []).request = some req) :
    Fetch spec [] req :=
  ⟨(request_some h).1, noAuth_of h rfl rfl⟩

theorem anonymous_of {uri : Str} {form : GoMap Str} {req : Request} (hn : form.keys.Nodup)
    (h : (Req.mk b!"POST" uri [] form [] []).request = some req) : Anonymous uri form req :=
  ⟨(request_some h).1, noAuth_of h rfl rfl, form_of hn (request_some h).2.2⟩

theorem postAs_of {id secret uri : Str} {form : GoMap Str} {req : Request} (hn : form.keys.Nodup)
    (hid : id ≠ []) (h : (Req.mk b!"POST" uri [] form id secret).request = some req) :
    PostAs id secret uri form req :=
  ⟨(request_some h).1, basic_of h hid, form_of hn (request_some h).2.2⟩

/-- The header of a map: for each name a value of an entry with this name, if there is one. -/
theorem setHeaders_get (m : GoMap Str) (h : Header) (name : Str) :
    (∃ e ∈ m, canonicalKey e.1 = canonicalKey name ∧ (setHeaders h m).get name = e.2) ∨
    ((∀ e ∈ m, canonicalKey e.1 ≠ canonicalKey name) ∧ (setHeaders h m).get name = h.get name) := by
  induction m generalizing h with
  | nil => exact .inr ⟨fun _ hm => (nomatch hm), rfl⟩
  | cons x m ih =>
    have e : setHeaders h (x :: m) = setHeaders (h.set x.1 x.2) m := rfl
    rw [e]
    rcases ih (h.set x.1 x.2) with ⟨e, h1, h2, h3⟩ | ⟨h1, h2⟩
    · exact .inl ⟨e, List.mem_cons_of_mem _ h1, h2, h3⟩
    · rw [h2, Header.get_set]
      by_cases hk : canonicalKey x.1 = canonicalKey name
      · exact .inl ⟨x, List.mem_cons_self, hk, by rw [if_pos hk.symm]⟩
      · rw [if_neg (Ne.symm hk)]
        refine .inr ⟨fun e he => ?_, rfl⟩
        rcases List.mem_cons.mp he with rfl | he
        · exact hk
        · exact h1 e he

theorem mem_foldl_set {m v : GoMap Str} {e : Str × Str}
    (h : e ∈ m.foldl (fun v e => GoMap.set v e.1 e.2) v) : e ∈ m ∨ e ∈ v := by
  induction m generalizing v with
  | nil => exact .inr h
  | cons x m ih =>
    rcases ih h with h | h
    · exact .inl (List.mem_cons_of_mem _ h)
    · rcases List.mem_cons.mp h with rfl | h
      · exact .inl List.mem_cons_self
      · exact .inr ((List.mem_filter.mp h).1)

theorem foldl_set_key {m v : GoMap Str} {k : Str} (h : k ∈ m.keys ∨ k ∈ v.keys) :
    k ∈ GoMap.keys (m.foldl (fun v e => GoMap.set v e.1 e.2) v) := by
  induction m generalizing v with
  | nil => rcases h with h | h
           · cases h
           · exact h
  | cons x m ih =>
    apply ih
    by_cases hk : k = x.1
    · exact .inr (by subst hk; exact List.mem_cons_self)
    · rcases h with h | h
      · rcases List.mem_cons.mp h with h | h
        · exact absurd h hk
        · exact .inl h
      · refine .inr ?_
        have h3 : ¬ GoMap.get? v k = none := fun h4 => (GoMap.get?_eq_none_iff v k).mp h4 h
        refine Classical.byContradiction fun h4 => h3 ?_
        have h5 := (GoMap.get?_eq_none_iff _ k).mpr h4
        rw [GoMap.get?_set, if_neg hk] at h5
        exact h5

theorem authorizeForm_keys (spec : Spec) (rt sc : Str) : (authorizeForm spec rt sc).keys.Nodup := by
  show [b!"response_type", b!"client_id", b!"redirect_uri", b!"scope", b!"state"].Nodup
  decide

theorem consent_of {spec : Spec} {params headers : Option (GoMap Str)} {rt sc : Str} {req : Request}
    (hn : (params.getD []).keys.Nodup)
    (h : (authorizeReq spec params headers rt sc).request = some req) :
    Consent spec params headers rt sc req := by
  obtain ⟨h0, h1, h2⟩ := request_some h
  refine ⟨h0, fun name => ?_, fun name => ?_⟩
  · have h3 := form_of (extend_nodup _ _) h2 name
    rw [h3]
    unfold fields
    show ((extend (params.getD []) (authorizeForm spec rt sc)).get? name).toList = _
    rw [extend_get? hn (authorizeForm_keys spec rt sc)]
    rfl
  · rw [h1]
    show (∃ e ∈ headers.getD [], _ ∧ (setHeaders [] (extend (headers.getD []) [])).get name = _) ∨
      _ ∧ (setHeaders [] (extend (headers.getD []) [])).get name = _
    rcases setHeaders_get (extend (headers.getD []) []) [] name with ⟨e, h3, h4, h5⟩ | ⟨h3, h4⟩
    · refine .inl ⟨e, ?_, h4, h5⟩
      rcases mem_foldl_set (v := []) h3 with h6 | h6
      · exact h6
      · cases h6
    · refine .inr ⟨fun e he hk => ?_, h4⟩
      have h5 : e.1 ∈ GoMap.keys (extend (headers.getD []) []) :=
        foldl_set_key (m := headers.getD []) (v := []) (.inl (List.mem_map_of_mem he))
      obtain ⟨e', h6, h7⟩ := List.mem_map.mp h5
      exact h3 e' h6 (by rw [h7]; exact hk)

/-! ### Answers -/

theorem status_of {w : Recorder} {n : Nat} (h : decide (code w = n) = true) : Status n w := by
  have h := of_decide_eq_true h
  unfold code at h
  unfold Status
  cases hw : w.sent with
  | none => rw [hw] at h; exact h
  | some x => rw [hw] at h; exact h

theorem get?_split {m : GoMap JSON} {k : Str} {d : JSON} (h : GoMap.get? m.reverse k = some d) :
    ∃ front back, m = front ++ (k, d) :: back ∧ ∀ e ∈ back, e.1 ≠ k := by
  generalize hr : m.reverse = r at h
  have hm : m = r.reverse := by rw [← hr, List.reverse_reverse]
  subst hm
  clear hr
  induction r with
  | nil => cases h
  | cons x r ih =>
    obtain ⟨k', d'⟩ := x
    rw [GoMap.get?_cons] at h
    by_cases hk : k' = k
    · subst hk
      rw [if_pos rfl] at h
      cases h
      exact ⟨r.reverse, [], by simp, fun _ h => nomatch h⟩
    · rw [if_neg hk] at h
      obtain ⟨f, b, h1, h2⟩ := ih h
      refine ⟨f, b ++ [(k', d')], by rw [List.reverse_cons, h1]; simp, fun e he => ?_⟩
      rcases List.mem_append.mp he with he | he
      · exact h2 e he
      · rw [List.mem_singleton.mp he]; exact hk

theorem split_get? {front back : GoMap JSON} {k : Str} {d : JSON} (h : ∀ e ∈ back, e.1 ≠ k) :
    GoMap.get? (front ++ (k, d) :: back).reverse k = some d := by
  rw [List.reverse_append, List.reverse_cons, List.append_assoc]
  generalize hr : back.reverse = r
  have h' : ∀ e ∈ r, e.1 ≠ k := fun e he => h e (by rw [← List.mem_reverse, hr]; exact he)
  clear hr h
  induction r with
  | nil => show GoMap.get? ((k, d) :: _) k = _; rw [GoMap.get?_cons, if_pos rfl]
  | cons x r ih =>
    show GoMap.get? ((x.1, x.2) :: _) k = _
    rw [GoMap.get?_cons, if_neg (h' x List.mem_cons_self)]
    exact ih fun e he => h' e (List.mem_cons_of_mem _ he)

theorem hasMember_iff {w : Recorder} {k : Str} {d : JSON} :
    HasMember w k d ↔ jsonField w k = some d := by
  unfold HasMember jsonField
  constructor
  · rintro ⟨ms, sp, text, rest, h1, h2, h3, h4, f, b, rfl, h6⟩
    obtain ⟨rest', hp⟩ := (parseValue_object_iff w.body _).mpr ⟨sp, text, rest, h2, h3, h1⟩
    rw [hp]
    have hr := (numbersInRange_iff (numbered_of_value h3)).mpr h4
    rw [JSON.readable] at hr
    simp only [hr, if_true]
    exact split_get? h6
  · intro h
    split at h
    · next ms rest hp =>
      split at h
      · next hr =>
        obtain ⟨f, b, h1, h2⟩ := get?_split h
        obtain ⟨sp, text, rest', h3, h4, h5⟩ := (parseValue_object_iff w.body ms).mp ⟨rest, hp⟩
        refine ⟨ms, sp, text, rest', h5, h3, h4, ?_, f, b, h1, h2⟩
        refine (numbersInRange_iff (numbered_of_value h4)).mp ?_
        rw [JSON.readable]
        exact hr
      · cases h
    · cases h

theorem hasMember_number {w : Recorder} {k lit : Str} (h : HasMember w k (.num lit)) :
    Spec.NumberText lit := by
  obtain ⟨ms, sp, text, rest, h1, h2, h3, h4, f, b, rfl, h6⟩ := h
  exact numbered_of_value h3 lit (.obj (q := (k, .num lit)) (by simp) .num)

theorem member_str {w : Recorder} {k v : Str} (hv : v ≠ []) (h : jsonFieldString w k = v) :
    HasMember w k (.str v) := by
  rw [hasMember_iff]
  unfold jsonFieldString at h
  split at h
  · next s hs => rw [hs, h]
  · exact absurd h.symm hv

theorem member_true {w : Recorder} {k : Str} (h : jsonFieldBool w k = true) :
    HasMember w k (.bool true) := by
  rw [hasMember_iff]
  unfold jsonFieldBool at h
  split at h
  · next b hs => rw [hs, h]
  · cases h

theorem not_member {w : Recorder} {k : Str} (h : (!jsonFieldBool w k) = true) :
    ¬ HasMember w k (.bool true) := by
  rw [hasMember_iff]
  intro h'
  unfold jsonFieldBool at h
  rw [h'] at h
  cases h

theorem member_num {w : Recorder} {k : Str} {v : Int}
    (h : (jsonFieldFloat w k).value = (F64.ofInt v).value) (hv : v ≠ 0) (h1 : -2 ^ 63 ≤ v)
    (h2 : v < 2 ^ 63) : HasNumber w k v := by
  have hn := (F64.parse_ofInt h1 h2).2
  have h0 : F64.value (F64.zero false) ≠ (F64.ofInt v).value := by
    rw [F64.zero_value]
    exact fun h => F64.nearest_ne_zero hv hn h.symm
  unfold jsonFieldFloat at h
  split at h
  · next lit hs =>
    have hm := hasMember_iff.mpr hs
    cases hp : F64.parse lit with
    | none => rw [hp] at h; exact absurd h h0
    | some f =>
      rw [hp] at h
      exact ⟨lit, f, _, hm, (F64.parse_iff (hasMember_number hm) f).mp hp, hn, h⟩
  · exact absurd h h0

theorem splitComma_listed (s : Str) : splitComma s ≠ [] ∧ listed (splitComma s) = s := by
  induction s using splitComma.induct with
  | case1 => exact ⟨by simp [splitComma], rfl⟩
  | case2 c => exact ⟨by simp [splitComma], rfl⟩
  | case3 c d cs h ih =>
    rw [splitComma, if_pos h]
    refine ⟨by simp, ?_⟩
    cases hs : splitComma cs with
    | nil => exact absurd hs ih.1
    | cons x xs =>
      rw [hs] at ih
      show [] ++ b!", " ++ listed (x :: xs) = _
      rw [ih.2, h.1, h.2]
      rfl
  | case4 c d cs h hs ih => exact absurd hs ih.1
  | case5 c d cs h x xs hs ih =>
    rw [splitComma, if_neg h]
    rw [hs] at ih ⊢
    refine ⟨by simp, ?_⟩
    have e : listed ((c :: x) :: xs) = c :: listed (x :: xs) := by
      cases xs <;> rfl
    show listed ((c :: x) :: xs) = _
    rw [e, ih.2]

/-- Quotes and commas in front, and what is left. -/
theorem dropWhile_split (p : UInt8 → Bool) (s : Str) :
    ∃ front, s = front ++ s.dropWhile p ∧ ∀ c ∈ front, p c = true := by
  induction s with
  | nil => exact ⟨[], rfl, fun _ h => nomatch h⟩
  | cons c s ih =>
    by_cases h : p c = true
    · obtain ⟨f, h1, h2⟩ := ih
      refine ⟨c :: f, ?_, fun d hd => ?_⟩
      · rw [List.dropWhile_cons, if_pos h, List.cons_append, ← h1]
      · rcases List.mem_cons.mp hd with rfl | hd
        · exact h
        · exact h2 d hd
    · exact ⟨[], by rw [List.dropWhile_cons, if_neg h]; rfl, fun _ h => nomatch h⟩

theorem trimQuotes_split (s : Str) : ∃ left right, s = left ++ trimQuotes s ++ right ∧
    ∀ c ∈ left ++ right, c = 0x22 ∨ c = 0x2C := by
  obtain ⟨l, h1, h2⟩ := dropWhile_split (fun c => c = 0x22 || c = 0x2C) s
  obtain ⟨r, h3, h4⟩ := dropWhile_split (fun c => c = 0x22 || c = 0x2C)
    (s.dropWhile fun c => c = 0x22 || c = 0x2C).reverse
  refine ⟨l, r.reverse, ?_, fun c hc => ?_⟩
  · have h5 := congrArg List.reverse h3
    rw [List.reverse_reverse, List.reverse_append] at h5
    unfold trimQuotes
    simp only
    rw [List.append_assoc, ← h5]
    exact h1
  · rcases List.mem_append.mp hc with hc | hc
    · simpa using h2 c hc
    · simpa using h4 c (List.mem_reverse.mp hc)

theorem authParam_split {key v : Str} {parts : List Str} (h : authParam key parts = some v)
    (hv : v ≠ []) : ∃ front back text, parts = front ++ (key ++ b!"=" ++ text) :: back ∧
      trimQuotes text = v := by
  induction parts with
  | nil => cases h; exact absurd rfl hv
  | cons part parts ih =>
    unfold authParam at h
    have go (h : authParam key parts = some v) : ∃ front back text,
        part :: parts = front ++ (key ++ b!"=" ++ text) :: back ∧ trimQuotes text = v := by
      obtain ⟨f, b, t, h1, h2⟩ := ih h
      exact ⟨part :: f, b, t, by rw [h1]; rfl, h2⟩
    split at h
    · split at h
      · exact go h
      · cases h
    · next name value hc =>
      split at h
      · exact go h
      · next hk =>
        have hk : name = key := Classical.byContradiction hk
        subst hk
        cases h
        refine ⟨[], parts, value, ?_, rfl⟩
        rw [((cutByte_some_iff _ _ _ _).mp hc).1]
        simp

theorem challenge_of {w : Recorder} {k v : Str} (h : auth w k = some v) (hv : v ≠ []) :
    Challenge w k v := by
  unfold auth at h
  split at h
  · cases h
  · next scheme params hc =>
    obtain ⟨f, b, t, h1, h2⟩ := authParam_split h hv
    obtain ⟨l, r, h3, h4⟩ := trimQuotes_split t
    refine ⟨scheme, f, l, r, b, ?_, h4⟩
    rw [((cutByte_some_iff _ _ _ _).mp hc).1, ← (splitComma_listed params).2, h1, ← h2]
    have : k ++ b!"=" ++ l ++ trimQuotes t ++ r = k ++ b!"=" ++ t := by
      rw [List.append_assoc, List.append_assoc, ← List.append_assoc l, ← h3]
    rw [this]
    simp

/-! ### Assertions -/

theorem bind_pure (t : Test α) : t >>= pure = t := by
  show t.bind Test.ret = t
  induction t with
  | ret a => rfl
  | panic => rfl
  | check ok k ih => unfold Test.bind; rw [ih]
  | send r k ih => unfold Test.bind; rw [funext ih]

theorem plays_last {t : Test α} {K : α → List Exchange → Prop} (h : Plays (t >>= pure) K) :
    Plays t K := by
  rwa [bind_pure] at h

section

variable {K : β → List Exchange → Prop} {w : Recorder}

theorem plays_error {status : Nat} {name : Str} {f : Unit → Test β} (hn : name ≠ [])
    (h : Refused status name w → Plays (f ()) K) : Plays (expectError w status name >>= f) K := by
  unfold expectError
  exact plays_assoc (plays_assert fun h1 => plays_assert fun h2 =>
    h ⟨status_of h1, member_str hn (of_decide_eq_true h2)⟩)

theorem plays_realm {f : Unit → Test β} (h : HasRealm w → Plays (f ()) K) :
    Plays (expectRealm w >>= f) K := by
  unfold expectRealm
  refine plays_assoc (plays_ofOption fun realm h1 => plays_assert fun h2 => h ?_)
  have h2 : realm ≠ [] := by simpa using h2
  exact ⟨realm, challenge_of h1 h2, h2⟩

theorem plays_challenge {status : Nat} {name : Str} {f : Unit → Test β} (hn : name ≠ [])
    (h : Challenged status name w → Plays (f ()) K) :
    Plays (expectChallenge w status name >>= f) K := by
  unfold expectChallenge
  refine plays_assoc (plays_assert fun h1 => plays_assoc (plays_ofOption fun v h2 =>
    plays_assoc (plays_assert fun h3 => plays_assert fun h4 => h ⟨status_of h1, ?_, ?_⟩)))
  · have h3 : v = name := by simpa using h3
    subst h3
    exact challenge_of h2 hn
  · simpa using h4

theorem plays_tokens {spec : Spec} {f : Str × Str → Test β} (hv : spec.validScope ≠ [])
    (h : ∀ a r, Tokens spec a r w → Plays (f (a, r)) K) : Plays (expectTokens spec w >>= f) K := by
  unfold expectTokens
  refine plays_assoc (plays_assert fun h1 => plays_assoc (plays_assert fun h2 =>
    plays_assoc (plays_assert fun h3 => plays_assoc (plays_assert fun h4 =>
    plays_assoc (plays_assert fun h5 => plays_assoc (plays_assert fun h6 =>
    plays_pure_bind (h _ _ ⟨status_of h1, member_str (by decide) (of_decide_eq_true h2),
      member_str hv (of_decide_eq_true h3), fun h0 => member_num (of_decide_eq_true h4) h0,
      member_str ?_ rfl, ?_, member_str ?_ rfl, ?_⟩)))))))
  · simpa using h5
  · simpa using h5
  · simpa using h6
  · simpa using h6

theorem query_of {k v : Str} (h : query w k = some v) :
    ∃ u, parseURL (w.header.get b!"Location") = some u ∧ u.query.get k = v := by
  unfold query at h
  split at h
  · cases h
  · next u hu => exact ⟨u, hu, Option.some.inj h⟩

theorem fragment_of {k v : Str} (h : fragment w k = some v) :
    ∃ u f, parseURL (w.header.get b!"Location") = some u ∧ parseQuery u.fragment = (f, false) ∧
      f.get k = v := by
  unfold fragment at h
  split at h
  · cases h
  · next u hu =>
    split at h
    · cases h
    · next f hf => exact ⟨u, f, hu, hf, Option.some.inj h⟩

theorem redirectQuery_one {k v : Str} (h1 : Status 303 w) (h : query w k = some v) :
    RedirectQuery [(k, v)] w := by
  obtain ⟨u, h2, h3⟩ := query_of h
  exact ⟨h1, u, h2, by simpa using h3⟩

theorem redirectQuery_cons {k v : Str} {m : GoMap Str} (h : query w k = some v)
    (hm : RedirectQuery m w) : RedirectQuery ((k, v) :: m) w := by
  obtain ⟨u, h2, h3⟩ := query_of h
  obtain ⟨h1, u', h4, h5⟩ := hm
  rw [h2] at h4
  cases h4
  refine ⟨h1, u, h2, fun e he => ?_⟩
  rcases List.mem_cons.mp he with rfl | he
  · exact h3
  · exact h5 e he

theorem redirectFragment_one {k v : Str} (h1 : Status 303 w) (h : fragment w k = some v) :
    RedirectFragment [(k, v)] w := by
  obtain ⟨u, f, h2, h3, h4⟩ := fragment_of h
  exact ⟨h1, u, f, h2, h3, by simpa using h4⟩

theorem redirectFragment_cons {k v : Str} {m : GoMap Str} (h : fragment w k = some v)
    (hm : RedirectFragment m w) : RedirectFragment ((k, v) :: m) w := by
  obtain ⟨u, f, h2, h3, h4⟩ := fragment_of h
  obtain ⟨h1, u', f', h5, h6, h7⟩ := hm
  rw [h2] at h5
  cases h5
  rw [h3] at h6
  cases h6
  refine ⟨h1, u, f, h2, h3, fun e he => ?_⟩
  rcases List.mem_cons.mp he with rfl | he
  · exact h4
  · exact h7 e he

theorem plays_redirect {get : Recorder → Str → Option Str} {P : GoMap Str → Recorder → Prop}
    (hone : ∀ k v, Status 303 w → get w k = some v → P [(k, v)] w)
    (hcons : ∀ k v m, get w k = some v → P m w → P ((k, v) :: m) w) {name : Str}
    {f : Unit → Test β} (h : P (denied name) w → Plays (f ()) K) :
    Plays (expectRedirect get w name >>= f) K := by
  unfold expectRedirect
  refine plays_assoc (plays_assert fun h1 => plays_assoc (plays_ofOption fun v h2 =>
    plays_assoc (plays_assert fun h3 => plays_assoc (plays_ofOption fun u h4 =>
    plays_assert fun h5 => h ?_))))
  have h3 : v = name := by simpa using h3
  have h5 : u = b!"xyz" := by simpa using h5
  subst h3 h5
  exact hcons _ _ _ h2 (hone _ _ (status_of h1) h4)

theorem plays_denied_query {name : Str} {f : Unit → Test β}
    (h : RedirectQuery (denied name) w → Plays (f ()) K) :
    Plays (expectRedirect query w name >>= f) K :=
  plays_redirect (fun _ _ => redirectQuery_one) (fun _ _ _ => redirectQuery_cons) h

theorem plays_denied_fragment {name : Str} {f : Unit → Test β}
    (h : RedirectFragment (denied name) w → Plays (f ()) K) :
    Plays (expectRedirect fragment w name >>= f) K :=
  plays_redirect (fun _ _ => redirectFragment_one) (fun _ _ _ => redirectFragment_cons) h

end

end OAuth2.Suite

import Verif.Spec.Follow
import Verif.Spec.Client
import Verif.Lemmas.Map
import Verif.Lemmas.Base64
import Verif.Lemmas.Decide
import Verif.Props.Answers
import Verif.Props.Client

/-!
C76: what the client sends, and to whom, when it is redirected.
-/

namespace OAuth2

open Spec

/-! ### Header names -/

theorem canonicalAux_idem (up : Bool) (s : Str) : canonicalAux up (canonicalAux up s) = canonicalAux up s := by
  have hu : ∀ c : UInt8, upperByte (upperByte c) = upperByte c ∧ lowerByte (lowerByte c) = lowerByte c ∧
      decide (upperByte c = 0x2D) = decide (c = 0x2D) ∧ decide (lowerByte c = 0x2D) = decide (c = 0x2D) := by
    apply forall_u8; decide +kernel
  induction s generalizing up with
  | nil => rfl
  | cons c cs ih =>
    obtain ⟨h1, h2, h3, h4⟩ := hu c
    cases up <;> simp only [canonicalAux, if_true, Bool.false_eq_true, if_false, h1, h2, h3, h4, ih]

theorem canonicalAux_valid (up : Bool) (s : Str) (h : s.all validHeaderFieldByte) :
    (canonicalAux up s).all validHeaderFieldByte := by
  have hu : ∀ c : UInt8, validHeaderFieldByte c = true →
      validHeaderFieldByte (upperByte c) = true ∧ validHeaderFieldByte (lowerByte c) = true := by
    apply forall_u8; decide +kernel
  induction s generalizing up with
  | nil => rfl
  | cons c cs ih =>
    rw [List.all_cons, Bool.and_eq_true] at h
    obtain ⟨h1, h2⟩ := hu c h.1
    cases up <;> simp only [canonicalAux, List.all_cons, if_true, Bool.false_eq_true, if_false, h1, h2,
      ih _ h.2, Bool.and_self]

theorem canonicalKey_idem (k : Str) : canonicalKey (canonicalKey k) = canonicalKey k := by
  unfold canonicalKey
  by_cases h : k.all validHeaderFieldByte
  · rw [if_pos h, if_pos (canonicalAux_valid _ _ h), canonicalAux_idem]
  · rw [if_neg h, if_neg h]

theorem get?_filter (h : Header) (p : Str → Bool) (k : Str) :
    GoMap.get? (h.filter fun e => p e.1) k = if p k then GoMap.get? h k else none := by
  induction h with
  | nil => simp [GoMap.get?_nil]
  | cons e m ih =>
    obtain ⟨k', v⟩ := e
    by_cases hp : p k'
    · rw [List.filter_cons_of_pos (by simpa using hp), GoMap.get?_cons, ih, GoMap.get?_cons]
      by_cases hk : k' = k
      · subst hk; simp [hp]
      · simp [hk]
    · rw [List.filter_cons_of_neg (by simpa using hp), ih, GoMap.get?_cons]
      by_cases hk : k' = k
      · subst hk; simp [hp]
      · simp [hk]

theorem all_filter (h : Header) (site : Bool) (k : Str) :
    Header.all (h.filter fun e => !(sensitiveHeaders.contains (canonicalKey e.1)) || site) k =
      if canonicalKey k ∈ credentialHeaders ∧ site = false then [] else h.all k := by
  unfold Header.all
  rw [get?_filter h (fun k => !(sensitiveHeaders.contains (canonicalKey k)) || site), canonicalKey_idem]
  have : sensitiveHeaders = credentialHeaders := rfl
  by_cases hk : canonicalKey k ∈ credentialHeaders <;> cases site <;> simp [hk, this]

theorem header_all_set (h : Header) (k v j : Str) :
    (h.set k v).all j = if canonicalKey k = canonicalKey j then [v] else h.all j := by
  unfold Header.all Header.set
  rw [GoMap.get?_set]
  by_cases hk : canonicalKey k = canonicalKey j
  · simp [hk]
  · rw [if_neg (fun e => hk (by first | exact e | exact e.symm)), if_neg hk]

theorem header_get_all (h : Header) (k : Str) : h.get k = (h.all k).headD [] := by
  unfold Header.get Header.all
  rcases GoMap.get? h (canonicalKey k) with _ | _ | ⟨x, l⟩ <;> rfl

/-! ### One step -/

theorem withUser_sentAs (h : Hop) : SentAs h h.withUser := by
  unfold Hop.withUser
  split
  · next u hu =>
    split
    · next ha => exact .user hu ha
    · next ha => exact .same (.inr ha)
  · next hu => exact .same (.inl hu)

theorem withUser_url (h : Hop) : h.withUser.url = h.url := by
  unfold Hop.withUser
  repeat' split
  all_goals rfl

theorem withUser_method (h : Hop) : h.withUser.request.method = h.request.method := by
  unfold Hop.withUser
  repeat' split
  all_goals rfl

theorem elsewhere_iff (method : Str) (res : Response) :
    Elsewhere res ↔ ∃ x, redirectBehavior method res = some x := by
  unfold Elsewhere redirectBehavior
  by_cases h1 : res.statusCode = 301 ∨ res.statusCode = 302 ∨ res.statusCode = 303
  · rw [if_pos h1]
    simp [h1]
  · rw [if_neg h1]
    by_cases h2 : res.statusCode = 307 ∨ res.statusCode = 308
    · rw [if_pos h2]
      by_cases h3 : res.header.get b!"Location" = []
      · rw [if_pos h3]; simp [h1, h3]
      · rw [if_neg h3]; simp [h2, h3]
    · rw [if_neg h2]; simp [h1, h2]

theorem next_leads {f : Navigation} {first prev : Hop} {res : Response} {method : Str} {b : Bool} {u : URL}
    (hr : redirectBehavior prev.request.method res = some (method, b))
    (hl : res.header.get b!"Location" ≠ [])
    (hu : f.resolve prev.url (res.header.get b!"Location") = some u) :
    Leads f first prev.withUser res (Hop.next f first prev u method b).withUser := by
  have hm : b = decide (res.statusCode ∈ [307, 308]) ∧
      method = if res.statusCode ∈ [307, 308] ∨ prev.request.method ∈ [b!"GET", b!"HEAD"] then
        prev.request.method else b!"GET" := by
    unfold redirectBehavior at hr
    by_cases h1 : res.statusCode = 301 ∨ res.statusCode = 302 ∨ res.statusCode = 303
    · rw [if_pos h1] at hr
      simp only [Option.some.injEq, Prod.mk.injEq] at hr
      have h2 : ¬ res.statusCode ∈ [307, 308] := by simp; omega
      rw [← hr.1, ← hr.2]
      refine ⟨by simp only [h2, decide_false], ?_⟩
      by_cases hg : prev.request.method = b!"GET" <;> by_cases hh : prev.request.method = b!"HEAD" <;>
        simp [hg, hh, h2]
    · rw [if_neg h1] at hr
      split at hr
      · next h2 =>
        simp only [Option.some.injEq, Prod.mk.injEq] at hr
        have h2 : res.statusCode ∈ [307, 308] := by simpa using h2
        rw [← hr.1, ← hr.2]
        simp [h2]
      · cases hr
  have hsu : canonicalKey b!"Authorization" = b!"Authorization" := by decide +kernel
  have href : canonicalKey b!"Referer" = b!"Referer" := by decide +kernel
  have hhead : ∀ k, canonicalKey k ≠ b!"Referer" →
      (Hop.next f first prev u method b).request.header.all k =
        if canonicalKey k ∈ credentialHeaders ∧ f.sameSite prev.url u = false then []
        else first.request.header.all k := by
    intro k hk
    unfold Hop.next
    simp only
    split
    · rw [header_all_set, if_neg (by rw [href]; exact fun e => hk e.symm), all_filter]
    · rw [all_filter]
  have hnr : ∀ k, canonicalKey k ∈ credentialHeaders → canonicalKey k ≠ b!"Referer" := by
    intro k hk e
    rw [e] at hk
    exact absurd hk (by decide)
  have hn : (Hop.next f first prev u method b).url = u := rfl
  have hset : ∀ k, canonicalKey k ≠ b!"Authorization" →
      (Hop.next f first prev u method b).withUser.request.header.all k =
        (Hop.next f first prev u method b).request.header.all k := by
    intro k hk
    unfold Hop.withUser
    split
    · split
      · unfold Request.setBasicAuth
        simp only
        rw [header_all_set, if_neg (by rw [hsu]; exact fun e => hk e.symm)]
      · rfl
    · rfl
  refine ⟨(elsewhere_iff _ _).mpr ⟨_, hr⟩, ⟨hl, ?_⟩, ?_, ?_, ?_, ?_, ?_, ?_⟩
  · rw [withUser_url, withUser_url, hn]; exact hu
  · rw [withUser_url]
    unfold Hop.withUser
    repeat' split
    all_goals exact ⟨rfl, rfl⟩
  · rw [withUser_method, withUser_method]
    exact hm.2
  · have : (Hop.next f first prev u method b).withUser.request.body =
        (Hop.next f first prev u method b).request.body := by
      unfold Hop.withUser
      repeat' split
      all_goals rfl
    rw [this]
    show (if b = true then _ else _) = _
    rw [hm.1]
    simp only [decide_eq_true_eq]
  · intro k hk hk'
    rw [hset k (fun e => hk (by rw [e]; decide)), hhead k hk', if_neg (fun h => hk h.1)]
  · intro hs k hk hne
    rw [withUser_url, withUser_url, hn] at hs
    have hall := hhead k (hnr k hk)
    rw [if_neg (fun h => by rw [hs] at h; cases h.2)] at hall
    by_cases ha : canonicalKey k = b!"Authorization"
    · unfold Hop.withUser
      have : (Hop.next f first prev u method b).request.header.get b!"Authorization" ≠ [] := by
        rw [header_get_all]
        have e : ∀ h : Header, h.all b!"Authorization" = h.all k := by
          intro h; unfold Header.all; rw [hsu, ha]
        rw [e, hall, ← header_get_all]
        exact hne
      split
      · rw [if_neg this]; exact hall
      · exact hall
    · rw [hset k ha]; exact hall
  · intro hs k hk
    rw [withUser_url, withUser_url, hn] at hs
    have hall := hhead k (hnr k hk)
    rw [if_pos ⟨hk, hs⟩] at hall
    by_cases ha : canonicalKey k = b!"Authorization"
    · cases hsu' : u.user with
      | none =>
        left
        unfold Hop.withUser
        rw [hn, hsu']
        exact hall
      | some x =>
        right
        refine ⟨ha, x, by rw [withUser_url]; exact hsu', ?_⟩
        unfold Hop.withUser
        rw [hn, hsu']
        simp only
        rw [if_pos (by
          rw [header_get_all]
          have e : ∀ h : Header, h.all b!"Authorization" = h.all k := by
            intro h; unfold Header.all; rw [hsu, ha]
          rw [e, hall]; rfl)]
        unfold Request.setBasicAuth
        simp only
        rw [header_all_set, if_pos (by rw [hsu, ha])]
    · left; rw [hset k ha]; exact hall

/-! ### The chain -/

theorem follow_eq (f : Navigation) (net : Network) (first : Hop) (n : Nat) (via : List Hop) (hop : Hop) :
    (follow f net first n via hop = ([(hop.withUser, net via hop.withUser)], none) ∧
      (∀ res, net via hop.withUser = some res → Elsewhere res ∧
        (n = 0 ∨ res.header.get b!"Location" = [] ∨
          f.resolve hop.url (res.header.get b!"Location") = none))) ∨
    (∃ res, net via hop.withUser = some res ∧ ¬ Elsewhere res ∧
      follow f net first n via hop = ([(hop.withUser, some res)], some res)) ∨
    ∃ res n' u method b, net via hop.withUser = some res ∧ n = n' + 1 ∧ Elsewhere res ∧
      Leads f first hop.withUser res (Hop.next f first hop u method b).withUser ∧
      follow f net first n via hop =
        ((hop.withUser, some res) ::
            (follow f net first n' (via ++ [hop.withUser]) (Hop.next f first hop u method b)).1,
          (follow f net first n' (via ++ [hop.withUser]) (Hop.next f first hop u method b)).2) := by
  rw [follow.eq_def]
  simp only
  cases hnet : net via hop.withUser with
  | none => exact .inl ⟨rfl, fun _ h => nomatch h⟩
  | some res =>
    simp only
    have hel := elsewhere_iff hop.request.method res
    cases hr : redirectBehavior hop.request.method res with
    | none =>
      rw [hr] at hel
      exact .inr (.inl ⟨res, rfl, fun h => (hel.mp h).elim (fun _ h => nomatch h), rfl⟩)
    | some x =>
      obtain ⟨method, b⟩ := x
      have hel := hel.mpr ⟨_, hr⟩
      simp only
      by_cases hl : res.header.get b!"Location" = []
      · rw [if_pos hl]
        exact .inl ⟨rfl, fun r h => by cases h; exact ⟨hel, .inr (.inl hl)⟩⟩
      · rw [if_neg hl]
        cases hu : f.resolve hop.url (res.header.get b!"Location") with
        | none => exact .inl ⟨rfl, fun r h => by cases h; exact ⟨hel, .inr (.inr hu)⟩⟩
        | some u =>
          cases n with
          | zero => exact .inl ⟨rfl, fun r h => by cases h; exact ⟨hel, .inl rfl⟩⟩
          | succ n =>
            exact .inr (.inr ⟨res, n, u, method, b, rfl, rfl, hel, next_leads hr hl hu, rfl⟩)

theorem cons_eq_snoc {α : Type} {a b : α} {l pre : List α} (h : a :: l = pre ++ [b]) :
    (pre = [] ∧ a = b ∧ l = []) ∨ ∃ p, pre = a :: p ∧ l = p ++ [b] := by
  cases pre with
  | nil =>
    rw [List.nil_append, List.cons.injEq] at h
    exact .inl ⟨rfl, h.1, h.2⟩
  | cons x p =>
    rw [List.cons_append, List.cons.injEq] at h
    exact .inr ⟨p, by rw [h.1], h.2⟩

theorem follow_spec (f : Navigation) (net : Network) (first : Hop) (n : Nat) (via : List Hop) (hop : Hop) :
    (follow f net first n via hop).1.length ≤ n + 1 ∧
    (∃ x rest, (follow f net first n via hop).1 = (hop.withUser, x) :: rest) ∧
    (∀ pre h x post, (follow f net first n via hop).1 = pre ++ (h, x) :: post →
      x = net (via ++ pre.map (·.1)) h) ∧
    (∀ pre h x h' x' post, (follow f net first n via hop).1 = pre ++ (h, x) :: (h', x') :: post →
      ∃ res, x = some res ∧ Leads f first h res h') ∧
    (∀ pre h x, (follow f net first n via hop).1 = pre ++ [(h, x)] →
      ∀ res, (follow f net first n via hop).2 = some res ↔ x = some res ∧ ¬ Elsewhere res) ∧
    (∀ pre h res, (follow f net first n via hop).1 = pre ++ [(h, some res)] → Elsewhere res →
      (follow f net first n via hop).1.length = n + 1 ∨ res.header.get b!"Location" = [] ∨
        f.resolve h.url (res.header.get b!"Location") = none) := by
  induction n generalizing via hop with
  | zero =>
    rcases follow_eq f net first 0 via hop with ⟨he, hr⟩ | ⟨res, h1, h2, he⟩ | ⟨_, _, _, _, _, _, h, _⟩
    · rw [he]
      refine ⟨by simp, ⟨_, _, rfl⟩, ?_, ?_, ?_, ?_⟩
      · intro pre h x post e
        cases pre <;> simp at e
        rw [← e.1.1, ← e.1.2]; simp
      · intro pre h x h' x' post e
        cases pre <;> simp at e
      · intro pre h x e res
        rcases cons_eq_snoc e with ⟨_, e, _⟩ | ⟨p, _, e⟩
        · cases e
          simp only [reduceCtorEq, false_iff, not_and, Classical.not_not]
          exact fun h => (hr res h).1
        · simp at e
      · intro pre h res e _; simp
    · rw [he]
      refine ⟨by simp, ⟨_, _, rfl⟩, ?_, ?_, ?_, ?_⟩
      · intro pre h x post e
        cases pre <;> simp at e
        rw [← e.1.1, ← e.1.2]; simp [h1]
      · intro pre h x h' x' post e
        cases pre <;> simp at e
      · intro pre h x e res'
        rcases cons_eq_snoc e with ⟨_, e, _⟩ | ⟨p, _, e⟩
        · cases e
          simp only [Option.some.injEq]
          exact ⟨fun h => ⟨h, h ▸ h2⟩, fun h => h.1⟩
        · simp at e
      · intro pre h res e _; simp
    · cases h
  | succ n ih =>
    rcases follow_eq f net first (n + 1) via hop with ⟨he, hr⟩ | ⟨res, h1, h2, he⟩ |
      ⟨res, n', u, method, b, h1, hn, h2, h3, he⟩
    · rw [he]
      refine ⟨by simp, ⟨_, _, rfl⟩, ?_, ?_, ?_, ?_⟩
      · intro pre h x post e
        cases pre <;> simp at e
        rw [← e.1.1, ← e.1.2]; simp
      · intro pre h x h' x' post e
        cases pre <;> simp at e
      · intro pre h x e res
        rcases cons_eq_snoc e with ⟨_, e, _⟩ | ⟨p, _, e⟩
        · cases e
          simp only [reduceCtorEq, false_iff, not_and, Classical.not_not]
          exact fun h => (hr res h).1
        · simp at e
      · intro pre h res e _
        rcases cons_eq_snoc e with ⟨_, e, _⟩ | ⟨p, _, e⟩
        · simp only [Prod.mk.injEq] at e
          rw [← e.1, withUser_url]
          exact .inr ((hr res e.2).2.resolve_left (by omega))
        · simp at e
    · rw [he]
      refine ⟨by simp, ⟨_, _, rfl⟩, ?_, ?_, ?_, ?_⟩
      · intro pre h x post e
        cases pre <;> simp at e
        rw [← e.1.1, ← e.1.2]; simp [h1]
      · intro pre h x h' x' post e
        cases pre <;> simp at e
      · intro pre h x e res'
        rcases cons_eq_snoc e with ⟨_, e, _⟩ | ⟨p, _, e⟩
        · cases e
          simp only [Option.some.injEq]
          exact ⟨fun h => ⟨h, h ▸ h2⟩, fun h => h.1⟩
        · simp at e
      · intro pre h res' e hel
        rcases cons_eq_snoc e with ⟨_, e, _⟩ | ⟨p, _, e⟩
        · simp only [Prod.mk.injEq, Option.some.injEq] at e
          exact absurd (e.2 ▸ hel) h2
        · simp at e
    · have : n' = n := by omega
      subst this
      rw [he]
      obtain ⟨i1, ⟨x0, rest0, i2⟩, i3, i4, i5, i6⟩ :=
        ih (via ++ [hop.withUser]) (Hop.next f first hop u method b)
      generalize follow f net first n' (via ++ [hop.withUser]) (Hop.next f first hop u method b) = out at *
      refine ⟨by simp only [List.length_cons]; omega, ⟨_, _, rfl⟩, ?_, ?_, ?_, ?_⟩
      · intro pre h x post e
        cases pre with
        | nil =>
          simp only [List.nil_append, List.cons.injEq, Prod.mk.injEq] at e
          rw [← e.1.1, ← e.1.2]; simp [h1]
        | cons y p =>
          simp only [List.cons_append, List.cons.injEq] at e
          rw [i3 p h x post e.2, ← e.1]
          simp
      · intro pre h x h' x' post e
        cases pre with
        | nil =>
          simp only [List.nil_append, List.cons.injEq, Prod.mk.injEq] at e
          obtain ⟨⟨e1, e2⟩, e3⟩ := e
          rw [i2] at e3
          simp only [List.cons.injEq, Prod.mk.injEq] at e3
          rw [← e1, ← e2, ← e3.1.1]
          exact ⟨res, rfl, h3⟩
        | cons y p =>
          simp only [List.cons_append, List.cons.injEq] at e
          exact i4 p h x h' x' post e.2
      · intro pre h x e
        rcases cons_eq_snoc e with ⟨_, _, e⟩ | ⟨p, _, e⟩
        · rw [i2] at e; cases e
        · exact i5 p h x e
      · intro pre h res' e hel
        rcases cons_eq_snoc e with ⟨_, _, e⟩ | ⟨p, _, e⟩
        · rw [i2] at e; cases e
        · rcases i6 p h res' e hel with h | h
          · exact .inl (by simp only [List.length_cons]; omega)
          · exact .inr h

/-- **C76.** What the HTTP client of the library sends when it is redirected, and what it returns: at
most ten requests, each but the first because the response to the one before says so; the body, with
the passwords, codes and tokens, is sent again only after a response with status 307 or 308; the
credentials in the header are sent along within a site. -/
theorem C76_chain (f : Navigation) (net : Network) (first : Hop) :
    Chain f net first (httpDo f net first).1 (httpDo f net first).2 := by
  obtain ⟨h1, ⟨x, rest, h2⟩, h3, h4, h5, h6⟩ := follow_spec f net first 9 [] first
  exact ⟨h1, ⟨_, x, rest, h2, withUser_sentAs first⟩,
    fun pre h x post e => by simpa using h3 pre h x post e, h4, h5, h6⟩

/-- **C76.** As long as the server does not send the client elsewhere, there is one request, and its
response is the result. -/
theorem C76_once {f : Navigation} {net : Network} {first h : Hop} {res : Response} (hs : SentAs first h)
    (hn : net [] h = some res) (he : ¬ Elsewhere res) :
    httpDo f net first = ([(h, some res)], some res) := by
  have hw : h = first.withUser := by
    have hu := withUser_sentAs first
    cases hs with
    | same h1 =>
      generalize hx : first.withUser = x at hu
      cases hu with
      | same => rfl
      | user h2 h3 =>
        rcases h1 with h1 | h1
        · rw [h1] at h2; cases h2
        · exact absurd h3 h1
    | user h2 h3 =>
      unfold Hop.withUser
      rw [h2]
      simp only
      rw [if_pos h3]
      rfl
  rw [hw] at hn ⊢
  unfold httpDo
  rcases follow_eq f net first 9 [] first with ⟨_, h⟩ | ⟨res', h1, _, h2⟩ | ⟨res', _, _, _, _, h1, _, h2, _⟩
  · exact absurd (h res hn).1 he
  · rw [hn] at h1; cases h1; exact h2
  · rw [hn] at h1; cases h1; exact absurd h2 he

/-- **C76.** The token, introspection and revocation endpoints of the server never send a client
elsewhere. -/
theorem C76_endpoints {s : Server} {c : Call} {r : Request} {res : Response} (hop : c.op = .serve r)
    (h : (step ⟨false, s⟩ c).1 = .answered res) (hp : ¬ LastSegment r.path b!"authorize") :
    ¬ Elsewhere res := by
  have key : ∀ {n : Nat}, res.statusCode = n → n ∉ [301, 302, 303, 307, 308] → ¬ Elsewhere res := by
    intro n hn hm
    unfold Elsewhere
    rw [hn]
    simp only [List.mem_cons, List.not_mem_nil, or_false, not_or] at hm ⊢
    omega
  cases C68_answers hop h with
  | tokens _ _ _ _ hs => exact key hs (by decide)
  | description _ _ _ hs => exact key hs (by decide)
  | revoked _ hs => exact key hs (by decide)
  | page _ hs => exact key hs (by decide)
  | notFound _ hs => exact key hs (by decide)
  | redirect L hl => exact absurd hl hp
  | failure _ name _ _ hm _ _ hs =>
    refine key hs ?_
    have : ∀ x ∈ Spec.reported, statusOf x.1 ∉ [301, 302, 303, 307, 308] := by decide +kernel
    exact this _ hm

theorem buildForm_authorization {uri : Str} {values : Values} {id secret : Str} {r : Request}
    (h : buildFormRequest uri values id secret = some r) (hc : id ≠ [] ∨ secret ≠ []) :
    r.header.get b!"Authorization" ≠ [] := by
  unfold buildFormRequest at h
  cases hp : newPostRequest uri values.encode with
  | none => rw [hp] at h; cases h
  | some req =>
    rw [hp] at h
    simp only [bind, Option.bind_some, pure, Option.some.injEq] at h
    rw [← h, header_get_all, header_all_set, if_neg (by decide +kernel), if_pos hc]
    unfold Request.setBasicAuth
    simp only
    rw [header_all_set, if_pos rfl]
    simp

/-- The first request of a client that follows redirects, and all there is, if it goes to one of the
endpoints of the server. -/
theorem httpDo_server {f : Navigation} {net : Network} {s : Server} {coins : Str} {clock : Nat → Time}
    {u : URL} {r : Request} (hu : u.user = none ∨ r.header.get b!"Authorization" ≠ [])
    (hnet : net [] ⟨u, r⟩ = wire ⟨false, s⟩ coins clock r)
    (hp : ¬ LastSegment r.path b!"authorize") :
    httpDo f net ⟨u, r⟩ = ([(⟨u, r⟩, wire ⟨false, s⟩ coins clock r)], wire ⟨false, s⟩ coins clock r) := by
  have hw : Hop.withUser ⟨u, r⟩ = ⟨u, r⟩ := by
    unfold Hop.withUser
    rcases hu with hu | hu
    · simp only [hu]
    · simp only
      split
      · rw [if_neg hu]
      · rfl
  cases hx : wire ⟨false, s⟩ coins clock r with
  | some res =>
    refine C76_once (.same hu) (by rw [hnet, hx]) ?_
    unfold wire at hx
    refine C76_endpoints (c := { op := .serve r, coins := coins, clock := clock }) (s := s) rfl ?_ hp
    split at hx
    · next h => cases hx; exact h
    · cases hx
  | none =>
    unfold httpDo
    rw [follow.eq_def]
    simp only [hw]
    rw [hnet, hx]

/-- **C76.** Connected to this server, the library makes one request per call, and everything that is
said about it with the response to this request as the result (C49, C54, C65) holds for the HTTP client
that follows redirects. -/
theorem C76_connected {cfg : ClientConfig} {f : Navigation} {net : Network} {s : Server} {c : Call}
    {u : URL} :
    (∀ rq r, buildTokenRequest (cfg.baseURI ++ cfg.tokenEndpoint) rq = some r →
      u.user = none ∨ rq.clientID ≠ [] ∨ rq.clientSecret ≠ [] → ¬ LastSegment r.path b!"authorize" →
      net [] ⟨u, r⟩ = wire ⟨false, s⟩ c.coins c.clock r →
      (newClient cfg (httpClient f net u)).authenticate rq = (connected cfg ⟨false, s⟩ c).authenticate rq ∧
      (httpDo f net ⟨u, r⟩).1.length = 1) ∧
    (∀ rq r, buildIntrospectionRequest (cfg.baseURI ++ cfg.introspectionEndpoint) rq = some r →
      u.user = none ∨ rq.clientID ≠ [] ∨ rq.clientSecret ≠ [] → ¬ LastSegment r.path b!"authorize" →
      net [] ⟨u, r⟩ = wire ⟨false, s⟩ c.coins c.clock r →
      (newClient cfg (httpClient f net u)).introspect rq = (connected cfg ⟨false, s⟩ c).introspect rq ∧
      (httpDo f net ⟨u, r⟩).1.length = 1) ∧
    (∀ rq r, buildRevocationRequest (cfg.baseURI ++ cfg.revocationEndpoint) rq = some r →
      u.user = none ∨ rq.clientID ≠ [] ∨ rq.clientSecret ≠ [] → ¬ LastSegment r.path b!"authorize" →
      net [] ⟨u, r⟩ = wire ⟨false, s⟩ c.coins c.clock r →
      (newClient cfg (httpClient f net u)).revoke rq = (connected cfg ⟨false, s⟩ c).revoke rq ∧
      (httpDo f net ⟨u, r⟩).1.length = 1) := by
  refine ⟨?_, ?_, ?_⟩
  · intro rq r hb hu hp hnet
    have hd := httpDo_server (f := f) (hu.imp_right fun h => buildForm_authorization hb h) hnet hp
    refine ⟨?_, by rw [hd]; rfl⟩
    have hc : httpClient f net u r = wire ⟨false, s⟩ c.coins c.clock r := congrArg Prod.snd hd
    obtain ⟨h1, h2, h3, h4, h5, h6⟩ := newClient_limit cfg (httpClient f net u)
    obtain ⟨k1, k2, k3, k4, k5, k6⟩ := newClient_limit cfg (wire ⟨false, s⟩ c.coins c.clock)
    unfold connected Client.authenticate
    simp only [h1, h2, h3, h6, k1, k2, k3, k6, hb, hc]
  · intro rq r hb hu hp hnet
    have hd := httpDo_server (f := f) (hu.imp_right fun h => buildForm_authorization hb h) hnet hp
    refine ⟨?_, by rw [hd]; rfl⟩
    have hc : httpClient f net u r = wire ⟨false, s⟩ c.coins c.clock r := congrArg Prod.snd hd
    obtain ⟨h1, h2, h3, h4, h5, h6⟩ := newClient_limit cfg (httpClient f net u)
    obtain ⟨k1, k2, k3, k4, k5, k6⟩ := newClient_limit cfg (wire ⟨false, s⟩ c.coins c.clock)
    unfold connected Client.introspect
    simp only [h1, h2, h4, h6, k1, k2, k4, k6, hb, hc]
  · intro rq r hb hu hp hnet
    have hd := httpDo_server (f := f) (hu.imp_right fun h => buildForm_authorization hb h) hnet hp
    refine ⟨?_, by rw [hd]; rfl⟩
    have hc : httpClient f net u r = wire ⟨false, s⟩ c.coins c.clock r := congrArg Prod.snd hd
    obtain ⟨h1, h2, h3, h4, h5, h6⟩ := newClient_limit cfg (httpClient f net u)
    obtain ⟨k1, k2, k3, k4, k5, k6⟩ := newClient_limit cfg (wire ⟨false, s⟩ c.coins c.clock)
    unfold connected Client.revoke
    simp only [h1, h2, h5, h6, k1, k2, k5, k6, hb, hc]

/-- **C76.** A result comes from the response to the last request of the chain, whoever sent it. -/
theorem C76_token {cfg : ClientConfig} {f : Navigation} {net : Network} {u : URL} {rq : TokenRequest}
    {trs : TokenResponse} (h : (newClient cfg (httpClient f net u)).authenticate rq = .ok trs) :
    ∃ r pre last res, buildTokenRequest (cfg.baseURI ++ cfg.tokenEndpoint) rq = some r ∧
      (httpDo f net ⟨u, r⟩).1 = pre ++ [(last, some res)] ∧ res.statusCode = 200 ∧
      parseTokenResponse res (ResponseLimit cfg) = .ok trs := by
  obtain ⟨r, res, hb, ht, hs, hp⟩ := C54_token h
  have hc := C76_chain f net ⟨u, r⟩
  obtain ⟨h0, x0, rest, he, _⟩ := hc.begins
  obtain ⟨pre, ⟨last, x⟩, hl⟩ : ∃ pre y, (httpDo f net ⟨u, r⟩).1 = pre ++ [y] :=
    ⟨_, _, (List.dropLast_concat_getLast (by rw [he]; simp)).symm⟩
  have := (hc.result pre last x hl res).mp ht
  exact ⟨r, pre, last, res, hb, by rw [hl, this.1], hs, hp⟩

/-- Navigation with absolute locations only, in which a site is a host. -/
def plainNavigation : Navigation where
  resolve := fun _ location => parseURL location
  sameSite := fun a b => a.host = b.host
  referer := fun _ _ => []

/-- The request of a client that gets tokens for a user. -/
def passwordHop : Hop where
  url := { scheme := b!"https", host := b!"a.com", path := b!"/oauth2/token" }
  request := (buildTokenRequest b!"https://a.com/oauth2/token" {
    grantType := b!"password", clientID := b!"c", clientSecret := b!"s", username := b!"u",
    password := b!"p" }).getD { method := [] }

/-- A server that sends clients to another one, which sends them on to another page of its own. -/
def movedNetwork (status : Nat) : Network := fun via _ =>
  match via.length with
  | 0 => some { statusCode := status, header := [(b!"Location", [b!"https://b.com/1"])] }
  | 1 => some { statusCode := 307, header := [(b!"Location", [b!"https://b.com/2"])] }
  | _ => some { statusCode := 200 }

/-- **C76**, what a user might not expect: a client that is sent to another site by a redirect with
status 307 sends the password there. -/
theorem C76_abroad : ∃ pre next rest, (httpDo plainNavigation (movedNetwork 307) passwordHop).1 =
      pre ++ next :: rest ∧ next.1.url.host = b!"b.com" ∧
      next.1.request.body = some b!"grant_type=password&password=p&username=u" ∧
      next.1.request.header.all b!"Authorization" = [] :=
  ⟨(httpDo plainNavigation (movedNetwork 307) passwordHop).1.take 1,
    ((httpDo plainNavigation (movedNetwork 307) passwordHop).1[1]'(by decide +kernel)),
    (httpDo plainNavigation (movedNetwork 307) passwordHop).1.drop 2, by decide +kernel,
    by decide +kernel, by decide +kernel, by decide +kernel⟩

/-- **C76**, the same for the credentials of the client in the header: they are not sent to the other
site at first, but as soon as it redirects within itself. After 303 the request has become a GET
request, and yet gets its body back. -/
theorem C76_abroad_later : ∃ pre last, (httpDo plainNavigation (movedNetwork 303) passwordHop).1 =
      pre ++ [last] ∧ last.1.url.host = b!"b.com" ∧ last.1.request.method = b!"GET" ∧
      last.1.request.body = some b!"grant_type=password&password=p&username=u" ∧
      last.1.request.header.all b!"Authorization" = [b!"Basic Yzpz"] :=
  ⟨(httpDo plainNavigation (movedNetwork 303) passwordHop).1.take 2,
    ((httpDo plainNavigation (movedNetwork 303) passwordHop).1[2]'(by decide +kernel)), by decide +kernel,
    by decide +kernel, by decide +kernel, by decide +kernel, by decide +kernel⟩

/-- The client has ten requests at most: here the server always sends it elsewhere. -/
example : (httpDo plainNavigation (fun _ _ => some {
      statusCode := 302, header := [(b!"Location", [b!"https://a.com/"])] }) passwordHop).1.length = 10 ∧
    (httpDo plainNavigation (fun _ _ => some {
      statusCode := 302, header := [(b!"Location", [b!"https://a.com/"])] }) passwordHop).2 = none := by
  decide +kernel

/-- A token from the end of a chain. -/
example : (newClient (ClientConfig.default b!"https://a.com") (httpClient plainNavigation (fun via _ =>
      match via.length with
      | 0 => some { statusCode := 308, header := [(b!"Location", [b!"https://b.com/1"])] }
      | _ => some {
        statusCode := 200, header := [(b!"Content-Type", [b!"application/json"])],
        body := b!"{\"access_token\":\"x\"}" }) passwordHop.url)).authenticate {
          grantType := b!"password", clientID := b!"c" } = .ok { accessToken := b!"x" } := by
  decide +kernel

/-- The hypotheses of `C76_connected` are met by any server. -/
example (s : Server) (c : Call) : ∃ (net : Network) (r : Request),
    buildTokenRequest ((ClientConfig.default b!"https://a.com").baseURI ++
      (ClientConfig.default b!"https://a.com").tokenEndpoint) {
        grantType := b!"password", clientID := b!"c1" } = some r ∧
    ¬ LastSegment r.path b!"authorize" ∧
    net [] ⟨passwordHop.url, r⟩ = wire ⟨false, s⟩ c.coins c.clock r := by
  refine ⟨fun _ h => wire ⟨false, s⟩ c.coins c.clock h.request, _, rfl, ?_, rfl⟩
  rw [lastSegment_iff]
  decide +kernel

end OAuth2

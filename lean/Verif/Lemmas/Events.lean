import Verif.Lemmas.Observe

/-! What an observer concludes from each kind of event. -/

namespace OAuth2

open Spec

set_option linter.unusedSimpArgs false

/-- What the event hands out and takes away, as far as an observer can tell: an access token, a
refresh token, a code, and the signatures of the code it redeems, of the refresh token it uses up
and of the token it revokes. -/
structure Obs (cfg : ServerConfig) (e : Event) (a b c : Option HS256Token)
    (red use rev : Option Str) : Prop where
  access : ∀ t, Hands e .access t ↔ a = some t
  refresh : ∀ t, Hands e .refresh t ↔ b = some t
  code : ∀ t, HandsCode e t ↔ c = some t
  redeems : ∀ t, Redeems cfg e t ↔ red = some t.signatureString
  usesUp : ∀ t, UsesUp cfg e t ↔ use = some t.signatureString
  revokes : ∀ t, Revokes cfg e t ↔ rev = some t.signatureString

theorem Obs.not_hands {cfg : ServerConfig} {e : Event} {c : Option HS256Token}
    {red use rev : Option Str} (o : Obs cfg e none none c red use rev) {k : Kind} {t : HS256Token} :
    ¬ Hands e k t := by
  cases k
  · rw [o.access]; exact fun h => nomatch h
  · rw [o.refresh]; exact fun h => nomatch h

/-- Nothing is handed out and nothing taken away. -/
abbrev Quiet (cfg : ServerConfig) (e : Event) : Prop := Obs cfg e none none none none none none

section
variable {cfg : ServerConfig} {c : Call} {r : Request} {x : Answer}

theorem tokenCall_iff (h : c.op = .serve r) {rq : TokenRequest} {res : Response} :
    TokenCall ⟨c, x⟩ rq res ↔ Server.lastSegment r.path = b!"token" ∧
      parseTokenRequest r = .ok rq ∧ x = .answered res := by
  unfold TokenCall
  simp only [h, lastSegment_iff]
  constructor
  · rintro ⟨r', h1, h2⟩
    cases h1
    exact h2
  · exact fun h => ⟨r, rfl, h⟩

theorem authorizationCall_iff (h : c.op = .serve r) {rq : AuthorizationRequest} {u : Str}
    {res : Response} :
    AuthorizationCall ⟨c, x⟩ rq u res ↔ Server.lastSegment r.path = b!"authorize" ∧
      r.method ≠ b!"GET" ∧ parseAuthorizationRequest r = .ok rq ∧ u = Server.formUser r ∧
      x = .answered res := by
  unfold AuthorizationCall
  simp only [h, lastSegment_iff]
  constructor
  · rintro ⟨r', h1, h2⟩
    cases h1
    exact h2
  · exact fun h => ⟨r, rfl, h⟩

theorem revocationCall_iff (h : c.op = .serve r) {rq : RevocationRequest} {res : Response} :
    RevocationCall ⟨c, x⟩ rq res ↔ Server.lastSegment r.path = b!"revoke" ∧
      parseRevocationRequest r = .ok rq ∧ x = .answered res := by
  unfold RevocationCall
  simp only [h, lastSegment_iff]
  constructor
  · rintro ⟨r', h1, h2⟩
    cases h1
    exact h2
  · exact fun h => ⟨r, rfl, h⟩

/-- No well-formed request was answered. -/
structure Silent (e : Event) : Prop where
  token : ∀ rq res, ¬ TokenCall e rq res
  authorization : ∀ rq u res, ¬ AuthorizationCall e rq u res
  revocation : ∀ rq res, ¬ RevocationCall e rq res

theorem Silent.quiet {e : Event} (h : Silent e) : Quiet cfg e := by
  obtain ⟨h1, h2, h3⟩ := h
  constructor
  · intro t
    simp only [Hands, h1, h2, false_and, exists_false, and_false, or_false, reduceCtorEq]
  · intro t
    simp only [Hands, h1, h2, false_and, exists_false, and_false, or_false, reduceCtorEq]
  · intro t
    simp only [HandsCode, h2, false_and, exists_false, reduceCtorEq]
  · intro t
    simp only [Redeems, h1, false_and, exists_false, reduceCtorEq]
  · intro t
    simp only [UsesUp, h1, false_and, exists_false, reduceCtorEq]
  · intro t
    simp only [Revokes, h3, false_and, exists_false, reduceCtorEq]

theorem Silent.no_replay {e : Event} (h : Silent e) (sig : Str) : ¬ Replays cfg e sig := by
  rintro ⟨rq, res, c, h1, _⟩
  exact h.token _ _ h1

theorem Silent.no_half {e : Event} (h : Silent e) (t : HS256Token) (client : Str) :
    ¬ HalfRevokes cfg e t client := by
  rintro ⟨rq, res, h1, _⟩
  exact h.revocation _ _ h1

/-- Events that were not answered, or that are no requests. -/
theorem silent_of_answer (h : ∀ res, x ≠ .answered res) : Silent ⟨c, x⟩ := by
  constructor
  · rintro rq res ⟨r, _, _, _, he⟩; exact h _ he
  · rintro rq u res ⟨r, _, _, _, _, _, he⟩; exact h _ he
  · rintro rq res ⟨r, _, _, _, he⟩; exact h _ he

/-- Requests to other endpoints. -/
theorem silent_of_path (h : c.op = .serve r)
    (h1 : Server.lastSegment r.path ≠ b!"authorize") (h2 : Server.lastSegment r.path ≠ b!"token")
    (h3 : Server.lastSegment r.path ≠ b!"revoke") : Silent ⟨c, x⟩ := by
  constructor
  · intro rq res; rw [tokenCall_iff h]; exact fun hh => h2 hh.1
  · intro rq u res; rw [authorizationCall_iff h]; exact fun hh => h1 hh.1
  · intro rq res; rw [revocationCall_iff h]; exact fun hh => h3 hh.1

/-! ### The token endpoint -/

theorem no_replay_path (h : c.op = .serve r) (hp : Server.lastSegment r.path ≠ b!"token")
    (sig : Str) : ¬ Replays cfg ⟨c, x⟩ sig := by
  rintro ⟨rq, res, c, h1, _⟩
  exact hp ((tokenCall_iff h).mp h1).1

theorem no_half_path (h : c.op = .serve r) (hp : Server.lastSegment r.path ≠ b!"revoke")
    (t : HS256Token) (client : Str) : ¬ HalfRevokes cfg ⟨c, x⟩ t client := by
  rintro ⟨rq, res, h1, _⟩
  exact hp ((revocationCall_iff h).mp h1).1

/-- A JSON response of the token endpoint. -/
theorem obs_token_json {res : Response} {rq : TokenRequest} (h : c.op = .serve r)
    (hp : Server.lastSegment r.path = b!"token") (hq : parseTokenRequest r = .ok rq)
    {a b : Option HS256Token}
    (ha : ∀ t : HS256Token, JsonMember res b!"access_token" t.string ↔ a = some t)
    (hb : ∀ t : HS256Token, JsonMember res b!"refresh_token" t.string ↔ b = some t)
    {red use : Option Str}
    (hred : ∀ sig, (∃ v t, JsonMember res b!"access_token" v ∧
      rq.grantType = b!"authorization_code" ∧ HS256Token.parse cfg.secret rq.code = .ok t ∧
      t.signatureString = sig) ↔ red = some sig)
    (huse : ∀ sig, (∃ v t, JsonMember res b!"access_token" v ∧
      rq.grantType = b!"refresh_token" ∧ HS256Token.parse cfg.secret rq.refreshToken = .ok t ∧
      t.signatureString = sig) ↔ use = some sig) :
    Obs cfg ⟨c, .answered res⟩ a b none red use none := by
  have ht : ∀ rq' res', TokenCall ⟨c, .answered res⟩ rq' res' ↔ rq' = rq ∧ res' = res := by
    intro rq' res'
    rw [tokenCall_iff h, hq]
    simp [hp, eq_comm]
  have hn : ∀ rq u res', ¬ AuthorizationCall ⟨c, .answered res⟩ rq u res' := by
    intro rq u res'
    rw [authorizationCall_iff h, hp]
    exact fun hh => absurd hh.1 (by decide)
  have hv : ∀ rq res', ¬ RevocationCall ⟨c, .answered res⟩ rq res' := by
    intro rq res'
    rw [revocationCall_iff h, hp]
    exact fun hh => absurd hh.1 (by decide)
  constructor
  · intro t
    rw [← ha]
    simp only [Hands, ht, hn, Kind.name, false_and, exists_false, and_false, or_false]
    constructor
    · rintro ⟨_, _, ⟨rfl, rfl⟩, h⟩; exact h
    · exact fun h => ⟨_, _, ⟨rfl, rfl⟩, h⟩
  · intro t
    rw [← hb]
    simp only [Hands, ht, hn, Kind.name, false_and, exists_false, and_false, or_false]
    constructor
    · rintro ⟨_, _, ⟨rfl, rfl⟩, h⟩; exact h
    · exact fun h => ⟨_, _, ⟨rfl, rfl⟩, h⟩
  · intro t
    simp only [HandsCode, hn, false_and, exists_false, reduceCtorEq]
  · intro t
    rw [← hred]
    simp only [Redeems, ht, SameToken]
    constructor
    · rintro ⟨_, _, v, ⟨rfl, rfl⟩, h1, ⟨t', h2, h3⟩, h4⟩; exact ⟨v, t', h4, h1, h2, h3⟩
    · rintro ⟨v, t', h4, h1, h2, h3⟩; exact ⟨_, _, v, ⟨rfl, rfl⟩, h1, ⟨t', h2, h3⟩, h4⟩
  · intro t
    rw [← huse]
    simp only [UsesUp, ht, SameToken]
    constructor
    · rintro ⟨_, _, v, ⟨rfl, rfl⟩, h1, ⟨t', h2, h3⟩, h4⟩; exact ⟨v, t', h4, h1, h2, h3⟩
    · rintro ⟨v, t', h4, h1, h2, h3⟩; exact ⟨_, _, v, ⟨rfl, rfl⟩, h1, ⟨t', h2, h3⟩, h4⟩
  · intro t
    simp only [Revokes, hv, false_and, exists_false, reduceCtorEq]

/-- An error at the token endpoint hands out nothing. -/
theorem quiet_token_error {res : Response} {e : Error} (h : c.op = .serve r)
    (hp : Server.lastSegment r.path = b!"token") (hb : res.body = e.json ++ [0x0A]) :
    Quiet cfg ⟨c, .answered res⟩ := by
  cases hq : parseTokenRequest r with
  | error e' =>
    apply Silent.quiet
    constructor
    · intro rq res; rw [tokenCall_iff h, hq]; rintro ⟨_, h, _⟩; cases h
    · intro rq u res; rw [authorizationCall_iff h, hp]; exact fun hh => absurd hh.1 (by decide)
    · intro rq res; rw [revocationCall_iff h, hp]; exact fun hh => absurd hh.1 (by decide)
  | ok rq =>
    have hn := fun v => (error_jsonMember hb v).2.2
    apply obs_token_json h hp hq
    · intro t; simp [hn]
    · intro t; simp [hn]
    · intro t; simp [hn]
    · intro t; simp [hn]

/-- A token response at the token endpoint. -/
theorem obs_token_response {res : Response} {rq : TokenRequest} {tr : TokenResponse}
    {a b : HS256Token} (h : c.op = .serve r)
    (hp : Server.lastSegment r.path = b!"token") (hq : parseTokenRequest r = .ok rq)
    (hbody : res.body = tr.json ++ [0x0A]) (hst : tr.state = [])
    (ha : tr.accessToken = a.string) (hb : tr.refreshToken = b.string)
    {red use : Option Str}
    (hred : ∀ sig, (∃ t, rq.grantType = b!"authorization_code" ∧
      HS256Token.parse cfg.secret rq.code = .ok t ∧ t.signatureString = sig) ↔ red = some sig)
    (huse : ∀ sig, (∃ t, rq.grantType = b!"refresh_token" ∧
      HS256Token.parse cfg.secret rq.refreshToken = .ok t ∧ t.signatureString = sig) ↔
        use = some sig) :
    Obs cfg ⟨c, .answered res⟩ (some a) (some b) none red use none := by
  have hm := fun v => token_jsonMember hbody hst v
  have h1 : ∀ v, JsonMember res b!"access_token" v ↔ v = a.string := by
    intro v; rw [(hm v).1, ha, token_sanitize]
  have h2 : ∀ v, JsonMember res b!"refresh_token" v ↔ v = b.string := by
    intro v; rw [(hm v).2.1, hb, token_sanitize]; simp [token_ne_nil]
  apply obs_token_json h hp hq
  · intro t
    rw [h1, Option.some.injEq]
    exact ⟨fun h => (string_injective h).symm, fun h => by rw [h]⟩
  · intro t
    rw [h2, Option.some.injEq]
    exact ⟨fun h => (string_injective h).symm, fun h => by rw [h]⟩
  · intro sig
    rw [← hred]
    simp only [h1]
    constructor
    · rintro ⟨_, t, _, h⟩; exact ⟨t, h⟩
    · rintro ⟨t, h⟩; exact ⟨_, t, rfl, h⟩
  · intro sig
    rw [← huse]
    simp only [h1]
    constructor
    · rintro ⟨_, t, _, h⟩; exact ⟨t, h⟩
    · rintro ⟨t, h⟩; exact ⟨_, t, rfl, h⟩

/-! ### The authorization endpoint -/

/-- A response of the authorization endpoint. -/
theorem obs_authorize {res : Response} {rq : AuthorizationRequest} (h : c.op = .serve r)
    (hp : Server.lastSegment r.path = b!"authorize") (hm : r.method ≠ b!"GET")
    (hq : parseAuthorizationRequest r = .ok rq)
    {a k : Option HS256Token}
    (ha : ∀ t : HS256Token, (rq.responseType = b!"token" ∧
      FragmentParameter res b!"access_token" t.string) ↔ a = some t)
    (hk : ∀ t : HS256Token, (rq.responseType = b!"code" ∧
      AddedParameter rq.redirectURI res b!"code" t.string) ↔ k = some t) :
    Obs cfg ⟨c, .answered res⟩ a none k none none none := by
  have ht : ∀ rq' u res', AuthorizationCall ⟨c, .answered res⟩ rq' u res' ↔
      rq' = rq ∧ u = Server.formUser r ∧ res' = res := by
    intro rq' u res'
    rw [authorizationCall_iff h, hq]
    simp [hp, hm, eq_comm]
  have hn : ∀ rq res', ¬ TokenCall ⟨c, .answered res⟩ rq res' := by
    intro rq res'
    rw [tokenCall_iff h, hp]
    exact fun hh => absurd hh.1 (by decide)
  have hv : ∀ rq res', ¬ RevocationCall ⟨c, .answered res⟩ rq res' := by
    intro rq res'
    rw [revocationCall_iff h, hp]
    exact fun hh => absurd hh.1 (by decide)
  constructor
  · intro t
    rw [← ha]
    simp only [Hands, ht, hn, false_and, exists_false, true_and, false_or]
    constructor
    · rintro ⟨_, _, _, ⟨rfl, rfl, rfl⟩, h⟩; exact h
    · exact fun h => ⟨_, _, _, ⟨rfl, rfl, rfl⟩, h⟩
  · intro t
    simp only [Hands, hn, false_and, exists_false, reduceCtorEq, or_false]
  · intro t
    rw [← hk]
    simp only [HandsCode, ht]
    constructor
    · rintro ⟨_, _, _, ⟨rfl, rfl, rfl⟩, h⟩; exact h
    · exact fun h => ⟨_, _, _, ⟨rfl, rfl, rfl⟩, h⟩
  · intro t
    simp only [Redeems, hn, false_and, exists_false, reduceCtorEq]
  · intro t
    simp only [UsesUp, hn, false_and, exists_false, reduceCtorEq]
  · intro t
    simp only [Revokes, hv, false_and, exists_false, reduceCtorEq]

/-- A response of the authorization endpoint that is no redirect. -/
theorem quiet_authorize {res : Response} (h : c.op = .serve r)
    (hp : Server.lastSegment r.path = b!"authorize") (hl : res.header.all b!"Location" = []) :
    Quiet cfg ⟨c, .answered res⟩ := by
  by_cases hx : r.method ≠ b!"GET" ∧ ∃ rq, parseAuthorizationRequest r = .ok rq
  · obtain ⟨hm, rq, hq⟩ := hx
    apply obs_authorize h hp hm hq
    · intro t
      simp only [FragmentParameter, hl]
      simp
    · intro t
      simp only [AddedParameter, hl]
      simp
  · apply Silent.quiet
    constructor
    · intro rq res; rw [tokenCall_iff h, hp]; exact fun hh => absurd hh.1 (by decide)
    · intro rq u res; rw [authorizationCall_iff h]; exact fun hh => hx ⟨hh.2.1, rq, hh.2.2.1⟩
    · intro rq res; rw [revocationCall_iff h, hp]; exact fun hh => absurd hh.1 (by decide)

/-! ### The revocation endpoint -/

theorem obs_revoke {res : Response} (h : c.op = .serve r)
    (hp : Server.lastSegment r.path = b!"revoke") {rev : Option Str}
    (hv : ∀ sig, (∃ rq t, parseRevocationRequest r = .ok rq ∧
      HS256Token.parse cfg.secret rq.token = .ok t ∧ t.signatureString = sig ∧
      res.statusCode = 200) ↔ rev = some sig) :
    Obs cfg ⟨c, .answered res⟩ none none none none none rev := by
  have ht : ∀ rq' res', RevocationCall ⟨c, .answered res⟩ rq' res' ↔
      parseRevocationRequest r = .ok rq' ∧ res' = res := by
    intro rq' res'
    rw [revocationCall_iff h]
    simp [hp, eq_comm]
  have hn : ∀ rq res', ¬ TokenCall ⟨c, .answered res⟩ rq res' := by
    intro rq res'
    rw [tokenCall_iff h, hp]
    exact fun hh => absurd hh.1 (by decide)
  have ha : ∀ rq u res', ¬ AuthorizationCall ⟨c, .answered res⟩ rq u res' := by
    intro rq u res'
    rw [authorizationCall_iff h, hp]
    exact fun hh => absurd hh.1 (by decide)
  constructor
  · intro t
    simp only [Hands, hn, ha, false_and, exists_false, reduceCtorEq, and_false, or_false]
  · intro t
    simp only [Hands, hn, ha, false_and, exists_false, reduceCtorEq, and_false, or_false]
  · intro t
    simp only [HandsCode, ha, false_and, exists_false, reduceCtorEq]
  · intro t
    simp only [Redeems, hn, false_and, exists_false, reduceCtorEq]
  · intro t
    simp only [UsesUp, hn, false_and, exists_false, reduceCtorEq]
  · intro t
    rw [← hv]
    simp only [Revokes, ht, SameToken]
    constructor
    · rintro ⟨rq, _, ⟨h1, rfl⟩, ⟨t', h2, h3⟩, h4⟩; exact ⟨rq, t', h1, h2, h3, h4⟩
    · rintro ⟨rq, t', h1, h2, h3, h4⟩; exact ⟨rq, _, ⟨h1, rfl⟩, ⟨t', h2, h3⟩, h4⟩

theorem quiet_revoke {res : Response} (h : c.op = .serve r)
    (hp : Server.lastSegment r.path = b!"revoke") (hs : res.statusCode ≠ 200) :
    Quiet cfg ⟨c, .answered res⟩ := by
  apply obs_revoke h hp
  intro sig
  simp [hs]

end

/-! ### Maps are free of repetitions -/

theorem nodup_of_sublist {α : Type} {m : GoMap α} {keys : List Str} (hs : m.keys.Sublist keys)
    (hk : keys.Nodup) : m.keys.Nodup := hk.sublist hs

theorem keys_append {α : Type} (m n : GoMap α) :
    GoMap.keys (m ++ n) = GoMap.keys m ++ GoMap.keys n := by
  unfold GoMap.keys; exact List.map_append

theorem keys_ite {α : Type} (p : Prop) [Decidable p] (k : Str) (v : α) :
    (GoMap.keys (if p then [(k, v)] else [])).Sublist [k] := by
  split
  · exact .refl _
  · exact List.nil_sublist _

theorem get?_append {α : Type} (m n : GoMap α) (k : Str) :
    GoMap.get? (m ++ n) k = (GoMap.get? m k).or (GoMap.get? n k) := by
  induction m with
  | nil => rfl
  | cons e m ih =>
    obtain ⟨j, v⟩ := e
    rw [List.cons_append, GoMap.get?_cons, GoMap.get?_cons]
    split
    · rfl
    · exact ih

theorem get?_ite {α : Type} (p : Prop) [Decidable p] (j k : Str) (v : α) :
    GoMap.get? (if p then [(j, v)] else []) k = if p ∧ j = k then some v else none := by
  by_cases hp : p
  · simp only [hp, if_true, true_and]
    rw [GoMap.get?_cons]
    rfl
  · simp only [hp, if_false, false_and]
    rfl

theorem Error.map_nodup (e : Error) : e.map.keys.Nodup := by
  unfold Error.map
  simp only [keys_append]
  refine List.Nodup.sublist (((((((keys_ite _ _ _).append (keys_ite _ _ _)).append
    (keys_ite _ _ _)).append (keys_ite _ _ _)).append (keys_ite _ _ _)).append (keys_ite _ _ _))) ?_
  decide +kernel

theorem TokenResponse.map_nodup (t : TokenResponse) : t.map.keys.Nodup := by
  unfold TokenResponse.map
  simp only [keys_append]
  refine List.Nodup.sublist ((((List.Sublist.refl _).append (keys_ite _ _ _)).append
    (keys_ite _ _ _)).append (keys_ite _ _ _)) ?_
  exact (by decide +kernel :
    ([b!"token_type", b!"access_token", b!"expires_in"] ++ [b!"refresh_token"] ++ [b!"scope"] ++
      [b!"state"] : List Str).Nodup)

theorem CodeResponse.map_nodup (t : CodeResponse) : t.map.keys.Nodup := by
  unfold CodeResponse.map
  rw [keys_append]
  refine List.Nodup.sublist ((List.Sublist.refl _).append (keys_ite _ _ _)) ?_
  exact (by decide +kernel : ([b!"code"] ++ [b!"state"] : List Str).Nodup)

theorem Error.map_get? (e : Error) {k : Str}
    (h : k ∉ [b!"error", b!"error_description", b!"state", b!"scope", b!"error_uri", b!"realm"]) :
    e.map.get? k = none := by
  simp only [List.mem_cons, List.not_mem_nil, or_false, not_or] at h
  unfold Error.map
  simp only [get?_append, get?_ite, Ne.symm h.1, Ne.symm h.2.1, Ne.symm h.2.2.1,
    Ne.symm h.2.2.2.1, Ne.symm h.2.2.2.2.1, Ne.symm h.2.2.2.2.2, and_false, if_false, Option.or_none]

theorem TokenResponse.map_get? (t : TokenResponse) :
    t.map.get? b!"access_token" = some t.accessToken := by
  unfold TokenResponse.map
  simp only [get?_append]
  rfl

theorem CodeResponse.map_get? (t : CodeResponse) : t.map.get? b!"code" = some t.code := by
  unfold CodeResponse.map
  simp only [get?_append]
  rfl

/-! ### Requests -/

theorem authorizationRequest_uri {r : Request} {rq : AuthorizationRequest}
    (h : parseAuthorizationRequest r = .ok rq) :
    rq.redirectURI ≠ [] ∧ ∃ u, parseRequestURI rq.redirectURI = some u := by
  unfold parseAuthorizationRequest at h
  split at h
  · cases h
  simp only at h
  split at h
  · cases h
  split at h
  · cases h
  split at h
  · cases h
  split at h
  · cases h
  rename_i uri _
  split at h
  · cases h
  rename_i hne
  cases hu : parseRequestURI uri with
  | none => rw [hu] at h; cases h
  | some u =>
    rw [hu] at h
    simp only at h
    split at h
    · cases h
    · cases h
      exact ⟨hne, u, hu⟩

theorem redirectLocation_isSome {uri : Str} {u : URL} (h : parseRequestURI uri = some u)
    (params : GoMap Str) (f : Bool) : ∃ L, redirectLocation uri params f = some L := by
  unfold redirectLocation
  rw [h]
  cases f <;> exact ⟨_, rfl⟩

/-! ### Rendered replies -/

theorem error_result {e : Error} (hr : e.redirectURI = []) :
    ((Reply.error e).render {}).result =
      { statusCode := e.status.toNat, header := jsonHeader (e.addHeaders []),
        body := e.json ++ [0x0A] } := by
  unfold Reply.render
  simp only [hr, ne_eq, not_true, if_false]
  exact jsonRecorder_result _ _ _

theorem token_result {t : TokenResponse} (hr : t.redirectURI = []) :
    ((Reply.token t).render {}).result =
      { statusCode := 200, header := jsonHeader [], body := t.json ++ [0x0A] } := by
  unfold Reply.render
  simp only [hr, ne_eq, not_true, if_false]
  exact jsonRecorder_result _ _ _

theorem introspection_result (i : IntrospectionResponse) :
    ((Reply.introspection i).render {}).result =
      { statusCode := 200, header := jsonHeader [], body := i.json ++ [0x0A] } :=
  jsonRecorder_result _ _ _

theorem revoked_result : (Reply.revoked.render {}).result = { statusCode := 200 } := rfl

theorem notice_result : (Reply.notice.render {}).result =
    { statusCode := 200, body := Server.notice } := rfl

theorem errorHeaders_location {e : Error}
    (hh : e.headers = [] ∨ e.headers = [(b!"WWW-Authenticate", b!"Basic realm=\"OAuth2\"")]) :
    (e.addHeaders []).all b!"Location" = [] ∧ (jsonHeader (e.addHeaders [])).all b!"Location" = [] := by
  unfold Error.addHeaders
  rcases hh with h | h <;> rw [h] <;> decide +kernel

end OAuth2

import Verif.Spec.Local
import Verif.Props.Effects
import Verif.Props.Rights
import Verif.Props.Bearer
import Verif.Lemmas.Demo
import Verif.Lemmas.Decide

/-!
C58: what a request is answered, and what it does to a token, depends only on what the request
names and carries, and on that token.
-/

namespace OAuth2

open Spec

/-- The servers are configured alike, agree on the clients and users in `C` and `U`, and hold the
same under the signatures in `X`. -/
structure Like (K : ServerConfig) (C U X : Str → Prop) (s s' : Server) : Prop where
  config : s.config = s'.config
  proper : Proper s
  proper' : Proper s'
  clients : ∀ id, C id → s.clients.get? id = s'.clients.get? id
  users : ∀ name, U name → s.users.get? name = s'.users.get? name
  at_ : ∀ sig, X sig → AgreeAt s s' sig
  fixed : s.config = K

namespace Server

variable {K : ServerConfig} {C U X : Str → Prop} {s s' : Server}

/-- The same reply, and servers that are still alike. -/
abbrev Same (K : ServerConfig) (C U X : Str → Prop) (x x' : Reply × Server) : Prop := x.1 = x'.1 ∧ Like K C U X x.2 x'.2

theorem userOK_like (h : Like K C U X s s') {name : Str} (hn : U name) (password : Str) :
    s.userOK name password = s'.userOK name password := by
  unfold userOK
  rw [h.users name hn]

theorem grant_like (h : Like K C U X s s') (a : HS256Token) (b : Option HS256Token) (t₁ t₂ : Time)
    (cred : ServerCredential) : Like K C U X (s.grant a b t₁ t₂ cred) (s'.grant a b t₁ t₂ cred) := by
  refine ⟨h.config, ?_, ?_, h.clients, h.users, fun sig hx => ?_, h.fixed⟩
  · refine ⟨GoMap.nodup_set h.proper.1 _ _, ?_, h.proper.2.2⟩
    cases b with
    | none => exact h.proper.2.1
    | some b => exact GoMap.nodup_set h.proper.2.1 _ _
  · refine ⟨GoMap.nodup_set h.proper'.1 _ _, ?_, h.proper'.2.2⟩
    cases b with
    | none => exact h.proper'.2.1
    | some b => exact GoMap.nodup_set h.proper'.2.1 _ _
  · obtain ⟨h1, h2, h3⟩ := h.at_ sig hx
    refine ⟨?_, ?_, h3⟩
    · simp only [grant, GoMap.get?_set, h1, h.config]
    · cases b with
      | none => exact h2
      | some b => simp only [grant, GoMap.get?_set, h2, h.config]

theorem issue_like (h : Like K C U X s s') (l : Local) (tick : Nat) (withRefresh : Bool)
    (cred : ServerCredential) (finish : TokenResponse → TokenResponse) :
    Same K C U X (s.issue l tick withRefresh cred finish) (s'.issue l tick withRefresh cred finish) := by
  unfold issue
  rw [← h.config]
  cases mint s.config withRefresh l.coins with
  | none => exact ⟨rfl, h⟩
  | some x => exact ⟨rfl, grant_like h _ _ _ _ _⟩

theorem issue_shape (s : Server) (l : Local) (tick : Nat) (withRefresh : Bool)
    (cred : ServerCredential) (finish : TokenResponse → TokenResponse) :
    (∃ t, (s.issue l tick withRefresh cred finish).1 = .token t) ∨
      (s.issue l tick withRefresh cred finish).1 = .crash := by
  unfold issue
  cases mint s.config withRefresh l.coins with
  | none => exact .inr rfl
  | some x => exact .inl ⟨_, rfl⟩

theorem codes_like (h : Like K C U X s s') (m : GoMap ServerCredential → GoMap ServerCredential)
    (hn : ∀ x, x.keys.Nodup → (m x).keys.Nodup)
    (hm : ∀ x x' sig, x.get? sig = x'.get? sig → (m x).get? sig = (m x').get? sig) :
    Like K C U X { s with authorizationCodes := m s.authorizationCodes }
      { s' with authorizationCodes := m s'.authorizationCodes } := by
  refine ⟨h.config, ⟨h.proper.1, h.proper.2.1, hn _ h.proper.2.2⟩,
    ⟨h.proper'.1, h.proper'.2.1, hn _ h.proper'.2.2⟩, h.clients, h.users, fun sig hx => ?_, h.fixed⟩
  obtain ⟨h1, h2, h3⟩ := h.at_ sig hx
  exact ⟨h1, h2, hm _ _ _ h3⟩

theorem tokens_like (h : Like K C U X s s') (m n : GoMap ServerCredential → GoMap ServerCredential)
    (hm : ∀ x, x.keys.Nodup → (m x).keys.Nodup) (hn : ∀ x, x.keys.Nodup → (n x).keys.Nodup)
    (hm' : ∀ x x' sig, x.keys.Nodup → x'.keys.Nodup → x.get? sig = x'.get? sig →
      (m x).get? sig = (m x').get? sig)
    (hn' : ∀ x x' sig, x.keys.Nodup → x'.keys.Nodup → x.get? sig = x'.get? sig →
      (n x).get? sig = (n x').get? sig) :
    Like K C U X { s with accessTokens := m s.accessTokens, refreshTokens := n s.refreshTokens }
      { s' with accessTokens := m s'.accessTokens, refreshTokens := n s'.refreshTokens } := by
  refine ⟨h.config, ⟨hm _ h.proper.1, hn _ h.proper.2.1, h.proper.2.2⟩,
    ⟨hm _ h.proper'.1, hn _ h.proper'.2.1, h.proper'.2.2⟩, h.clients, h.users, fun sig hx => ?_, h.fixed⟩
  obtain ⟨h1, h2, h3⟩ := h.at_ sig hx
  exact ⟨hm' _ _ _ h.proper.1 h.proper'.1 h1, hn' _ _ _ h.proper.2.1 h.proper'.2.1 h2, h3⟩

/-- `codes_like`, with the configuration of the first server written on both sides. -/
theorem codes_like' (h : Like K C U X s s') (m : GoMap ServerCredential → GoMap ServerCredential)
    (hn : ∀ x, x.keys.Nodup → (m x).keys.Nodup)
    (hm : ∀ x x' sig, x.get? sig = x'.get? sig → (m x).get? sig = (m x').get? sig) :
    Like K C U X { s with authorizationCodes := m s.authorizationCodes }
      { s' with config := s.config, authorizationCodes := m s'.authorizationCodes } := by
  rw [h.config]
  have h1 := codes_like h m hn hm
  rw [h.config] at h1
  exact h1

/-- `tokens_like`, with the configuration of the first server written on both sides. -/
theorem tokens_like' (h : Like K C U X s s') (m n : GoMap ServerCredential → GoMap ServerCredential)
    (hm : ∀ x, x.keys.Nodup → (m x).keys.Nodup) (hn : ∀ x, x.keys.Nodup → (n x).keys.Nodup)
    (hm' : ∀ x x' sig, x.keys.Nodup → x'.keys.Nodup → x.get? sig = x'.get? sig →
      (m x).get? sig = (m x').get? sig)
    (hn' : ∀ x x' sig, x.keys.Nodup → x'.keys.Nodup → x.get? sig = x'.get? sig →
      (n x).get? sig = (n x').get? sig) :
    Like K C U X { s with accessTokens := m s.accessTokens, refreshTokens := n s.refreshTokens }
      { s' with config := s.config, accessTokens := m s'.accessTokens, refreshTokens := n s'.refreshTokens } := by
  have h1 := tokens_like h m n hm hn hm' hn'
  rw [← h.config] at h1
  exact h1

theorem nodup_update {m : GoMap ServerCredential} (hm : m.keys.Nodup) (k : Str)
    (f : ServerCredential → ServerCredential) : (m.update k f).keys.Nodup := by
  have h : (m.update k f).keys = m.keys := by
    unfold GoMap.update GoMap.keys
    rw [List.map_map]
    refine List.map_congr_left fun e _ => ?_
    simp only [Function.comp]
    split <;> rfl
  rw [h]
  exact hm

theorem get?_deleteByCode_congr {m m' : GoMap ServerCredential} (hn : m.keys.Nodup)
    (hn' : m'.keys.Nodup) (code : Str) {sig : Str} (h : m.get? sig = m'.get? sig) :
    (deleteByCode m code).get? sig = (deleteByCode m' code).get? sig := by
  apply Option.ext
  intro cred
  rw [get?_deleteByCode hn, get?_deleteByCode hn', h]

theorem del_congr {m m' : GoMap ServerCredential} (k : Str) {sig : Str}
    (h : m.get? sig = m'.get? sig) : (m.del k).get? sig = (m'.del k).get? sig := by
  rw [GoMap.get?_del, GoMap.get?_del, h]

theorem update_congr {m m' : GoMap ServerCredential} (k : Str)
    (f : ServerCredential → ServerCredential) {sig : Str} (h : m.get? sig = m'.get? sig) :
    (m.update k f).get? sig = (m'.update k f).get? sig := by
  rw [GoMap.get?_update, GoMap.get?_update, h]

theorem set_congr {m m' : GoMap ServerCredential} (k : Str) (v : ServerCredential) {sig : Str}
    (h : m.get? sig = m'.get? sig) : (m.set k v).get? sig = (m'.set k v).get? sig := by
  rw [GoMap.get?_set, GoMap.get?_set, h]

theorem authorizeReply_like (h : Like K C U X s s') (r : Request) (l : Local)
    (hc : ∀ rq, parseAuthorizationRequest r = .ok rq → C rq.clientID)
    (hu : ∀ rq, parseAuthorizationRequest r = .ok rq → r.method ≠ b!"GET" →
      U ((r.parseForm.1.postForm.getD []).get b!"username")) :
    Same K C U X (s.authorizeReply r l) (s'.authorizeReply r l) := by
  unfold authorizeReply
  cases hp : parseAuthorizationRequest r with
  | error e => exact ⟨rfl, h⟩
  | ok rq =>
    simp only
    rw [← h.clients _ (hc rq hp), ← h.config]
    split
    · exact ⟨rfl, h⟩
    split
    · exact ⟨rfl, h⟩
    split
    · exact ⟨rfl, h⟩
    by_cases hm : r.method = b!"GET"
    · rw [if_pos hm, if_pos hm]; exact ⟨rfl, h⟩
    rw [if_neg hm, if_neg hm, ← userOK_like h (hu rq hp hm)]
    split
    · exact ⟨rfl, h⟩
    split
    · exact ⟨rfl, h⟩
    split
    · exact issue_like h _ _ _ _ _
    split
    · exact ⟨rfl, h⟩
    · exact ⟨rfl, codes_like' h (fun m => m.set _ _) (fun x hx => GoMap.nodup_set hx _ _)
        (fun x x' sig hx => set_congr _ _ hx)⟩

theorem codeReply_like (h : Like K C U X s s') (rq : TokenRequest) (l : Local)
    (hx : ∀ t, HS256Token.parse s.config.secret rq.code = .ok t → AgreeAt s s' t.signatureString) :
    Same K C U X (s.codeReply rq l) (s'.codeReply rq l) := by
  unfold codeReply
  rw [← h.config]
  cases hp : HS256Token.parse s.config.secret rq.code with
  | error e => exact ⟨rfl, h⟩
  | ok t =>
    simp only
    rw [← (hx t hp).2.2]
    split
    · exact ⟨rfl, h⟩
    rename_i stored hst
    split
    · refine ⟨rfl, tokens_like' h (fun m => deleteByCode m _) (fun m => deleteByCode m _)
        (fun x hx => nodup_deleteByCode hx _) (fun x hx => nodup_deleteByCode hx _)
        (fun x x' sig h1 h2 h3 => get?_deleteByCode_congr h1 h2 _ h3)
        (fun x x' sig h1 h2 h3 => get?_deleteByCode_congr h1 h2 _ h3)⟩
    split
    · exact ⟨rfl, h⟩
    split
    · exact ⟨rfl, h⟩
    split
    · exact ⟨rfl, h⟩
    obtain ⟨cred, hcred⟩ : ∃ cred : ServerCredential, cred = {
      clientID := rq.clientID, username := stored.username, scope := stored.scope,
      code := t.signatureString } := ⟨_, rfl⟩
    rw [← hcred]
    obtain ⟨h1, h2⟩ := issue_like h l (l.tick + 1) true cred id
    rcases issue_shape s l (l.tick + 1) true cred id with ⟨t', h3⟩ | h3
    · have h3' := h1.symm.trans h3
      generalize s.issue l (l.tick + 1) true cred id = x at *
      generalize s'.issue l (l.tick + 1) true cred id = x' at *
      obtain ⟨x1, x2⟩ := x
      obtain ⟨x1', x2'⟩ := x'
      simp only at h3 h3' h2
      subst h3
      subst h3'
      exact ⟨rfl, codes_like h2 (fun m => m.update _ _) (fun x hx => nodup_update hx _ _)
        (fun x x' sig hx => update_congr _ _ hx)⟩
    · have h3' := h1.symm.trans h3
      generalize s.issue l (l.tick + 1) true cred id = x at *
      generalize s'.issue l (l.tick + 1) true cred id = x' at *
      obtain ⟨x1, x2⟩ := x
      obtain ⟨x1', x2'⟩ := x'
      simp only at h3 h3' h2
      subst h3
      subst h3'
      exact ⟨rfl, h2⟩

theorem refreshReply_like (h : Like K C U X s s') (rq : TokenRequest) (l : Local)
    (hx : ∀ t, HS256Token.parse s.config.secret rq.refreshToken = .ok t →
      AgreeAt s s' t.signatureString) :
    Same K C U X (s.refreshReply rq l) (s'.refreshReply rq l) := by
  unfold refreshReply
  rw [← h.config]
  cases hp : HS256Token.parse s.config.secret rq.refreshToken with
  | error e => exact ⟨rfl, h⟩
  | ok t =>
    simp only
    rw [← (hx t hp).2.1]
    cases hst : s.refreshTokens.get? t.signatureString with
    | none => exact ⟨rfl, h⟩
    | some stored =>
    simp only
    generalize (if rq.scope.empty then stored.scope else rq.scope) = scope
    split
    · exact ⟨rfl, h⟩
    split
    · exact ⟨rfl, h⟩
    split
    · exact ⟨rfl, h⟩
    obtain ⟨cred, hcred⟩ : ∃ cred : ServerCredential, cred = {
      clientID := rq.clientID, username := stored.username,
      scope := scope } := ⟨_, rfl⟩
    rw [← hcred]
    obtain ⟨h1, h2⟩ := issue_like h l (l.tick + 1) true cred id
    rcases issue_shape s l (l.tick + 1) true cred id with ⟨t', h3⟩ | h3
    · have h3' := h1.symm.trans h3
      generalize s.issue l (l.tick + 1) true cred id = x at *
      generalize s'.issue l (l.tick + 1) true cred id = x' at *
      obtain ⟨x1, x2⟩ := x
      obtain ⟨x1', x2'⟩ := x'
      simp only at h3 h3' h2
      subst h3
      subst h3'
      exact ⟨rfl, tokens_like h2 id (fun m => m.del _) (fun x hx => hx)
        (fun x hx => GoMap.nodup_del hx _) (fun x x' sig _ _ h => h)
        (fun x x' sig _ _ h => del_congr _ h)⟩
    · have h3' := h1.symm.trans h3
      generalize s.issue l (l.tick + 1) true cred id = x at *
      generalize s'.issue l (l.tick + 1) true cred id = x' at *
      obtain ⟨x1, x2⟩ := x
      obtain ⟨x1', x2'⟩ := x'
      simp only at h3 h3' h2
      subst h3
      subst h3'
      exact ⟨rfl, h2⟩

theorem tokenReply_like (h : Like K C U X s s') (r : Request) (l : Local)
    (hc : ∀ rq, parseTokenRequest r = .ok rq → C rq.clientID ∧
      (rq.grantType = b!"password" → U rq.username) ∧
      (rq.grantType = b!"authorization_code" → ∀ t, HS256Token.parse s.config.secret rq.code = .ok t →
        AgreeAt s s' t.signatureString) ∧
      (rq.grantType = b!"refresh_token" → ∀ t,
        HS256Token.parse s.config.secret rq.refreshToken = .ok t →
        AgreeAt s s' t.signatureString)) :
    Same K C U X (s.tokenReply r l) (s'.tokenReply r l) := by
  unfold tokenReply
  cases hp : parseTokenRequest r with
  | error e => exact ⟨rfl, h⟩
  | ok rq =>
    obtain ⟨h1, h2, h3, h4⟩ := hc rq hp
    simp only
    rw [← h.clients _ h1]
    split
    · exact ⟨rfl, h⟩
    rename_i hk
    split
    · exact ⟨rfl, h⟩
    split
    · exact ⟨rfl, h⟩
    unfold grantReply
    by_cases hpw : rq.grantType = PasswordGrantType
    · rw [if_pos hpw, if_pos hpw, ← userOK_like h (h2 hpw), ← h.config]
      split
      · exact ⟨rfl, h⟩
      split
      · exact ⟨rfl, h⟩
      · exact issue_like h _ _ _ _ _
    rw [if_neg hpw, if_neg hpw, ← h.config]
    by_cases hcc : rq.grantType = ClientCredentialsGrantType
    · rw [if_pos hcc, if_pos hcc]
      split
      · exact ⟨rfl, h⟩
      split
      · exact ⟨rfl, h⟩
      · exact issue_like h _ _ _ _ _
    rw [if_neg hcc, if_neg hcc]
    by_cases hac : rq.grantType = AuthorizationCodeGrantType
    · rw [if_pos hac, if_pos hac]
      exact codeReply_like h rq l (h3 hac)
    · rw [if_neg hac, if_neg hac]
      refine refreshReply_like h rq l (h4 ?_)
      simp only [Bool.not_eq_true, Bool.not_eq_false'] at hk
      unfold knownGrantType at hk
      simp only [hpw, hcc, hac] at hk
      exact (by simpa using hk : rq.grantType = RefreshTokenGrantType)

theorem foreign_congr {m m' : GoMap ServerCredential} {sig : Str} (h : m.get? sig = m'.get? sig)
    (id : Str) : foreign m sig id = foreign m' sig id := by
  unfold foreign
  rw [h]

theorem revokeReply_like (h : Like K C U X s s') (r : Request)
    (hc : ∀ rq, parseRevocationRequest r = .ok rq → C rq.clientID ∧
      ∀ t, HS256Token.parse s.config.secret rq.token = .ok t → AgreeAt s s' t.signatureString) :
    Same K C U X (s.revokeReply r) (s'.revokeReply r) := by
  unfold revokeReply
  cases hp : parseRevocationRequest r with
  | error e => exact ⟨rfl, h⟩
  | ok rq =>
    obtain ⟨h1, h2⟩ := hc rq hp
    simp only
    rw [← h.clients _ h1, ← h.config]
    split
    · exact ⟨rfl, h⟩
    split
    · exact ⟨rfl, h⟩
    split
    · exact ⟨rfl, h⟩
    cases ht : HS256Token.parse s.config.secret rq.token with
    | error e => exact ⟨rfl, h⟩
    | ok t =>
      obtain ⟨h3, h4, _⟩ := h2 t ht
      have h3' : ({ s with accessTokens := s.accessTokens.del t.signatureString } : Server).accessTokens.get? t.signatureString = none :=
        GoMap.get?_del_self _ _
      simp only
      rw [← foreign_congr h3, ← h3]
      have hlike := tokens_like' h (fun m => m.del t.signatureString) id
        (fun x hx => GoMap.nodup_del hx _) (fun x hx => hx) (fun x x' sig _ _ h => del_congr _ h)
        (fun x x' sig _ _ h => h)
      split
      · exact ⟨rfl, h⟩
      cases ha : s.accessTokens.get? t.signatureString with
      | none =>
        simp only
        rw [← foreign_congr h4, ← h4]
        split
        · exact ⟨rfl, h⟩
        cases hr : s.refreshTokens.get? t.signatureString with
        | none => exact ⟨rfl, h⟩
        | some cr =>
          exact ⟨rfl, tokens_like h id (fun m => m.del _) (fun x hx => hx)
            (fun x hx => GoMap.nodup_del hx _) (fun x x' sig _ _ h => h)
            (fun x x' sig _ _ h => del_congr _ h)⟩
      | some ca =>
        simp only
        rw [← foreign_congr h4, ← h4]
        split
        · exact ⟨rfl, hlike⟩
        cases hr : s.refreshTokens.get? t.signatureString with
        | none => exact ⟨rfl, hlike⟩
        | some cr =>
          exact ⟨rfl, tokens_like' h (fun m => m.del _) (fun m => m.del _)
            (fun x hx => GoMap.nodup_del hx _)
            (fun x hx => GoMap.nodup_del hx _) (fun x x' sig _ _ h => del_congr _ h)
            (fun x x' sig _ _ h => del_congr _ h)⟩

theorem introspectReply_like (h : Like K C U X s s') (r : Request)
    (hc : ∀ rq, parseIntrospectionRequest r = .ok rq → C rq.clientID ∧
      ∀ t, HS256Token.parse s.config.secret rq.token = .ok t → AgreeAt s s' t.signatureString) :
    Same K C U X (s.introspectReply r) (s'.introspectReply r) := by
  unfold introspectReply
  cases hp : parseIntrospectionRequest r with
  | error e => exact ⟨rfl, h⟩
  | ok rq =>
    obtain ⟨h1, h2⟩ := hc rq hp
    simp only
    rw [← h.clients _ h1, ← h.config]
    split
    · exact ⟨rfl, h⟩
    split
    · exact ⟨rfl, h⟩
    split
    · exact ⟨rfl, h⟩
    cases ht : HS256Token.parse s.config.secret rq.token with
    | error e => exact ⟨rfl, h⟩
    | ok t =>
      obtain ⟨h3, h4, _⟩ := h2 t ht
      simp only
      rw [← foreign_congr h3, ← foreign_congr h4, ← h3, ← h4]
      split
      · exact ⟨rfl, h⟩
      split
      · exact ⟨rfl, h⟩
      split
      · exact ⟨rfl, h⟩
      split <;> exact ⟨rfl, h⟩

end Server

theorem step_like {K : ServerConfig} {C U X : Str → Prop} {s s' : Server} (h : Like K C U X s s') (c : Call)
    (hc : ∀ id, MentionsClient c id → C id) (hu : ∀ name, MentionsUser c name → U name)
    (hx : ∀ text t, Carries c text → HS256Token.parse s.config.secret text = .ok t →
      X t.signatureString) :
    (step ⟨false, s⟩ c).1 = (step ⟨false, s'⟩ c).1 ∧
    ∃ s₁ s₁', (step ⟨false, s⟩ c).2 = ⟨false, s₁⟩ ∧ (step ⟨false, s'⟩ c).2 = ⟨false, s₁'⟩ ∧
      Like K C U X s₁ s₁' := by
  cases hop : c.op with
  | configure cl us =>
    rw [step_configure hop, step_configure hop]
    exact ⟨rfl, _, _, rfl, rfl, h.config, h.proper, h.proper', fun _ _ => rfl, fun _ _ => rfl, h.at_, h.fixed⟩
  | authorize r required =>
    rw [step_authorize hop, step_authorize hop]
    refine ⟨?_, _, _, rfl, rfl, h⟩
    have ha : s.authorizes r required (c.clock 0) = s'.authorizes r required (c.clock 0) := by
      unfold Server.authorizes
      rw [← h.config]
      cases hb : parseBearerToken r with
      | error e => rfl
      | ok text =>
        simp only
        cases hp : HS256Token.parse s.config.secret text with
        | error e => rfl
        | ok t =>
          simp only
          rw [(h.at_ _ (hx text t (.bearer ⟨r, hop, (C09_bearer_accept_iff r text).mp hb⟩) hp)).1]
    rw [ha]
  | serve r =>
    rw [step_serve hop, step_serve hop]
    have key : Server.Same K C U X (s.handle r c.local) (s'.handle r c.local) := by
      unfold Server.handle
      simp only
      by_cases h1 : Server.lastSegment r.path = b!"authorize"
      · rw [if_pos h1, if_pos h1]
        have h1' := (lastSegment_iff _ _).mpr h1
        exact Server.authorizeReply_like h r _
          (fun rq hrq => hc _ (.authorization hop h1' hrq))
          (fun rq hrq hm => hu _ (.authorization ⟨r, hop, h1', hm, hrq, rfl, rfl⟩))
      rw [if_neg h1, if_neg h1]
      by_cases h2 : Server.lastSegment r.path = b!"token"
      · rw [if_pos h2, if_pos h2]
        have h2' := (lastSegment_iff _ _).mpr h2
        refine Server.tokenReply_like h r _ fun rq hrq => ?_
        have ha : AsksToken c rq := ⟨r, hop, h2', hrq⟩
        exact ⟨hc _ (.token ha), fun hg => hu _ (.token ha hg),
          fun hg t ht => h.at_ _ (hx _ t (.code ha hg) ht),
          fun hg t ht => h.at_ _ (hx _ t (.refreshToken ha hg) ht)⟩
      rw [if_neg h2, if_neg h2]
      by_cases h3 : Server.lastSegment r.path = b!"introspect"
      · rw [if_pos h3, if_pos h3]
        have h3' := (lastSegment_iff _ _).mpr h3
        refine Server.introspectReply_like h r fun rq hrq => ?_
        have ha : AsksIntrospection c rq := ⟨r, hop, h3', hrq⟩
        exact ⟨hc _ (.introspection ha), fun t ht => h.at_ _ (hx _ t (.introspection ha) ht)⟩
      rw [if_neg h3, if_neg h3]
      by_cases h4 : Server.lastSegment r.path = b!"revoke"
      · rw [if_pos h4, if_pos h4]
        have h4' := (lastSegment_iff _ _).mpr h4
        refine Server.revokeReply_like h r fun rq hrq => ?_
        have ha : AsksRevocation c rq := ⟨r, hop, h4', hrq⟩
        exact ⟨hc _ (.revocation ha), fun t ht => h.at_ _ (hx _ t (.revocation ha) ht)⟩
      · rw [if_neg h4, if_neg h4]
        exact ⟨rfl, h⟩
    refine ⟨?_, _, _, rfl, rfl, key.2⟩
    simp only
    rw [key.1]

theorem runAll_like {K : ServerConfig} {C U X : Str → Prop} (cs : List Call) {s s' : Server} (h : Like K C U X s s')
    (hc : ∀ c ∈ cs, ∀ id, MentionsClient c id → C id)
    (hu : ∀ c ∈ cs, ∀ name, MentionsUser c name → U name)
    (hx : ∀ c ∈ cs, ∀ text t, Carries c text → HS256Token.parse s.config.secret text = .ok t →
      X t.signatureString) :
    (runAll ⟨false, s⟩ cs).1 = (runAll ⟨false, s'⟩ cs).1 ∧
    ∃ s₁ s₁', (runAll ⟨false, s⟩ cs).2 = ⟨false, s₁⟩ ∧ (runAll ⟨false, s'⟩ cs).2 = ⟨false, s₁'⟩ ∧
      Like K C U X s₁ s₁' := by
  induction cs generalizing s s' with
  | nil => exact ⟨rfl, s, s', rfl, rfl, h⟩
  | cons c cs ih =>
    obtain ⟨h1, s₁, s₁', h2, h2', h3⟩ := step_like h c (hc c (.head _)) (hu c (.head _))
      (hx c (.head _))
    have hcfg : s₁.config = s.config := h3.fixed.trans h.fixed.symm
    obtain ⟨h4, s₂, s₂', h5, h5', h6⟩ := ih h3 (fun c hm => hc c (.tail _ hm))
      (fun c hm => hu c (.tail _ hm)) (fun c hm text t ht hp => hx c (.tail _ hm) text t ht
        (by rw [← hcfg]; exact hp))
    refine ⟨?_, s₂, s₂', ?_, ?_, h6⟩
    · simp only [runAll, h1, h2, h2', h4]
    · simp only [runAll, h2, h5]
    · simp only [runAll, h2', h5']

/-- C58: two servers that are configured alike and agree on everything a call names and carries give
the same answer, whatever else they hold: other clients, other users, other tokens and codes. -/
theorem C58_answer {s s' : Server} (hconfig : s.config = s'.config) (hs : Proper s) (hs' : Proper s')
    {c : Call} (h : AgreeOn c s s') : (step ⟨false, s⟩ c).1 = (step ⟨false, s'⟩ c).1 :=
  (step_like (C := MentionsClient c) (U := MentionsUser c)
    (X := fun sig => ∃ text t, Carries c text ∧ HS256Token.parse s.config.secret text = .ok t ∧
      sig = t.signatureString)
    ⟨hconfig, hs, hs', h.clients, h.users, by
      rintro sig ⟨text, t, h1, h2, rfl⟩
      exact h.carried text t h1 h2, rfl⟩ c (fun _ h => h) (fun _ h => h)
    (fun text t h1 h2 => ⟨text, t, h1, h2, rfl⟩)).1

/-- C58: and what becomes of what is held under any signature depends only on that and on what was
held under it before. -/
theorem C58_effect {s s' : Server} (hconfig : s.config = s'.config) (hs : Proper s) (hs' : Proper s')
    {c : Call} (h : AgreeOn c s s') {signature : Str} (hsig : AgreeAt s s' signature) :
    AgreeAt (step ⟨false, s⟩ c).2.st (step ⟨false, s'⟩ c).2.st signature := by
  obtain ⟨_, s₁, s₁', h1, h2, h3⟩ := step_like (C := MentionsClient c) (U := MentionsUser c)
    (X := fun sig => sig = signature ∨ ∃ text t, Carries c text ∧
      HS256Token.parse s.config.secret text = .ok t ∧ sig = t.signatureString)
    ⟨hconfig, hs, hs', h.clients, h.users, by
      rintro sig (rfl | ⟨text, t, h1, h2, rfl⟩)
      · exact hsig
      · exact h.carried text t h1 h2, rfl⟩ c (fun _ h => h) (fun _ h => h)
    (fun text t h1 h2 => .inr ⟨text, t, h1, h2, rfl⟩)
  rw [h1, h2]
  exact h3.at_ _ (.inl rfl)

/-- C58: and this composes: any sequence of calls gets the same answers from two servers that agree
beforehand on everything the calls name and carry. -/
theorem C58_run {s s' : Server} (hconfig : s.config = s'.config) (hs : Proper s) (hs' : Proper s')
    {cs : List Call} (h : ∀ c ∈ cs, AgreeOn c s s') :
    (runAll ⟨false, s⟩ cs).1 = (runAll ⟨false, s'⟩ cs).1 :=
  (runAll_like (C := fun id => ∃ c ∈ cs, MentionsClient c id)
    (U := fun name => ∃ c ∈ cs, MentionsUser c name)
    (X := fun sig => ∃ c ∈ cs, ∃ text t, Carries c text ∧
      HS256Token.parse s.config.secret text = .ok t ∧ sig = t.signatureString)
    cs ⟨hconfig, hs, hs', fun id ⟨c, hc, hi⟩ => (h c hc).clients id hi,
      fun name ⟨c, hc, hi⟩ => (h c hc).users name hi, by
      rintro sig ⟨c, hc, text, t, h1, h2, rfl⟩
      exact (h c hc).carried text t h1 h2, rfl⟩
    (fun c hc id hi => ⟨c, hc, hi⟩) (fun c hc name hi => ⟨c, hc, hi⟩)
    (fun c hc text t h1 h2 => ⟨c, hc, text, t, h1, h2, rfl⟩)).1

/-- C58: the maps of every server that has been used only through its API are proper ones. -/
theorem C58_proper {s₀ : Server} (h0 : Started s₀) {h : List Event} {s : Shared Server}
    (hh : History s₀ h s) : ∃ st, s = ⟨false, st⟩ ∧ Proper st := by
  induction hh with
  | start =>
    obtain ⟨h1, h2, h3⟩ := h0
    refine ⟨s₀, rfl, ?_⟩
    unfold Proper
    rw [h1, h2, h3]
    exact ⟨List.nodup_nil, List.nodup_nil, List.nodup_nil⟩
  | next c _ ih =>
    obtain ⟨st, rfl, hp⟩ := ih
    obtain ⟨_, s₁, _, h1, _, h3⟩ := step_like (K := st.config) (C := fun _ => True)
      (U := fun _ => True) (X := fun _ => True) (s := st) (s' := st)
      ⟨rfl, hp, hp, fun _ _ => rfl, fun _ _ => rfl, fun _ _ => ⟨rfl, rfl, rfl⟩, rfl⟩ c
      (fun _ _ => trivial) (fun _ _ => trivial) (fun _ _ _ _ => trivial)
    exact ⟨s₁, h1, h3.proper⟩

/-- What the server of the session holds before the tenth event, without everything the event does
not concern: the other client, the user, and all but the token to be revoked. -/
def pruned : Server := { Demo.s9 with
  clients := [
    (b!"c1", { secret := b!"s1", redirectURI := b!"http://example.com/cb", confidential := true })]
  users := []
  accessTokens := []
  refreshTokens := [(b!"k2XEDrh7DDV_NA212JyTDfNeILclV1aqJpVOsf2G6jw", {
      clientID := b!"c1", username := b!"u1", scope := some [b!"foo"], expiresAt := 605801 * second })]
  authorizationCodes := [] }

/-- The request of the tenth event. -/
def rq10 : RevocationRequest := {
  token := b!"AwQ.k2XEDrh7DDV_NA212JyTDfNeILclV1aqJpVOsf2G6jw", tokenTypeHint := b!"refresh_token",
  clientID := b!"c1", clientSecret := b!"s1" }

theorem revocation10 {rq : RevocationRequest} (h : AsksRevocation Demo.c10 rq) : rq = rq10 := by
  obtain ⟨r, hop, _, hp⟩ := h
  cases hop
  have : (_ : Except Error RevocationRequest) = .ok rq10 := (by decide +kernel :
    parseRevocationRequest (match Demo.c10.op with | .serve r => r | .authorize r _ => r | _ => { method := [] }) = _)
  exact Except.ok.inj (hp.symm.trans this)

theorem agreeOn10 : AgreeOn Demo.c10 Demo.s9 pruned := by
  have ht : ∀ rq, ¬ AsksToken Demo.c10 rq := by
    rintro rq ⟨r, hop, hs, _⟩
    cases hop
    exact absurd hs (by decide)
  have hi : ∀ rq, ¬ AsksIntrospection Demo.c10 rq := by
    rintro rq ⟨r, hop, hs, _⟩
    cases hop
    exact absurd hs (by decide)
  have ha : ∀ r, Demo.c10.op = .serve r → ¬ LastSegment r.path b!"authorize" := by
    rintro r hop hs
    cases hop
    exact absurd hs (by decide)
  refine ⟨?_, ?_, ?_⟩
  · intro id h
    cases h with
    | token h => exact (ht _ h).elim
    | introspection h => exact (hi _ h).elim
    | authorization h1 h2 _ => exact (ha _ h1 h2).elim
    | revocation h =>
      rw [revocation10 h]
      decide
  · intro name h
    cases h with
    | token h => exact (ht _ h).elim
    | authorization h =>
      obtain ⟨r, h1, h2, _⟩ := h
      exact (ha _ h1 h2).elim
  · intro text t h hp
    cases h with
    | code h => exact (ht _ h).elim
    | refreshToken h => exact (ht _ h).elim
    | introspection h => exact (hi _ h).elim
    | bearer h => obtain ⟨r, h1, _⟩ := h; cases h1
    | revocation h =>
      rw [revocation10 h] at hp
      have : (_ : Except Str HS256Token) = .ok Demo.r1 := (by decide +kernel :
        HS256Token.parse Demo.s9.config.secret rq10.token = _)
      cases hp.symm.trans this
      decide +kernel

theorem proper9 : Proper Demo.s9 := by decide +kernel

theorem proper9' : Proper pruned := by decide +kernel

theorem config9 : Demo.s9.config = pruned.config := by with_unfolding_all rfl

example : (step ⟨false, Demo.s9⟩ Demo.c10).1 = (step ⟨false, pruned⟩ Demo.c10).1 :=
  C58_answer config9 proper9 proper9' agreeOn10

example : AgreeAt (step ⟨false, Demo.s9⟩ Demo.c10).2.st (step ⟨false, pruned⟩ Demo.c10).2.st
    Demo.r1.signatureString :=
  C58_effect config9 proper9 proper9' agreeOn10 (by decide +kernel)

example : (runAll ⟨false, Demo.s9⟩ [Demo.c10, Demo.c10]).1 =
    (runAll ⟨false, pruned⟩ [Demo.c10, Demo.c10]).1 :=
  C58_run config9 proper9 proper9' (by
    intro c hc
    simp only [List.mem_cons, List.not_mem_nil, or_false, or_self] at hc
    subst hc
    exact agreeOn10)

end OAuth2

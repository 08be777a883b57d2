import Verif.Spec.Names
import Verif.Props.Requests
import Verif.Props.Revoking
import Verif.Props.Shift

/-!
C100: names are only names.
-/

namespace OAuth2

open Spec

variable (ρ : Renaming)

/-! ### Maps -/

/-- A client or user with another secret. -/
def reSecret (f : Str → Str) (e : ServerEntity) : ServerEntity := { e with secret := f e.secret }

/-- An entry with other names. -/
def reCred (c : ServerCredential) : ServerCredential :=
  { c with clientID := ρ.client c.clientID, username := ρ.user c.username }

theorem clients_get (m : GoMap ServerEntity) (k : Str) :
    (ρ.clients m).get? (ρ.client k) = (m.get? k).map (reSecret ρ.secret) := by
  induction m with
  | nil => rfl
  | cons e m ih =>
    show (if ρ.client e.1 = ρ.client k then some (reSecret ρ.secret e.2)
      else (ρ.clients m).get? (ρ.client k)) =
      (if e.1 = k then some e.2 else GoMap.get? m k).map (reSecret ρ.secret)
    by_cases h : e.1 = k
    · rw [if_pos h, if_pos (by rw [h])]; rfl
    · rw [if_neg h, if_neg fun h' => h (ρ.client_inj _ _ h')]; exact ih

theorem users_get (m : GoMap ServerEntity) (k : Str) :
    (ρ.users m).get? (ρ.user k) = (m.get? k).map (reSecret ρ.password) := by
  induction m with
  | nil => rfl
  | cons e m ih =>
    show (if ρ.user e.1 = ρ.user k then some (reSecret ρ.password e.2)
      else (ρ.users m).get? (ρ.user k)) =
      (if e.1 = k then some e.2 else GoMap.get? m k).map (reSecret ρ.password)
    by_cases h : e.1 = k
    · rw [if_pos h, if_pos (by rw [h])]; rfl
    · rw [if_neg h, if_neg fun h' => h (ρ.user_inj _ _ h')]; exact ih

section
variable (m : GoMap ServerCredential)

theorem credentials_get (k : Str) :
    GoMap.get? (ρ.credentials m) k = (GoMap.get? m k).map (reCred ρ) := by
  induction m with
  | nil => rfl
  | cons e m ih =>
    show (if e.1 = k then some (reCred ρ e.2) else GoMap.get? (ρ.credentials m) k) =
      (if e.1 = k then some e.2 else GoMap.get? m k).map (reCred ρ)
    split
    · rfl
    · exact ih

theorem credentials_del (k : Str) : (ρ.credentials m).del k = ρ.credentials (m.del k) := by
  unfold Renaming.credentials GoMap.del
  rw [List.filter_map]
  rfl

theorem credentials_set (k : Str) (v : ServerCredential) :
    (ρ.credentials m).set k (reCred ρ v) = ρ.credentials (m.set k v) := by
  unfold GoMap.set
  rw [credentials_del]
  rfl

theorem credentials_used (k : Str) :
    (ρ.credentials m).update k (fun c => { c with used := true }) =
      ρ.credentials (m.update k fun c => { c with used := true }) := by
  unfold Renaming.credentials GoMap.update
  rw [List.map_map, List.map_map]
  apply List.map_congr_left
  intro e _
  simp only [Function.comp]
  split <;> rfl

theorem credentials_deleteByCode (k : Str) :
    Server.deleteByCode (ρ.credentials m) k = ρ.credentials (Server.deleteByCode m k) := by
  unfold Server.deleteByCode
  suffices h : ∀ (l acc : GoMap ServerCredential),
      (ρ.credentials l).foldl (fun acc e => if e.2.code = k then acc.del e.1 else acc)
        (ρ.credentials acc) =
      ρ.credentials (l.foldl (fun acc e => if e.2.code = k then acc.del e.1 else acc) acc) from h m m
  intro l
  induction l with
  | nil => exact fun acc => rfl
  | cons e l ih =>
    intro acc
    rw [List.foldl_cons, ← ih]
    show List.foldl _ (if e.2.code = k then (ρ.credentials acc).del e.1 else ρ.credentials acc)
      (ρ.credentials l) = _
    congr 1
    split
    · exact credentials_del ..
    · rfl

theorem credentials_foreign (sig id : Str) :
    Server.foreign (ρ.credentials m) sig (ρ.client id) = Server.foreign m sig id := by
  unfold Server.foreign
  rw [credentials_get]
  cases m.get? sig with
  | none => rfl
  | some c =>
    show decide (ρ.client c.clientID ≠ ρ.client id) = decide (c.clientID ≠ id)
    exact decide_eq_decide.mpr ⟨fun h h' => h (by rw [h']), fun h h' => h (ρ.client_inj _ _ h')⟩

end

/-! ### Requests -/

section
variable (s : Server) (l : Local)

theorem renamed_user (u p : Str) :
    (ρ.server s).userOK (ρ.user u) (ρ.password p) = s.userOK u p := by
  unfold Server.userOK
  show (match (ρ.users s.users).get? (ρ.user u) with
    | none => false
    | some owner => _) = _
  rw [users_get]
  cases s.users.get? u with
  | none => rfl
  | some o =>
    show decide (ρ.password o.secret = ρ.password p) = decide (o.secret = p)
    exact decide_eq_decide.mpr ⟨ρ.password_inj _ _, fun h => by rw [h]⟩

theorem renamed_secret (client : ServerEntity) (x : Str) :
    Server.wrongSecret (reSecret ρ.secret client) (ρ.secret x) = Server.wrongSecret client x := by
  unfold Server.wrongSecret
  show (client.confidential && decide (ρ.secret client.secret ≠ ρ.secret x)) = _
  congr 1
  exact decide_eq_decide.mpr ⟨fun h h' => h (by rw [h']), fun h h' => h (ρ.secret_inj _ _ h')⟩

/-- A reply with other names. -/
def reReply : Reply → Reply
  | .introspection i => .introspection (ρ.description i)
  | x => x

/-- A reply and a state with other names. -/
def reBoth (x : Reply × Server) : Reply × Server := (reReply ρ x.1, ρ.server x.2)

theorem renamed_grant (a : HS256Token) (b : Option HS256Token) (t₁ t₂ : Time) (cred : ServerCredential) :
    (ρ.server s).grant a b t₁ t₂ (reCred ρ cred) = ρ.server (s.grant a b t₁ t₂ cred) := by
  have h : ∀ (t : Int), { reCred ρ cred with expiresAt := t } = reCred ρ { cred with expiresAt := t } :=
    fun _ => rfl
  unfold Server.grant Renaming.server
  simp only [h, credentials_set]
  cases b with
  | none => rfl
  | some b => rfl

theorem renamed_issue (tick : Nat) (w : Bool) (cred : ServerCredential)
    (fin : TokenResponse → TokenResponse) :
    (ρ.server s).issue l tick w (reCred ρ cred) fin = reBoth ρ (s.issue l tick w cred fin) := by
  unfold Server.issue
  show (match Server.mint s.config w l.coins with
    | none => (Reply.crash, ρ.server s)
    | some (a, b) => (.token (fin (Server.grantResponse s.config a b cred.scope)),
      (ρ.server s).grant a b (l.clock tick) (l.clock (tick + 1)) (reCred ρ cred))) = _
  cases Server.mint s.config w l.coins with
  | none => rfl
  | some ab =>
    simp only [renamed_grant]
    rfl

theorem renamed_authorize {r r' : Request} (hr : SameRequest ρ r r')
    (hp : LastSegment r.path b!"authorize") :
    (ρ.server s).authorizeReply r' l = reBoth ρ (s.authorizeReply r l) := by
  unfold Server.authorizeReply
  rw [hr.authorization hp]
  cases parseAuthorizationRequest r with
  | error e => rfl
  | ok rq =>
    show (if (!knownResponseType rq.responseType) = true then _ else _) = _
    simp only
    split
    · rfl
    show (match (ρ.clients s.clients).get? (ρ.client rq.clientID) with
      | none => _
      | some _ => _) = _
    rw [clients_get]
    cases s.clients.get? rq.clientID with
    | none => rfl
    | some client =>
      simp only [Option.map_some]
      have hcfg : (ρ.server s).config = s.config := rfl
      have h1 : (reSecret ρ.secret client).redirectURI = client.redirectURI := rfl
      have h2 : (ρ.authorizationRequest rq).redirectURI = rq.redirectURI := rfl
      have h3 : (ρ.authorizationRequest rq).scope = rq.scope := rfl
      have h4 : (ρ.authorizationRequest rq).state = rq.state := rfl
      have h5 : (ρ.authorizationRequest rq).responseType = rq.responseType := rfl
      simp only [hcfg, h1, h2, h3, h4, h5, hr.method, hr.user hp, hr.password hp, renamed_user]
      split
      · rfl
      split
      · rfl
      split
      · rfl
      split
      · rfl
      split
      · exact renamed_issue ρ s l _ _
          { clientID := rq.clientID,
            username := (r.parseForm.1.postForm.getD []).get b!"username", scope := rq.scope } _
      cases Server.gen s.config l.coins with
      | none => rfl
      | some x =>
        unfold reBoth
        refine Prod.ext rfl ?_
        unfold Renaming.server
        simp only [← credentials_set]
        rfl

theorem renamed_code (rq : TokenRequest) :
    (ρ.server s).codeReply (ρ.tokenRequest rq) l = reBoth ρ (s.codeReply rq l) := by
  unfold Server.codeReply
  show (match HS256Token.parse s.config.secret rq.code with
    | .error _ => _
    | .ok _ => _) = _
  cases HS256Token.parse s.config.secret rq.code with
  | error e => rfl
  | ok x =>
    simp only
    show (match (ρ.credentials s.authorizationCodes).get? x.signatureString with
      | none => _
      | some _ => _) = _
    rw [credentials_get]
    cases s.authorizationCodes.get? x.signatureString with
    | none => rfl
    | some stored =>
      simp only [Option.map_some]
      have h1 : (reCred ρ stored).used = stored.used := rfl
      have h2 : (reCred ρ stored).expiresAt = stored.expiresAt := rfl
      have h3 : (reCred ρ stored).clientID = ρ.client stored.clientID := rfl
      have h4 : (reCred ρ stored).redirectURI = stored.redirectURI := rfl
      have h6 : (reCred ρ stored).username = ρ.user stored.username := rfl
      have h7 : (reCred ρ stored).scope = stored.scope := rfl
      have h8 : (ρ.tokenRequest rq).clientID = ρ.client rq.clientID := rfl
      have h9 : (ρ.tokenRequest rq).redirectURI = rq.redirectURI := rfl
      simp only [h1, h2, h3, h4, h6, h7, h8, h9]
      by_cases k1 : stored.used = true
      · simp only [if_pos k1]
        unfold reBoth Renaming.server
        simp only [credentials_deleteByCode]
        rfl
      by_cases k2 : stored.expiresAt.before (l.clock l.tick) = true
      · simp only [if_neg k1, if_pos k2]; rfl
      by_cases k3 : stored.clientID ≠ rq.clientID
      · have k3' : ρ.client stored.clientID ≠ ρ.client rq.clientID := fun h => k3 (ρ.client_inj _ _ h)
        simp only [if_neg k1, if_neg k2, if_pos k3, if_pos k3']; rfl
      have k3' : ¬ ρ.client stored.clientID ≠ ρ.client rq.clientID := fun h => k3 fun h' => h (by rw [h'])
      by_cases k4 : stored.redirectURI ≠ rq.redirectURI
      · simp only [if_neg k1, if_neg k2, if_neg k3, if_neg k3', if_pos k4]; rfl
      simp only [if_neg k1, if_neg k2, if_neg k3, if_neg k3', if_neg k4]
      have e : (ρ.server s).issue l (l.tick + 1) true
          ⟨ρ.client rq.clientID, ρ.user stored.username, 0, stored.scope, [], x.signatureString, false⟩
          id = _ :=
        renamed_issue ρ s l (l.tick + 1) true
          ⟨rq.clientID, stored.username, 0, stored.scope, [], x.signatureString, false⟩ id
      rw [e]
      generalize s.issue l _ _ _ _ = y
      obtain ⟨reply, s'⟩ := y
      cases reply <;> first | rfl | skip
      unfold reBoth reReply Renaming.server
      simp only [credentials_used]

theorem renamed_refresh (rq : TokenRequest) :
    (ρ.server s).refreshReply (ρ.tokenRequest rq) l = reBoth ρ (s.refreshReply rq l) := by
  unfold Server.refreshReply
  show (match HS256Token.parse s.config.secret rq.refreshToken with
    | .error _ => _
    | .ok _ => _) = _
  cases HS256Token.parse s.config.secret rq.refreshToken with
  | error e => rfl
  | ok x =>
    simp only
    show (match (ρ.credentials s.refreshTokens).get? x.signatureString with
      | none => _
      | some _ => _) = _
    rw [credentials_get]
    cases s.refreshTokens.get? x.signatureString with
    | none => rfl
    | some stored =>
      simp only [Option.map_some]
      have h2 : (reCred ρ stored).expiresAt = stored.expiresAt := rfl
      have h3 : (reCred ρ stored).clientID = ρ.client stored.clientID := rfl
      have h6 : (reCred ρ stored).username = ρ.user stored.username := rfl
      have h7 : (reCred ρ stored).scope = stored.scope := rfl
      have h8 : (ρ.tokenRequest rq).clientID = ρ.client rq.clientID := rfl
      have h9 : (ρ.tokenRequest rq).scope = rq.scope := rfl
      simp only [h2, h3, h6, h7, h8, h9]
      by_cases k2 : stored.expiresAt.before (l.clock l.tick) = true
      · simp only [if_pos k2]; rfl
      by_cases k3 : stored.clientID ≠ rq.clientID
      · have k3' : ρ.client stored.clientID ≠ ρ.client rq.clientID := fun h => k3 (ρ.client_inj _ _ h)
        simp only [if_neg k2, if_pos k3, if_pos k3']; rfl
      have k3' : ¬ ρ.client stored.clientID ≠ ρ.client rq.clientID := fun h => k3 fun h' => h (by rw [h'])
      by_cases k4 : (!stored.scope.includes (if rq.scope.empty = true then stored.scope else rq.scope)) = true
      · simp only [if_neg k2, if_neg k3, if_neg k3', if_pos k4]; rfl
      simp only [if_neg k2, if_neg k3, if_neg k3', if_neg k4]
      have e : (ρ.server s).issue l (l.tick + 1) true
          ⟨ρ.client rq.clientID, ρ.user stored.username, 0,
            if rq.scope.empty = true then stored.scope else rq.scope, [], [], false⟩ id = _ :=
        renamed_issue ρ s l (l.tick + 1) true
          ⟨rq.clientID, stored.username, 0,
            if rq.scope.empty = true then stored.scope else rq.scope, [], [], false⟩ id
      rw [e]
      generalize s.issue l _ _ _ _ = y
      obtain ⟨reply, s'⟩ := y
      cases reply <;> first | rfl | skip
      unfold reBoth reReply Renaming.server
      simp only [credentials_del]

theorem renamed_token {r r' : Request} (hr : SameRequest ρ r r')
    (hp : LastSegment r.path b!"token") :
    (ρ.server s).tokenReply r' l = reBoth ρ (s.tokenReply r l) := by
  unfold Server.tokenReply
  rw [hr.token hp]
  cases parseTokenRequest r with
  | error e => rfl
  | ok rq =>
    show (if (!knownGrantType rq.grantType) = true then _ else _) = _
    simp only
    split
    · rfl
    show (match (ρ.clients s.clients).get? (ρ.client rq.clientID) with
      | none => _
      | some _ => _) = _
    rw [clients_get]
    cases s.clients.get? rq.clientID with
    | none => rfl
    | some client =>
      simp only [Option.map_some]
      have h0 : (ρ.tokenRequest rq).clientSecret = ρ.secret rq.clientSecret := rfl
      rw [h0, renamed_secret]
      split
      · rfl
      unfold Server.grantReply
      have hcfg : (ρ.server s).config = s.config := rfl
      have h1 : (ρ.tokenRequest rq).grantType = rq.grantType := rfl
      have h2 : (ρ.tokenRequest rq).username = ρ.user rq.username := rfl
      have h3 : (ρ.tokenRequest rq).password = ρ.password rq.password := rfl
      have h4 : (ρ.tokenRequest rq).scope = rq.scope := rfl
      have h5 : (ρ.tokenRequest rq).clientID = ρ.client rq.clientID := rfl
      have h6 : (reSecret ρ.secret client).confidential = client.confidential := rfl
      simp only [hcfg, h1, h2, h3, h4, h5, h6, renamed_user]
      split
      · split
        · rfl
        split
        · rfl
        exact renamed_issue ρ s l _ _
          { clientID := rq.clientID, username := rq.username, scope := rq.scope } _
      split
      · split
        · rfl
        split
        · rfl
        have := renamed_issue ρ s l l.tick true { clientID := rq.clientID, scope := rq.scope } id
        unfold reCred at this
        simp only [ρ.user_empty] at this
        exact this
      split
      · exact renamed_code ρ s l rq
      · exact renamed_refresh ρ s l rq

theorem renamed_revoke {r r' : Request} (hr : SameRequest ρ r r')
    (hp : LastSegment r.path b!"revoke") :
    (ρ.server s).revokeReply r' = reBoth ρ (s.revokeReply r) := by
  unfold Server.revokeReply
  rw [hr.revocation hp]
  cases parseRevocationRequest r with
  | error e => rfl
  | ok rq =>
    show (if rq.tokenTypeHint ≠ [] ∧ (!knownTokenType rq.tokenTypeHint) = true then _ else _) = _
    simp only
    split
    · rfl
    show (match (ρ.clients s.clients).get? (ρ.client rq.clientID) with
      | none => _
      | some _ => _) = _
    rw [clients_get]
    cases s.clients.get? rq.clientID with
    | none => rfl
    | some client =>
      simp only [Option.map_some]
      have h0 : (ρ.revocationRequest rq).clientSecret = ρ.secret rq.clientSecret := rfl
      rw [h0, renamed_secret]
      split
      · rfl
      have hcfg : (ρ.server s).config = s.config := rfl
      have h1 : (ρ.revocationRequest rq).token = rq.token := rfl
      have h2 : (ρ.revocationRequest rq).clientID = ρ.client rq.clientID := rfl
      rw [hcfg, h1]
      cases HS256Token.parse s.config.secret rq.token with
      | error e => rfl
      | ok t =>
        simp only
        have ha : (ρ.server s).accessTokens = ρ.credentials s.accessTokens := rfl
        rw [ha, h2, credentials_foreign]
        split
        · rfl
        rw [credentials_get]
        cases h1 : s.accessTokens.get? t.signatureString with
        | none =>
          simp only [Option.map_none]
          have hb : (ρ.server s).refreshTokens = ρ.credentials s.refreshTokens := rfl
          rw [hb, credentials_foreign]
          split
          · rfl
          rw [credentials_get]
          cases h2 : s.refreshTokens.get? t.signatureString with
          | none => rfl
          | some y =>
            simp only [Option.map_some, credentials_del]
            rfl
        | some x =>
          simp only [Option.map_some, credentials_del]
          have hb : (ρ.server s).refreshTokens = ρ.credentials s.refreshTokens := rfl
          rw [hb, credentials_foreign]
          split
          · rfl
          rw [credentials_get]
          cases h2 : s.refreshTokens.get? t.signatureString with
          | none => rfl
          | some y =>
            simp only [Option.map_some, credentials_del]
            rfl

theorem description_empty : ρ.description {} = {} := by
  unfold Renaming.description
  simp only [ρ.client_empty, ρ.user_empty]

theorem renamed_introspect {r r' : Request} (hr : SameRequest ρ r r')
    (hp : LastSegment r.path b!"introspect") :
    (ρ.server s).introspectReply r' = reBoth ρ (s.introspectReply r) := by
  unfold Server.introspectReply
  rw [hr.introspection hp]
  cases parseIntrospectionRequest r with
  | error e => rfl
  | ok rq =>
    show (if rq.tokenTypeHint ≠ [] ∧ (!knownTokenType rq.tokenTypeHint) = true then _ else _) = _
    simp only
    split
    · rfl
    show (match (ρ.clients s.clients).get? (ρ.client rq.clientID) with
      | none => _
      | some _ => _) = _
    rw [clients_get]
    cases s.clients.get? rq.clientID with
    | none => rfl
    | some client =>
      simp only [Option.map_some]
      have h0 : (ρ.introspectionRequest rq).clientSecret = ρ.secret rq.clientSecret := rfl
      rw [h0, renamed_secret]
      split
      · rfl
      have hcfg : (ρ.server s).config = s.config := rfl
      have h1 : (ρ.introspectionRequest rq).token = rq.token := rfl
      have h2 : (ρ.introspectionRequest rq).clientID = ρ.client rq.clientID := rfl
      rw [hcfg, h1]
      cases HS256Token.parse s.config.secret rq.token with
      | error e => rfl
      | ok t =>
        simp only
        have ha : (ρ.server s).accessTokens = ρ.credentials s.accessTokens := rfl
        have hb : (ρ.server s).refreshTokens = ρ.credentials s.refreshTokens := rfl
        rw [ha, hb, h2, credentials_foreign, credentials_foreign]
        split
        · rfl
        split
        · rfl
        rw [credentials_get, credentials_get]
        cases s.refreshTokens.get? t.signatureString with
        | some y => rfl
        | none =>
          simp only [Option.map_none]
          cases s.accessTokens.get? t.signatureString with
          | some y => rfl
          | none =>
            show (Reply.introspection {}, ρ.server s) = (.introspection (ρ.description {}), ρ.server s)
            rw [description_empty]

theorem renamed_handle {r r' : Request} (hr : SameRequest ρ r r') :
    (ρ.server s).handle r' l = reBoth ρ (s.handle r l) := by
  unfold Server.handle
  simp only [hr.path]
  split
  · exact renamed_authorize ρ s l hr ((lastSegment_iff ..).mpr ‹_›)
  split
  · exact renamed_token ρ s l hr ((lastSegment_iff ..).mpr ‹_›)
  split
  · exact renamed_introspect ρ s hr ((lastSegment_iff ..).mpr ‹_›)
  split
  · exact renamed_revoke ρ s hr ((lastSegment_iff ..).mpr ‹_›)
  · rfl

theorem renamed_authorizes (r : Request) (required : Scope) (now : Time) :
    (ρ.server s).authorizes r required now = s.authorizes r required now := by
  unfold Server.authorizes
  have hcfg : (ρ.server s).config = s.config := rfl
  have ha : (ρ.server s).accessTokens = ρ.credentials s.accessTokens := rfl
  rw [hcfg, ha]
  cases parseBearerToken r with
  | error e => rfl
  | ok text =>
    simp only
    cases HS256Token.parse s.config.secret text with
    | error e => rfl
    | ok t =>
      simp only
      rw [credentials_get]
      cases s.accessTokens.get? t.signatureString with
      | none => rfl
      | some cred => rfl

end

/-! ### The property -/

theorem writtenAs_reply {i : IntrospectionResponse}
    (hi : i.active = true → knownTokenType i.tokenType = true) (hx : i.extra = none) :
    WrittenAs i ((Reply.introspection i).render {}).result := by
  intro σ s l hl
  unfold writeIntrospectionResponse
  have h1 : (i.active && !knownTokenType i.tokenType) = false := by
    cases h : i.active with
    | false => rfl
    | true => rw [hi h]; rfl
  have h2 : i.encodable = true := by unfold IntrospectionResponse.encodable; rw [hx]; rfl
  rw [h1, if_neg (by simp), if_pos h2, exec_write _ (by decide) (by decide), hl]
  exact ⟨_, rfl, rfl⟩

/-- What the introspection endpoint replies. -/
theorem served_introspection {s s' : Server} {r : Request} {l : Local} {reply : Reply}
    (h : Server.Served s r l reply s') (hp : LastSegment r.path b!"introspect") :
    (∃ i, reply = .introspection i ∧ (i.active = true → knownTokenType i.tokenType = true) ∧
      i.extra = none) ∨
    ∃ e : Error, reply = .error e ∧ 400 ≤ e.status ∧ e.redirectURI = [] := by
  rw [lastSegment_iff] at hp
  have no : ∀ {p : Str}, p ≠ b!"introspect" → Server.lastSegment r.path = p → False :=
    fun h1 h2 => h1 (h2.symm.trans hp)
  cases h with
  | notFound _ _ h => exact absurd hp h
  | refused e hs hr => exact .inr ⟨e, rfl, hs.1, hr⟩
  | refusedRedirect rq h => exact (no (by decide) h.path).elim
  | notice rq h => exact (no (by decide) h.path).elim
  | crash _ h => exact (h.elim (no (by decide)) (no (by decide))).elim
  | implicit rq h => exact (no (by decide) h.path).elim
  | code rq h => exact (no (by decide) h.path).elim
  | password rq h => exact (no (by decide) h.path).elim
  | client rq h => exact (no (by decide) h.path).elim
  | replay rq h => exact (no (by decide) h.path).elim
  | exchange rq h => exact (no (by decide) h.path).elim
  | refresh rq h => exact (no (by decide) h.path).elim
  | introspect rq hp hq hc t ht ha hr i hi =>
    refine .inl ⟨i, rfl, ?_⟩
    rw [hi]
    split
    · exact ⟨fun _ => rfl, rfl⟩
    split
    · exact ⟨fun _ => rfl, rfl⟩
    · exact ⟨fun h => (nomatch h), rfl⟩
  | revoke rq h => exact (no (by decide) h).elim
  | revokeHalf rq h => exact (no (by decide) h).elim

/-- Only the introspection endpoint describes tokens. -/
theorem served_elsewhere {s s' : Server} {r : Request} {l : Local} {reply : Reply}
    (h : Server.Served s r l reply s') (hp : ¬ LastSegment r.path b!"introspect") :
    reReply ρ reply = reply := by
  rw [lastSegment_iff] at hp
  cases h with
  | introspect rq h => exact absurd h hp
  | _ => rfl

/-- **C100.** No client and no user is special: a call made with other names and other secrets, at a server
where these are registered and stored instead, is answered the same way, with the same tokens and codes, and
leaves the same behind. Only in the description of a token do the other names appear. -/
theorem C100_call (s : Server) {c c' : Call} (h : SameCall ρ c c') :
    (step ⟨false, ρ.server s⟩ c').2 = ⟨false, ρ.server (step ⟨false, s⟩ c).2.st⟩ ∧
    SameAnswer ρ c (step ⟨false, s⟩ c).1 (step ⟨false, ρ.server s⟩ c').1 := by
  have hl : c'.local = c.local := by
    unfold Spec.Call.local
    rw [h.coins, h.clock]
  cases hop : c.op with
  | authorize r required =>
    have ho := h.op
    rw [hop] at ho
    generalize hop' : c'.op = op' at ho
    cases ho
    rw [step_authorize hop, step_authorize hop', renamed_authorizes, h.clock]
    refine ⟨rfl, .inl ⟨rfl, ?_⟩⟩
    rintro res _ ⟨r, hr, _⟩
    rw [hop] at hr
    cases hr
  | configure cl us =>
    have ho := h.op
    rw [hop] at ho
    generalize hop' : c'.op = op' at ho
    cases ho
    rw [step_configure hop, step_configure hop']
    refine ⟨rfl, .inl ⟨rfl, ?_⟩⟩
    rintro res _ ⟨r, hr, _⟩
    rw [hop] at hr
    cases hr
  | serve r =>
    have ho := h.op
    rw [hop] at ho
    generalize hop' : c'.op = op' at ho
    cases ho with
    | serve hr =>
    rw [step_serve hop, step_serve hop', hl, renamed_handle ρ s _ hr]
    refine ⟨rfl, ?_⟩
    have hs := Server.served s r c.local
    have hq : ToIntrospection c → LastSegment r.path b!"introspect" := by
      rintro ⟨r', h1, h2⟩
      rw [hop] at h1
      cases h1
      exact h2
    show SameAnswer ρ c (s.handle r c.local).1.answer (reReply ρ (s.handle r c.local).1).answer
    by_cases hp : LastSegment r.path b!"introspect"
    · rcases served_introspection hs hp with ⟨i, h1, h2, h3⟩ | ⟨e, h1, h2, h3⟩
      · rw [h1]
        exact .inr ⟨i, _, _, ⟨r, hop, hp⟩, rfl, rfl, writtenAs_reply h2 h3,
          writtenAs_reply (i := ρ.description i) h2 h3⟩
      · rw [h1]
        exact .inl ⟨rfl, fun res ha _ => error_not_ok h3 h2 ha⟩
    · rw [served_elsewhere ρ hs hp]
      exact .inl ⟨rfl, fun _ _ h => absurd (hq h) hp⟩

/-- **C100.** So it is for whole histories: the answers are the same one by one, up to the names in the
descriptions of tokens, and in the end the two servers differ in the names alone. -/
theorem C100_history (s : Server) {cs : List (Call × Call)} (h : ∀ p ∈ cs, SameCall ρ p.1 p.2) :
    (runAll ⟨false, ρ.server s⟩ (cs.map (·.2))).2 =
      ⟨false, ρ.server (runAll ⟨false, s⟩ (cs.map (·.1))).2.st⟩ ∧
    ∀ (n : Nat) (p : Call × Call), cs[n]? = some p →
      ∃ a a', (runAll ⟨false, s⟩ (cs.map (·.1))).1[n]? = some a ∧
      (runAll ⟨false, ρ.server s⟩ (cs.map (·.2))).1[n]? = some a' ∧ SameAnswer ρ p.1 a a' := by
  induction cs generalizing s with
  | nil => exact ⟨rfl, fun n p h => by cases h⟩
  | cons p cs ih =>
    obtain ⟨h1, h2⟩ := C100_call ρ s (h p (List.mem_cons_self ..))
    have hs : (step ⟨false, s⟩ p.1).2 = ⟨false, (step ⟨false, s⟩ p.1).2.st⟩ := by
      have := step_unlocked s p.1
      generalize (step ⟨false, s⟩ p.1).2 = x at this
      obtain ⟨l, st⟩ := x
      cases this
      rfl
    obtain ⟨h3, h4⟩ := ih (step ⟨false, s⟩ p.1).2.st fun q hq => h q (List.mem_cons_of_mem _ hq)
    rw [← hs, ← h1] at h3
    rw [← hs, ← h1] at h4
    refine ⟨h3, fun n q hq => ?_⟩
    cases n with
    | zero =>
      cases hq
      exact ⟨_, _, rfl, rfl, h2⟩
    | succ n => exact h4 n q hq

/-! ### The requests that the client builds -/

theorem built_form {uri : Str} {u : URL} (hu : parseURL uri = some u) {v : Values} {id secret : Str}
    {r : Request} (h : buildFormRequest uri v id secret = some r) :
    r.path = u.path ∧ r.method = b!"POST" := by
  unfold buildFormRequest newPostRequest at h
  rw [hu] at h
  simp only [Option.bind_eq_bind, Option.bind_some, Option.pure_def, Option.some.injEq] at h
  subst h
  constructor
  · show (if _ then _ else _ : Request).path = _
    split <;> rfl
  · show (if _ then _ else _ : Request).method = _
    split <;> rfl

/-- A token request that the client can send: what **C18** asks of it. -/
structure Sendable (t : TokenRequest) : Prop where
  size : (tokenRequestValues t).encode.length ≤ maxFormSize
  grant : t.grantType ≠ []
  client : t.clientID ≠ []
  colon : 0x3A ∉ t.clientID
  scope : CleanScope t.scope
  redirect : t.redirectURI = [] ∨ ∃ v, parseRequestURI t.redirectURI = some v

/-- **C100.** The requests that the client of this package builds from a token request and from the same
one with other names are such requests. -/
theorem C100_client {uri : Str} {u : URL} (hu : parseURL uri = some u)
    (hq : (parseQuery u.rawQuery).2 = false) (hp : LastSegment u.path b!"token") {t : TokenRequest}
    (ht : Sendable t) (ht' : Sendable (ρ.tokenRequest t)) :
    ∃ r r', buildTokenRequest uri t = some r ∧ buildTokenRequest uri (ρ.tokenRequest t) = some r' ∧
      SameRequest ρ r r' := by
  obtain ⟨r, h1, h2⟩ := C18_token_request hu hq t ht.size ht.grant ht.client ht.colon ht.scope ht.redirect
  obtain ⟨r', h1', h2'⟩ := C18_token_request hu hq _ ht'.size ht'.grant ht'.client ht'.colon ht'.scope
    ht'.redirect
  obtain ⟨h3, h4⟩ := built_form hu h1
  obtain ⟨h3', h4'⟩ := built_form hu h1'
  have no : ∀ {p : Str}, p ≠ b!"token" → LastSegment r.path p → False := fun h5 h6 =>
    h5 (((lastSegment_iff _ _).mp (h3 ▸ h6)).symm.trans ((lastSegment_iff _ _).mp hp))
  refine ⟨r, r', h1, h1', h3'.trans h3.symm, h4'.trans h4.symm, fun h => (no (by decide) h).elim,
    fun h => (no (by decide) h).elim, fun h => (no (by decide) h).elim, fun _ => ?_,
    fun h => (no (by decide) h).elim, fun h => (no (by decide) h).elim⟩
  rw [h2, h2']
  rfl

/-! ### Non-vacuity -/

/-- A byte in front of what is not empty. -/
def tag (x : UInt8) (s : Str) : Str := if s = [] then [] else x :: s

theorem tag_inj (x : UInt8) (a b : Str) (h : tag x a = tag x b) : a = b := by
  unfold tag at h
  split at h <;> split at h <;> simp_all

/-- `xc1` for the client `c1`, `yp1` for the password `p1`, and so on. -/
def Demo.renaming : Renaming where
  client := tag 120
  secret := tag 121
  user := tag 122
  password := tag 119
  client_inj := tag_inj _
  secret_inj := tag_inj _
  user_inj := tag_inj _
  password_inj := tag_inj _
  client_empty := rfl
  user_empty := rfl

/-- The first call of the session, with other names. -/
def Demo.c1' : Call := Demo.post b!"/oauth2/token" []
  (b!"grant_type=password&client_id=xc1&client_secret=ys1&username=zu1&password" ++
    b!"=wp1&scope=foo")
  [1, 2, 3, 4] 1000

/-- The question about its token, with other names. -/
def Demo.ask' : Call := Demo.post b!"/introspect" b!"xc1:ys1" (b!"token=" ++ Demo.a1.string) [] 1100

theorem Demo.c1_same : SameCall Demo.renaming Demo.c1 Demo.c1' where
  op := .serve {
    path := rfl
    method := rfl
    authorization := fun h => absurd ((lastSegment_iff ..).mp h) (by decide +kernel)
    user := fun h => absurd ((lastSegment_iff ..).mp h) (by decide +kernel)
    password := fun h => absurd ((lastSegment_iff ..).mp h) (by decide +kernel)
    token := fun _ => by decide +kernel
    introspection := fun h => absurd ((lastSegment_iff ..).mp h) (by decide +kernel)
    revocation := fun h => absurd ((lastSegment_iff ..).mp h) (by decide +kernel) }
  coins := rfl
  clock := rfl

theorem Demo.ask_same : SameCall Demo.renaming Demo.ask Demo.ask' where
  op := .serve {
    path := rfl
    method := rfl
    authorization := fun h => absurd ((lastSegment_iff ..).mp h) (by decide +kernel)
    user := fun h => absurd ((lastSegment_iff ..).mp h) (by decide +kernel)
    password := fun h => absurd ((lastSegment_iff ..).mp h) (by decide +kernel)
    token := fun h => absurd ((lastSegment_iff ..).mp h) (by decide +kernel)
    introspection := fun _ => by decide +kernel
    revocation := fun h => absurd ((lastSegment_iff ..).mp h) (by decide +kernel) }
  coins := rfl
  clock := rfl

/-- Non-vacuity: a token is issued, described and admitted. The description is another one, the rest is the
same. -/
example : (∀ p ∈ [(Demo.c1, Demo.c1'), (Demo.ask, Demo.ask'),
      (Demo.present Demo.a1.string none 1100, Demo.present Demo.a1.string none 1100)],
      SameCall Demo.renaming p.1 p.2) ∧
    (step ⟨false, Demo.renaming.server Demo.server⟩ Demo.c1').1 = Demo.e1.answer ∧
    (step ⟨false, Demo.renaming.server Demo.server⟩ Demo.c1).1 ≠ Demo.e1.answer ∧
    (step ⟨false, Demo.s1⟩ Demo.ask).1 ≠ (step ⟨false, Demo.renaming.server Demo.s1⟩ Demo.ask').1 ∧
    (step ⟨false, Demo.renaming.server Demo.s1⟩ (Demo.present Demo.a1.string none 1100)).1 =
      .admitted := by
  refine ⟨?_, by decide +kernel, by decide +kernel, by decide +kernel, by decide +kernel⟩
  intro p hp
  rcases List.mem_cons.mp hp with rfl | hp
  · exact Demo.c1_same
  rcases List.mem_cons.mp hp with rfl | hp
  · exact Demo.ask_same
  · rw [List.mem_singleton.mp hp]
    exact ⟨.authorize _ _, rfl, rfl⟩

/-- Non-vacuity: the token request of the session. -/
def Demo.tokenRequest : TokenRequest where
  grantType := b!"password"
  clientID := b!"c1"
  clientSecret := b!"s1"
  username := b!"u1"
  password := b!"p1"
  scope := some [b!"foo"]

example : Sendable Demo.tokenRequest ∧ Sendable (Demo.renaming.tokenRequest Demo.tokenRequest) ∧
    Demo.renaming.tokenRequest Demo.tokenRequest ≠ Demo.tokenRequest ∧
    (parseURL b!"https://host/oauth2/token?x=y").map (·.path) = some b!"/oauth2/token" ∧
    LastSegment b!"/oauth2/token" b!"token" :=
  ⟨⟨by decide +kernel, by decide, by decide, by decide, parse_clean b!"foo", .inl rfl⟩,
    ⟨by decide +kernel, by decide, by decide, by decide, parse_clean b!"foo", .inl rfl⟩,
    by decide, by decide +kernel, (lastSegment_iff ..).mpr (by decide +kernel)⟩

end OAuth2

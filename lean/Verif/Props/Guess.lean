import Verif.Spec.Guess
import Verif.Lemmas.Observe
import Verif.Lemmas.Served
import Verif.Lemmas.Demo
import Verif.Lemmas.Decide

/-!
C62: an answer reveals about the registered secrets only whether those presented are right.
-/

namespace OAuth2

open Spec

namespace Server

variable {s : Server} {cl us : GoMap ServerEntity}

theorem userOK_guess {u p : Str} (h : Password s u p ↔ Password (withRegistrations s cl us) u p) :
    (withRegistrations s cl us).userOK u p = s.userOK u p := by
  rw [Bool.eq_iff_iff, userOK_iff, userOK_iff]
  exact h.symm

/-- What the endpoints ask of the client. -/
def known (s : Server) (id secret : Str) : Bool :=
  match s.clients.get? id with
  | none => false
  | some c => !wrongSecret c secret

theorem known_iff (s : Server) (id secret : Str) : s.known id secret = true ↔ Identified s id secret := by
  unfold known Identified wrongSecret
  cases h : s.clients.get? id with
  | none => simp
  | some c => cases hc : c.confidential <;> simp [hc]

theorem known_guess {id secret : Str}
    (h : Identified s id secret ↔ Identified (withRegistrations s cl us) id secret) :
    (withRegistrations s cl us).known id secret = s.known id secret := by
  rw [Bool.eq_iff_iff, known_iff, known_iff]
  exact h.symm

theorem issue_registrations (l : Local) (tick : Nat) (r : Bool)
    (cred : ServerCredential) (f : TokenResponse → TokenResponse) :
    (withRegistrations s cl us).issue l tick r cred f =
      ((s.issue l tick r cred f).1, withRegistrations (s.issue l tick r cred f).2 cl us) := by
  unfold issue
  have : (withRegistrations s cl us).config = s.config := rfl
  rw [this]
  cases mint s.config r l.coins with
  | none => rfl
  | some ab => rfl

theorem codeReply_registrations (rq : TokenRequest) (l : Local) :
    (withRegistrations s cl us).codeReply rq l =
      ((s.codeReply rq l).1, withRegistrations (s.codeReply rq l).2 cl us) := by
  have e1 : (withRegistrations s cl us).config = s.config := rfl
  have e3 : (withRegistrations s cl us).accessTokens = s.accessTokens := rfl
  have e4 : (withRegistrations s cl us).refreshTokens = s.refreshTokens := rfl
  have e5 : (withRegistrations s cl us).authorizationCodes = s.authorizationCodes := rfl
  unfold codeReply
  rw [e1, e3, e4, e5]
  split
  · rfl
  · split
    · rfl
    · split
      · rfl
      · split
        · rfl
        · split
          · rfl
          · split
            · rfl
            · rw [issue_registrations]
              generalize issue s _ _ _ _ _ = x
              obtain ⟨x1, x2⟩ := x
              cases x1 <;> rfl

theorem refreshReply_registrations (rq : TokenRequest) (l : Local) :
    (withRegistrations s cl us).refreshReply rq l =
      ((s.refreshReply rq l).1, withRegistrations (s.refreshReply rq l).2 cl us) := by
  have e1 : (withRegistrations s cl us).config = s.config := rfl
  have e4 : (withRegistrations s cl us).refreshTokens = s.refreshTokens := rfl
  unfold refreshReply
  rw [e1, e4]
  split
  · rfl
  · split
    · rfl
    · split
      · rfl
      · split
        · rfl
        · generalize (if (_ : Scope).empty = true then _ else _) = scope
          dsimp only
          split
          · rfl
          · rw [issue_registrations]
            generalize issue s _ _ _ _ _ = x
            obtain ⟨x1, x2⟩ := x
            cases x1 <;> rfl

theorem tokenReply_known (s : Server) (r : Request) (l : Local) :
    s.tokenReply r l = match parseTokenRequest r with
      | .error e => (.error e, s)
      | .ok rq =>
        if !knownGrantType rq.grantType then (.error (invalidRequest b!"unknown grant type"), s)
        else if s.known rq.clientID rq.clientSecret then
          s.grantReply rq ((s.clients.get? rq.clientID).getD {}) l
        else (.error (invalidClient b!"unknown client"), s) := by
  unfold tokenReply
  cases parseTokenRequest r with
  | error e => rfl
  | ok rq =>
    simp only
    split
    · rfl
    · unfold known
      cases s.clients.get? rq.clientID with
      | none => rfl
      | some c => cases h : wrongSecret c rq.clientSecret <;> simp [h]

theorem tokenReply_registrations (r : Request) (l : Local)
    (hi : ∀ rq, parseTokenRequest r = .ok rq →
      (Identified s rq.clientID rq.clientSecret ↔
        Identified (withRegistrations s cl us) rq.clientID rq.clientSecret))
    (hu : ∀ rq, parseTokenRequest r = .ok rq → rq.grantType = b!"password" →
      (Password s rq.username rq.password ↔
        Password (withRegistrations s cl us) rq.username rq.password))
    (hc : ∀ rq, parseTokenRequest r = .ok rq → rq.grantType = b!"client_credentials" →
      Identified s rq.clientID rq.clientSecret →
      (Confidential s rq.clientID ↔ Confidential (withRegistrations s cl us) rq.clientID)) :
    (withRegistrations s cl us).tokenReply r l =
      ((s.tokenReply r l).1, withRegistrations (s.tokenReply r l).2 cl us) := by
  rw [tokenReply_known, tokenReply_known]
  cases hp : parseTokenRequest r with
  | error e => rfl
  | ok rq =>
    simp only
    split
    · rfl
    rw [known_guess (hi rq hp)]
    by_cases hk : s.known rq.clientID rq.clientSecret = true
    · rw [if_pos hk, if_pos hk]
      unfold grantReply
      by_cases hpw : rq.grantType = PasswordGrantType
      · rw [if_pos hpw, if_pos hpw, userOK_guess (hu rq hp hpw)]
        have e1 : (withRegistrations s cl us).config = s.config := rfl
        rw [e1]
        split
        · rfl
        split
        · rfl
        exact issue_registrations _ _ _ _ _
      rw [if_neg hpw, if_neg hpw]
      by_cases hcc : rq.grantType = ClientCredentialsGrantType
      · rw [if_pos hcc, if_pos hcc]
        have hid := (known_iff _ _ _).mp hk
        have h1 := hc rq hp hcc hid
        obtain ⟨c, hc1, _⟩ := (hi rq hp).mp hid
        obtain ⟨c', hc1', _⟩ := hid
        have h2 : c.confidential = c'.confidential := by
          rw [Bool.eq_iff_iff]
          unfold Confidential at h1
          rw [hc1, hc1'] at h1
          simp only [Option.some.injEq, exists_eq_left'] at h1
          exact h1.symm
        rw [hc1, hc1']
        have e1 : (withRegistrations s cl us).config = s.config := rfl
        simp only [Option.getD_some, h2, e1]
        split
        · rfl
        split
        · rfl
        exact issue_registrations _ _ _ _ _
      rw [if_neg hcc, if_neg hcc]
      split
      · exact codeReply_registrations rq l
      · exact refreshReply_registrations rq l
    · rw [if_neg hk, if_neg hk]

theorem authorizeReply_registrations (r : Request) (l : Local)
    (hr : ∀ rq, parseAuthorizationRequest r = .ok rq →
      ∀ uri, Registered s rq.clientID uri ↔ Registered (withRegistrations s cl us) rq.clientID uri)
    (hu : ∀ rq, parseAuthorizationRequest r = .ok rq → r.method ≠ b!"GET" →
      (Password s ((r.parseForm.1.postForm.getD []).get b!"username")
          ((r.parseForm.1.postForm.getD []).get b!"password") ↔
        Password (withRegistrations s cl us) ((r.parseForm.1.postForm.getD []).get b!"username")
          ((r.parseForm.1.postForm.getD []).get b!"password"))) :
    (withRegistrations s cl us).authorizeReply r l =
      ((s.authorizeReply r l).1, withRegistrations (s.authorizeReply r l).2 cl us) := by
  unfold authorizeReply
  cases hp : parseAuthorizationRequest r with
  | error e => rfl
  | ok rq =>
    simp only
    split
    · rfl
    have h1 := hr rq hp
    unfold Registered at h1
    cases hs : s.clients.get? rq.clientID with
    | none =>
      cases hs' : (withRegistrations s cl us).clients.get? rq.clientID with
      | none => rfl
      | some c =>
        rw [hs, hs'] at h1
        obtain ⟨_, h, _⟩ := (h1 c.redirectURI).mpr ⟨c, rfl, rfl⟩
        cases h
    | some c =>
      cases hs' : (withRegistrations s cl us).clients.get? rq.clientID with
      | none =>
        rw [hs, hs'] at h1
        obtain ⟨_, h, _⟩ := (h1 c.redirectURI).mp ⟨c, rfl, rfl⟩
        cases h
      | some c' =>
        rw [hs, hs'] at h1
        obtain ⟨_, h, h2⟩ := (h1 c.redirectURI).mp ⟨c, rfl, rfl⟩
        cases h
        simp only
        rw [h2]
        split
        · rfl
        by_cases hm : r.method = b!"GET"
        · rw [if_pos hm, if_pos hm]
        rw [if_neg hm, if_neg hm, userOK_guess (hu rq hp hm)]
        have e1 : (withRegistrations s cl us).config = s.config := rfl
        rw [e1]
        split
        · rfl
        split
        · rfl
        split
        · exact issue_registrations _ _ _ _ _
        split <;> rfl

theorem introspectReply_registrations (r : Request)
    (hi : ∀ rq, parseIntrospectionRequest r = .ok rq →
      (Identified s rq.clientID rq.clientSecret ↔
        Identified (withRegistrations s cl us) rq.clientID rq.clientSecret)) :
    (withRegistrations s cl us).introspectReply r =
      ((s.introspectReply r).1, withRegistrations (s.introspectReply r).2 cl us) := by
  have hk : ∀ (s : Server), s.introspectReply r = match parseIntrospectionRequest r with
      | .error e => (.error e, s)
      | .ok rq =>
        if rq.tokenTypeHint ≠ [] ∧ !knownTokenType rq.tokenTypeHint then
          (.error (unsupportedTokenType []), s)
        else if s.known rq.clientID rq.clientSecret then
          match HS256Token.parse s.config.secret rq.token with
          | .error err => (.error (invalidRequest err), s)
          | .ok t =>
            if foreign s.accessTokens t.signatureString rq.clientID then
              (.error (invalidClient b!"wrong client"), s)
            else if foreign s.refreshTokens t.signatureString rq.clientID then
              (.error (invalidClient b!"wrong client"), s)
            else
              match s.refreshTokens.get? t.signatureString with
              | some c => (.introspection (describe RefreshToken c), s)
              | none =>
                match s.accessTokens.get? t.signatureString with
                | some c => (.introspection (describe AccessToken c), s)
                | none => (.introspection {}, s)
        else (.error (invalidClient b!"unknown client"), s) := by
    intro s
    unfold introspectReply
    cases parseIntrospectionRequest r with
    | error e => rfl
    | ok rq =>
      simp only
      split
      · rfl
      · unfold known
        cases s.clients.get? rq.clientID with
        | none => rfl
        | some c => cases h : wrongSecret c rq.clientSecret <;> simp [h] <;> rfl
  rw [hk, hk]
  cases hp : parseIntrospectionRequest r with
  | error e => rfl
  | ok rq =>
    simp only
    rw [known_guess (hi rq hp)]
    have e1 : (withRegistrations s cl us).config = s.config := rfl
    have e3 : (withRegistrations s cl us).accessTokens = s.accessTokens := rfl
    have e4 : (withRegistrations s cl us).refreshTokens = s.refreshTokens := rfl
    rw [e1, e3, e4]
    repeat' split
    all_goals rfl

theorem revokeReply_registrations (r : Request)
    (hi : ∀ rq, parseRevocationRequest r = .ok rq →
      (Identified s rq.clientID rq.clientSecret ↔
        Identified (withRegistrations s cl us) rq.clientID rq.clientSecret)) :
    (withRegistrations s cl us).revokeReply r =
      ((s.revokeReply r).1, withRegistrations (s.revokeReply r).2 cl us) := by
  unfold revokeReply
  cases hp : parseRevocationRequest r with
  | error e => rfl
  | ok rq =>
    simp only
    split
    · rfl
    have h1 := hi rq hp
    have hn : ∀ s : Server, ¬ Identified s rq.clientID rq.clientSecret →
        s.clients.get? rq.clientID = none ∨ ∃ c, s.clients.get? rq.clientID = some c ∧
          wrongSecret c rq.clientSecret = true := by
      intro s hs
      cases hc : s.clients.get? rq.clientID with
      | none => exact .inl rfl
      | some c =>
        refine .inr ⟨c, rfl, ?_⟩
        cases hw : wrongSecret c rq.clientSecret with
        | true => rfl
        | false => exact absurd ((wrongSecret_iff hc).mp hw) hs
    by_cases hid : Identified s rq.clientID rq.clientSecret
    · obtain ⟨c, hc, _⟩ := id hid
      obtain ⟨c', hc', _⟩ := id (h1.mp hid)
      rw [hc, hc']
      simp only
      rw [(wrongSecret_iff hc).mpr hid, (wrongSecret_iff hc').mpr (h1.mp hid)]
      simp only [Bool.false_eq_true, if_false]
      have e1 : (withRegistrations s cl us).config = s.config := rfl
      have e3 : (withRegistrations s cl us).accessTokens = s.accessTokens := rfl
      have e4 : (withRegistrations s cl us).refreshTokens = s.refreshTokens := rfl
      simp only [e1, e3, e4]
      split
      · rfl
      · rename_i t _
        cases h1 : s.accessTokens.get? t.signatureString <;>
          cases h2 : s.refreshTokens.get? t.signatureString <;>
          simp only [foreign, e4, h1, h2] <;> (repeat' split) <;> rfl
    · rcases hn s hid with h2 | ⟨c, h2, h3⟩ <;>
        rcases hn _ (fun h => hid (h1.mpr h)) with h4 | ⟨c', h4, h5⟩ <;> rw [h2, h4] <;>
        simp only [*, if_true] <;> rfl

end Server

/-- C62: a call that presents to both what is right for both or wrong for both gets the same answer
from two servers that differ only in the registered clients and users, and has the same effect: the
servers still differ only in these. -/
theorem C62_same_answer {s : Server} {clients users : GoMap ServerEntity} {c : Call}
    (hc : Requests c) (h : SameGuesses c s (withRegistrations s clients users)) :
    step ⟨false, withRegistrations s clients users⟩ c =
      ((step ⟨false, s⟩ c).1,
        ⟨false, withRegistrations (step ⟨false, s⟩ c).2.st clients users⟩) := by
  cases hop : c.op with
  | configure clients users => exact absurd hop (hc _ _)
  | authorize r required =>
    rw [step_authorize hop, step_authorize hop]
    rfl
  | serve r =>
    rw [step_serve hop, step_serve hop]
    have key : (withRegistrations s clients users).handle r c.local =
        ((s.handle r c.local).1, withRegistrations (s.handle r c.local).2 clients users) := by
      unfold Server.handle
      simp only
      by_cases h1 : Server.lastSegment r.path = b!"authorize"
      · rw [if_pos h1, if_pos h1]
        have h1' := (lastSegment_iff _ _).mpr h1
        exact Server.authorizeReply_registrations r _
          (fun rq hrq => h.redirect r rq hop h1' hrq)
          (fun rq hrq hm => h.user _ _ (.authorization ⟨r, hop, h1', hm, hrq, rfl, rfl⟩))
      rw [if_neg h1, if_neg h1]
      by_cases h2 : Server.lastSegment r.path = b!"token"
      · rw [if_pos h2, if_pos h2]
        have h2' := (lastSegment_iff _ _).mpr h2
        exact Server.tokenReply_registrations r _
          (fun rq hrq => h.client _ _ (.token ⟨r, hop, h2', hrq⟩))
          (fun rq hrq hg => h.user _ _ (.token ⟨r, hop, h2', hrq⟩ hg))
          (fun rq hrq hg hi => h.own rq ⟨r, hop, h2', hrq⟩ hg hi)
      rw [if_neg h2, if_neg h2]
      by_cases h3 : Server.lastSegment r.path = b!"introspect"
      · rw [if_pos h3, if_pos h3]
        have h3' := (lastSegment_iff _ _).mpr h3
        exact Server.introspectReply_registrations r
          (fun rq hrq => h.client _ _ (.introspection ⟨r, hop, h3', hrq⟩))
      rw [if_neg h3, if_neg h3]
      by_cases h4 : Server.lastSegment r.path = b!"revoke"
      · rw [if_pos h4, if_pos h4]
        have h4' := (lastSegment_iff _ _).mpr h4
        exact Server.revokeReply_registrations r
          (fun rq hrq => h.client _ _ (.revocation ⟨r, hop, h4', hrq⟩))
      · rw [if_neg h4, if_neg h4]
    rw [key]

/-- Requests leave the registered clients and users alone. -/
theorem step_registrations {s : Server} {c : Call} (hc : Requests c) :
    (step ⟨false, s⟩ c).2 = ⟨false, (step ⟨false, s⟩ c).2.st⟩ ∧
    (step ⟨false, s⟩ c).2.st.clients = s.clients ∧ (step ⟨false, s⟩ c).2.st.users = s.users := by
  cases hop : c.op with
  | configure clients users => exact absurd hop (hc _ _)
  | authorize r required => rw [step_authorize hop]; exact ⟨rfl, rfl, rfl⟩
  | serve r =>
    rw [step_serve hop]
    have := Server.served s r c.local
    generalize s.handle r c.local = x at this
    obtain ⟨reply, s'⟩ := x
    cases this <;> exact ⟨rfl, rfl, rfl⟩

theorem sameGuesses_congr {c : Call} {a a' b b' : Server} (h1 : a.clients = b.clients)
    (h2 : a.users = b.users) (h3 : a'.clients = b'.clients) (h4 : a'.users = b'.users)
    (h : SameGuesses c a a') : SameGuesses c b b' := by
  obtain ⟨p1, p2, p3, p4⟩ := h
  unfold Password at p1
  unfold Identified at p2 p3
  unfold Confidential at p3
  unfold Registered at p4
  rw [h1, h3] at p3
  rw [h1, h3] at p2
  rw [h1, h3] at p4
  rw [h2, h4] at p1
  exact ⟨p1, p2, p3, p4⟩

/-- C62: the same for any number of calls. -/
theorem C62_same_answers {s : Server} {clients users : GoMap ServerEntity} {cs : List Call}
    (hc : ∀ c ∈ cs, Requests c)
    (h : ∀ c ∈ cs, SameGuesses c s (withRegistrations s clients users)) :
    runAll ⟨false, withRegistrations s clients users⟩ cs =
      ((runAll ⟨false, s⟩ cs).1,
        ⟨false, withRegistrations (runAll ⟨false, s⟩ cs).2.st clients users⟩) := by
  induction cs generalizing s with
  | nil => rfl
  | cons c cs ih =>
    have h0 := C62_same_answer (hc c (List.mem_cons_self ..)) (h c (List.mem_cons_self ..))
    obtain ⟨h1, h2, h3⟩ := step_registrations (s := s) (hc c (List.mem_cons_self ..))
    simp only [runAll]
    rw [h0]
    simp only
    rw [ih (fun c hm => hc c (List.mem_cons_of_mem _ hm)) fun c hm =>
      sameGuesses_congr (a' := withRegistrations s clients users) h2.symm h3.symm rfl rfl
        (h c (List.mem_cons_of_mem _ hm)), ← h1]

/-- C62, for users: registering a user, or giving a user another password, makes no difference to any
call that does not present the new or the old password of this user. In particular, whether a user
exists cannot be found out without the password. -/
theorem C62_user {s : Server} {name : Str} {user : ServerEntity} {c : Call} (hc : Requests c)
    (hnew : ∀ password, PresentsUser c name password → password ≠ user.secret)
    (hold : ∀ password, PresentsUser c name password → ¬ Password s name password) :
    step ⟨false, withRegistrations s s.clients (s.users.set name user)⟩ c =
      ((step ⟨false, s⟩ c).1, ⟨false, withRegistrations (step ⟨false, s⟩ c).2.st s.clients
        (s.users.set name user)⟩) := by
  refine C62_same_answer hc ⟨fun n p hp => ?_, fun _ _ _ => Iff.rfl, fun _ _ _ _ => Iff.rfl,
    fun _ _ _ _ _ _ => Iff.rfl⟩
  by_cases hn : n = name
  · subst hn
    constructor
    · exact fun h => absurd h (hold p hp)
    · rintro ⟨u, hu, hs⟩
      rw [withRegistrations, GoMap.get?_set, if_pos rfl] at hu
      cases hu
      exact absurd hs.symm (hnew p hp)
  · unfold Password withRegistrations
    rw [GoMap.get?_set, if_neg hn]

/-- C62, for clients: registering a confidential client, or giving one another secret, makes no
difference to any call that does not present the new or an accepted old secret of this client, and
does not name this client to the authorization endpoint (which tells the redirect URI). In
particular, whether a confidential client exists cannot be found out at the other endpoints without
its secret. -/
theorem C62_client {s : Server} {id : Str} {client : ServerEntity} {c : Call} (hc : Requests c)
    (hconf : client.confidential = true)
    (hnew : ∀ secret, PresentsClient c id secret → secret ≠ client.secret)
    (hold : ∀ secret, PresentsClient c id secret → ¬ Identified s id secret)
    (hauth : ∀ r rq, c.op = .serve r → LastSegment r.path b!"authorize" →
      parseAuthorizationRequest r = .ok rq → rq.clientID = id →
      Registered s id client.redirectURI) :
    step ⟨false, withRegistrations s (s.clients.set id client) s.users⟩ c =
      ((step ⟨false, s⟩ c).1, ⟨false, withRegistrations (step ⟨false, s⟩ c).2.st
        (s.clients.set id client) s.users⟩) := by
  refine C62_same_answer hc ⟨fun n p hp => Iff.rfl, fun i x hp => ?_, fun rq ha hg hi => ?_,
    fun r rq hop hl hrq uri => ?_⟩
  · by_cases hn : i = id
    · subst hn
      constructor
      · exact fun h => absurd h (hold x hp)
      · rintro ⟨u, hu, hs⟩
        rw [withRegistrations, GoMap.get?_set, if_pos rfl] at hu
        cases hu
        exact absurd (hs hconf).symm (hnew x hp)
    · unfold Identified withRegistrations
      rw [GoMap.get?_set, if_neg hn]
  · by_cases hn : rq.clientID = id
    · exact absurd (hn ▸ hi) (hold _ (hn ▸ .token ha))
    · unfold Confidential withRegistrations
      rw [GoMap.get?_set, if_neg hn]
  · by_cases hn : rq.clientID = id
    · obtain ⟨c0, h1, h2⟩ := hauth r rq hop hl hrq hn
      unfold Registered withRegistrations
      rw [hn, GoMap.get?_set, if_pos rfl, h1]
      simp only [Option.some.injEq, exists_eq_left', h2]
    · unfold Registered withRegistrations
      rw [GoMap.get?_set, if_neg hn]

/-- A password grant for a user who is not registered. -/
def guessCall : Call := Demo.post b!"/token" b!"c1:s1"
  b!"grant_type=password&username=eve&password=guess&scope=foo" b!"abcd" 1000

theorem guess_user {name password : Str} (h : PresentsUser guessCall name password) :
    name = b!"eve" ∧ password = b!"guess" := by
  cases h with
  | token h _ =>
    obtain ⟨r, hop, _, hp⟩ := h
    cases hop
    rename_i rq
    have : (_ : Except Error TokenRequest) = .ok {
        grantType := b!"password", username := b!"eve", password := b!"guess",
        clientID := b!"c1", clientSecret := b!"s1", scope := some [b!"foo"] } := (by decide +kernel :
      parseTokenRequest (match guessCall.op with | .serve r => r | .authorize r _ => r | _ => { method := [] }) = _)
    cases Except.ok.inj (hp.symm.trans this)
    exact ⟨rfl, rfl⟩
  | authorization h =>
    obtain ⟨r, hop, hs, _⟩ := h
    cases hop
    exact absurd hs (by decide)

/-- Non-vacuity: it is refused alike whether or not the user is registered with another password. -/
example : (step ⟨false, withRegistrations Demo.server Demo.server.clients
      (Demo.server.users.set b!"eve" { secret := b!"right" })⟩ guessCall).1 =
      (step ⟨false, Demo.server⟩ guessCall).1 ∧
    RefusedWith (step ⟨false, Demo.server⟩ guessCall).1 403 b!"access_denied" := by
  constructor
  · rw [C62_user (c := guessCall) (by intro _ _ h; cases h) (fun p hp => ?_) (fun p hp => ?_)]
    · rw [(guess_user hp).2]; decide
    · rintro ⟨u, hu, _⟩
      cases (by decide : Demo.server.users.get? b!"eve" = none).symm.trans hu
  · exact ⟨(step ⟨false, Demo.server⟩ guessCall).1.response, by decide +kernel, by decide +kernel,
      [(b!"error", .str b!"access_denied")], by with_unfolding_all rfl, by simp⟩

/-- And with the right password it is not. -/
example : (step ⟨false, withRegistrations Demo.server Demo.server.clients
      (Demo.server.users.set b!"eve" { secret := b!"guess" })⟩ guessCall).1 ≠
    (step ⟨false, Demo.server⟩ guessCall).1 := by decide +kernel

/-- A client credentials grant of a client that is not registered, or is with another secret. -/
def guessClient : Call := Demo.post b!"/token" b!"c9:guess"
  b!"grant_type=client_credentials&scope=foo" b!"abcd" 1000

theorem guess_client {id secret : Str} (h : PresentsClient guessClient id secret) :
    id = b!"c9" ∧ secret = b!"guess" := by
  cases h with
  | token h =>
    obtain ⟨r, hop, _, hp⟩ := h
    cases hop
    rename_i rq
    have : (_ : Except Error TokenRequest) = .ok {
        grantType := b!"client_credentials",
        clientID := b!"c9", clientSecret := b!"guess", scope := some [b!"foo"] } := (by decide +kernel :
      parseTokenRequest (match guessClient.op with | .serve r => r | .authorize r _ => r | _ => { method := [] }) = _)
    cases Except.ok.inj (hp.symm.trans this)
    exact ⟨rfl, rfl⟩
  | introspection h =>
    obtain ⟨r, hop, hs, _⟩ := h
    cases hop
    exact absurd hs (by decide)
  | revocation h =>
    obtain ⟨r, hop, hs, _⟩ := h
    cases hop
    exact absurd hs (by decide)

example : (step ⟨false, withRegistrations Demo.server
      (Demo.server.clients.set b!"c9" { secret := b!"right", confidential := true })
      Demo.server.users⟩ guessClient).1 =
      (step ⟨false, Demo.server⟩ guessClient).1 := by
  rw [C62_client (c := guessClient) (by intro _ _ h; cases h) rfl (fun p hp => ?_) (fun p hp => ?_)
    (fun r rq hop hl _ _ => ?_)]
  · rw [(guess_client hp).2]; decide
  · rintro ⟨u, hu, _⟩
    cases (by decide : Demo.server.clients.get? b!"c9" = none).symm.trans hu
  · cases hop
    exact absurd hl (by decide)

end OAuth2

import Verif.Props.Random

/-! What a request leaves behind in the server, as a function of the random bytes: only the HMAC of the
keys that are made of them is kept. -/

namespace OAuth2

open Spec

variable {s : Server} {r : Request} {clock : Nat → Time}

/-- The calls that are alike but for their random bytes, which are enough. -/
def HashAlike (s : Server) (clock : Nat → Time) (c : Call) : Prop := c.clock = clock ∧ Enough s.config c 2

/-- What is left behind is a function of the HMACs. -/
def Keeps (s : Server) (clock : Nat → Time) (f : Call → Reply × Server) : Prop :=
  ∃ g : Str → Str → Server, ∀ c, HashAlike s clock c →
    (f c).2 = g (tok s.config c 0).signature (tok s.config c 1).signature

theorem Keeps.const {f : Call → Reply × Server} (x : Server) (h : ∀ c, HashAlike s clock c → (f c).2 = x) :
    Keeps s clock f := ⟨fun _ _ => x, h⟩

/-- A token with this signature. -/
def signedBy (sig : Str) : HS256Token := ⟨[], sig⟩

theorem grant_keeps (a : HS256Token) (b : Option HS256Token) (t₁ t₂ : Time) (cred : ServerCredential) :
    s.grant a b t₁ t₂ cred =
      s.grant (signedBy a.signature) (b.map fun t => signedBy t.signature) t₁ t₂ cred := by
  cases b <;> rfl

theorem issue_both {c : Call} (hc : HashAlike s clock c) (tick : Nat) (w : Bool) (cred : ServerCredential)
    (fin : TokenResponse → TokenResponse) :
    s.issue c.local tick w cred fin = (.token (fin (Server.grantResponse s.config (tok s.config c 0)
        (if w then some (tok s.config c 1) else none) cred.scope)),
      s.grant (signedBy (tok s.config c 0).signature)
        (if w then some (signedBy (tok s.config c 1).signature) else none) (clock tick) (clock (tick + 1))
        cred) := by
  unfold Server.issue
  have h1 : c.local.coins = c.coins := rfl
  have h2 : c.local.clock = clock := hc.1
  rw [h1, mint_both hc.2 w, h2]
  simp only
  rw [grant_keeps]
  cases w <;> rfl

theorem keeps_issue {f : Call → Reply × Server} (tick : Nat) (w : Bool) (cred : ServerCredential)
    (fin : TokenResponse → TokenResponse) (h : ∀ c, HashAlike s clock c → f c = s.issue c.local tick w cred fin) :
    Keeps s clock f :=
  ⟨fun a b => s.grant (signedBy a) (if w then some (signedBy b) else none) (clock tick) (clock (tick + 1))
    cred, fun c hc => by rw [h c hc, issue_both hc]⟩

theorem keeps_authorize : Keeps s clock fun c => s.authorizeReply r c.local := by
  unfold Server.authorizeReply
  cases parseAuthorizationRequest r with
  | error e => exact .const s fun c _ => rfl
  | ok rq =>
    simp only
    split
    · exact .const s fun c _ => rfl
    cases s.clients.get? rq.clientID with
    | none => exact .const s fun c _ => rfl
    | some client =>
      simp only
      split
      · exact .const s fun c _ => rfl
      split
      · exact .const s fun c _ => rfl
      split
      · exact .const s fun c _ => rfl
      split
      · exact .const s fun c _ => rfl
      split
      · exact keeps_issue _ _ _ _ fun c h => rfl
      · refine ⟨fun a _ => { s with authorizationCodes := s.authorizationCodes.set (signedBy a).signatureString {
            clientID := rq.clientID, username := (r.parseForm.1.postForm.getD []).get b!"username",
            scope := rq.scope, expiresAt := clock 0 + s.config.authorizationCodeLifespan,
            redirectURI := rq.redirectURI } }, fun c hc => ?_⟩
        obtain ⟨rest, hg⟩ := gen_enough hc.2
        have h1 : c.local.coins = c.coins := rfl
        have h2 : c.local.clock = clock := hc.1
        have h3 : c.local.tick = 0 := rfl
        simp only
        rw [h1, hg, h2, h3]
        rfl

theorem keeps_code (rq : TokenRequest) : Keeps s clock fun c => s.codeReply rq c.local := by
  have hnow : ∀ c, HashAlike s clock c → c.local.clock c.local.tick = clock 0 := fun c hc => by rw [← hc.1]; rfl
  unfold Server.codeReply
  cases HS256Token.parse s.config.secret rq.code with
  | error e => exact .const s fun c _ => rfl
  | ok x =>
    simp only
    cases s.authorizationCodes.get? x.signatureString with
    | none => exact .const s fun c _ => rfl
    | some stored =>
      simp only
      split
      · exact .const _ fun c _ => rfl
      by_cases h1 : stored.expiresAt.before (clock 0) = true
      · exact .const s fun c hc => by rw [hnow c hc, if_pos h1]
      by_cases h2 : stored.clientID ≠ rq.clientID
      · exact .const s fun c hc => by rw [hnow c hc, if_neg h1, if_pos h2]
      by_cases h3 : stored.redirectURI ≠ rq.redirectURI
      · exact .const s fun c hc => by rw [hnow c hc, if_neg h1, if_neg h2, if_pos h3]
      refine ⟨fun a b =>
        let s' := s.grant (signedBy a) (some (signedBy b)) (clock 1) (clock 2)
          { clientID := rq.clientID, username := stored.username, scope := stored.scope,
            code := x.signatureString }
        { s' with
          authorizationCodes := s'.authorizationCodes.update x.signatureString
            fun c => { c with used := true } }, fun c hc => ?_⟩
      simp only
      rw [hnow c hc, if_neg h1, if_neg h2, if_neg h3, issue_both hc]
      rfl

theorem keeps_refresh (rq : TokenRequest) : Keeps s clock fun c => s.refreshReply rq c.local := by
  have hnow : ∀ c, HashAlike s clock c → c.local.clock c.local.tick = clock 0 := fun c hc => by rw [← hc.1]; rfl
  unfold Server.refreshReply
  cases HS256Token.parse s.config.secret rq.refreshToken with
  | error e => exact .const s fun c _ => rfl
  | ok x =>
    simp only
    cases s.refreshTokens.get? x.signatureString with
    | none => exact .const s fun c _ => rfl
    | some stored =>
      simp only
      by_cases h1 : stored.expiresAt.before (clock 0) = true
      · exact .const s fun c hc => by rw [hnow c hc, if_pos h1]
      by_cases h2 : stored.clientID ≠ rq.clientID
      · exact .const s fun c hc => by rw [hnow c hc, if_neg h1, if_pos h2]
      obtain ⟨scope, hscope⟩ : ∃ scope, scope = if rq.scope.empty then stored.scope else rq.scope :=
        ⟨_, rfl⟩
      rw [← hscope]
      by_cases h3 : (!stored.scope.includes scope) = true
      · exact .const s fun c hc => by rw [hnow c hc, if_neg h1, if_neg h2, if_pos h3]
      refine ⟨fun a b =>
        let s' := s.grant (signedBy a) (some (signedBy b)) (clock 1) (clock 2)
          { clientID := rq.clientID, username := stored.username, scope := scope }
        { s' with refreshTokens := s'.refreshTokens.del x.signatureString }, fun c hc => ?_⟩
      simp only
      rw [hnow c hc, if_neg h1, if_neg h2, if_neg h3, issue_both hc]
      rfl

theorem keeps_token : Keeps s clock fun c => s.tokenReply r c.local := by
  unfold Server.tokenReply
  cases parseTokenRequest r with
  | error e => exact .const s fun c _ => rfl
  | ok rq =>
    simp only
    split
    · exact .const s fun c _ => rfl
    cases s.clients.get? rq.clientID with
    | none => exact .const s fun c _ => rfl
    | some client =>
      simp only
      split
      · exact .const s fun c _ => rfl
      unfold Server.grantReply
      split
      · split
        · exact .const s fun c _ => rfl
        split
        · exact .const s fun c _ => rfl
        exact keeps_issue _ _ _ _ fun c _ => rfl
      split
      · split
        · exact .const s fun c _ => rfl
        split
        · exact .const s fun c _ => rfl
        exact keeps_issue _ _ _ _ fun c _ => rfl
      split
      · exact keeps_code rq
      · exact keeps_refresh rq

theorem keeps : Keeps s clock fun c => s.handle r c.local := by
  unfold Server.handle
  simp only
  split
  · exact keeps_authorize
  split
  · exact keeps_token
  split
  · exact .const _ fun c _ => rfl
  split
  · exact .const _ fun c _ => rfl
  · exact .const _ fun c _ => rfl

end OAuth2

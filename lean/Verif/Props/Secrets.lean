import Verif.Spec.Secret
import Verif.Lemmas.Observe
import Verif.Lemmas.Served
import Verif.Props.Transport
import Verif.Lemmas.Demo

/-!
C61: which secrets are the same secret.
-/

namespace OAuth2

open Spec

set_option linter.unusedSimpArgs false

theorem sameButZeros_hmac {a b : Str} (h : SameButZeros a b) (key : Str) :
    hmacSHA256 a key = hmacSHA256 b key := by
  obtain ⟨ha, hb, m, n, h⟩ := h
  have hk : a ++ List.replicate (64 - a.length) 0 = b ++ List.replicate (64 - b.length) 0 := by
    have h1 : ∀ (x : Str) (k : Nat), x.length ≤ 64 →
        x ++ List.replicate (64 - x.length) (0 : UInt8) =
          ((x ++ List.replicate k 0) ++ List.replicate 64 0).take 64 := by
      intro x k hx
      rw [List.append_assoc, List.replicate_append_replicate, List.take_append,
        List.take_of_length_le hx, List.take_replicate]
      congr 2
      omega
    rw [h1 a m ha, h1 b n hb, h]
  unfold hmacSHA256
  rw [if_neg (by omega), if_neg (by omega)]
  dsimp only
  rw [hk]

theorem digestOf_hmac {a b : Str} (h : DigestOf a b) (key : Str) :
    hmacSHA256 a key = hmacSHA256 b key := by
  obtain ⟨hb, rfl⟩ := h
  unfold hmacSHA256
  rw [if_neg (by rw [sha256_length]; omega), if_pos (by omega)]

section

variable {a b : Str} (h : ∀ key, hmacSHA256 a key = hmacSHA256 b key)
include h

theorem fromKey_secret (key : Str) : HS256Token.fromKey a key = HS256Token.fromKey b key := by
  unfold HS256Token.fromKey
  rw [h]

theorem parse_secret (text : Str) : HS256Token.parse a text = HS256Token.parse b text := by
  unfold HS256Token.parse HS256Token.valid
  simp only [fromKey_secret h]

namespace Server

theorem gen_secret {cfg : ServerConfig} (hc : cfg.secret = a) (coins : Str) :
    gen { cfg with secret := b } coins = gen cfg coins := by
  unfold gen
  simp only [hc, fromKey_secret h]

theorem mint_secret {cfg : ServerConfig} (hc : cfg.secret = a) (r : Bool) (coins : Str) :
    mint { cfg with secret := b } r coins = mint cfg r coins := by
  unfold mint
  simp only [gen_secret h hc]

theorem issue_secret {s : Server} (hc : s.config.secret = a) (l : Local) (tick : Nat) (r : Bool)
    (cred : ServerCredential) (f : TokenResponse → TokenResponse) :
    (withSecret s b).issue l tick r cred f =
      ((s.issue l tick r cred f).1, withSecret (s.issue l tick r cred f).2 b) := by
  unfold issue
  have : (withSecret s b).config = { s.config with secret := b } := rfl
  rw [this, mint_secret h hc]
  cases mint s.config r l.coins with
  | none => rfl
  | some ab => rfl

theorem handle_secret {s : Server} (hc : s.config.secret = a) (r : Request) (l : Local) :
    (withSecret s b).handle r l = ((s.handle r l).1, withSecret (s.handle r l).2 b) := by
  have e1 : (withSecret s b).config = { s.config with secret := b } := rfl
  have e2 : (withSecret s b).clients = s.clients := rfl
  have e3 : (withSecret s b).accessTokens = s.accessTokens := rfl
  have e4 : (withSecret s b).refreshTokens = s.refreshTokens := rfl
  have e5 : (withSecret s b).authorizationCodes = s.authorizationCodes := rfl
  have e6 : ∀ u p, (withSecret s b).userOK u p = s.userOK u p := fun _ _ => rfl
  have hp : ∀ t, HS256Token.parse b t = HS256Token.parse s.config.secret t := by
    intro t
    rw [hc, parse_secret h]
  unfold handle
  dsimp only
  split
  · unfold authorizeReply
    rw [e1, e2]
    split
    · rfl
    · split
      · rfl
      · split
        · rfl
        · split
          · rfl
          · split
            · rfl
            · dsimp only
              simp only [e6]
              split
              · rfl
              · split
                · rfl
                · split
                  · exact issue_secret h hc _ _ _ _ _
                  · rw [gen_secret h hc]
                    split
                    · rfl
                    · rfl
  split
  · unfold tokenReply
    rw [e2]
    split
    · rfl
    · split
      · rfl
      · split
        · rfl
        · split
          · rfl
          · unfold grantReply
            rw [e1]
            simp only [e6]
            split
            · split
              · rfl
              · split
                · rfl
                · exact issue_secret h hc _ _ _ _ _
            · split
              · split
                · rfl
                · split
                  · rfl
                  · exact issue_secret h hc _ _ _ _ _
              · split
                · unfold codeReply
                  simp only [e1, e3, e4, e5, hp]
                  split
                  · rfl
                  · split
                    · rfl
                    · split
                      · rfl
                      · split
                        · rfl
                        · split
                          · rfl
                          · split
                            · rfl
                            · rw [issue_secret h hc]
                              generalize issue s _ _ _ _ _ = x
                              obtain ⟨x1, x2⟩ := x
                              cases x1 <;> rfl
                · unfold refreshReply
                  simp only [e1, e3, e4, e5, hp]
                  split
                  · rfl
                  · split
                    · rfl
                    · split
                      · rfl
                      · split
                        · rfl
                        · generalize (if (_ : Scope).empty = true then _ else _) = scope
                          split
                          · rfl
                          · rw [issue_secret h hc]
                            generalize issue s _ _ _ _ _ = x
                            obtain ⟨x1, x2⟩ := x
                            cases x1 <;> rfl
  split
  · unfold introspectReply
    simp only [e1, e2, e3, e4, hp]
    repeat' split
    all_goals rfl
  split
  · unfold revokeReply
    simp only [e1, e2, e3, e4, hp]
    split
    · rfl
    · split
      · rfl
      · split
        · rfl
        · split
          · rfl
          · split
            · rfl
            · rename_i t _
              cases h1 : s.accessTokens.get? t.signatureString <;>
                cases h2 : s.refreshTokens.get? t.signatureString <;>
                simp only [foreign, e4, h1, h2] <;> (repeat' split) <;> rfl
  · rfl

theorem authorizes_secret {s : Server} (hc : s.config.secret = a) (r : Request) (required : Scope)
    (now : Time) : (withSecret s b).authorizes r required now = s.authorizes r required now := by
  unfold authorizes
  have e1 : (withSecret s b).config.secret = b := rfl
  have e3 : (withSecret s b).accessTokens = s.accessTokens := rfl
  rw [e1, e3, hc]
  simp only [parse_secret h]

end Server

theorem step_secret {s : Server} (hc : s.config.secret = a) (c : Call) :
    step ⟨false, withSecret s b⟩ c =
      ((step ⟨false, s⟩ c).1, ⟨false, withSecret (step ⟨false, s⟩ c).2.st b⟩) ∧
    (step ⟨false, s⟩ c).2.locked = false := by
  cases hop : c.op with
  | serve r =>
    rw [step_serve hop, step_serve hop, Server.handle_secret h hc]
    exact ⟨rfl, rfl⟩
  | authorize r required =>
    rw [step_authorize hop, step_authorize hop, Server.authorizes_secret h hc]
    exact ⟨rfl, rfl⟩
  | configure clients users =>
    rw [step_configure hop, step_configure hop]
    exact ⟨rfl, rfl⟩

end

theorem step_config (s : Server) (c : Call) : (step ⟨false, s⟩ c).2.st.config = s.config := by
  cases hop : c.op with
  | serve r =>
    rw [step_serve hop]
    have := Server.served s r c.local
    generalize s.handle r c.local = x at this
    obtain ⟨reply, s'⟩ := x
    cases this <;> rfl
  | authorize r required => rw [step_authorize hop]
  | configure clients users => rw [step_configure hop]

/-- C61: servers whose secrets are the same key of HMAC cannot be told apart: made the same calls,
with the same random bytes and clock readings, they give the same answers, and all that ever differs
between them is the configured secret. In particular a token of one is a token of the other. -/
theorem C61_same_answers {a b : Str} (h : SameButZeros a b ∨ DigestOf a b) {s : Server}
    (hs : s.config.secret = a) (cs : List Call) :
    runAll ⟨false, withSecret s b⟩ cs = ((runAll ⟨false, s⟩ cs).1,
      ⟨false, withSecret (runAll ⟨false, s⟩ cs).2.st b⟩) := by
  have hm : ∀ key, hmacSHA256 a key = hmacSHA256 b key := by
    intro key
    rcases h with h | h
    · exact sameButZeros_hmac h key
    · exact digestOf_hmac h key
  induction cs generalizing s with
  | nil => rfl
  | cons c cs ih =>
    obtain ⟨h1, h2⟩ := step_secret hm hs c
    have h3 := step_config s c
    simp only [runAll, h1]
    generalize step ⟨false, s⟩ c = x at h2 h3
    obtain ⟨ans, locked, s'⟩ := x
    cases h2
    rw [ih (s := s') (by rw [← hs]; exact congrArg ServerConfig.secret h3)]

/-- C61: the same for the tokens themselves. -/
theorem C61_same_tokens {a b : Str} (h : SameButZeros a b ∨ DigestOf a b) (key text : Str) :
    HS256Token.fromKey a key = HS256Token.fromKey b key ∧
      HS256Token.parse a text = HS256Token.parse b text := by
  have hm : ∀ key, hmacSHA256 a key = hmacSHA256 b key := by
    intro key
    rcases h with h | h
    · exact sameButZeros_hmac h key
    · exact digestOf_hmac h key
  exact ⟨fromKey_secret hm key, parse_secret hm text⟩

/-- C61: in particular, not every other secret refuses a token: for every secret shorter than 64
bytes there is another one that accepts all its tokens. -/
theorem C61_another_secret (a : Str) (ha : a.length < 64) :
    ∃ b, b ≠ a ∧ ∀ key, HS256Token.parse b (HS256Token.fromKey a key).string =
      .ok (HS256Token.fromKey a key) := by
  refine ⟨a ++ [0], by simp, fun key => ?_⟩
  have h : SameButZeros a (a ++ [0]) := ⟨by omega, by simp; omega, 1, 0, by simp⟩
  rw [← (C61_same_tokens (.inl h) key _).2]
  exact C01_token_roundtrip a key

/-- Non-vacuity: one history on two servers, secrets with and without a zero byte. -/
example : SameButZeros Demo.server.config.secret (Demo.server.config.secret ++ [0]) := by
  refine ⟨by decide, by decide, 1, 0, by simp⟩

example : (step ⟨false, withSecret Demo.s1 (Demo.server.config.secret ++ [0])⟩ Demo.c2).1 =
    Demo.e2.answer := by decide +kernel

/-- Non-vacuity: a secret of 65 bytes and its digest. -/
example : DigestOf (Sha256.sha256 (List.replicate 65 1)) (List.replicate 65 1) := ⟨by decide, rfl⟩

end OAuth2

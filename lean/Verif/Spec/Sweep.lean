import Verif.Spec.Local
import Verif.Spec.Store
/-
Taking what has expired out of the public maps.
-/

namespace OAuth2.Spec

/-- The second server is the first without the entries under some signatures. What was stored under these are
tokens that had expired at this time, and codes that had expired without having been redeemed. -/
structure Swept (time : Time) (gone : Str → Prop) (s s' : Server) : Prop where
  config : s.config = s'.config
  clients : ∀ id, s.clients.get? id = s'.clients.get? id
  users : ∀ name, s.users.get? name = s'.users.get? name
  kept : ∀ sig, ¬ gone sig → AgreeAt s s' sig
  absent : ∀ sig, gone sig → s'.accessTokens.get? sig = none ∧ s'.refreshTokens.get? sig = none ∧
    s'.authorizationCodes.get? sig = none
  expired : ∀ k sig cred, gone sig → (tokens s k).get? sig = some cred → cred.expiresAt < time
  unused : ∀ sig cred, gone sig → s.authorizationCodes.get? sig = some cred →
    cred.expiresAt < time ∧ cred.used = false

/-- The call hands out nothing under these signatures. -/
def HandsNone (e : Event) (gone : Str → Prop) : Prop :=
  (∀ k t, Hands e k t → ¬ gone t.signatureString) ∧ ∀ x, HandsCode e x → ¬ gone x.signatureString

/-- The refusal of something that has expired, and of something that is not known. -/
inductive ExpiredUnknown : (expired unknown : Str) → Prop
  | code : ExpiredUnknown b!"expired authorization code" b!"unknown authorization code"
  | refreshToken : ExpiredUnknown b!"expired refresh token" b!"unknown refresh token"

/-- The answers come to the same: either they are the same, or both refuse, for the reason that the token or code has
expired or for the reason that it is not known. Only introspection and revocation tell more: a token that has expired
is described as long as it is stored and is not active afterwards, and a client to which it does not belong is told
so as long as it is stored. -/
inductive Alike (c : Call) : Answer → Answer → Prop
  | same {a : Answer} : Alike c a a
  | barred {r required res res'} : c.op = .authorize r required →
      res.statusCode = 401 → res.header.get b!"WWW-Authenticate" =
        b!"Bearer error=\"invalid_token\", error_description=\"expired token\"" →
      res'.statusCode = 401 → res'.header.get b!"WWW-Authenticate" =
        b!"Bearer error=\"invalid_token\", error_description=\"unknown token\"" →
      Alike c (.rejected res) (.rejected res')
  | refused {rq res res' expired unknown} : AsksToken c rq → ExpiredUnknown expired unknown →
      res.statusCode = 400 → JsonMember res b!"error" b!"invalid_grant" →
      JsonMember res b!"error_description" expired →
      res'.statusCode = 400 → JsonMember res' b!"error" b!"invalid_grant" →
      JsonMember res' b!"error_description" unknown →
      Alike c (.answered res) (.answered res')
  | inactive {rq res res'} : AsksIntrospection c rq →
      res.statusCode = 200 ∨ res.statusCode = 401 ∧ JsonMember res b!"error_description" b!"wrong client" →
      res'.statusCode = 200 → res'.body = b!"{\"active\":false}\n" → Alike c (.answered res) (.answered res')
  | revoked {rq res res'} : AsksRevocation c rq →
      res.statusCode = 401 → JsonMember res b!"error_description" b!"wrong client" →
      res'.statusCode = 200 → res'.body = [] → Alike c (.answered res) (.answered res')

/-- The same calls, with answers that come to the same. -/
inductive AllAlike : List Event → List Event → Prop
  | nil : AllAlike [] []
  | cons {c a a' h h'} : Alike c a a' → AllAlike h h' → AllAlike (⟨c, a⟩ :: h) (⟨c, a'⟩ :: h')

/-- Taking everything that has expired out of the maps of a server, except for codes that were redeemed. -/
def sweep (time : Time) (s : Server) : Server := { s with
  accessTokens := s.accessTokens.filter fun e => decide (time ≤ e.2.expiresAt)
  refreshTokens := s.refreshTokens.filter fun e => decide (time ≤ e.2.expiresAt)
  authorizationCodes := s.authorizationCodes.filter fun e => decide (time ≤ e.2.expiresAt) || e.2.used }

/-- Something is stored under the signature. -/
def Stored (s : Server) (sig : Str) : Prop :=
  s.accessTokens.get? sig ≠ none ∨ s.refreshTokens.get? sig ≠ none ∨ s.authorizationCodes.get? sig ≠ none

/-- No signature is in two of the maps. -/
def OnlyOnce (s : Server) : Prop :=
  (∀ sig ∈ s.accessTokens.keys, sig ∉ s.refreshTokens.keys ∧ sig ∉ s.authorizationCodes.keys) ∧
  ∀ sig ∈ s.refreshTokens.keys, sig ∉ s.authorizationCodes.keys

instance (s : Server) : Decidable (OnlyOnce s) := by unfold OnlyOnce; infer_instance

end OAuth2.Spec

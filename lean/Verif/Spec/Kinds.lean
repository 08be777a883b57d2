import Verif.Spec.Removal
/-
Kinds of tokens: access tokens, refresh tokens and authorization codes look alike.
-/

namespace OAuth2.Spec

/-- What a token was handed out as. -/
inductive TokenSort where
  | access
  | refresh
  | code

/-- The event hands out the token as one of this kind. -/
def HandsAs (e : Event) : TokenSort → HS256Token → Prop
  | .access => Hands e .access
  | .refresh => Hands e .refresh
  | .code => HandsCode e

/-- The call uses the text as a token of this kind: as a bearer token for `Authorize`, in a refresh request, or in a
request that exchanges a code. -/
def UsesAs (c : Call) : TokenSort → Str → Prop
  | .access, text => ∃ required, Presents c required text
  | .refresh, text => ∃ rq, AsksToken c rq ∧ rq.grantType = b!"refresh_token" ∧ rq.refreshToken = text
  | .code, text => ∃ rq, AsksToken c rq ∧ rq.grantType = b!"authorization_code" ∧ rq.code = text

/-- The call is in vain: it is not admitted, is given nothing, and changes nothing. -/
def InVain (s : Shared Server) (c : Call) : Prop :=
  (step s c).1 ≠ .admitted ∧ GivesNothing ⟨c, (step s c).1⟩ ∧ (step s c).2 = s

/-- No token was handed out as one of this kind under the signature of the text. -/
def NeverAs (cfg : ServerConfig) (h : List Event) (kind : TokenSort) (text : Str) : Prop :=
  ∀ e ∈ h, ∀ t, HandsAs e kind t → ¬ SameToken cfg text t

/-- Tokens of different kinds were never handed out with the same signature. -/
def KindsApart (h : List Event) : Prop :=
  ∀ e ∈ h, ∀ e' ∈ h, ∀ i j t t', HandsAs e i t → HandsAs e' j t' → t.signatureString = t'.signatureString → i = j

end OAuth2.Spec

import Verif.Spec.History
/-
How many entries the server stores.
-/

namespace OAuth2.Spec

/-- The entries of the three public maps together. -/
def entries (s : Server) : Nat :=
  s.accessTokens.length + s.refreshTokens.length + s.authorizationCodes.length

/-- The signatures of the first and of the second token made from the bytes a call finds in the source of
randomness. -/
def firstDrawn (s : Server) (c : Call) : Str :=
  (HS256Token.fromKey s.config.secret (c.coins.take s.config.keyLength.toNat)).signatureString

/-- The second. -/
def secondDrawn (s : Server) (c : Call) : Str :=
  (HS256Token.fromKey s.config.secret
    ((c.coins.drop s.config.keyLength.toNat).take s.config.keyLength.toNat)).signatureString

/-- The call was answered with success or with a redirect. -/
def Successful (e : Event) : Bool :=
  match e.answer with
  | .answered res => res.statusCode = 200 || res.statusCode = 303
  | _ => false

/-- The calls of a history that were answered with success or with a redirect. -/
def successes (h : List Event) : Nat := (h.filter Successful).length

end OAuth2.Spec

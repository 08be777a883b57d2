import Verif.Spec.History
/-
What the random bytes that a call obtains are used for: keys of tokens and codes, and nothing
else.
-/

namespace OAuth2.Spec

/-- The `i`-th key's worth (counted from 0) of the random bytes that the call obtains. -/
def draw (cfg : ServerConfig) (c : Call) (i : Nat) : Str :=
  (c.coins.drop (i * cfg.keyLength.toNat)).take cfg.keyLength.toNat

/-- The token has this key, which is of the configured length, and the server's HMAC of it. -/
def MadeOf (cfg : ServerConfig) (t : HS256Token) (key : Str) : Prop :=
  t.key = key ∧ t.signature = hmacSHA256 cfg.secret key ∧ (key.length : Int) = cfg.keyLength

/-- A part of a text: fixed text, or the place of the token with the `i`-th key. -/
inductive Piece where
  | text (s : Str)
  | token (i : Nat)

/-- The text with the tokens of this call in their places: key and HMAC in base64url, with a dot
between them. -/
def fill (cfg : ServerConfig) (c : Call) (pieces : List Piece) : Str :=
  pieces.flatMap fun
    | .text s => s
    | .token i => b64RawURLEncode (draw cfg c i) ++ [0x2E] ++
        b64RawURLEncode (hmacSHA256 cfg.secret (draw cfg c i))

/-- A response with places for tokens. -/
structure Page where
  statusCode : Nat
  header : List (Str × List (List Piece)) := []
  body : List Piece := []

/-- The response with the tokens of this call in their places. -/
def Page.fill (cfg : ServerConfig) (c : Call) (p : Page) : Response where
  statusCode := p.statusCode
  header := p.header.map fun h => (h.1, h.2.map (Spec.fill cfg c))
  body := Spec.fill cfg c p.body

/-- The event hands out this token, of any kind, or code. -/
def Issues (e : Event) (t : HS256Token) : Prop :=
  (∃ k, Hands e k t) ∨ HandsCode e t

/-- No key is used twice, neither by two events nor for the two tokens of one event, and no two keys
in use have the same HMAC: what a good source of random bytes and HMAC with a secret achieve, except
with negligible probability. -/
structure Fresh (cfg : ServerConfig) (h : List Event) : Prop where
  apart : h.Pairwise fun e e' => ∀ t t', Issues e t → Issues e' t' →
    t.key ≠ t'.key ∧ ¬ Collision cfg t.key t'.key
  within : ∀ e ∈ h, ∀ a b, Hands e .access a → Hands e .refresh b →
    a.key ≠ b.key ∧ ¬ Collision cfg a.key b.key

end OAuth2.Spec

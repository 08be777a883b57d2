import Verif.Spec.Local
/-
When two secrets are the same key of HMAC-SHA256.
-/

namespace OAuth2.Spec

/-- The same secret up to zero bytes at its end, neither longer than 64 bytes (RFC 2104: the key is
filled up with zero bytes to the block size). -/
def SameButZeros (a b : Str) : Prop :=
  a.length ≤ 64 ∧ b.length ≤ 64 ∧
    ∃ m n, a ++ List.replicate m 0 = b ++ List.replicate n 0

/-- The second secret is longer than 64 bytes and the first is its SHA-256 digest. -/
def DigestOf (a b : Str) : Prop := 64 < b.length ∧ a = Sha256.sha256 b

/-- The server with another secret. -/
def withSecret (s : Server) (secret : Str) : Server :=
  { s with config := { s.config with secret := secret } }

end OAuth2.Spec

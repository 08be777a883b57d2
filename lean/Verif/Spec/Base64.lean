import Verif.Model.Bytes
/-
What it means for a text to be unpadded base64url of some bytes (RFC 4648, sections 4 and 5),
stated on bit strings, independently of the model in Verif/Model/Base64.lean.
-/

namespace OAuth2.Spec

/-- The base64url alphabet. -/
def alphabet : Str := b!"ABCDEFGHIJKLMNOPQRSTUVWXYZabcdefghijklmnopqrstuvwxyz0123456789-_"

/-- The `width` lowest bits of `n`, most significant first. -/
def bits : (width : Nat) → (n : Nat) → List Bool
  | 0, _ => []
  | w + 1, n => bits w (n / 2) ++ [n % 2 == 1]

/-- The text without line breaks (Go's decoder ignores them). -/
def withoutLineBreaks (s : Str) : Str := s.filter fun c => !(c = 0x0A || c = 0x0D)

/-- `text` is an unpadded base64url text of `data`: its characters are in the alphabet, their
number is possible, and the bits of the data are the bits of the characters, up to fewer than
eight unused bits at the end. -/
def IsBase64Url (text data : Str) : Prop :=
  ∃ positions : List Nat,
    (withoutLineBreaks text).map (alphabet.idxOf? ·) = positions.map some ∧
    positions.length % 4 ≠ 1 ∧
    data.length = positions.length * 6 / 8 ∧
    data.flatMap (fun b => bits 8 b.toNat) = (positions.flatMap (bits 6)).take (8 * data.length)

end OAuth2.Spec

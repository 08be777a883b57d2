import Verif.Model.Base64
import Verif.Model.Sha256
import Verif.Model.Prog
/-
hs256.go
-/

namespace OAuth2

/-- hs256.go:19-22 -/
structure HS256Token where
  key : Str
  signature : Str
  deriving DecidableEq, Repr

namespace HS256Token

/-- hs256.go:29-46 `HS256TokenFromKey`. -/
def fromKey (secret key : Str) : HS256Token := { key := key, signature := hmacSHA256 secret key }

/-- hs256.go:125-127 `Equal`. `hmac.Equal` compares contents (and lengths); its constant time is
not modelled. -/
def equal (t : HS256Token) (signature : Str) : Bool := t.signature = signature

/-- hs256.go:116-118 `Valid`. -/
def valid (t : HS256Token) (secret : Str) : Bool := (fromKey secret t.key).equal t.signature

/-- hs256.go:130-132 `KeyString`. -/
def keyString (t : HS256Token) : Str := b64RawURLEncode t.key

/-- hs256.go:135-137 `SignatureString`. -/
def signatureString (t : HS256Token) : Str := b64RawURLEncode t.signature

/-- hs256.go:140-142 `String`. -/
def string (t : HS256Token) : Str := t.keyString ++ [0x2E] ++ t.signatureString

/-- hs256.go:82-113 `ParseHS256Token`; the error is its message. -/
def parse (secret str : Str) : Except Str HS256Token :=
  match splitByte 0x2E str with
  | [s0, s1] =>
    match b64RawURLDecode s0 with
    | none => .error b!"token key is not base64 encoded"
    | some key =>
      match b64RawURLDecode s1 with
      | none => .error b!"token signature is not base64 encoded"
      | some signature =>
        let token : HS256Token := { key := key, signature := signature }
        if !token.valid secret then .error b!"invalid token supplied" else .ok token
  | _ => .error b!"a token must have two segments separated by a dot"

/-- hs256.go:53-64 `GenerateHS256Token`: `none` is an error. `make([]byte, length)` panics for a
negative length (a length too large to allocate is not modelled). -/
def generate {σ : Type} (secret : Str) (length : Int) : Prog σ (Option HS256Token) :=
  if length < 0 then .panic
  else do
    match ← Prog.readFull length.toNat with
    | none => return none
    | some key => return some (fromKey secret key)

/-- hs256.go:72-79 `MustGenerateHS256Token`. -/
def mustGenerate {σ : Type} (secret : Str) (length : Int) : Prog σ HS256Token := do
  match ← generate secret length with
  | none => .panic
  | some token => return token

end HS256Token

end OAuth2

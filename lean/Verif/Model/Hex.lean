import Verif.Model.Keys
import Verif.Model.Dsa

/-!
# Text and big-integer constructors of keys and signatures (key_model.go:46-62, 64-66, 79-99, signature.go:38-49, 77-80)

Go strings are byte strings.  `encoding/hex`, `strings.ToUpper` (on ASCII), `math/big` and go-xpx-utils are external; the
definitions marked "contract" describe what their documentation promises.
-/

set_option autoImplicit false

namespace Ed

/-- The lower case hex digit of n < 16 (encoding/hex, contract). -/
def hexDigit (n : Nat) : UInt8 := UInt8.ofNat (if n < 10 then 48 + n else 87 + n)

/-- `hex.EncodeToString` (encoding/hex, contract). -/
def hexEncode : Bytes → Bytes
  | [] => []
  | b :: bs => hexDigit (b.toNat / 16) :: hexDigit (b.toNat % 16) :: hexEncode bs

/-- The value of a hex digit of either case, if it is one (encoding/hex `fromHexChar`, contract). -/
def fromHexChar (c : UInt8) : Option Nat :=
  let n := c.toNat
  if 48 ≤ n ∧ n ≤ 57 then some (n - 48)
  else if 97 ≤ n ∧ n ≤ 102 then some (n - 87)
  else if 65 ≤ n ∧ n ≤ 70 then some (n - 55)
  else none

/-- `hex.DecodeString` (encoding/hex, contract): an error for a non-digit and for an odd number of digits. -/
def hexDecode : Bytes → Out Bytes
  | [] => .ok []
  | [_] => .err "encoding/hex: odd length or invalid byte"
  | a :: b :: s =>
    match fromHexChar a, fromHexChar b with
    | some x, some y => do
      let t ← hexDecode s
      .ok (UInt8.ofNat (16 * x + y) :: t)
    | _, _ => .err "encoding/hex: invalid byte"

/-- `utils.HexDecodeStringOdd` (go-xpx-utils, contract): a leading 0 is added to a string of odd length. -/
def hexDecodeStringOdd (s : Bytes) : Out Bytes := if s.length % 2 = 1 then hexDecode (48 :: s) else hexDecode s

/-- `strings.ToUpper` on ASCII strings (contract). -/
def toUpper (s : Bytes) : Bytes := s.map fun c => if 97 ≤ c.toNat ∧ c.toNat ≤ 122 then c - 32 else c

/-- `NewPrivateKeyfromHexString` (key_model.go:51-62). -/
def newPrivateKeyFromHexString (s : Bytes) : Out PrivateKey := do
  let raw ← hexDecodeStringOdd s
  if raw.length ≠ 32 then .err "the length of private key is not 32" else .ok (newPrivateKey raw)

/-- `(*PrivateKey).String` (key_model.go:64-66). -/
def PrivateKey.string (k : PrivateKey) : Bytes := hexEncode k.raw

/-- `NewPublicKeyfromHex` (key_model.go:79-90). -/
def newPublicKeyFromHex (s : Bytes) : Out PublicKey := do
  let raw ← hexDecodeStringOdd s
  if raw.length ≠ 32 then .err "the length of public key is not 32" else .ok (newPublicKey raw)

/-- `(*PublicKey).hex` (key_model.go:93-95). -/
def PublicKey.hex (k : PublicKey) : Bytes := hexEncode k.raw

/-- `(*PublicKey).String` (key_model.go:97-99). -/
def PublicKey.string (k : PublicKey) : Bytes := toUpper (hexEncode k.raw)

/-- `(*Signature).String` (signature.go:77-80). -/
def Signature.string (s : Signature) : Bytes := hexEncode s.bytes

/-- `(*big.Int).Bytes` of a natural number (math/big, contract): big-endian without leading zero bytes. -/
def bigBytes (n : Nat) : Bytes :=
  if _h : n = 0 then [] else bigBytes (n / 256) ++ [UInt8.ofNat (n % 256)]

/-- `NewPrivateKeyFromBigInt` (key_model.go:46-48); `Bytes` takes the absolute value and panics for a nil pointer.  The
key keeps the caller's pointer, here its value at that time. -/
def newPrivateKeyFromBigInt (v : Option Int) : Out PrivateKey := do
  let v ← Out.deref v
  .ok ⟨v, bigBytes v.natAbs⟩

/-- go-xpx-utils: `BigIntToByteArray(v, n)`, the little-endian n-byte form of an integer that fits; for other integers
nothing is assumed, not even the length. -/
structure Utils where
  bigIntToByteArray : Int → Nat → Out Bytes
  fits : ∀ (v n : Nat), v < 256 ^ n → bigIntToByteArray v n = .ok (leBytes n v)

variable (U : Utils)

/-- `NewSignatureFromBigInt` (signature.go:38-49). -/
def newSignatureFromBigInt (r s : Option Int) : Out Signature :=
  match r, s with
  | some r, some s =>
    if bigUint64 r > 2 ^ 31 - 1 ∨ bigUint64 s > 2 ^ 31 - 1 then .err "bad parameters NewSignatureFromBigInt"
    else do
      let rb ← U.bigIntToByteArray r 32
      let sb ← U.bigIntToByteArray s 32
      newSignature rb sb
  | _, _ => .err "bad parameters NewSignatureFromBigInt"

end Ed

import Verif.Spec.Base

/-!
# Ed25519 of RFC 8032, section 5.1, with an arbitrary hash function in place of SHA-512

Written from the text of the RFC, without reference to the model.
-/

set_option autoImplicit false

namespace Ed

namespace Rfc

/-- 5.1.2: y as 32 octets in little-endian order, the least significant bit of x in the most significant bit of the last octet. -/
def encode (q : Pt) : List UInt8 := leBytes 32 (q.x.val % 2 * 2 ^ 255 + q.y.val)

/-- 5.1.3: bit 255 is the least significant bit of x, the rest is y, which must be less than p; if x = 0 and the bit is 1, decoding
fails. -/
def Decodes (b : List UInt8) (q : Pt) : Prop :=
  b.length = 32 ∧ q.y.val = leVal b % 2 ^ 255 ∧ q.x.val % 2 = leVal b / 2 ^ 255

variable (H : List UInt8 → List UInt8)

/-- 5.1.5, steps 1 to 3: the first 32 octets of the hash with the lowest three bits of the first octet and the highest bit of the last
octet cleared, and the second highest bit of the last octet set, as a little-endian number. -/
def scalar (sk : List UInt8) : ℕ :=
  let s := leVal ((H sk).take 32)
  let s := s - s % 8
  let s := s % 2 ^ 255
  if s.testBit 254 then s else s + 2 ^ 254

/-- 5.1.5, step 4. -/
def publicKey (sk : List UInt8) : List UInt8 := encode (scalar H sk • B)

/-- 5.1.6: the 64 octets of the signature. -/
def sign (sk m : List UInt8) : List UInt8 :=
  let r := leVal (H ((H sk).drop 32 ++ m))
  let R := encode (r • B)
  let k := leVal (H (R ++ publicKey H sk ++ m))
  R ++ leBytes 32 ((r + k * scalar H sk) % L)

/-- 5.1.7 for the public key `A`, the message `m` and the halves `R`, `S` of the signature; `cofactor` is 8 in the RFC, which also allows to
check with 1. -/
def Accepts (cofactor : ℕ) (A m R S : List UInt8) : Prop :=
  S.length = 32 ∧ leVal S < L ∧ ∃ a r : Pt, Decodes A a ∧ Decodes R r ∧
    cofactor • leVal S • B = cofactor • r + cofactor • leVal (H (R ++ A ++ m)) • a

end Rfc

end Ed

import Verif.Model.Env
import Verif.Spec.Base

/-!
# The signature scheme and the key agreement in mathematical terms

Written with the numbers and the curve group only; `Hash` is the SHA3-512 of one byte string.
-/

set_option autoImplicit false

namespace Ed

variable (E : Env)

/-- SHA3-512 of one byte string. -/
def Hash (m : Bytes) : Bytes := E.sha512.sum (E.sha512.write E.sha512.init m)

/-- The secret scalar of a private key: the first 32 bytes of its hash, little-endian, with bits 0, 1, 2
and 255 cleared and bit 254 set. -/
def secretScalar (sk : Bytes) : ℕ := 2 ^ 254 + 8 * (leVal ((Hash E sk).take 32) / 8 % 2 ^ 251)

/-- The public key of a private key: the encoding of `a * B`. -/
def publicKeyOf (sk : Bytes) : Bytes := encodePoint (secretScalar E sk • B)

/-- The nonce of a message: hash of the second half of the hash of the key and the message. -/
def nonce (sk m : Bytes) : ℕ := leVal (Hash E ((Hash E sk).drop 32 ++ m)) % L

/-- The challenge of a commitment `R`, a public key `A` and a message. -/
def challenge (R A m : Bytes) : ℕ := leVal (Hash E (R ++ A ++ m)) % L

/-- The commitment of a signature. -/
def sigR (sk m : Bytes) : Bytes := encodePoint (nonce E sk m • B)

/-- The response of a signature by `sk`, under the public key `A`. -/
def sigS (sk A m : Bytes) : ℕ := (nonce E sk m + challenge E (sigR E sk m) A m * secretScalar E sk) % L

/-- What the canonicity filter tests: the low 64 bits of `S` are neither 0 nor those of `L`. -/
def LowBitsOk (S : ℕ) : Prop := S % 2 ^ 64 ≠ 0 ∧ S % 2 ^ 64 ≠ L % 2 ^ 64

instance (S : ℕ) : Decidable (LowBitsOk S) := by unfold LowBitsOk; infer_instance

end Ed

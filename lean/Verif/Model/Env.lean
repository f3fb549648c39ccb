import Verif.Go.Outcome
import Verif.Model.Field

/-!
# External primitives

The code calls SHA3-512/SHA3-256 (golang.org/x/crypto/sha3, used as a `hash.Hash`) and AES
(crypto/aes).  They are not part of the repository: the model and every theorem quantify over all
implementations `Env` satisfying the interface contracts below, nothing else is assumed about them.
-/

set_option autoImplicit false

namespace Ed

/-- A streaming hash (`hash.Hash`): `New`, `Write`, `Sum(nil)`.  The contract of `io.Writer` for hashes:
writing `a` and then `b` is writing `a ++ b`, writing nothing changes nothing, and `Write` never
returns an error. -/
structure Hasher where
  σ : Type
  init : σ
  write : σ → Bytes → σ
  sum : σ → Bytes
  write_append : ∀ s a b, write (write s a) b = write s (a ++ b)
  write_nil : ∀ s, write s [] = s

/-- The external primitives with their contracts. -/
structure Env where
  /-- `sha3.New512` -/
  sha512 : Hasher
  sha512_length : ∀ s, (sha512.sum s).length = 64
  /-- `sha3.New256` -/
  sha256 : Hasher
  sha256_length : ∀ s, (sha256.sum s).length = 32
  /-- AES encryption of one block under a key -/
  aesE : Bytes → Bytes → Bytes
  /-- AES decryption of one block under a key -/
  aesD : Bytes → Bytes → Bytes
  aesE_length : ∀ k b, b.length = 16 → (aesE k b).length = 16
  aesD_length : ∀ k b, b.length = 16 → (aesD k b).length = 16
  aesD_aesE : ∀ k b, b.length = 16 → aesD k (aesE k b) = b

variable (E : Env)

/-- `HashesSha3_512` (crypto.go:49-60): the inputs are written one after the other. -/
def hashesSha3_512 (inputs : List Bytes) : Bytes := E.sha512.sum (inputs.foldl E.sha512.write E.sha512.init)

/-- `HashesSha3_256` (crypto.go:38-46). -/
def hashesSha3_256 (b : Bytes) : Bytes := E.sha256.sum (E.sha256.write E.sha256.init b)

/-- The hashes that the rest of the package does not use: `sha256.New`, `sha3.NewLegacyKeccak256`, `ripemd160.New`. -/
structure OtherHashes where
  sha2 : Hasher
  sha2_length : ∀ s, (sha2.sum s).length = 32
  keccak : Hasher
  keccak_length : ∀ s, (keccak.sum s).length = 32
  ripemd : Hasher
  ripemd_length : ∀ s, (ripemd.sum s).length = 20

variable (O : OtherHashes)

/-- `HashesSha_256` (crypto.go:16-24). -/
def hashesSha_256 (b : Bytes) : Bytes := O.sha2.sum (O.sha2.write O.sha2.init b)

/-- `HashesKeccak_256` (crypto.go:27-35). -/
def hashesKeccak_256 (b : Bytes) : Bytes := O.keccak.sum (O.keccak.write O.keccak.init b)

/-- `HashesRipemd160` (crypto.go:63-72). -/
def hashesRipemd160 (b : Bytes) : Bytes := O.ripemd.sum (O.ripemd.write O.ripemd.init b)

end Ed

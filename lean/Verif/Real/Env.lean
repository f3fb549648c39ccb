import Verif.Real.Keccak
import Verif.Real.Sha2
import Verif.Real.Aes

/-!
# The environment with the real primitives

SHA3-512, SHA3-256, AES, SHA-256, Keccak-256 and RIPEMD-160 meet the contracts of `Model/Env`: every theorem about all environments
holds of this one.
-/

set_option autoImplicit false

namespace Ed

/-- A hash whose state is what has been written. -/
def Hasher.ofFun (f : Bytes → Bytes) : Hasher where
  σ := Bytes
  init := []
  write := fun s b => s ++ b
  sum := f
  write_append := fun s a b => List.append_assoc s a b
  write_nil := fun s => List.append_nil s

/-- The real primitives. -/
def Env.real : Env where
  sha512 := Hasher.ofFun Real.sha3_512
  sha512_length := Real.sha3_512_length
  sha256 := Hasher.ofFun Real.sha3_256
  sha256_length := Real.sha3_256_length
  aesE := Real.aesE
  aesD := Real.aesD
  aesE_length := Real.aesE_length
  aesD_length := Real.aesD_length
  aesD_aesE := Real.aesD_aesE

/-- The other hashes of crypto.go. -/
def OtherHashes.real : OtherHashes where
  sha2 := Hasher.ofFun Real.sha2_256
  sha2_length := Real.sha2_256_length
  keccak := Hasher.ofFun Real.keccak256
  keccak_length := Real.keccak256_length
  ripemd := Hasher.ofFun Real.ripemd160
  ripemd_length := Real.ripemd160_length

end Ed

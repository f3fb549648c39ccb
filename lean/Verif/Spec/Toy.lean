import Verif.Model.Env
import Verif.Spec.Bytes

/-!
# A concrete environment, for non-vacuity examples

The "hash" of a string is its length; "AES" adds the length of the key to every byte.  It satisfies the contracts.
-/

set_option autoImplicit false

namespace Ed

/-- A hash with `n` bytes of output: the length of the input. -/
def toyHasher (n : Nat) : Hasher where
  σ := Bytes
  init := []
  write := fun s b => s ++ b
  sum := fun s => leBytes n s.length
  write_append := fun s a b => List.append_assoc s a b
  write_nil := fun s => List.append_nil s

/-- A concrete environment. -/
def Env.toy : Env where
  sha512 := toyHasher 64
  sha512_length := fun s => leBytes_length _ _
  sha256 := toyHasher 32
  sha256_length := fun s => leBytes_length _ _
  aesE := fun k b => b.map (· + UInt8.ofNat k.length)
  aesD := fun k b => b.map (· - UInt8.ofNat k.length)
  aesE_length := fun k b h => by simpa using h
  aesD_length := fun k b h => by simpa using h
  aesD_aesE := fun k b _ => by
    rw [List.map_map]
    have : ((fun x => x - UInt8.ofNat k.length) ∘ fun x : UInt8 => x + UInt8.ofNat k.length) = id := by
      funext x; simp
    rw [this, List.map_id]

end Ed

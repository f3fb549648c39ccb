import Verif.Spec.Attack
import Verif.Model.Cipher
import Mathlib.Data.Fintype.Perm

/-!
# Observers of ciphertexts, and random permutations in the place of AES

An observer chooses two messages, sees the encryption of one of them (always the first or always the second), chooses two more messages, and so on;
in the end it guesses which.
-/

set_option autoImplicit false

namespace Ed

/-- The 2^128 blocks of 16 bytes, as numbers. -/
def Block : Type := Fin (2 ^ 128)

instance : Fintype Block := inferInstanceAs (Fintype (Fin (2 ^ 128)))
instance : DecidableEq Block := inferInstanceAs (DecidableEq (Fin (2 ^ 128)))
instance : Nonempty Block := inferInstanceAs (Nonempty (Fin (2 ^ 128)))
instance : DecidableEq Key := inferInstanceAs (DecidableEq (Fin (2 ^ 256)))

/-- The bytes of a block. -/
def Block.bytes (x : Block) : Bytes := leBytes 16 (Fin.val x)

/-- The block with these bytes. -/
def Block.of (b : Bytes) : Block := ⟨leVal b % 2 ^ 128, Nat.mod_lt _ (Nat.two_pow_pos 128)⟩

/-- The key with these bytes. -/
def Key.of (b : Bytes) : Key := ⟨leVal b % 2 ^ 256, Nat.mod_lt _ (Nat.two_pow_pos 256)⟩

theorem Block.bytes_length (x : Block) : x.bytes.length = 16 := leBytes_length _ _

theorem Block.bytes_of {b : Bytes} (h : b.length = 16) : (Block.of b).bytes = b := by
  have h1 : leVal b % 2 ^ 128 = leVal b := Nat.mod_eq_of_lt (lt_of_lt_of_eq (leVal_lt b) (by rw [h]; decide +kernel))
  show leBytes 16 (leVal b % 2 ^ 128) = b
  rw [h1, ← h, leBytes_leVal]

theorem Block.of_bytes (x : Block) : Block.of x.bytes = x := by
  refine Fin.ext ?_
  show leVal (leBytes 16 (Fin.val x)) % 2 ^ 128 = Fin.val x
  rw [leVal_leBytes_of_lt (lt_of_lt_of_eq (Fin.isLt x) (by decide +kernel)), Nat.mod_eq_of_lt (Fin.isLt x)]

/-- The primitives `E` with a permutation of the blocks for each key in the place of AES. -/
def Env.withCipher (E : Env) (P : Key → Equiv.Perm Block) : Env :=
  { E with
    aesE := fun k b => (P (Key.of k) (Block.of b)).bytes
    aesD := fun k b => ((P (Key.of k)).symm (Block.of b)).bytes
    aesE_length := fun _ _ _ => Block.bytes_length _
    aesD_length := fun _ _ _ => Block.bytes_length _
    aesD_aesE := fun k b hb => by rw [Block.of_bytes, Equiv.symm_apply_apply, Block.bytes_of hb] }

/-- An observer of the conversations `ι`: it chooses a conversation and two messages and gets an encryption of one of them. -/
inductive Observer (ι : Type) where
  | done (guess : Bool)
  | enc (i : ι) (m : Bool → Bytes) (k : Out Bytes → Observer ι)

namespace Observer

variable {ι : Type}

/-- The number of blocks of 16 bytes that a message has with its padding. -/
def blocks (m : Bytes) : ℕ := m.length / 16 + 1

/-- At most `n` blocks altogether, whatever the ciphertexts are; the two messages always have the same number of blocks. -/
def AtMost : ℕ → Observer ι → Prop
  | _, .done _ => True
  | n, .enc _ m k => blocks (m false) = blocks (m true) ∧ blocks (m true) ≤ n ∧ ∀ r, AtMost (n - blocks (m true)) (k r)

/-- What the observer guesses if `Encrypt` is called on the first messages (`b = false`) or on the second messages (`b = true`), with the conversations
`c` and the readers `w`. -/
def run (E : Env) (c : ι → BlockCipher) (b : Bool) : World → Observer ι → Bool
  | _, .done g => g
  | w, .enc i m k => run E c b ((c i).encrypt E (m b) w).2 (k ((c i).encrypt E (m b) w).1)

/-- What the observer guesses if it gets random bytes instead, as many as a ciphertext has: 32 bytes, 16 bytes, and the blocks. -/
def runRandom {n : ℕ} : List (Key × Block × (Fin n → Block)) → Observer ι → Bool
  | _, .done g => g
  | [], .enc _ _ _ => false
  | x :: xs, .enc _ m k => runRandom xs (k (.ok (x.1.bytes ++ x.2.1.bytes ++ (((List.ofFn x.2.2).take (blocks (m true))).map Block.bytes).flatten)))

end Observer

/-- The random bytes for `n` calls of `Encrypt`, 32 and 16 for each. -/
abbrev Tape (n : ℕ) : Type := Fin n → Key × Block

/-- The bytes. -/
def Tape.bytes {n : ℕ} (t : Tape n) : Bytes := (List.ofFn fun i => (t i).1.bytes ++ (t i).2.bytes).flatten

end Ed

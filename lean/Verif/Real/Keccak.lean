import Verif.Model.Env
import Verif.Spec.Bytes

/-!
# SHA3-512, SHA3-256 and Keccak-256 (FIPS 202), executable

Not code of the repository: the functions that golang.org/x/crypto/sha3 implements, from the standard.  They show that the contracts of
`Model/Env` are met by the real primitives and let the model run on the test vectors of the repository (tools/conformance.py).
-/

set_option autoImplicit false

namespace Ed.Real

/-- Rotation to the left by n bits, 0 ≤ n < 64. -/
def rotl64 (x : UInt64) (n : UInt64) : UInt64 := if n = 0 then x else (x <<< n) ||| (x >>> (64 - n))

/-- The rotation offsets of ρ, for lane x + 5 y. -/
def rhoOffsets : List UInt64 :=
  [0, 1, 62, 28, 27, 36, 44, 6, 55, 20, 3, 10, 43, 25, 39, 41, 45, 15, 21, 8, 18, 2, 61, 56, 14]

/-- The round constants of ι. -/
def roundConstants : List UInt64 :=
  [0x0000000000000001, 0x0000000000008082, 0x800000000000808A, 0x8000000080008000, 0x000000000000808B, 0x0000000080000001,
   0x8000000080008081, 0x8000000000008009, 0x000000000000008A, 0x0000000000000088, 0x0000000080008009, 0x000000008000000A,
   0x000000008000808B, 0x800000000000008B, 0x8000000000008089, 0x8000000000008003, 0x8000000000008002, 0x8000000000000080,
   0x000000000000800A, 0x800000008000000A, 0x8000000080008081, 0x8000000000008080, 0x0000000080000001, 0x8000000080008008]

/-- One lane of the state. -/
def lane (a : List UInt64) (x y : Nat) : UInt64 := a.getD (x % 5 + 5 * (y % 5)) 0

/-- θ, ρ, π, χ, ι (FIPS 202, 3.2). -/
def keccakRound (a : List UInt64) (rc : UInt64) : List UInt64 :=
  let c := (List.range 5).map fun x => lane a x 0 ^^^ lane a x 1 ^^^ lane a x 2 ^^^ lane a x 3 ^^^ lane a x 4
  let d := (List.range 5).map fun x => c.getD ((x + 4) % 5) 0 ^^^ rotl64 (c.getD ((x + 1) % 5) 0) 1
  let t := (List.range 25).map fun i => rotl64 (a.getD i 0 ^^^ d.getD (i % 5) 0) (rhoOffsets.getD i 0)
  let p := (List.range 25).map fun i => lane t (i % 5 + 3 * (i / 5)) (i % 5)
  let q := (List.range 25).map fun i =>
    p.getD i 0 ^^^ ((p.getD ((i % 5 + 1) % 5 + 5 * (i / 5)) 0 ^^^ 0xFFFFFFFFFFFFFFFF) &&& p.getD ((i % 5 + 2) % 5 + 5 * (i / 5)) 0)
  match q with
  | [] => []
  | q0 :: qs => (q0 ^^^ rc) :: qs

/-- The permutation Keccak-f[1600]. -/
def keccakF (a : List UInt64) : List UInt64 := roundConstants.foldl keccakRound a

/-- Eight bytes, little endian. -/
def word64 (b : Bytes) : UInt64 := UInt64.ofNat (leVal (b.take 8))

/-- The lanes of a block. -/
def lanes : Nat → Bytes → List UInt64
  | 0, _ => []
  | n + 1, b => word64 b :: lanes n (b.drop 8)

/-- Absorbs n blocks of r bytes. -/
def absorb (r : Nat) : Nat → Bytes → List UInt64 → List UInt64
  | 0, _, a => a
  | n + 1, b, a => absorb r n (b.drop r) (keccakF (List.zipWith (· ^^^ ·) a (lanes (r / 8) (b.take r) ++ List.replicate (25 - r / 8) 0)))

/-- The padding: the domain bits and a first one in `dom`, a last one in the last bit of the block. -/
def pad (r : Nat) (dom : UInt8) (b : Bytes) : Bytes :=
  let k := r - b.length % r
  b ++ (if k = 1 then [dom ||| 0x80] else dom :: List.replicate (k - 2) 0 ++ [0x80])

/-- The sponge with one output block: rate r bytes, output n ≤ r bytes. -/
def sponge (r : Nat) (dom : UInt8) (n : Nat) (b : Bytes) : Bytes :=
  let p := pad r dom b
  leBytes n (leVal ((absorb r (p.length / r) p (List.replicate 25 0)).flatMap fun w => leBytes 8 w.toNat) % 2 ^ (8 * n))

/-- SHA3-512. -/
def sha3_512 (b : Bytes) : Bytes := sponge 72 0x06 64 b
/-- SHA3-256. -/
def sha3_256 (b : Bytes) : Bytes := sponge 136 0x06 32 b
/-- Keccak-256, as before the standard. -/
def keccak256 (b : Bytes) : Bytes := sponge 136 0x01 32 b

theorem sha3_512_length (b : Bytes) : (sha3_512 b).length = 64 := leBytes_length _ _
theorem sha3_256_length (b : Bytes) : (sha3_256 b).length = 32 := leBytes_length _ _
theorem keccak256_length (b : Bytes) : (keccak256 b).length = 32 := leBytes_length _ _

end Ed.Real

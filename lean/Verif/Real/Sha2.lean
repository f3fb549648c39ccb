import Verif.Model.Env
import Verif.Spec.Bytes

/-!
# SHA-256 (FIPS 180-4) and RIPEMD-160, executable

Not code of the repository: the functions that crypto/sha256 and golang.org/x/crypto/ripemd160 implement.
-/

set_option autoImplicit false

namespace Ed.Real

/-- Rotation to the right. -/
def rotr32 (x : UInt32) (n : UInt32) : UInt32 := (x >>> n) ||| (x <<< (32 - n))
/-- Rotation to the left. -/
def rotl32 (x : UInt32) (n : UInt32) : UInt32 := (x <<< n) ||| (x >>> (32 - n))

/-- The constants of SHA-256. -/
def sha256K : List UInt32 := [
  0x428a2f98,0x71374491,0xb5c0fbcf,0xe9b5dba5,0x3956c25b,0x59f111f1,0x923f82a4,0xab1c5ed5,
  0xd807aa98,0x12835b01,0x243185be,0x550c7dc3,0x72be5d74,0x80deb1fe,0x9bdc06a7,0xc19bf174,
  0xe49b69c1,0xefbe4786,0x0fc19dc6,0x240ca1cc,0x2de92c6f,0x4a7484aa,0x5cb0a9dc,0x76f988da,
  0x983e5152,0xa831c66d,0xb00327c8,0xbf597fc7,0xc6e00bf3,0xd5a79147,0x06ca6351,0x14292967,
  0x27b70a85,0x2e1b2138,0x4d2c6dfc,0x53380d13,0x650a7354,0x766a0abb,0x81c2c92e,0x92722c85,
  0xa2bfe8a1,0xa81a664b,0xc24b8b70,0xc76c51a3,0xd192e819,0xd6990624,0xf40e3585,0x106aa070,
  0x19a4c116,0x1e376c08,0x2748774c,0x34b0bcb5,0x391c0cb3,0x4ed8aa4a,0x5b9cca4f,0x682e6ff3,
  0x748f82ee,0x78a5636f,0x84c87814,0x8cc70208,0x90befffa,0xa4506ceb,0xbef9a3f7,0xc67178f2]

/-- Four bytes, big endian. -/
def be32 (b : Bytes) : UInt32 := UInt32.ofNat (leVal (b.take 4).reverse)
/-- Four bytes, little endian. -/
def le32 (b : Bytes) : UInt32 := UInt32.ofNat (leVal (b.take 4))

/-- The message schedule: n more words, the newest first. -/
def sha256Sched : Nat → List UInt32 → List UInt32
  | 0, w => w
  | n + 1, w =>
    let w15 := w.getD 14 0
    let w2 := w.getD 1 0
    let s0 := rotr32 w15 7 ^^^ rotr32 w15 18 ^^^ (w15 >>> 3)
    let s1 := rotr32 w2 17 ^^^ rotr32 w2 19 ^^^ (w2 >>> 10)
    sha256Sched n ((w.getD 15 0 + s0 + w.getD 6 0 + s1) :: w)

/-- One round; the state is a, ..., h. -/
def sha256Round (st : List UInt32) (kw : UInt32 × UInt32) : List UInt32 :=
  match st with
  | [a, b, c, d, e, f, g, h] =>
    let s1 := rotr32 e 6 ^^^ rotr32 e 11 ^^^ rotr32 e 25
    let ch := (e &&& f) ^^^ ((e ^^^ 0xFFFFFFFF) &&& g)
    let t1 := h + s1 + ch + kw.1 + kw.2
    let s0 := rotr32 a 2 ^^^ rotr32 a 13 ^^^ rotr32 a 22
    let maj := (a &&& b) ^^^ (a &&& c) ^^^ (b &&& c)
    [t1 + (s0 + maj), a, b, c, d + t1, e, f, g]
  | _ => st

/-- The compression function. -/
def sha256Block (st : List UInt32) (b : Bytes) : List UInt32 :=
  let w := (sha256Sched 48 ((List.range 16).map fun i => be32 (b.drop (4 * i))).reverse).reverse
  List.zipWith (· + ·) st ((sha256K.zip w).foldl sha256Round st)

/-- All blocks of 64 bytes. -/
def blocks64 (f : List UInt32 → Bytes → List UInt32) : Nat → Bytes → List UInt32 → List UInt32
  | 0, _, st => st
  | n + 1, b, st => blocks64 f n (b.drop 64) (f st (b.take 64))

/-- The padding without the length. -/
def mdPad (b : Bytes) : Bytes := b ++ 0x80 :: List.replicate ((64 + 55 - b.length % 64) % 64) 0

/-- SHA-256. -/
def sha2_256 (b : Bytes) : Bytes :=
  let p := mdPad b ++ (leBytes 8 (8 * b.length)).reverse
  let st := blocks64 sha256Block (p.length / 64) p [0x6a09e667, 0xbb67ae85, 0x3c6ef372, 0xa54ff53a, 0x510e527f, 0x9b05688c, 0x1f83d9ab, 0x5be0cd19]
  (List.range 32).map fun i => ((st.getD (i / 4) 0) >>> (UInt32.ofNat (24 - 8 * (i % 4)))).toUInt8

theorem sha2_256_length (b : Bytes) : (sha2_256 b).length = 32 := by simp [sha2_256]

/-- RIPEMD-160: message word selection of the left and the right line. -/
def rmdR : List Nat := [0,1,2,3,4,5,6,7,8,9,10,11,12,13,14,15, 7,4,13,1,10,6,15,3,12,0,9,5,2,14,11,8, 3,10,14,4,9,15,8,1,2,7,0,6,13,11,5,12,
  1,9,11,10,0,8,12,4,13,3,7,15,14,5,6,2, 4,0,5,9,7,12,2,10,14,1,3,8,11,6,15,13]
/-- Right line. -/
def rmdR' : List Nat := [5,14,7,0,9,2,11,4,13,6,15,8,1,10,3,12, 6,11,3,7,0,13,5,10,14,15,8,12,4,9,1,2, 15,5,1,3,7,14,6,9,11,8,12,2,10,0,4,13,
  8,6,4,1,3,11,15,0,5,12,2,13,9,7,10,14, 12,15,10,4,1,5,8,7,6,2,13,14,0,3,9,11]
/-- Rotations of the left line. -/
def rmdS : List UInt32 := [11,14,15,12,5,8,7,9,11,13,14,15,6,7,9,8, 7,6,8,13,11,9,7,15,7,12,15,9,11,7,13,12, 11,13,6,7,14,9,13,15,14,8,13,6,5,12,7,5,
  11,12,14,15,14,15,9,8,9,14,5,6,8,6,5,12, 9,15,5,11,6,8,13,12,5,12,13,14,11,8,5,6]
/-- Right line. -/
def rmdS' : List UInt32 := [8,9,9,11,13,15,15,5,7,7,8,11,14,14,12,6, 9,13,15,7,12,8,9,11,7,7,12,7,6,15,13,11, 9,7,15,11,8,6,6,14,12,13,5,14,13,13,7,5,
  15,5,8,11,14,14,6,14,6,9,12,9,12,5,15,8, 8,5,12,9,12,5,14,6,8,13,6,5,15,13,11,11]
/-- The Boolean functions. -/
def rmdF (j : Nat) (x y z : UInt32) : UInt32 :=
  match j with
  | 0 => x ^^^ y ^^^ z
  | 1 => (x &&& y) ||| ((x ^^^ 0xFFFFFFFF) &&& z)
  | 2 => (x ||| (y ^^^ 0xFFFFFFFF)) ^^^ z
  | 3 => (x &&& z) ||| (y &&& (z ^^^ 0xFFFFFFFF))
  | _ => x ^^^ (y ||| (z ^^^ 0xFFFFFFFF))
/-- The constants of the left line. -/
def rmdK : List UInt32 := [0x00000000, 0x5a827999, 0x6ed9eba1, 0x8f1bbcdc, 0xa953fd4e]
/-- The constants of the right line. -/
def rmdK' : List UInt32 := [0x50a28be6, 0x5c4dd124, 0x6d703ef3, 0x7a6d76e9, 0x00000000]

/-- One step of a line. -/
def rmdStep (f : UInt32 → UInt32 → UInt32 → UInt32) (x k s : UInt32) (st : List UInt32) : List UInt32 :=
  match st with
  | [a, b, c, d, e] => [e, rotl32 (a + f b c d + x + k) s + e, b, rotl32 c 10, d]
  | _ => st

/-- The compression function. -/
def rmdBlock (st : List UInt32) (b : Bytes) : List UInt32 :=
  let w := (List.range 16).map fun i => le32 (b.drop (4 * i))
  let l := (List.range 80).foldl (fun s j => rmdStep (rmdF (j / 16)) (w.getD (rmdR.getD j 0) 0) (rmdK.getD (j / 16) 0) (rmdS.getD j 0) s) st
  let r := (List.range 80).foldl (fun s j => rmdStep (rmdF (4 - j / 16)) (w.getD (rmdR'.getD j 0) 0) (rmdK'.getD (j / 16) 0) (rmdS'.getD j 0) s) st
  (List.range 5).map fun i => st.getD ((i + 1) % 5) 0 + l.getD ((i + 2) % 5) 0 + r.getD ((i + 3) % 5) 0

/-- RIPEMD-160. -/
def ripemd160 (b : Bytes) : Bytes :=
  let p := mdPad b ++ leBytes 8 (8 * b.length)
  let st := blocks64 rmdBlock (p.length / 64) p [0x67452301, 0xefcdab89, 0x98badcfe, 0x10325476, 0xc3d2e1f0]
  (List.range 20).map fun i => ((st.getD (i / 4) 0) >>> (UInt32.ofNat (8 * (i % 4)))).toUInt8

theorem ripemd160_length (b : Bytes) : (ripemd160 b).length = 20 := by simp [ripemd160]

end Ed.Real

/-!
# Go's int8 arithmetic

`Int8` is Lean's 8-bit two's complement integer with wrapping `+`, `-`, `&&&`.
-/

set_option autoImplicit false

namespace Ed

/-- Go `int8(b)` for a byte. -/
def byteToInt8 (b : UInt8) : Int8 := Int8.ofInt b.toNat

/-- Go `x << k` for `int8`. -/
def shl8 (x : Int8) (k : Nat) : Int8 := Int8.ofInt (x.toInt * 2 ^ k)

/-- Go `x >> k` for `int8` (arithmetic shift). -/
def sar8 (x : Int8) (k : Nat) : Int8 := Int8.ofInt (x.toInt / 2 ^ k)

theorem toInt8_ofInt {z : Int} (h1 : -128 ≤ z) (h2 : z < 128) : (Int8.ofInt z).toInt = z := by
  rw [Int8.toInt_ofInt]
  have hs : (Int8.size : Int) = 256 := rfl
  apply Int.bmod_eq_of_le
  · rw [hs]; omega
  · rw [hs]; omega

theorem toInt8_add {x y : Int8} (h1 : -128 ≤ x.toInt + y.toInt) (h2 : x.toInt + y.toInt < 128) :
    (x + y).toInt = x.toInt + y.toInt := by
  have : x + y = Int8.ofInt (x.toInt + y.toInt) := by
    rw [Int8.ofInt_add, Int8.ofInt_toInt, Int8.ofInt_toInt]
  rw [this, toInt8_ofInt h1 h2]

theorem toInt8_sub {x y : Int8} (h1 : -128 ≤ x.toInt - y.toInt) (h2 : x.toInt - y.toInt < 128) :
    (x - y).toInt = x.toInt - y.toInt := by
  have : x - y = Int8.ofInt (x.toInt - y.toInt) := by
    rw [Int8.ofInt_sub, Int8.ofInt_toInt, Int8.ofInt_toInt]
  rw [this, toInt8_ofInt h1 h2]

theorem toInt8_shl {x : Int8} {k : Nat} (h1 : -128 ≤ x.toInt * 2 ^ k) (h2 : x.toInt * 2 ^ k < 128) :
    (shl8 x k).toInt = x.toInt * 2 ^ k := toInt8_ofInt h1 h2

end Ed

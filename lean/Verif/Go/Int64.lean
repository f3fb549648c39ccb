/-!
# Go's int64 arithmetic

`Int64` is Lean's 64-bit two's complement integer; `+`, `-`, `*`, unary `-`, `|||` and `&&&` wrap
around exactly like Go's operators (Go specification, "Integer overflow").  Shifts by a constant and
conversions to `byte` are defined here.
-/

set_option autoImplicit false

namespace Ed

/-- Go `x << k` for `int64` and a constant `0 <= k < 64`: multiplication by `2^k`, wrapping. -/
def shl (x : Int64) (k : Nat) : Int64 := Int64.ofInt (x.toInt * 2 ^ k)

/-- Go `x >> k` for `int64` and a constant `0 <= k < 64`: arithmetic shift, i.e. floor division by `2^k`. -/
def sar (x : Int64) (k : Nat) : Int64 := Int64.ofInt (x.toInt / 2 ^ k)

/-- Go `byte(x)` for an `int64`: the low eight bits. -/
def toByte (x : Int64) : UInt8 := UInt8.ofNat (x.toInt % 256).toNat

/-- Go `int64(b)` for a byte. -/
def ofByte (b : UInt8) : Int64 := Int64.ofInt b.toNat

/-- The integer fits into an int64. -/
def Fits (z : Int) : Prop := -2 ^ 63 ≤ z ∧ z < 2 ^ 63

theorem toInt_ofInt_of_fits {z : Int} (h : Fits z) : (Int64.ofInt z).toInt = z := by
  rw [Int64.toInt_ofInt]
  apply Int.bmod_eq_of_le
  · have : (Int64.size : Int) = 2 ^ 64 := rfl
    rw [this]; have := h.1; omega
  · have : (Int64.size : Int) = 2 ^ 64 := rfl
    rw [this]; have := h.2; omega

theorem fits_toInt (x : Int64) : Fits x.toInt := ⟨x.le_toInt, x.toInt_lt⟩

theorem add_ofInt (x y : Int64) : x + y = Int64.ofInt (x.toInt + y.toInt) := by
  rw [Int64.ofInt_add, Int64.ofInt_toInt, Int64.ofInt_toInt]
theorem sub_ofInt (x y : Int64) : x - y = Int64.ofInt (x.toInt - y.toInt) := by
  rw [Int64.ofInt_sub, Int64.ofInt_toInt, Int64.ofInt_toInt]
theorem mul_ofInt (x y : Int64) : x * y = Int64.ofInt (x.toInt * y.toInt) := by
  rw [Int64.ofInt_mul, Int64.ofInt_toInt, Int64.ofInt_toInt]
theorem neg_ofInt (x : Int64) : -x = Int64.ofInt (-x.toInt) := by
  rw [Int64.ofInt_neg, Int64.ofInt_toInt]

theorem toInt_add_of_fits {x y : Int64} (h : Fits (x.toInt + y.toInt)) :
    (x + y).toInt = x.toInt + y.toInt := by
  rw [add_ofInt, toInt_ofInt_of_fits h]
theorem toInt_sub_of_fits {x y : Int64} (h : Fits (x.toInt - y.toInt)) :
    (x - y).toInt = x.toInt - y.toInt := by
  rw [sub_ofInt, toInt_ofInt_of_fits h]
theorem toInt_mul_of_fits {x y : Int64} (h : Fits (x.toInt * y.toInt)) :
    (x * y).toInt = x.toInt * y.toInt := by
  rw [mul_ofInt, toInt_ofInt_of_fits h]
theorem toInt_neg_of_fits {x : Int64} (h : Fits (-x.toInt)) : (-x).toInt = -x.toInt := by
  rw [neg_ofInt, toInt_ofInt_of_fits h]

theorem fits_div {z : Int} (h : Fits z) (k : Nat) : Fits (z / 2 ^ k) := by
  have hp : (0 : Int) < 2 ^ k := Int.pow_pos (by decide)
  have h1 : (1 : Int) ≤ 2 ^ k := hp
  constructor
  · apply (Int.le_ediv_iff_mul_le hp).2
    have h2 := h.1
    have : (-2 ^ 63 : Int) * 2 ^ k ≤ (-2 ^ 63) * 1 := Int.mul_le_mul_of_nonpos_left (by decide) h1
    omega
  · apply Int.ediv_lt_of_lt_mul hp
    have h2 := h.2
    have : (2 ^ 63 : Int) * 1 ≤ 2 ^ 63 * 2 ^ k := Int.mul_le_mul_of_nonneg_left h1 (by decide)
    omega

theorem toInt_sar (x : Int64) (k : Nat) : (sar x k).toInt = x.toInt / 2 ^ k := by
  unfold sar; exact toInt_ofInt_of_fits (fits_div (fits_toInt x) k)

theorem toInt_shl_of_fits {x : Int64} {k : Nat} (h : Fits (x.toInt * 2 ^ k)) :
    (shl x k).toInt = x.toInt * 2 ^ k := by
  unfold shl; exact toInt_ofInt_of_fits h

theorem toBitVec_toNat_of_nonneg {x : Int64} (h : 0 ≤ x.toInt) : (x.toBitVec.toNat : Int) = x.toInt := by
  rw [← Int64.toInt_toBitVec] at *
  rw [BitVec.toInt_eq_toNat_cond] at *
  split at h
  · rw [if_pos (by assumption)]
  · have := x.toBitVec.isLt
    omega

theorem toInt_eq_of_toNat_lt {x : Int64} (h : x.toBitVec.toNat < 2 ^ 63) :
    x.toInt = (x.toBitVec.toNat : Int) := by
  rw [← Int64.toInt_toBitVec, BitVec.toInt_eq_toNat_cond, if_pos (by omega)]

/-- `x | y` is `x + y` when the set bits cannot overlap. -/
theorem toInt_or {x y : Int64} (k : Nat) (a b : Nat) (hx : x.toInt = (a : Int))
    (hy : y.toInt = ((2 ^ k * b : Nat) : Int)) (ha : a < 2 ^ k) :
    (x ||| y).toInt = ((a + 2 ^ k * b : Nat) : Int) := by
  have h1 := toBitVec_toNat_of_nonneg (x := x) (by rw [hx]; exact Int.natCast_nonneg _)
  have h2 := toBitVec_toNat_of_nonneg (x := y) (by rw [hy]; exact Int.natCast_nonneg _)
  rw [hx] at h1; rw [hy] at h2
  have h1' : x.toBitVec.toNat = a := by exact_mod_cast h1
  have h2' : y.toBitVec.toNat = 2 ^ k * b := by exact_mod_cast h2
  have ho : (x ||| y).toBitVec.toNat = a + 2 ^ k * b := by
    rw [Int64.toBitVec_or, BitVec.toNat_or, h1', h2', Nat.or_comm, ← Nat.two_pow_add_eq_or_of_lt ha]
    omega
  have hx63 := (fits_toInt x).2
  have hy63 := (fits_toInt y).2
  rw [hx] at hx63; rw [hy] at hy63
  have : a ||| 2 ^ k * b < 2 ^ 63 := Nat.or_lt_two_pow (by omega) (by omega)
  rw [Nat.or_comm, ← Nat.two_pow_add_eq_or_of_lt ha] at this
  rw [toInt_eq_of_toNat_lt (by omega), ho]

theorem toInt_and_mask {x : Int64} (k a : Nat) (hk : k < 63) (m : Int64)
    (hm : m.toInt = ((2 ^ k - 1 : Nat) : Int)) (hx : x.toInt = (a : Int)) :
    (m &&& x).toInt = ((a % 2 ^ k : Nat) : Int) ∧ (x &&& m).toInt = ((a % 2 ^ k : Nat) : Int) := by
  have h1 := toBitVec_toNat_of_nonneg (x := x) (by rw [hx]; exact Int.natCast_nonneg _)
  have h2 := toBitVec_toNat_of_nonneg (x := m) (by rw [hm]; exact Int.natCast_nonneg _)
  rw [hx] at h1; rw [hm] at h2
  have h1' : x.toBitVec.toNat = a := by exact_mod_cast h1
  have h2' : m.toBitVec.toNat = 2 ^ k - 1 := by exact_mod_cast h2
  have hlt : a % 2 ^ k < 2 ^ 63 := by
    have : a % 2 ^ k < 2 ^ k := Nat.mod_lt _ (Nat.two_pow_pos k)
    have : 2 ^ k ≤ 2 ^ 63 := Nat.pow_le_pow_right (by decide) (by omega)
    omega
  have e2 : (x &&& m).toBitVec.toNat = a % 2 ^ k := by
    rw [Int64.toBitVec_and, BitVec.toNat_and, h1', h2', Nat.and_two_pow_sub_one_eq_mod]
  have e1 : (m &&& x).toBitVec.toNat = a % 2 ^ k := by
    rw [Int64.toBitVec_and, BitVec.toNat_and, h1', h2', Nat.and_comm, Nat.and_two_pow_sub_one_eq_mod]
  constructor
  · rw [toInt_eq_of_toNat_lt (by omega), e1]
  · rw [toInt_eq_of_toNat_lt (by omega), e2]

theorem toInt_ofByte (b : UInt8) : (ofByte b).toInt = (b.toNat : Int) := by
  unfold ofByte
  apply toInt_ofInt_of_fits
  have := b.toNat_lt
  constructor <;> omega

theorem toByte_of_nat {x : Int64} {a : Nat} (h : x.toInt = (a : Int)) :
    toByte x = UInt8.ofNat (a % 256) := by
  unfold toByte
  rw [h]
  congr 1

end Ed

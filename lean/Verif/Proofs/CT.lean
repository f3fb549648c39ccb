import Verif.Model.CT
import Verif.Go.Int64
import Mathlib.Tactic.Linarith
import Mathlib.Tactic.Ring
import Mathlib.Tactic.Positivity
import Mathlib.Tactic.IntervalCases

/-! # The constant-time helpers -/

namespace Ed

/-- Lowest bit. -/
def bit0 (x : Int64) : Bool := x.toBitVec.getLsbD 0

theorem toInt_toNat (x : Int64) : ∃ k : ℤ, x.toInt = (x.toBitVec.toNat : ℤ) + k * 2 ^ 64 := by
  have h : x.toInt = x.toBitVec.toInt := rfl
  rw [h, BitVec.toInt_eq_toNat_cond]
  split
  · exact ⟨0, by simp⟩
  · exact ⟨-1, by push_cast; ring⟩

theorem bit_iff (x : Int64) (i : ℕ) (hi : i < 64) : x.toBitVec.getLsbD i = true ↔ x.toInt / 2 ^ i % 2 = 1 := by
  obtain ⟨k, hk⟩ := toInt_toNat x
  have h1 : x.toInt / 2 ^ i = ((x.toBitVec.toNat / 2 ^ i : ℕ) : ℤ) + k * 2 ^ (63 - i) * 2 := by
    have e : k * 2 ^ 64 = (k * 2 ^ (63 - i) * 2) * 2 ^ i := by
      have : (64 : ℕ) = (63 - i) + 1 + i := by omega
      conv_lhs => rw [this, pow_add, pow_add, pow_one]
      ring
    rw [hk, e, Int.add_mul_ediv_right _ _ (by positivity)]
    push_cast; ring
  rw [h1, Int.add_mul_emod_self_right, ← BitVec.testBit_toNat, Nat.testBit_eq_decide_div_mod_eq, decide_eq_true_iff]
  omega

theorem bit0_iff (x : Int64) : bit0 x = true ↔ x.toInt % 2 = 1 := by
  have := bit_iff x 0 (by norm_num)
  simpa [bit0] using this

theorem bit0_or (x y : Int64) : bit0 (x ||| y) = (bit0 x || bit0 y) := by
  unfold bit0; rw [Int64.toBitVec_or, BitVec.getLsbD_or]

theorem bit0_sar (x : Int64) (i : ℕ) (hi : i < 64) : bit0 (sar x i) = x.toBitVec.getLsbD i := by
  rw [Bool.eq_iff_iff, bit0_iff, toInt_sar, bit_iff x i hi]

theorem one_getLsbD (i : ℕ) : (1 : Int64).toBitVec.getLsbD i = decide (i = 0) := by
  have : (1 : Int64).toBitVec = 1#64 := rfl
  rw [this, BitVec.getLsbD_one]; simp

theorem and_one (x : Int64) : x &&& 1 = if bit0 x then 1 else 0 := by
  apply Int64.toBitVec_inj.1
  apply BitVec.eq_of_getLsbD_eq
  intro i hi
  rw [Int64.toBitVec_and, BitVec.getLsbD_and, one_getLsbD]
  by_cases h : i = 0
  · subst h
    unfold bit0
    cases x.toBitVec.getLsbD 0 <;> rfl
  · split
    · rw [one_getLsbD]; simp [h]
    · have : (0 : Int64).toBitVec = 0#64 := rfl
      rw [this]; simp [h]

theorem bit0_xor_one (x : Int64) : bit0 (x ^^^ 1) = !bit0 x := by
  unfold bit0
  rw [Int64.toBitVec_xor, BitVec.getLsbD_xor, one_getLsbD]; simp

theorem isNegativeConstantTime_eq (b : Int64) :
    isNegativeConstantTime b = if b.toInt / 256 % 2 = 1 then 1 else 0 := by
  unfold isNegativeConstantTime
  rw [and_one]
  have := bit0_iff (sar b 8)
  rw [toInt_sar] at this
  norm_num at this
  simp only [this]

theorem bit0_foldl (x : Int64) (l : List ℕ) (hl : ∀ i ∈ l, i < 64) (r : Int64) :
    bit0 (l.foldl (fun r i => r ||| sar x i) r) = (bit0 r || l.any fun i => x.toBitVec.getLsbD i) := by
  induction l generalizing r with
  | nil => simp
  | cons i l ih =>
    rw [List.foldl_cons, ih (fun j hj => hl j (by simp [hj])), bit0_or, bit0_sar _ _ (hl i (by simp)),
      List.any_cons, Bool.or_assoc]

theorem mod256_iff (b c : Int64) :
    b.toInt % 256 = c.toInt % 256 ↔ ∀ i < 8, b.toBitVec.getLsbD i = c.toBitVec.getLsbD i := by
  obtain ⟨k, hk⟩ := toInt_toNat b
  obtain ⟨m, hm⟩ := toInt_toNat c
  have h1 : b.toInt % 256 = ((b.toBitVec.toNat % 256 : ℕ) : ℤ) := by rw [hk]; push_cast; omega
  have h2 : c.toInt % 256 = ((c.toBitVec.toNat % 256 : ℕ) : ℤ) := by rw [hm]; push_cast; omega
  rw [h1, h2, Int.natCast_inj]
  constructor
  · intro h i hi
    rw [← BitVec.testBit_toNat, ← BitVec.testBit_toNat]
    have e1 := Nat.testBit_mod_two_pow b.toBitVec.toNat 8 i
    have e2 := Nat.testBit_mod_two_pow c.toBitVec.toNat 8 i
    norm_num at e1 e2
    rw [h, e2] at e1
    simpa [hi] using e1.symm
  · intro h
    apply Nat.eq_of_testBit_eq
    intro i
    have e1 := Nat.testBit_mod_two_pow b.toBitVec.toNat 8 i
    have e2 := Nat.testBit_mod_two_pow c.toBitVec.toNat 8 i
    norm_num at e1 e2
    rw [e1, e2]
    by_cases hi : i < 8
    · have := h i hi
      rw [← BitVec.testBit_toNat, ← BitVec.testBit_toNat] at this
      rw [this]
    · simp [hi]

theorem isConstantTimeByteEq_eq (b c : Int64) :
    isConstantTimeByteEq b c = if b.toInt % 256 = c.toInt % 256 then 1 else 0 := by
  unfold isConstantTimeByteEq
  dsimp only
  rw [and_one, bit0_xor_one, bit0_foldl _ _ (fun i hi => by simp at hi; omega)]
  have h0 : bit0 0 = false := rfl
  rw [h0, Bool.false_or]
  have key : (!(List.range 8).any fun i => (b ^^^ c).toBitVec.getLsbD i) = true ↔
      b.toInt % 256 = c.toInt % 256 := by
    rw [mod256_iff, Bool.not_eq_true', List.any_eq_false]
    simp only [List.mem_range, Int64.toBitVec_xor, BitVec.getLsbD_xor]
    constructor
    · intro h i hi; have := h i hi; simpa using this
    · intro h i hi; simpa using h i hi
  by_cases h : b.toInt % 256 = c.toInt % 256
  · rw [if_pos h, if_pos (key.2 h)]
  · rw [if_neg h, if_neg (fun hh => h (key.1 hh))]

end Ed

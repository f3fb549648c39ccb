import Verif.Proofs.ScalarIO
import Verif.Proofs.Recode
import Verif.Proofs.Naf

/-!
# Properties C08-C11: scalars

`leVal` is the little-endian value of a byte string, `leBytes 32 n` the 32-byte little-endian encoding.
The group order is written out as 2^252 + 27742317777372353535851937790883648493.
-/

set_option autoImplicit false

namespace Ed
open Finset

set_option exponentiation.threshold 600

/-- **C08.** `modQ` on 64 bytes: the canonical encoding of the value modulo the group order. -/
theorem C08_modQ (b : Bytes) (hb : b.length = 64) :
    modQ b = leBytes 32 (leVal b % (2 ^ 252 + 27742317777372353535851937790883648493)) ∧
    leVal (modQ b) < 2 ^ 252 + 27742317777372353535851937790883648493 ∧
    (modQ b).length = 32 := by
  have hl := leVal_lt b
  rw [hb] at hl
  have e : (256 : ℕ) ^ 64 = 2 ^ 512 := by norm_num
  rw [e] at hl
  have h := modQ_spec b
  rw [Nat.mod_eq_of_lt hl, L_eq] at h
  refine ⟨h, ?_, by rw [h]; simp⟩
  have hm : leVal b % (2 ^ 252 + 27742317777372353535851937790883648493) <
    2 ^ 252 + 27742317777372353535851937790883648493 := Nat.mod_lt _ (by norm_num)
  rw [h, leVal_leBytes_of_lt (hm.trans (by norm_num))]
  exact hm

/-- The largest 64-byte string is an instance. -/
example : (List.replicate 64 (255 : UInt8)).length = 64 ∧
    leVal (modQ (List.replicate 64 255)) < 2 ^ 252 + 27742317777372353535851937790883648493 :=
  ⟨by simp, (C08_modQ _ (by simp)).2.1⟩

/-- **C09.** `a.multiplyAndAddModQ(b, c)` for arbitrary, also unreduced, 32-byte strings. -/
theorem C09_multiplyAndAddModQ (a b c : Bytes) (ha : a.length = 32) (hb : b.length = 32) (hc : c.length = 32) :
    multiplyAndAddModQ a b c =
      leBytes 32 ((leVal a * leVal b + leVal c) % (2 ^ 252 + 27742317777372353535851937790883648493)) ∧
    leVal (multiplyAndAddModQ a b c) < 2 ^ 252 + 27742317777372353535851937790883648493 ∧
    (multiplyAndAddModQ a b c).length = 32 := by
  have e : (256 : ℕ) ^ 32 = 2 ^ 256 := by norm_num
  have la := leVal_lt a
  have lb := leVal_lt b
  have lc := leVal_lt c
  rw [ha, e] at la
  rw [hb, e] at lb
  rw [hc, e] at lc
  have h := multiplyAndAddModQ_spec a b c
  rw [Nat.mod_eq_of_lt la, Nat.mod_eq_of_lt lb, Nat.mod_eq_of_lt lc, L_eq] at h
  refine ⟨h, ?_, by rw [h]; simp⟩
  have hm : (leVal a * leVal b + leVal c) % (2 ^ 252 + 27742317777372353535851937790883648493) <
    2 ^ 252 + 27742317777372353535851937790883648493 := Nat.mod_lt _ (by norm_num)
  rw [h, leVal_leBytes_of_lt (hm.trans (by norm_num))]
  exact hm

example : (List.replicate 32 (255 : UInt8)).length = 32 := by simp

/-- **C10.** Radix-16 digits of a scalar below 2^255. -/
theorem C10_toRadix16 (a : Bytes) (ha : a.length = 32) (h : leVal a < 2 ^ 255) :
    (∀ j < 63, -8 ≤ (toRadix16 a j).toInt ∧ (toRadix16 a j).toInt < 8) ∧
    (0 ≤ (toRadix16 a 63).toInt ∧ (toRadix16 a 63).toInt ≤ 8) ∧
    ∑ j ∈ range 64, (toRadix16 a j).toInt * 16 ^ j = (leVal a : ℤ) := by
  obtain ⟨h1, h2, h3⟩ := toRadix16_spec a
  rw [Nat.mod_eq_of_lt (by omega)] at h3
  refine ⟨h1, ⟨h2.1, ?_⟩, h3⟩
  rw [sum_range_succ] at h3
  have hs := (digits16_bounds h1).1
  generalize ∑ j ∈ range 63, (toRadix16 a j).toInt * 16 ^ j = s at *
  generalize (toRadix16 a 63).toInt = x at *
  by_contra hx
  have : (9 : ℤ) * 16 ^ 63 ≤ x * 16 ^ 63 := by nlinarith [pow_pos (by norm_num : (0:ℤ) < 16) 63]
  omega

/-- C10, the limit of the recoding: with the last bit set the value is still right, but the last digit
exceeds 8 (the range of the lookup table) exactly from 8*16^63 + 7*(16^63-1)/15 + 1 on. -/
theorem C10_toRadix16_large (a : Bytes) (ha : a.length = 32) :
    ∑ j ∈ range 64, (toRadix16 a j).toInt * 16 ^ j = (leVal a : ℤ) ∧
    (8 < (toRadix16 a 63).toInt ↔ 8 * 16 ^ 63 + 7 * ((16 ^ 63 - 1) / 15) < leVal a) := by
  obtain ⟨h1, h2, h3⟩ := toRadix16_spec a
  have la := leVal_lt a
  have e : (256 : ℕ) ^ 32 = 2 ^ 256 := by norm_num
  rw [ha, e] at la
  rw [Nat.mod_eq_of_lt la] at h3
  refine ⟨h3, ?_⟩
  rw [sum_range_succ] at h3
  have hs := digits16_bounds h1
  generalize ∑ j ∈ range 63, (toRadix16 a j).toInt * 16 ^ j = s at *
  generalize (toRadix16 a 63).toInt = x at *
  generalize leVal a = v at *
  norm_num at *
  omega

example : ∃ a : Bytes, a.length = 32 ∧ leVal a < 2 ^ 255 ∧ leVal a ≠ 0 :=
  ⟨leBytes 32 (2 ^ 255 - 1), by simp, by rw [leVal_leBytes_of_lt (by norm_num)]; norm_num,
    by rw [leVal_leBytes_of_lt (by norm_num)]; norm_num⟩

/-- **C11.** Sliding-window digits of a scalar below 2^255. -/
theorem C11_slide (a : Bytes) (ha : a.length = 32) (h : leVal a < 2 ^ 255) :
    (∀ j < 256, (slide a j).toInt = 0 ∨
      ((slide a j).toInt % 2 = 1 ∧ -15 ≤ (slide a j).toInt ∧ (slide a j).toInt ≤ 15)) ∧
    ∑ j ∈ range 256, (slide a j).toInt * 2 ^ j = (leVal a : ℤ) := by
  obtain ⟨h1, h2⟩ := slide_spec a
  rw [Nat.mod_eq_of_lt (by omega)] at h2
  refine ⟨h1, ?_⟩
  rcases h2 with h2 | h2
  · exact h2
  · omega

/-- C11 for all 32-byte strings: from 2^255 on, the value may be lowered by 2^256. -/
theorem C11_slide_large (a : Bytes) (ha : a.length = 32) :
    (∀ j < 256, (slide a j).toInt = 0 ∨
      ((slide a j).toInt % 2 = 1 ∧ -15 ≤ (slide a j).toInt ∧ (slide a j).toInt ≤ 15)) ∧
    (∑ j ∈ range 256, (slide a j).toInt * 2 ^ j = (leVal a : ℤ) ∨
     (2 ^ 255 ≤ leVal a ∧ ∑ j ∈ range 256, (slide a j).toInt * 2 ^ j = (leVal a : ℤ) - 2 ^ 256)) := by
  have la := leVal_lt a
  have e : (256 : ℕ) ^ 32 = 2 ^ 256 := by norm_num
  rw [ha, e] at la
  have h := slide_spec a
  rwa [Nat.mod_eq_of_lt la] at h

/-- C11, exactly: the digits of every 32-byte string are a width-5 expansion (any two non-zero digits at least five places apart), and their
value is the scalar whenever some 256-digit width-5 expansion has that value, and the scalar less 2^256 otherwise. -/
theorem C11_slide_exact (a : Bytes) (ha : a.length = 32) :
    (∀ j k, j < k → k < 256 → (slide a j).toInt ≠ 0 → (slide a k).toInt ≠ 0 → j + 5 ≤ k) ∧
    ((∃ e, IsNaf5 e ∧ ∑ j ∈ range 256, e j * 2 ^ j = (leVal a : ℤ)) →
      ∑ j ∈ range 256, (slide a j).toInt * 2 ^ j = (leVal a : ℤ)) ∧
    ((¬ ∃ e, IsNaf5 e ∧ ∑ j ∈ range 256, e j * 2 ^ j = (leVal a : ℤ)) →
      ∑ j ∈ range 256, (slide a j).toInt * 2 ^ j = (leVal a : ℤ) - 2 ^ 256) := by
  refine ⟨fun j k h1 h2 h3 h4 => ?_, fun h => ?_, fun h => ?_⟩
  · by_contra c
    exact h4 ((slide_isNaf5 a).2 j k h1 (by omega) h2 h3)
  · rw [slide_naf32 ha, nafVal_of _ h]
  · rw [slide_naf32 ha, nafVal_of_not _ h]

/-- Both cases occur from 2^255 on: 2^255 has an expansion, 2^256 - 1 has none and is recoded as -1. -/
theorem C11_both_cases :
    (∃ a : Bytes, a.length = 32 ∧ leVal a = 2 ^ 255 ∧ ∑ j ∈ range 256, (slide a j).toInt * 2 ^ j = 2 ^ 255) ∧
    ∃ a : Bytes, a.length = 32 ∧ leVal a = 2 ^ 256 - 1 ∧ ∑ j ∈ range 256, (slide a j).toInt * 2 ^ j = -1 := by
  refine ⟨⟨leBytes 32 (2 ^ 255), by simp, leVal_leBytes_of_lt (by norm_num), ?_⟩,
    ⟨leBytes 32 (2 ^ 256 - 1), by simp, leVal_leBytes_of_lt (by norm_num), ?_⟩⟩
  · rw [slide_naf32 (by simp), leVal_leBytes_of_lt (by norm_num), nafVal_of _ (by push_cast; exact naf5_two255)]
    norm_num
  · rw [slide_naf32 (by simp), leVal_leBytes_of_lt (by norm_num), nafVal_of_not _ (by
      rw [show ((2 ^ 256 - 1 : ℕ) : ℤ) = 2 ^ 256 - 1 by norm_num]; exact not_naf5_ones)]
    norm_num

end Ed

import Verif.Props.GroupApi
import Verif.Proofs.ScalarMul

/-!
# Properties C40, C41 and C47 outside the documented ranges

`Select` and `isNegativeConstantTime` take a Go `int`, and `SatisfiesCurveEquation` takes elements whose
Z is 0: what they do on **every** argument.
-/

set_option autoImplicit false

namespace Ed
open FE

/-! ## C47 -/

/-- **C47.** `isNegativeConstantTime` on every `int`: bit 8 of the argument, that is 1 exactly when the
argument, reduced modulo 512, lies in [256, 512). -/
theorem C47_negative_all (b : Int64) :
    (256 ≤ b.toInt % 512 → isNegativeConstantTime b = 1) ∧ (b.toInt % 512 < 256 → isNegativeConstantTime b = 0) := by
  rw [isNegativeConstantTime_eq]
  constructor
  · intro h; rw [if_pos (by omega)]
  · intro h; rw [if_neg (by omega)]

example : isNegativeConstantTime 1000 = 1 ∧ isNegativeConstantTime 1025 = 0 := by
  refine ⟨(C47_negative_all 1000).1 ?_, (C47_negative_all 1025).2 ?_⟩ <;> decide

/-! ## C41 -/

namespace GE

/-- `selectLoop` looks at the low byte of the absolute value only. -/
theorem selectLoop_mod (bAbs : Int64) (m : ℕ) (hm : m < 256) (hb : bAbs.toInt % 256 = (m : ℤ)) :
    ∀ (row : List GC) (i : ℕ) (t : GC), i + row.length < 256 →
      selectLoop bAbs row i t = .ok (if i + 1 ≤ m ∧ m ≤ i + row.length then row.getD (m - 1 - i) t else t)
  | [], i, t, _ => by
      rw [selectLoop, if_neg (by simp)]
  | el :: row, i, t, hi => by
      rw [selectLoop, isConstantTimeByteEq_eq, hb]
      rw [List.length_cons] at hi ⊢
      have hf : (Int64.ofInt ((i : ℤ) + 1)).toInt = (i : ℤ) + 1 := toInt_ofInt_of_fits ⟨by omega, by omega⟩
      rw [hf]
      by_cases h : m = i + 1
      · rw [if_pos (by omega), GC.cmov_one, Out.ok_bind, selectLoop_mod bAbs m hm hb row (i + 1) el (by omega),
          if_neg (by omega), if_pos (by omega)]
        have : m - 1 - i = 0 := by omega
        rw [this]; rfl
      · rw [if_neg (by omega), GC.cmov_zero, Out.ok_bind, selectLoop_mod bAbs m hm hb row (i + 1) t (by omega)]
        by_cases h2 : i + 1 + 1 ≤ m ∧ m ≤ i + 1 + row.length
        · rw [if_pos h2, if_pos (by omega)]
          have : m - 1 - i = (m - 1 - (i + 1)) + 1 := by omega
          rw [this]; rfl
        · rw [if_neg h2, if_neg (by omega)]

end GE

theorem Int64.sub_shl_one_mod (b : Int64) : (b - shl b 1).toInt % 256 = -b.toInt % 256 := by
  have h : b - shl b 1 = Int64.ofInt (-b.toInt) := by
    unfold shl
    have hb : b = Int64.ofInt b.toInt := (Int64.ofInt_toInt b).symm
    calc b - Int64.ofInt (b.toInt * 2 ^ 1) = Int64.ofInt b.toInt - Int64.ofInt (b.toInt * 2 ^ 1) := by rw [← hb]
      _ = Int64.ofInt (b.toInt - b.toInt * 2 ^ 1) := (Int64.ofInt_sub _ _).symm
      _ = Int64.ofInt (-b.toInt) := by congr 1; ring
  rw [h, Int64.toInt_ofInt, Int.bmod_def]
  have hsz : ((Int64.size : ℕ) : ℤ) = 18446744073709551616 := by decide
  rw [hsz]
  generalize -b.toInt = x
  split <;> omega

/-- **C41.** `Select(pos, b)` on a precomputed element for **every** `int` b. Only bits 0 to 8 matter. With
r = b mod 512 read as a signed nine-bit number (-256 <= r < 256): r * 256^pos * P when |r| <= 8, and the
neutral element otherwise - with one exception, r = -256, which also gives the neutral element. -/
theorem C41_select_all (g g' : GE) (q : Pt) (hs : g.sys = .p3) (hr : g.toGC.Repr q) (h1 : g.single = none)
    (hp : g.precomputeForScalarMultiplication = .ok g') (pos : ℕ) (hpos : pos < 32) (b : Int64) (r k : ℤ)
    (hk : b.toInt = r + 512 * k) (hr1 : -256 ≤ r) (hr2 : r < 256) :
    ∃ e, g'.select pos b = .ok e ∧ e.sys = .precomputed ∧
      e.Repr (if |r| ≤ 8 then (r * 256 ^ pos) • q else 0) := by
  obtain ⟨g2, e1, -, -, e4⟩ := GE.precomputeSingle_spec hs hr h1
  rw [hp] at e1; cases e1
  obtain ⟨t, ht1, ht2, ht3⟩ := e4
  obtain ⟨row, hw1, hw2, hw3⟩ := ht3 pos hpos
  unfold GE.select
  rw [ht1, isNegativeConstantTime_eq]
  dsimp only [Option.getD]
  have hidx : Out.index t pos = .ok row := by unfold Out.index; rw [hw1]; rfl
  rw [hidx, Out.ok_bind]
  have key : ∀ m : ℕ, ∃ e, (if 0 + 1 ≤ m ∧ m ≤ 0 + 8 then row.getD (m - 1 - 0) .zeroPrecomputed else .zeroPrecomputed) = e ∧
      e.sys = .precomputed ∧ e.Repr (if m ≤ 8 then (m * 256 ^ pos) • q else 0) := by
    intro m
    by_cases h : 0 + 1 ≤ m ∧ m ≤ 0 + 8
    · obtain ⟨e, he1, he2, he3⟩ := hw3 (m - 1) (by omega)
      refine ⟨e, ?_, he2, ?_⟩
      · rw [if_pos h, List.getD_eq_getElem?_getD, Nat.sub_zero, he1]; rfl
      · rw [if_pos (by omega)]
        have : m - 1 + 1 = m := by omega
        rwa [this] at he3
    · refine ⟨_, if_neg h, rfl, ?_⟩
      by_cases h8 : m ≤ 8
      · have : m = 0 := by omega
        rw [if_pos h8, this, Nat.zero_mul, zero_smul]
        exact GC.zeroPrecomputed_repr
      · rw [if_neg h8]; exact GC.zeroPrecomputed_repr
  by_cases hn : r < 0
  · rw [if_pos (show b.toInt / 256 % 2 = 1 by omega)]
    have e1 : (-(1 : Int64)) &&& b = b := by
      apply Int64.toBitVec_inj.1
      have h1 : (-(1 : Int64)).toBitVec = BitVec.allOnes 64 := by decide
      rw [Int64.toBitVec_and, h1, BitVec.allOnes_and]
    rw [e1]
    obtain ⟨m, hm⟩ := Int.eq_ofNat_of_zero_le (show 0 ≤ -r % 256 by omega)
    have hm256 : m < 256 := by omega
    have hmod := Int64.sub_shl_one_mod b
    rw [GE.selectLoop_mod _ m hm256 (by rw [hmod]; omega) row 0 _ (by omega), Out.ok_bind, hw2]
    obtain ⟨e, he, hes, her⟩ := key m
    rw [he]
    have hneg := GC.neg_precomputed hes her
    rw [GC.cmov_one]
    refine ⟨_, rfl, rfl, ?_⟩
    by_cases h8 : |r| ≤ 8
    · have h8' := abs_le.1 h8
      rw [if_pos h8]
      have hrm : r = -(m : ℤ) := by omega
      rw [if_pos (by omega)] at hneg
      have e2 : (r * 256 ^ pos) • q = -((m * 256 ^ pos) • q) := by
        rw [hrm, neg_mul, neg_smul, ← natCast_zsmul]; push_cast; rfl
      rw [e2]; exact hneg
    · rw [if_neg h8]
      have h8' : ¬ (-8 ≤ r) := fun h => h8 (abs_le.2 ⟨h, by omega⟩)
      by_cases hm8 : m ≤ 8
      · have : m = 0 := by omega
        rw [if_pos hm8, this, Nat.zero_mul, zero_smul, neg_zero] at hneg
        exact hneg
      · rw [if_neg hm8, neg_zero] at hneg
        exact hneg
  · rw [if_neg (show ¬ b.toInt / 256 % 2 = 1 by omega)]
    have e1 : (-(0 : Int64)) &&& b = 0 := by
      apply Int64.toBitVec_inj.1
      have h1 : (-(0 : Int64)).toBitVec = 0#64 := by decide
      rw [Int64.toBitVec_and, h1, BitVec.zero_and]; rfl
    have e2 : shl (0 : Int64) 1 = 0 := by decide
    have e3 : b - 0 = b := by rw [sub_ofInt]; simp
    rw [e1, e2, e3]
    obtain ⟨m, hm⟩ := Int.eq_ofNat_of_zero_le (show 0 ≤ r by omega)
    rw [GE.selectLoop_mod _ m (by omega) (by omega) row 0 _ (by omega), Out.ok_bind, hw2]
    obtain ⟨e, he, hes, her⟩ := key m
    rw [he, GC.cmov_zero]
    refine ⟨_, rfl, hes, ?_⟩
    by_cases h8 : |r| ≤ 8
    · have h8' := abs_le.1 h8
      rw [if_pos h8]
      rw [if_pos (by omega)] at her
      have e2 : (r * 256 ^ pos) • q = (m * 256 ^ pos) • q := by
        rw [hm, ← natCast_zsmul]; push_cast; rfl
      rw [e2]; exact her
    · rw [if_neg h8]
      have h8' : ¬ (r ≤ 8) := fun h => h8 (abs_le.2 ⟨by omega, h⟩)
      rw [if_neg (by omega)] at her
      exact her

/-- Every `int` has such an r. -/
theorem exists_nine_bits (b : ℤ) : ∃ r k : ℤ, b = r + 512 * k ∧ -256 ≤ r ∧ r < 256 :=
  ⟨(b + 256) % 512 - 256, (b + 256) / 512, by omega, by omega, by omega⟩

/-- The digit 515 selects the same table entry as 3. -/
example : (515 : Int64).toInt = 3 + 512 * 1 ∧ ∃ g g' : GE, g.sys = .p3 ∧ g.toGC.Repr B ∧ g.single = none ∧
    g.precomputeForScalarMultiplication = .ok g' := by
  refine ⟨by decide, ?_⟩
  obtain ⟨g, hg1, hg2⟩ := exists_repr_sys B .p3 (by decide)
  obtain ⟨k, e1, -⟩ := GE.precomputeSingle_spec (g := GE.ofGC g) hg1 hg2 rfl
  exact ⟨GE.ofGC g, k, hg1, hg2, rfl, e1⟩

/-! ## C40 -/

theorem not_onCurve_zero : ¬ OnCurve (0 : F) 0 := by
  unfold OnCurve
  intro h
  have : (1 : F) = 0 := by linear_combination -h
  exact one_ne_zero this

/-- **C40.** A P2 or P3 element with Z = 0 represents no point and does not satisfy the curve equation,
whatever its X and Y are. -/
theorem C40_zero_z (g : GC) (hs : g.sys = .p2 ∨ g.sys = .p3) (hX : Loose g.X) (hY : Loose g.Y)
    (hZ : Loose g.Z) (hz : g.Z.toF = 0) : g.satisfiesCurveEquation = .ok false := by
  obtain ⟨b, b1, b2⟩ := C40_satisfies_any g hs hX hY hZ
  rw [b1]
  congr 1
  by_contra hb
  have hb : b = true := by simpa using hb
  have := b2.1 hb
  rw [hz, div_zero, div_zero] at this
  exact not_onCurve_zero this

/-- Likewise a P1xP1 element with Z = 0 or T = 0. -/
theorem C40_zero_p1xp1 (g : GC) (t : FE) (hs : g.sys = .p1xp1) (hX : Loose g.X) (hY : Loose g.Y)
    (hZ : Loose g.Z) (hT : g.T = some t) (ht : Loose t) (hz : g.Z.toF = 0 ∨ t.toF = 0) :
    g.satisfiesCurveEquation = .ok false := by
  obtain ⟨x1, x2⟩ := multiply_spec hX ht
  obtain ⟨y1, y2⟩ := multiply_spec hY hZ
  obtain ⟨z1, z2⟩ := multiply_spec hZ ht
  have hz0 : (g.Z.multiply t).toF = 0 := by rw [z2]; exact mul_eq_zero.2 hz
  rw [← C40_zero_z (GC.newP2 (g.X.multiply t) (g.Y.multiply g.Z) (g.Z.multiply t)) (Or.inl rfl)
    x1.loose y1.loose z1.loose hz0]
  unfold GC.satisfiesCurveEquation GC.toP2 GC.toCoordinateSystem
  rw [hs, hT]; rfl

example : (GC.newP2 .one .one .zero).satisfiesCurveEquation = .ok false :=
  C40_zero_z _ (Or.inl rfl) one_red.loose one_red.loose (by unfold Loose Bd; decide)
    (by show FE.zero.toF = 0; have : FE.zero.val = 0 := by decide
        unfold toF; rw [this]; simp)

end Ed

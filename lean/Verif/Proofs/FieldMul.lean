import Verif.Spec.FieldRep
import Verif.Proofs.LimbCheck

/-!
# multiply and square: products (generated by tools/gen_field_proofs.py)
-/

namespace Ed.FE

theorem mul_bound {a b A B : ℤ} (ha : |a| ≤ A) (hb : |b| ≤ B) : -(A * B) ≤ a * b ∧ a * b ≤ A * B := by
  have h : |a * b| ≤ A * B := by
    rw [abs_mul]; exact mul_le_mul ha hb (abs_nonneg _) (le_trans (abs_nonneg _) ha)
  exact abs_le.1 h

theorem mulProducts_0 {f g : FE} (hf : Loose f) (hg : Loose g) :
    (mulProducts f g).r0.toInt = 1 * (f.r0.toInt * g.r0.toInt) + 38 * (f.r1.toInt * g.r9.toInt) + 19 * (f.r2.toInt * g.r8.toInt) + 38 * (f.r3.toInt * g.r7.toInt) + 19 * (f.r4.toInt * g.r6.toInt) + 38 * (f.r5.toInt * g.r5.toInt) + 19 * (f.r6.toInt * g.r4.toInt) + 38 * (f.r7.toInt * g.r3.toInt) + 19 * (f.r8.toInt * g.r2.toInt) + 38 * (f.r9.toInt * g.r1.toInt) ∧
    |(mulProducts f g).r0.toInt| ≤ 1526500696134443485 := by
  have e1 : (mulProducts f g).r0 = Int64.ofInt ((f.r0.toInt * g.r0.toInt) + ((2 * f.r1.toInt) * (19 * g.r9.toInt)) + (f.r2.toInt * (19 * g.r8.toInt)) + ((2 * f.r3.toInt) * (19 * g.r7.toInt)) + (f.r4.toInt * (19 * g.r6.toInt)) + ((2 * f.r5.toInt) * (19 * g.r5.toInt)) + (f.r6.toInt * (19 * g.r4.toInt)) + ((2 * f.r7.toInt) * (19 * g.r3.toInt)) + (f.r8.toInt * (19 * g.r2.toInt)) + ((2 * f.r9.toInt) * (19 * g.r1.toInt))) := by
    simp only [Int64.ofInt_add, Int64.ofInt_mul, Int64.ofInt_toInt]
    rfl
  obtain ⟨f0, f1, f2, f3, f4, f5, f6, f7, f8, f9⟩ := hf
  obtain ⟨g0, g1, g2, g3, g4, g5, g6, g7, g8, g9⟩ := hg
  have b0 := mul_bound f0 g0
  have b1 := mul_bound f1 g9
  have b2 := mul_bound f2 g8
  have b3 := mul_bound f3 g7
  have b4 := mul_bound f4 g6
  have b5 := mul_bound f5 g5
  have b6 := mul_bound f6 g4
  have b7 := mul_bound f7 g3
  have b8 := mul_bound f8 g2
  have b9 := mul_bound f9 g1
  have e2 : (f.r0.toInt * g.r0.toInt) + ((2 * f.r1.toInt) * (19 * g.r9.toInt)) + (f.r2.toInt * (19 * g.r8.toInt)) + ((2 * f.r3.toInt) * (19 * g.r7.toInt)) + (f.r4.toInt * (19 * g.r6.toInt)) + ((2 * f.r5.toInt) * (19 * g.r5.toInt)) + (f.r6.toInt * (19 * g.r4.toInt)) + ((2 * f.r7.toInt) * (19 * g.r3.toInt)) + (f.r8.toInt * (19 * g.r2.toInt)) + ((2 * f.r9.toInt) * (19 * g.r1.toInt)) = 1 * (f.r0.toInt * g.r0.toInt) + 38 * (f.r1.toInt * g.r9.toInt) + 19 * (f.r2.toInt * g.r8.toInt) + 38 * (f.r3.toInt * g.r7.toInt) + 19 * (f.r4.toInt * g.r6.toInt) + 38 * (f.r5.toInt * g.r5.toInt) + 19 * (f.r6.toInt * g.r4.toInt) + 38 * (f.r7.toInt * g.r3.toInt) + 19 * (f.r8.toInt * g.r2.toInt) + 38 * (f.r9.toInt * g.r1.toInt) := by ring
  rw [e1, e2]
  generalize f.r0.toInt * g.r0.toInt = t0 at *
  generalize f.r1.toInt * g.r9.toInt = t1 at *
  generalize f.r2.toInt * g.r8.toInt = t2 at *
  generalize f.r3.toInt * g.r7.toInt = t3 at *
  generalize f.r4.toInt * g.r6.toInt = t4 at *
  generalize f.r5.toInt * g.r5.toInt = t5 at *
  generalize f.r6.toInt * g.r4.toInt = t6 at *
  generalize f.r7.toInt * g.r3.toInt = t7 at *
  generalize f.r8.toInt * g.r2.toInt = t8 at *
  generalize f.r9.toInt * g.r1.toInt = t9 at *
  rw [toInt_ofInt_of_fits (by constructor <;> omega)]
  refine ⟨rfl, abs_le.2 ⟨by omega, by omega⟩⟩

theorem mulProducts_1 {f g : FE} (hf : Loose f) (hg : Loose g) :
    (mulProducts f g).r1.toInt = 1 * (f.r0.toInt * g.r1.toInt) + 1 * (f.r1.toInt * g.r0.toInt) + 19 * (f.r2.toInt * g.r9.toInt) + 19 * (f.r3.toInt * g.r8.toInt) + 19 * (f.r4.toInt * g.r7.toInt) + 19 * (f.r5.toInt * g.r6.toInt) + 19 * (f.r6.toInt * g.r5.toInt) + 19 * (f.r7.toInt * g.r4.toInt) + 19 * (f.r8.toInt * g.r3.toInt) + 19 * (f.r9.toInt * g.r2.toInt) ∧
    |(mulProducts f g).r1.toInt| ≤ 944100830127147000 := by
  have e1 : (mulProducts f g).r1 = Int64.ofInt ((f.r0.toInt * g.r1.toInt) + (f.r1.toInt * g.r0.toInt) + (f.r2.toInt * (19 * g.r9.toInt)) + (f.r3.toInt * (19 * g.r8.toInt)) + (f.r4.toInt * (19 * g.r7.toInt)) + (f.r5.toInt * (19 * g.r6.toInt)) + (f.r6.toInt * (19 * g.r5.toInt)) + (f.r7.toInt * (19 * g.r4.toInt)) + (f.r8.toInt * (19 * g.r3.toInt)) + (f.r9.toInt * (19 * g.r2.toInt))) := by
    simp only [Int64.ofInt_add, Int64.ofInt_mul, Int64.ofInt_toInt]
    rfl
  obtain ⟨f0, f1, f2, f3, f4, f5, f6, f7, f8, f9⟩ := hf
  obtain ⟨g0, g1, g2, g3, g4, g5, g6, g7, g8, g9⟩ := hg
  have b0 := mul_bound f0 g1
  have b1 := mul_bound f1 g0
  have b2 := mul_bound f2 g9
  have b3 := mul_bound f3 g8
  have b4 := mul_bound f4 g7
  have b5 := mul_bound f5 g6
  have b6 := mul_bound f6 g5
  have b7 := mul_bound f7 g4
  have b8 := mul_bound f8 g3
  have b9 := mul_bound f9 g2
  have e2 : (f.r0.toInt * g.r1.toInt) + (f.r1.toInt * g.r0.toInt) + (f.r2.toInt * (19 * g.r9.toInt)) + (f.r3.toInt * (19 * g.r8.toInt)) + (f.r4.toInt * (19 * g.r7.toInt)) + (f.r5.toInt * (19 * g.r6.toInt)) + (f.r6.toInt * (19 * g.r5.toInt)) + (f.r7.toInt * (19 * g.r4.toInt)) + (f.r8.toInt * (19 * g.r3.toInt)) + (f.r9.toInt * (19 * g.r2.toInt)) = 1 * (f.r0.toInt * g.r1.toInt) + 1 * (f.r1.toInt * g.r0.toInt) + 19 * (f.r2.toInt * g.r9.toInt) + 19 * (f.r3.toInt * g.r8.toInt) + 19 * (f.r4.toInt * g.r7.toInt) + 19 * (f.r5.toInt * g.r6.toInt) + 19 * (f.r6.toInt * g.r5.toInt) + 19 * (f.r7.toInt * g.r4.toInt) + 19 * (f.r8.toInt * g.r3.toInt) + 19 * (f.r9.toInt * g.r2.toInt) := by ring
  rw [e1, e2]
  generalize f.r0.toInt * g.r1.toInt = t0 at *
  generalize f.r1.toInt * g.r0.toInt = t1 at *
  generalize f.r2.toInt * g.r9.toInt = t2 at *
  generalize f.r3.toInt * g.r8.toInt = t3 at *
  generalize f.r4.toInt * g.r7.toInt = t4 at *
  generalize f.r5.toInt * g.r6.toInt = t5 at *
  generalize f.r6.toInt * g.r5.toInt = t6 at *
  generalize f.r7.toInt * g.r4.toInt = t7 at *
  generalize f.r8.toInt * g.r3.toInt = t8 at *
  generalize f.r9.toInt * g.r2.toInt = t9 at *
  rw [toInt_ofInt_of_fits (by constructor <;> omega)]
  refine ⟨rfl, abs_le.2 ⟨by omega, by omega⟩⟩

theorem mulProducts_2 {f g : FE} (hf : Loose f) (hg : Loose g) :
    (mulProducts f g).r2.toInt = 1 * (f.r0.toInt * g.r2.toInt) + 2 * (f.r1.toInt * g.r1.toInt) + 1 * (f.r2.toInt * g.r0.toInt) + 38 * (f.r3.toInt * g.r9.toInt) + 19 * (f.r4.toInt * g.r8.toInt) + 38 * (f.r5.toInt * g.r7.toInt) + 19 * (f.r6.toInt * g.r6.toInt) + 38 * (f.r7.toInt * g.r5.toInt) + 19 * (f.r8.toInt * g.r4.toInt) + 38 * (f.r9.toInt * g.r3.toInt) ∧
    |(mulProducts f g).r2.toInt| ≤ 1195452352106279851 := by
  have e1 : (mulProducts f g).r2 = Int64.ofInt ((f.r0.toInt * g.r2.toInt) + ((2 * f.r1.toInt) * g.r1.toInt) + (f.r2.toInt * g.r0.toInt) + ((2 * f.r3.toInt) * (19 * g.r9.toInt)) + (f.r4.toInt * (19 * g.r8.toInt)) + ((2 * f.r5.toInt) * (19 * g.r7.toInt)) + (f.r6.toInt * (19 * g.r6.toInt)) + ((2 * f.r7.toInt) * (19 * g.r5.toInt)) + (f.r8.toInt * (19 * g.r4.toInt)) + ((2 * f.r9.toInt) * (19 * g.r3.toInt))) := by
    simp only [Int64.ofInt_add, Int64.ofInt_mul, Int64.ofInt_toInt]
    rfl
  obtain ⟨f0, f1, f2, f3, f4, f5, f6, f7, f8, f9⟩ := hf
  obtain ⟨g0, g1, g2, g3, g4, g5, g6, g7, g8, g9⟩ := hg
  have b0 := mul_bound f0 g2
  have b1 := mul_bound f1 g1
  have b2 := mul_bound f2 g0
  have b3 := mul_bound f3 g9
  have b4 := mul_bound f4 g8
  have b5 := mul_bound f5 g7
  have b6 := mul_bound f6 g6
  have b7 := mul_bound f7 g5
  have b8 := mul_bound f8 g4
  have b9 := mul_bound f9 g3
  have e2 : (f.r0.toInt * g.r2.toInt) + ((2 * f.r1.toInt) * g.r1.toInt) + (f.r2.toInt * g.r0.toInt) + ((2 * f.r3.toInt) * (19 * g.r9.toInt)) + (f.r4.toInt * (19 * g.r8.toInt)) + ((2 * f.r5.toInt) * (19 * g.r7.toInt)) + (f.r6.toInt * (19 * g.r6.toInt)) + ((2 * f.r7.toInt) * (19 * g.r5.toInt)) + (f.r8.toInt * (19 * g.r4.toInt)) + ((2 * f.r9.toInt) * (19 * g.r3.toInt)) = 1 * (f.r0.toInt * g.r2.toInt) + 2 * (f.r1.toInt * g.r1.toInt) + 1 * (f.r2.toInt * g.r0.toInt) + 38 * (f.r3.toInt * g.r9.toInt) + 19 * (f.r4.toInt * g.r8.toInt) + 38 * (f.r5.toInt * g.r7.toInt) + 19 * (f.r6.toInt * g.r6.toInt) + 38 * (f.r7.toInt * g.r5.toInt) + 19 * (f.r8.toInt * g.r4.toInt) + 38 * (f.r9.toInt * g.r3.toInt) := by ring
  rw [e1, e2]
  generalize f.r0.toInt * g.r2.toInt = t0 at *
  generalize f.r1.toInt * g.r1.toInt = t1 at *
  generalize f.r2.toInt * g.r0.toInt = t2 at *
  generalize f.r3.toInt * g.r9.toInt = t3 at *
  generalize f.r4.toInt * g.r8.toInt = t4 at *
  generalize f.r5.toInt * g.r7.toInt = t5 at *
  generalize f.r6.toInt * g.r6.toInt = t6 at *
  generalize f.r7.toInt * g.r5.toInt = t7 at *
  generalize f.r8.toInt * g.r4.toInt = t8 at *
  generalize f.r9.toInt * g.r3.toInt = t9 at *
  rw [toInt_ofInt_of_fits (by constructor <;> omega)]
  refine ⟨rfl, abs_le.2 ⟨by omega, by omega⟩⟩

theorem mulProducts_3 {f g : FE} (hf : Loose f) (hg : Loose g) :
    (mulProducts f g).r3.toInt = 1 * (f.r0.toInt * g.r3.toInt) + 1 * (f.r1.toInt * g.r2.toInt) + 1 * (f.r2.toInt * g.r1.toInt) + 1 * (f.r3.toInt * g.r0.toInt) + 19 * (f.r4.toInt * g.r9.toInt) + 19 * (f.r5.toInt * g.r8.toInt) + 19 * (f.r6.toInt * g.r7.toInt) + 19 * (f.r7.toInt * g.r6.toInt) + 19 * (f.r8.toInt * g.r5.toInt) + 19 * (f.r9.toInt * g.r4.toInt) ∧
    |(mulProducts f g).r3.toInt| ≤ 723401934772749000 := by
  have e1 : (mulProducts f g).r3 = Int64.ofInt ((f.r0.toInt * g.r3.toInt) + (f.r1.toInt * g.r2.toInt) + (f.r2.toInt * g.r1.toInt) + (f.r3.toInt * g.r0.toInt) + (f.r4.toInt * (19 * g.r9.toInt)) + (f.r5.toInt * (19 * g.r8.toInt)) + (f.r6.toInt * (19 * g.r7.toInt)) + (f.r7.toInt * (19 * g.r6.toInt)) + (f.r8.toInt * (19 * g.r5.toInt)) + (f.r9.toInt * (19 * g.r4.toInt))) := by
    simp only [Int64.ofInt_add, Int64.ofInt_mul, Int64.ofInt_toInt]
    rfl
  obtain ⟨f0, f1, f2, f3, f4, f5, f6, f7, f8, f9⟩ := hf
  obtain ⟨g0, g1, g2, g3, g4, g5, g6, g7, g8, g9⟩ := hg
  have b0 := mul_bound f0 g3
  have b1 := mul_bound f1 g2
  have b2 := mul_bound f2 g1
  have b3 := mul_bound f3 g0
  have b4 := mul_bound f4 g9
  have b5 := mul_bound f5 g8
  have b6 := mul_bound f6 g7
  have b7 := mul_bound f7 g6
  have b8 := mul_bound f8 g5
  have b9 := mul_bound f9 g4
  have e2 : (f.r0.toInt * g.r3.toInt) + (f.r1.toInt * g.r2.toInt) + (f.r2.toInt * g.r1.toInt) + (f.r3.toInt * g.r0.toInt) + (f.r4.toInt * (19 * g.r9.toInt)) + (f.r5.toInt * (19 * g.r8.toInt)) + (f.r6.toInt * (19 * g.r7.toInt)) + (f.r7.toInt * (19 * g.r6.toInt)) + (f.r8.toInt * (19 * g.r5.toInt)) + (f.r9.toInt * (19 * g.r4.toInt)) = 1 * (f.r0.toInt * g.r3.toInt) + 1 * (f.r1.toInt * g.r2.toInt) + 1 * (f.r2.toInt * g.r1.toInt) + 1 * (f.r3.toInt * g.r0.toInt) + 19 * (f.r4.toInt * g.r9.toInt) + 19 * (f.r5.toInt * g.r8.toInt) + 19 * (f.r6.toInt * g.r7.toInt) + 19 * (f.r7.toInt * g.r6.toInt) + 19 * (f.r8.toInt * g.r5.toInt) + 19 * (f.r9.toInt * g.r4.toInt) := by ring
  rw [e1, e2]
  generalize f.r0.toInt * g.r3.toInt = t0 at *
  generalize f.r1.toInt * g.r2.toInt = t1 at *
  generalize f.r2.toInt * g.r1.toInt = t2 at *
  generalize f.r3.toInt * g.r0.toInt = t3 at *
  generalize f.r4.toInt * g.r9.toInt = t4 at *
  generalize f.r5.toInt * g.r8.toInt = t5 at *
  generalize f.r6.toInt * g.r7.toInt = t6 at *
  generalize f.r7.toInt * g.r6.toInt = t7 at *
  generalize f.r8.toInt * g.r5.toInt = t8 at *
  generalize f.r9.toInt * g.r4.toInt = t9 at *
  rw [toInt_ofInt_of_fits (by constructor <;> omega)]
  refine ⟨rfl, abs_le.2 ⟨by omega, by omega⟩⟩

theorem mulProducts_4 {f g : FE} (hf : Loose f) (hg : Loose g) :
    (mulProducts f g).r4.toInt = 1 * (f.r0.toInt * g.r4.toInt) + 2 * (f.r1.toInt * g.r3.toInt) + 1 * (f.r2.toInt * g.r2.toInt) + 2 * (f.r3.toInt * g.r1.toInt) + 1 * (f.r4.toInt * g.r0.toInt) + 38 * (f.r5.toInt * g.r9.toInt) + 19 * (f.r6.toInt * g.r8.toInt) + 38 * (f.r7.toInt * g.r7.toInt) + 19 * (f.r8.toInt * g.r6.toInt) + 38 * (f.r9.toInt * g.r5.toInt) ∧
    |(mulProducts f g).r4.toInt| ≤ 864404008078116217 := by
  have e1 : (mulProducts f g).r4 = Int64.ofInt ((f.r0.toInt * g.r4.toInt) + ((2 * f.r1.toInt) * g.r3.toInt) + (f.r2.toInt * g.r2.toInt) + ((2 * f.r3.toInt) * g.r1.toInt) + (f.r4.toInt * g.r0.toInt) + ((2 * f.r5.toInt) * (19 * g.r9.toInt)) + (f.r6.toInt * (19 * g.r8.toInt)) + ((2 * f.r7.toInt) * (19 * g.r7.toInt)) + (f.r8.toInt * (19 * g.r6.toInt)) + ((2 * f.r9.toInt) * (19 * g.r5.toInt))) := by
    simp only [Int64.ofInt_add, Int64.ofInt_mul, Int64.ofInt_toInt]
    rfl
  obtain ⟨f0, f1, f2, f3, f4, f5, f6, f7, f8, f9⟩ := hf
  obtain ⟨g0, g1, g2, g3, g4, g5, g6, g7, g8, g9⟩ := hg
  have b0 := mul_bound f0 g4
  have b1 := mul_bound f1 g3
  have b2 := mul_bound f2 g2
  have b3 := mul_bound f3 g1
  have b4 := mul_bound f4 g0
  have b5 := mul_bound f5 g9
  have b6 := mul_bound f6 g8
  have b7 := mul_bound f7 g7
  have b8 := mul_bound f8 g6
  have b9 := mul_bound f9 g5
  have e2 : (f.r0.toInt * g.r4.toInt) + ((2 * f.r1.toInt) * g.r3.toInt) + (f.r2.toInt * g.r2.toInt) + ((2 * f.r3.toInt) * g.r1.toInt) + (f.r4.toInt * g.r0.toInt) + ((2 * f.r5.toInt) * (19 * g.r9.toInt)) + (f.r6.toInt * (19 * g.r8.toInt)) + ((2 * f.r7.toInt) * (19 * g.r7.toInt)) + (f.r8.toInt * (19 * g.r6.toInt)) + ((2 * f.r9.toInt) * (19 * g.r5.toInt)) = 1 * (f.r0.toInt * g.r4.toInt) + 2 * (f.r1.toInt * g.r3.toInt) + 1 * (f.r2.toInt * g.r2.toInt) + 2 * (f.r3.toInt * g.r1.toInt) + 1 * (f.r4.toInt * g.r0.toInt) + 38 * (f.r5.toInt * g.r9.toInt) + 19 * (f.r6.toInt * g.r8.toInt) + 38 * (f.r7.toInt * g.r7.toInt) + 19 * (f.r8.toInt * g.r6.toInt) + 38 * (f.r9.toInt * g.r5.toInt) := by ring
  rw [e1, e2]
  generalize f.r0.toInt * g.r4.toInt = t0 at *
  generalize f.r1.toInt * g.r3.toInt = t1 at *
  generalize f.r2.toInt * g.r2.toInt = t2 at *
  generalize f.r3.toInt * g.r1.toInt = t3 at *
  generalize f.r4.toInt * g.r0.toInt = t4 at *
  generalize f.r5.toInt * g.r9.toInt = t5 at *
  generalize f.r6.toInt * g.r8.toInt = t6 at *
  generalize f.r7.toInt * g.r7.toInt = t7 at *
  generalize f.r8.toInt * g.r6.toInt = t8 at *
  generalize f.r9.toInt * g.r5.toInt = t9 at *
  rw [toInt_ofInt_of_fits (by constructor <;> omega)]
  refine ⟨rfl, abs_le.2 ⟨by omega, by omega⟩⟩

theorem mulProducts_5 {f g : FE} (hf : Loose f) (hg : Loose g) :
    (mulProducts f g).r5.toInt = 1 * (f.r0.toInt * g.r5.toInt) + 1 * (f.r1.toInt * g.r4.toInt) + 1 * (f.r2.toInt * g.r3.toInt) + 1 * (f.r3.toInt * g.r2.toInt) + 1 * (f.r4.toInt * g.r1.toInt) + 1 * (f.r5.toInt * g.r0.toInt) + 19 * (f.r6.toInt * g.r9.toInt) + 19 * (f.r7.toInt * g.r8.toInt) + 19 * (f.r8.toInt * g.r7.toInt) + 19 * (f.r9.toInt * g.r6.toInt) ∧
    |(mulProducts f g).r5.toInt| ≤ 502703039418351000 := by
  have e1 : (mulProducts f g).r5 = Int64.ofInt ((f.r0.toInt * g.r5.toInt) + (f.r1.toInt * g.r4.toInt) + (f.r2.toInt * g.r3.toInt) + (f.r3.toInt * g.r2.toInt) + (f.r4.toInt * g.r1.toInt) + (f.r5.toInt * g.r0.toInt) + (f.r6.toInt * (19 * g.r9.toInt)) + (f.r7.toInt * (19 * g.r8.toInt)) + (f.r8.toInt * (19 * g.r7.toInt)) + (f.r9.toInt * (19 * g.r6.toInt))) := by
    simp only [Int64.ofInt_add, Int64.ofInt_mul, Int64.ofInt_toInt]
    rfl
  obtain ⟨f0, f1, f2, f3, f4, f5, f6, f7, f8, f9⟩ := hf
  obtain ⟨g0, g1, g2, g3, g4, g5, g6, g7, g8, g9⟩ := hg
  have b0 := mul_bound f0 g5
  have b1 := mul_bound f1 g4
  have b2 := mul_bound f2 g3
  have b3 := mul_bound f3 g2
  have b4 := mul_bound f4 g1
  have b5 := mul_bound f5 g0
  have b6 := mul_bound f6 g9
  have b7 := mul_bound f7 g8
  have b8 := mul_bound f8 g7
  have b9 := mul_bound f9 g6
  have e2 : (f.r0.toInt * g.r5.toInt) + (f.r1.toInt * g.r4.toInt) + (f.r2.toInt * g.r3.toInt) + (f.r3.toInt * g.r2.toInt) + (f.r4.toInt * g.r1.toInt) + (f.r5.toInt * g.r0.toInt) + (f.r6.toInt * (19 * g.r9.toInt)) + (f.r7.toInt * (19 * g.r8.toInt)) + (f.r8.toInt * (19 * g.r7.toInt)) + (f.r9.toInt * (19 * g.r6.toInt)) = 1 * (f.r0.toInt * g.r5.toInt) + 1 * (f.r1.toInt * g.r4.toInt) + 1 * (f.r2.toInt * g.r3.toInt) + 1 * (f.r3.toInt * g.r2.toInt) + 1 * (f.r4.toInt * g.r1.toInt) + 1 * (f.r5.toInt * g.r0.toInt) + 19 * (f.r6.toInt * g.r9.toInt) + 19 * (f.r7.toInt * g.r8.toInt) + 19 * (f.r8.toInt * g.r7.toInt) + 19 * (f.r9.toInt * g.r6.toInt) := by ring
  rw [e1, e2]
  generalize f.r0.toInt * g.r5.toInt = t0 at *
  generalize f.r1.toInt * g.r4.toInt = t1 at *
  generalize f.r2.toInt * g.r3.toInt = t2 at *
  generalize f.r3.toInt * g.r2.toInt = t3 at *
  generalize f.r4.toInt * g.r1.toInt = t4 at *
  generalize f.r5.toInt * g.r0.toInt = t5 at *
  generalize f.r6.toInt * g.r9.toInt = t6 at *
  generalize f.r7.toInt * g.r8.toInt = t7 at *
  generalize f.r8.toInt * g.r7.toInt = t8 at *
  generalize f.r9.toInt * g.r6.toInt = t9 at *
  rw [toInt_ofInt_of_fits (by constructor <;> omega)]
  refine ⟨rfl, abs_le.2 ⟨by omega, by omega⟩⟩

theorem mulProducts_6 {f g : FE} (hf : Loose f) (hg : Loose g) :
    (mulProducts f g).r6.toInt = 1 * (f.r0.toInt * g.r6.toInt) + 2 * (f.r1.toInt * g.r5.toInt) + 1 * (f.r2.toInt * g.r4.toInt) + 2 * (f.r3.toInt * g.r3.toInt) + 1 * (f.r4.toInt * g.r2.toInt) + 2 * (f.r5.toInt * g.r1.toInt) + 1 * (f.r6.toInt * g.r0.toInt) + 38 * (f.r7.toInt * g.r9.toInt) + 19 * (f.r8.toInt * g.r8.toInt) + 38 * (f.r9.toInt * g.r7.toInt) ∧
    |(mulProducts f g).r6.toInt| ≤ 533355664049952583 := by
  have e1 : (mulProducts f g).r6 = Int64.ofInt ((f.r0.toInt * g.r6.toInt) + ((2 * f.r1.toInt) * g.r5.toInt) + (f.r2.toInt * g.r4.toInt) + ((2 * f.r3.toInt) * g.r3.toInt) + (f.r4.toInt * g.r2.toInt) + ((2 * f.r5.toInt) * g.r1.toInt) + (f.r6.toInt * g.r0.toInt) + ((2 * f.r7.toInt) * (19 * g.r9.toInt)) + (f.r8.toInt * (19 * g.r8.toInt)) + ((2 * f.r9.toInt) * (19 * g.r7.toInt))) := by
    simp only [Int64.ofInt_add, Int64.ofInt_mul, Int64.ofInt_toInt]
    rfl
  obtain ⟨f0, f1, f2, f3, f4, f5, f6, f7, f8, f9⟩ := hf
  obtain ⟨g0, g1, g2, g3, g4, g5, g6, g7, g8, g9⟩ := hg
  have b0 := mul_bound f0 g6
  have b1 := mul_bound f1 g5
  have b2 := mul_bound f2 g4
  have b3 := mul_bound f3 g3
  have b4 := mul_bound f4 g2
  have b5 := mul_bound f5 g1
  have b6 := mul_bound f6 g0
  have b7 := mul_bound f7 g9
  have b8 := mul_bound f8 g8
  have b9 := mul_bound f9 g7
  have e2 : (f.r0.toInt * g.r6.toInt) + ((2 * f.r1.toInt) * g.r5.toInt) + (f.r2.toInt * g.r4.toInt) + ((2 * f.r3.toInt) * g.r3.toInt) + (f.r4.toInt * g.r2.toInt) + ((2 * f.r5.toInt) * g.r1.toInt) + (f.r6.toInt * g.r0.toInt) + ((2 * f.r7.toInt) * (19 * g.r9.toInt)) + (f.r8.toInt * (19 * g.r8.toInt)) + ((2 * f.r9.toInt) * (19 * g.r7.toInt)) = 1 * (f.r0.toInt * g.r6.toInt) + 2 * (f.r1.toInt * g.r5.toInt) + 1 * (f.r2.toInt * g.r4.toInt) + 2 * (f.r3.toInt * g.r3.toInt) + 1 * (f.r4.toInt * g.r2.toInt) + 2 * (f.r5.toInt * g.r1.toInt) + 1 * (f.r6.toInt * g.r0.toInt) + 38 * (f.r7.toInt * g.r9.toInt) + 19 * (f.r8.toInt * g.r8.toInt) + 38 * (f.r9.toInt * g.r7.toInt) := by ring
  rw [e1, e2]
  generalize f.r0.toInt * g.r6.toInt = t0 at *
  generalize f.r1.toInt * g.r5.toInt = t1 at *
  generalize f.r2.toInt * g.r4.toInt = t2 at *
  generalize f.r3.toInt * g.r3.toInt = t3 at *
  generalize f.r4.toInt * g.r2.toInt = t4 at *
  generalize f.r5.toInt * g.r1.toInt = t5 at *
  generalize f.r6.toInt * g.r0.toInt = t6 at *
  generalize f.r7.toInt * g.r9.toInt = t7 at *
  generalize f.r8.toInt * g.r8.toInt = t8 at *
  generalize f.r9.toInt * g.r7.toInt = t9 at *
  rw [toInt_ofInt_of_fits (by constructor <;> omega)]
  refine ⟨rfl, abs_le.2 ⟨by omega, by omega⟩⟩

theorem mulProducts_7 {f g : FE} (hf : Loose f) (hg : Loose g) :
    (mulProducts f g).r7.toInt = 1 * (f.r0.toInt * g.r7.toInt) + 1 * (f.r1.toInt * g.r6.toInt) + 1 * (f.r2.toInt * g.r5.toInt) + 1 * (f.r3.toInt * g.r4.toInt) + 1 * (f.r4.toInt * g.r3.toInt) + 1 * (f.r5.toInt * g.r2.toInt) + 1 * (f.r6.toInt * g.r1.toInt) + 1 * (f.r7.toInt * g.r0.toInt) + 19 * (f.r8.toInt * g.r9.toInt) + 19 * (f.r9.toInt * g.r8.toInt) ∧
    |(mulProducts f g).r7.toInt| ≤ 282004144063953000 := by
  have e1 : (mulProducts f g).r7 = Int64.ofInt ((f.r0.toInt * g.r7.toInt) + (f.r1.toInt * g.r6.toInt) + (f.r2.toInt * g.r5.toInt) + (f.r3.toInt * g.r4.toInt) + (f.r4.toInt * g.r3.toInt) + (f.r5.toInt * g.r2.toInt) + (f.r6.toInt * g.r1.toInt) + (f.r7.toInt * g.r0.toInt) + (f.r8.toInt * (19 * g.r9.toInt)) + (f.r9.toInt * (19 * g.r8.toInt))) := by
    simp only [Int64.ofInt_add, Int64.ofInt_mul, Int64.ofInt_toInt]
    rfl
  obtain ⟨f0, f1, f2, f3, f4, f5, f6, f7, f8, f9⟩ := hf
  obtain ⟨g0, g1, g2, g3, g4, g5, g6, g7, g8, g9⟩ := hg
  have b0 := mul_bound f0 g7
  have b1 := mul_bound f1 g6
  have b2 := mul_bound f2 g5
  have b3 := mul_bound f3 g4
  have b4 := mul_bound f4 g3
  have b5 := mul_bound f5 g2
  have b6 := mul_bound f6 g1
  have b7 := mul_bound f7 g0
  have b8 := mul_bound f8 g9
  have b9 := mul_bound f9 g8
  have e2 : (f.r0.toInt * g.r7.toInt) + (f.r1.toInt * g.r6.toInt) + (f.r2.toInt * g.r5.toInt) + (f.r3.toInt * g.r4.toInt) + (f.r4.toInt * g.r3.toInt) + (f.r5.toInt * g.r2.toInt) + (f.r6.toInt * g.r1.toInt) + (f.r7.toInt * g.r0.toInt) + (f.r8.toInt * (19 * g.r9.toInt)) + (f.r9.toInt * (19 * g.r8.toInt)) = 1 * (f.r0.toInt * g.r7.toInt) + 1 * (f.r1.toInt * g.r6.toInt) + 1 * (f.r2.toInt * g.r5.toInt) + 1 * (f.r3.toInt * g.r4.toInt) + 1 * (f.r4.toInt * g.r3.toInt) + 1 * (f.r5.toInt * g.r2.toInt) + 1 * (f.r6.toInt * g.r1.toInt) + 1 * (f.r7.toInt * g.r0.toInt) + 19 * (f.r8.toInt * g.r9.toInt) + 19 * (f.r9.toInt * g.r8.toInt) := by ring
  rw [e1, e2]
  generalize f.r0.toInt * g.r7.toInt = t0 at *
  generalize f.r1.toInt * g.r6.toInt = t1 at *
  generalize f.r2.toInt * g.r5.toInt = t2 at *
  generalize f.r3.toInt * g.r4.toInt = t3 at *
  generalize f.r4.toInt * g.r3.toInt = t4 at *
  generalize f.r5.toInt * g.r2.toInt = t5 at *
  generalize f.r6.toInt * g.r1.toInt = t6 at *
  generalize f.r7.toInt * g.r0.toInt = t7 at *
  generalize f.r8.toInt * g.r9.toInt = t8 at *
  generalize f.r9.toInt * g.r8.toInt = t9 at *
  rw [toInt_ofInt_of_fits (by constructor <;> omega)]
  refine ⟨rfl, abs_le.2 ⟨by omega, by omega⟩⟩

theorem mulProducts_8 {f g : FE} (hf : Loose f) (hg : Loose g) :
    (mulProducts f g).r8.toInt = 1 * (f.r0.toInt * g.r8.toInt) + 2 * (f.r1.toInt * g.r7.toInt) + 1 * (f.r2.toInt * g.r6.toInt) + 2 * (f.r3.toInt * g.r5.toInt) + 1 * (f.r4.toInt * g.r4.toInt) + 2 * (f.r5.toInt * g.r3.toInt) + 1 * (f.r6.toInt * g.r2.toInt) + 2 * (f.r7.toInt * g.r1.toInt) + 1 * (f.r8.toInt * g.r0.toInt) + 38 * (f.r9.toInt * g.r9.toInt) ∧
    |(mulProducts f g).r8.toInt| ≤ 202307320021788949 := by
  have e1 : (mulProducts f g).r8 = Int64.ofInt ((f.r0.toInt * g.r8.toInt) + ((2 * f.r1.toInt) * g.r7.toInt) + (f.r2.toInt * g.r6.toInt) + ((2 * f.r3.toInt) * g.r5.toInt) + (f.r4.toInt * g.r4.toInt) + ((2 * f.r5.toInt) * g.r3.toInt) + (f.r6.toInt * g.r2.toInt) + ((2 * f.r7.toInt) * g.r1.toInt) + (f.r8.toInt * g.r0.toInt) + ((2 * f.r9.toInt) * (19 * g.r9.toInt))) := by
    simp only [Int64.ofInt_add, Int64.ofInt_mul, Int64.ofInt_toInt]
    rfl
  obtain ⟨f0, f1, f2, f3, f4, f5, f6, f7, f8, f9⟩ := hf
  obtain ⟨g0, g1, g2, g3, g4, g5, g6, g7, g8, g9⟩ := hg
  have b0 := mul_bound f0 g8
  have b1 := mul_bound f1 g7
  have b2 := mul_bound f2 g6
  have b3 := mul_bound f3 g5
  have b4 := mul_bound f4 g4
  have b5 := mul_bound f5 g3
  have b6 := mul_bound f6 g2
  have b7 := mul_bound f7 g1
  have b8 := mul_bound f8 g0
  have b9 := mul_bound f9 g9
  have e2 : (f.r0.toInt * g.r8.toInt) + ((2 * f.r1.toInt) * g.r7.toInt) + (f.r2.toInt * g.r6.toInt) + ((2 * f.r3.toInt) * g.r5.toInt) + (f.r4.toInt * g.r4.toInt) + ((2 * f.r5.toInt) * g.r3.toInt) + (f.r6.toInt * g.r2.toInt) + ((2 * f.r7.toInt) * g.r1.toInt) + (f.r8.toInt * g.r0.toInt) + ((2 * f.r9.toInt) * (19 * g.r9.toInt)) = 1 * (f.r0.toInt * g.r8.toInt) + 2 * (f.r1.toInt * g.r7.toInt) + 1 * (f.r2.toInt * g.r6.toInt) + 2 * (f.r3.toInt * g.r5.toInt) + 1 * (f.r4.toInt * g.r4.toInt) + 2 * (f.r5.toInt * g.r3.toInt) + 1 * (f.r6.toInt * g.r2.toInt) + 2 * (f.r7.toInt * g.r1.toInt) + 1 * (f.r8.toInt * g.r0.toInt) + 38 * (f.r9.toInt * g.r9.toInt) := by ring
  rw [e1, e2]
  generalize f.r0.toInt * g.r8.toInt = t0 at *
  generalize f.r1.toInt * g.r7.toInt = t1 at *
  generalize f.r2.toInt * g.r6.toInt = t2 at *
  generalize f.r3.toInt * g.r5.toInt = t3 at *
  generalize f.r4.toInt * g.r4.toInt = t4 at *
  generalize f.r5.toInt * g.r3.toInt = t5 at *
  generalize f.r6.toInt * g.r2.toInt = t6 at *
  generalize f.r7.toInt * g.r1.toInt = t7 at *
  generalize f.r8.toInt * g.r0.toInt = t8 at *
  generalize f.r9.toInt * g.r9.toInt = t9 at *
  rw [toInt_ofInt_of_fits (by constructor <;> omega)]
  refine ⟨rfl, abs_le.2 ⟨by omega, by omega⟩⟩

theorem mulProducts_9 {f g : FE} (hf : Loose f) (hg : Loose g) :
    (mulProducts f g).r9.toInt = 1 * (f.r0.toInt * g.r9.toInt) + 1 * (f.r1.toInt * g.r8.toInt) + 1 * (f.r2.toInt * g.r7.toInt) + 1 * (f.r3.toInt * g.r6.toInt) + 1 * (f.r4.toInt * g.r5.toInt) + 1 * (f.r5.toInt * g.r4.toInt) + 1 * (f.r6.toInt * g.r3.toInt) + 1 * (f.r7.toInt * g.r2.toInt) + 1 * (f.r8.toInt * g.r1.toInt) + 1 * (f.r9.toInt * g.r0.toInt) ∧
    |(mulProducts f g).r9.toInt| ≤ 61305248709555000 := by
  have e1 : (mulProducts f g).r9 = Int64.ofInt ((f.r0.toInt * g.r9.toInt) + (f.r1.toInt * g.r8.toInt) + (f.r2.toInt * g.r7.toInt) + (f.r3.toInt * g.r6.toInt) + (f.r4.toInt * g.r5.toInt) + (f.r5.toInt * g.r4.toInt) + (f.r6.toInt * g.r3.toInt) + (f.r7.toInt * g.r2.toInt) + (f.r8.toInt * g.r1.toInt) + (f.r9.toInt * g.r0.toInt)) := by
    simp only [Int64.ofInt_add, Int64.ofInt_mul, Int64.ofInt_toInt]
    rfl
  obtain ⟨f0, f1, f2, f3, f4, f5, f6, f7, f8, f9⟩ := hf
  obtain ⟨g0, g1, g2, g3, g4, g5, g6, g7, g8, g9⟩ := hg
  have b0 := mul_bound f0 g9
  have b1 := mul_bound f1 g8
  have b2 := mul_bound f2 g7
  have b3 := mul_bound f3 g6
  have b4 := mul_bound f4 g5
  have b5 := mul_bound f5 g4
  have b6 := mul_bound f6 g3
  have b7 := mul_bound f7 g2
  have b8 := mul_bound f8 g1
  have b9 := mul_bound f9 g0
  have e2 : (f.r0.toInt * g.r9.toInt) + (f.r1.toInt * g.r8.toInt) + (f.r2.toInt * g.r7.toInt) + (f.r3.toInt * g.r6.toInt) + (f.r4.toInt * g.r5.toInt) + (f.r5.toInt * g.r4.toInt) + (f.r6.toInt * g.r3.toInt) + (f.r7.toInt * g.r2.toInt) + (f.r8.toInt * g.r1.toInt) + (f.r9.toInt * g.r0.toInt) = 1 * (f.r0.toInt * g.r9.toInt) + 1 * (f.r1.toInt * g.r8.toInt) + 1 * (f.r2.toInt * g.r7.toInt) + 1 * (f.r3.toInt * g.r6.toInt) + 1 * (f.r4.toInt * g.r5.toInt) + 1 * (f.r5.toInt * g.r4.toInt) + 1 * (f.r6.toInt * g.r3.toInt) + 1 * (f.r7.toInt * g.r2.toInt) + 1 * (f.r8.toInt * g.r1.toInt) + 1 * (f.r9.toInt * g.r0.toInt) := by ring
  rw [e1, e2]
  generalize f.r0.toInt * g.r9.toInt = t0 at *
  generalize f.r1.toInt * g.r8.toInt = t1 at *
  generalize f.r2.toInt * g.r7.toInt = t2 at *
  generalize f.r3.toInt * g.r6.toInt = t3 at *
  generalize f.r4.toInt * g.r5.toInt = t4 at *
  generalize f.r5.toInt * g.r4.toInt = t5 at *
  generalize f.r6.toInt * g.r3.toInt = t6 at *
  generalize f.r7.toInt * g.r2.toInt = t7 at *
  generalize f.r8.toInt * g.r1.toInt = t8 at *
  generalize f.r9.toInt * g.r0.toInt = t9 at *
  rw [toInt_ofInt_of_fits (by constructor <;> omega)]
  refine ⟨rfl, abs_le.2 ⟨by omega, by omega⟩⟩

theorem sqProducts_0 {f : FE} (hf : Loose f) :
    (sqProducts f).r0.toInt = 1 * (f.r0.toInt * f.r0.toInt) + 38 * (f.r1.toInt * f.r9.toInt) + 19 * (f.r2.toInt * f.r8.toInt) + 38 * (f.r3.toInt * f.r7.toInt) + 19 * (f.r4.toInt * f.r6.toInt) + 38 * (f.r5.toInt * f.r5.toInt) + 19 * (f.r6.toInt * f.r4.toInt) + 38 * (f.r7.toInt * f.r3.toInt) + 19 * (f.r8.toInt * f.r2.toInt) + 38 * (f.r9.toInt * f.r1.toInt) ∧
    |(sqProducts f).r0.toInt| ≤ 1526500696134443485 := by
  have e1 : (sqProducts f).r0 = Int64.ofInt ((f.r0.toInt * f.r0.toInt) + ((2 * f.r1.toInt) * (38 * f.r9.toInt)) + ((2 * f.r2.toInt) * (19 * f.r8.toInt)) + ((2 * f.r3.toInt) * (38 * f.r7.toInt)) + ((2 * f.r4.toInt) * (19 * f.r6.toInt)) + (f.r5.toInt * (38 * f.r5.toInt))) := by
    simp only [Int64.ofInt_add, Int64.ofInt_mul, Int64.ofInt_toInt]
    rfl
  obtain ⟨f0, f1, f2, f3, f4, f5, f6, f7, f8, f9⟩ := hf
  have b0 := mul_bound f0 f0
  have b1 := mul_bound f1 f9
  have b2 := mul_bound f2 f8
  have b3 := mul_bound f3 f7
  have b4 := mul_bound f4 f6
  have b5 := mul_bound f5 f5
  have b6 := mul_bound f6 f4
  have b7 := mul_bound f7 f3
  have b8 := mul_bound f8 f2
  have b9 := mul_bound f9 f1
  have e2 : (f.r0.toInt * f.r0.toInt) + ((2 * f.r1.toInt) * (38 * f.r9.toInt)) + ((2 * f.r2.toInt) * (19 * f.r8.toInt)) + ((2 * f.r3.toInt) * (38 * f.r7.toInt)) + ((2 * f.r4.toInt) * (19 * f.r6.toInt)) + (f.r5.toInt * (38 * f.r5.toInt)) = 1 * (f.r0.toInt * f.r0.toInt) + 38 * (f.r1.toInt * f.r9.toInt) + 19 * (f.r2.toInt * f.r8.toInt) + 38 * (f.r3.toInt * f.r7.toInt) + 19 * (f.r4.toInt * f.r6.toInt) + 38 * (f.r5.toInt * f.r5.toInt) + 19 * (f.r6.toInt * f.r4.toInt) + 38 * (f.r7.toInt * f.r3.toInt) + 19 * (f.r8.toInt * f.r2.toInt) + 38 * (f.r9.toInt * f.r1.toInt) := by ring
  rw [e1, e2]
  generalize f.r0.toInt * f.r0.toInt = t0 at *
  generalize f.r1.toInt * f.r9.toInt = t1 at *
  generalize f.r2.toInt * f.r8.toInt = t2 at *
  generalize f.r3.toInt * f.r7.toInt = t3 at *
  generalize f.r4.toInt * f.r6.toInt = t4 at *
  generalize f.r5.toInt * f.r5.toInt = t5 at *
  generalize f.r6.toInt * f.r4.toInt = t6 at *
  generalize f.r7.toInt * f.r3.toInt = t7 at *
  generalize f.r8.toInt * f.r2.toInt = t8 at *
  generalize f.r9.toInt * f.r1.toInt = t9 at *
  rw [toInt_ofInt_of_fits (by constructor <;> omega)]
  refine ⟨rfl, abs_le.2 ⟨by omega, by omega⟩⟩

theorem sqProducts_1 {f : FE} (hf : Loose f) :
    (sqProducts f).r1.toInt = 1 * (f.r0.toInt * f.r1.toInt) + 1 * (f.r1.toInt * f.r0.toInt) + 19 * (f.r2.toInt * f.r9.toInt) + 19 * (f.r3.toInt * f.r8.toInt) + 19 * (f.r4.toInt * f.r7.toInt) + 19 * (f.r5.toInt * f.r6.toInt) + 19 * (f.r6.toInt * f.r5.toInt) + 19 * (f.r7.toInt * f.r4.toInt) + 19 * (f.r8.toInt * f.r3.toInt) + 19 * (f.r9.toInt * f.r2.toInt) ∧
    |(sqProducts f).r1.toInt| ≤ 944100830127147000 := by
  have e1 : (sqProducts f).r1 = Int64.ofInt (((2 * f.r0.toInt) * f.r1.toInt) + (f.r2.toInt * (38 * f.r9.toInt)) + ((2 * f.r3.toInt) * (19 * f.r8.toInt)) + (f.r4.toInt * (38 * f.r7.toInt)) + ((2 * f.r5.toInt) * (19 * f.r6.toInt))) := by
    simp only [Int64.ofInt_add, Int64.ofInt_mul, Int64.ofInt_toInt]
    rfl
  obtain ⟨f0, f1, f2, f3, f4, f5, f6, f7, f8, f9⟩ := hf
  have b0 := mul_bound f0 f1
  have b1 := mul_bound f1 f0
  have b2 := mul_bound f2 f9
  have b3 := mul_bound f3 f8
  have b4 := mul_bound f4 f7
  have b5 := mul_bound f5 f6
  have b6 := mul_bound f6 f5
  have b7 := mul_bound f7 f4
  have b8 := mul_bound f8 f3
  have b9 := mul_bound f9 f2
  have e2 : ((2 * f.r0.toInt) * f.r1.toInt) + (f.r2.toInt * (38 * f.r9.toInt)) + ((2 * f.r3.toInt) * (19 * f.r8.toInt)) + (f.r4.toInt * (38 * f.r7.toInt)) + ((2 * f.r5.toInt) * (19 * f.r6.toInt)) = 1 * (f.r0.toInt * f.r1.toInt) + 1 * (f.r1.toInt * f.r0.toInt) + 19 * (f.r2.toInt * f.r9.toInt) + 19 * (f.r3.toInt * f.r8.toInt) + 19 * (f.r4.toInt * f.r7.toInt) + 19 * (f.r5.toInt * f.r6.toInt) + 19 * (f.r6.toInt * f.r5.toInt) + 19 * (f.r7.toInt * f.r4.toInt) + 19 * (f.r8.toInt * f.r3.toInt) + 19 * (f.r9.toInt * f.r2.toInt) := by ring
  rw [e1, e2]
  generalize f.r0.toInt * f.r1.toInt = t0 at *
  generalize f.r1.toInt * f.r0.toInt = t1 at *
  generalize f.r2.toInt * f.r9.toInt = t2 at *
  generalize f.r3.toInt * f.r8.toInt = t3 at *
  generalize f.r4.toInt * f.r7.toInt = t4 at *
  generalize f.r5.toInt * f.r6.toInt = t5 at *
  generalize f.r6.toInt * f.r5.toInt = t6 at *
  generalize f.r7.toInt * f.r4.toInt = t7 at *
  generalize f.r8.toInt * f.r3.toInt = t8 at *
  generalize f.r9.toInt * f.r2.toInt = t9 at *
  rw [toInt_ofInt_of_fits (by constructor <;> omega)]
  refine ⟨rfl, abs_le.2 ⟨by omega, by omega⟩⟩

theorem sqProducts_2 {f : FE} (hf : Loose f) :
    (sqProducts f).r2.toInt = 1 * (f.r0.toInt * f.r2.toInt) + 2 * (f.r1.toInt * f.r1.toInt) + 1 * (f.r2.toInt * f.r0.toInt) + 38 * (f.r3.toInt * f.r9.toInt) + 19 * (f.r4.toInt * f.r8.toInt) + 38 * (f.r5.toInt * f.r7.toInt) + 19 * (f.r6.toInt * f.r6.toInt) + 38 * (f.r7.toInt * f.r5.toInt) + 19 * (f.r8.toInt * f.r4.toInt) + 38 * (f.r9.toInt * f.r3.toInt) ∧
    |(sqProducts f).r2.toInt| ≤ 1195452352106279851 := by
  have e1 : (sqProducts f).r2 = Int64.ofInt (((2 * f.r0.toInt) * f.r2.toInt) + ((2 * f.r1.toInt) * f.r1.toInt) + ((2 * f.r3.toInt) * (38 * f.r9.toInt)) + ((2 * f.r4.toInt) * (19 * f.r8.toInt)) + ((2 * f.r5.toInt) * (38 * f.r7.toInt)) + (f.r6.toInt * (19 * f.r6.toInt))) := by
    simp only [Int64.ofInt_add, Int64.ofInt_mul, Int64.ofInt_toInt]
    rfl
  obtain ⟨f0, f1, f2, f3, f4, f5, f6, f7, f8, f9⟩ := hf
  have b0 := mul_bound f0 f2
  have b1 := mul_bound f1 f1
  have b2 := mul_bound f2 f0
  have b3 := mul_bound f3 f9
  have b4 := mul_bound f4 f8
  have b5 := mul_bound f5 f7
  have b6 := mul_bound f6 f6
  have b7 := mul_bound f7 f5
  have b8 := mul_bound f8 f4
  have b9 := mul_bound f9 f3
  have e2 : ((2 * f.r0.toInt) * f.r2.toInt) + ((2 * f.r1.toInt) * f.r1.toInt) + ((2 * f.r3.toInt) * (38 * f.r9.toInt)) + ((2 * f.r4.toInt) * (19 * f.r8.toInt)) + ((2 * f.r5.toInt) * (38 * f.r7.toInt)) + (f.r6.toInt * (19 * f.r6.toInt)) = 1 * (f.r0.toInt * f.r2.toInt) + 2 * (f.r1.toInt * f.r1.toInt) + 1 * (f.r2.toInt * f.r0.toInt) + 38 * (f.r3.toInt * f.r9.toInt) + 19 * (f.r4.toInt * f.r8.toInt) + 38 * (f.r5.toInt * f.r7.toInt) + 19 * (f.r6.toInt * f.r6.toInt) + 38 * (f.r7.toInt * f.r5.toInt) + 19 * (f.r8.toInt * f.r4.toInt) + 38 * (f.r9.toInt * f.r3.toInt) := by ring
  rw [e1, e2]
  generalize f.r0.toInt * f.r2.toInt = t0 at *
  generalize f.r1.toInt * f.r1.toInt = t1 at *
  generalize f.r2.toInt * f.r0.toInt = t2 at *
  generalize f.r3.toInt * f.r9.toInt = t3 at *
  generalize f.r4.toInt * f.r8.toInt = t4 at *
  generalize f.r5.toInt * f.r7.toInt = t5 at *
  generalize f.r6.toInt * f.r6.toInt = t6 at *
  generalize f.r7.toInt * f.r5.toInt = t7 at *
  generalize f.r8.toInt * f.r4.toInt = t8 at *
  generalize f.r9.toInt * f.r3.toInt = t9 at *
  rw [toInt_ofInt_of_fits (by constructor <;> omega)]
  refine ⟨rfl, abs_le.2 ⟨by omega, by omega⟩⟩

theorem sqProducts_3 {f : FE} (hf : Loose f) :
    (sqProducts f).r3.toInt = 1 * (f.r0.toInt * f.r3.toInt) + 1 * (f.r1.toInt * f.r2.toInt) + 1 * (f.r2.toInt * f.r1.toInt) + 1 * (f.r3.toInt * f.r0.toInt) + 19 * (f.r4.toInt * f.r9.toInt) + 19 * (f.r5.toInt * f.r8.toInt) + 19 * (f.r6.toInt * f.r7.toInt) + 19 * (f.r7.toInt * f.r6.toInt) + 19 * (f.r8.toInt * f.r5.toInt) + 19 * (f.r9.toInt * f.r4.toInt) ∧
    |(sqProducts f).r3.toInt| ≤ 723401934772749000 := by
  have e1 : (sqProducts f).r3 = Int64.ofInt (((2 * f.r0.toInt) * f.r3.toInt) + ((2 * f.r1.toInt) * f.r2.toInt) + (f.r4.toInt * (38 * f.r9.toInt)) + ((2 * f.r5.toInt) * (19 * f.r8.toInt)) + (f.r6.toInt * (38 * f.r7.toInt))) := by
    simp only [Int64.ofInt_add, Int64.ofInt_mul, Int64.ofInt_toInt]
    rfl
  obtain ⟨f0, f1, f2, f3, f4, f5, f6, f7, f8, f9⟩ := hf
  have b0 := mul_bound f0 f3
  have b1 := mul_bound f1 f2
  have b2 := mul_bound f2 f1
  have b3 := mul_bound f3 f0
  have b4 := mul_bound f4 f9
  have b5 := mul_bound f5 f8
  have b6 := mul_bound f6 f7
  have b7 := mul_bound f7 f6
  have b8 := mul_bound f8 f5
  have b9 := mul_bound f9 f4
  have e2 : ((2 * f.r0.toInt) * f.r3.toInt) + ((2 * f.r1.toInt) * f.r2.toInt) + (f.r4.toInt * (38 * f.r9.toInt)) + ((2 * f.r5.toInt) * (19 * f.r8.toInt)) + (f.r6.toInt * (38 * f.r7.toInt)) = 1 * (f.r0.toInt * f.r3.toInt) + 1 * (f.r1.toInt * f.r2.toInt) + 1 * (f.r2.toInt * f.r1.toInt) + 1 * (f.r3.toInt * f.r0.toInt) + 19 * (f.r4.toInt * f.r9.toInt) + 19 * (f.r5.toInt * f.r8.toInt) + 19 * (f.r6.toInt * f.r7.toInt) + 19 * (f.r7.toInt * f.r6.toInt) + 19 * (f.r8.toInt * f.r5.toInt) + 19 * (f.r9.toInt * f.r4.toInt) := by ring
  rw [e1, e2]
  generalize f.r0.toInt * f.r3.toInt = t0 at *
  generalize f.r1.toInt * f.r2.toInt = t1 at *
  generalize f.r2.toInt * f.r1.toInt = t2 at *
  generalize f.r3.toInt * f.r0.toInt = t3 at *
  generalize f.r4.toInt * f.r9.toInt = t4 at *
  generalize f.r5.toInt * f.r8.toInt = t5 at *
  generalize f.r6.toInt * f.r7.toInt = t6 at *
  generalize f.r7.toInt * f.r6.toInt = t7 at *
  generalize f.r8.toInt * f.r5.toInt = t8 at *
  generalize f.r9.toInt * f.r4.toInt = t9 at *
  rw [toInt_ofInt_of_fits (by constructor <;> omega)]
  refine ⟨rfl, abs_le.2 ⟨by omega, by omega⟩⟩

theorem sqProducts_4 {f : FE} (hf : Loose f) :
    (sqProducts f).r4.toInt = 1 * (f.r0.toInt * f.r4.toInt) + 2 * (f.r1.toInt * f.r3.toInt) + 1 * (f.r2.toInt * f.r2.toInt) + 2 * (f.r3.toInt * f.r1.toInt) + 1 * (f.r4.toInt * f.r0.toInt) + 38 * (f.r5.toInt * f.r9.toInt) + 19 * (f.r6.toInt * f.r8.toInt) + 38 * (f.r7.toInt * f.r7.toInt) + 19 * (f.r8.toInt * f.r6.toInt) + 38 * (f.r9.toInt * f.r5.toInt) ∧
    |(sqProducts f).r4.toInt| ≤ 864404008078116217 := by
  have e1 : (sqProducts f).r4 = Int64.ofInt (((2 * f.r0.toInt) * f.r4.toInt) + ((2 * f.r1.toInt) * (2 * f.r3.toInt)) + (f.r2.toInt * f.r2.toInt) + ((2 * f.r5.toInt) * (38 * f.r9.toInt)) + ((2 * f.r6.toInt) * (19 * f.r8.toInt)) + (f.r7.toInt * (38 * f.r7.toInt))) := by
    simp only [Int64.ofInt_add, Int64.ofInt_mul, Int64.ofInt_toInt]
    rfl
  obtain ⟨f0, f1, f2, f3, f4, f5, f6, f7, f8, f9⟩ := hf
  have b0 := mul_bound f0 f4
  have b1 := mul_bound f1 f3
  have b2 := mul_bound f2 f2
  have b3 := mul_bound f3 f1
  have b4 := mul_bound f4 f0
  have b5 := mul_bound f5 f9
  have b6 := mul_bound f6 f8
  have b7 := mul_bound f7 f7
  have b8 := mul_bound f8 f6
  have b9 := mul_bound f9 f5
  have e2 : ((2 * f.r0.toInt) * f.r4.toInt) + ((2 * f.r1.toInt) * (2 * f.r3.toInt)) + (f.r2.toInt * f.r2.toInt) + ((2 * f.r5.toInt) * (38 * f.r9.toInt)) + ((2 * f.r6.toInt) * (19 * f.r8.toInt)) + (f.r7.toInt * (38 * f.r7.toInt)) = 1 * (f.r0.toInt * f.r4.toInt) + 2 * (f.r1.toInt * f.r3.toInt) + 1 * (f.r2.toInt * f.r2.toInt) + 2 * (f.r3.toInt * f.r1.toInt) + 1 * (f.r4.toInt * f.r0.toInt) + 38 * (f.r5.toInt * f.r9.toInt) + 19 * (f.r6.toInt * f.r8.toInt) + 38 * (f.r7.toInt * f.r7.toInt) + 19 * (f.r8.toInt * f.r6.toInt) + 38 * (f.r9.toInt * f.r5.toInt) := by ring
  rw [e1, e2]
  generalize f.r0.toInt * f.r4.toInt = t0 at *
  generalize f.r1.toInt * f.r3.toInt = t1 at *
  generalize f.r2.toInt * f.r2.toInt = t2 at *
  generalize f.r3.toInt * f.r1.toInt = t3 at *
  generalize f.r4.toInt * f.r0.toInt = t4 at *
  generalize f.r5.toInt * f.r9.toInt = t5 at *
  generalize f.r6.toInt * f.r8.toInt = t6 at *
  generalize f.r7.toInt * f.r7.toInt = t7 at *
  generalize f.r8.toInt * f.r6.toInt = t8 at *
  generalize f.r9.toInt * f.r5.toInt = t9 at *
  rw [toInt_ofInt_of_fits (by constructor <;> omega)]
  refine ⟨rfl, abs_le.2 ⟨by omega, by omega⟩⟩

theorem sqProducts_5 {f : FE} (hf : Loose f) :
    (sqProducts f).r5.toInt = 1 * (f.r0.toInt * f.r5.toInt) + 1 * (f.r1.toInt * f.r4.toInt) + 1 * (f.r2.toInt * f.r3.toInt) + 1 * (f.r3.toInt * f.r2.toInt) + 1 * (f.r4.toInt * f.r1.toInt) + 1 * (f.r5.toInt * f.r0.toInt) + 19 * (f.r6.toInt * f.r9.toInt) + 19 * (f.r7.toInt * f.r8.toInt) + 19 * (f.r8.toInt * f.r7.toInt) + 19 * (f.r9.toInt * f.r6.toInt) ∧
    |(sqProducts f).r5.toInt| ≤ 502703039418351000 := by
  have e1 : (sqProducts f).r5 = Int64.ofInt (((2 * f.r0.toInt) * f.r5.toInt) + ((2 * f.r1.toInt) * f.r4.toInt) + ((2 * f.r2.toInt) * f.r3.toInt) + (f.r6.toInt * (38 * f.r9.toInt)) + ((2 * f.r7.toInt) * (19 * f.r8.toInt))) := by
    simp only [Int64.ofInt_add, Int64.ofInt_mul, Int64.ofInt_toInt]
    rfl
  obtain ⟨f0, f1, f2, f3, f4, f5, f6, f7, f8, f9⟩ := hf
  have b0 := mul_bound f0 f5
  have b1 := mul_bound f1 f4
  have b2 := mul_bound f2 f3
  have b3 := mul_bound f3 f2
  have b4 := mul_bound f4 f1
  have b5 := mul_bound f5 f0
  have b6 := mul_bound f6 f9
  have b7 := mul_bound f7 f8
  have b8 := mul_bound f8 f7
  have b9 := mul_bound f9 f6
  have e2 : ((2 * f.r0.toInt) * f.r5.toInt) + ((2 * f.r1.toInt) * f.r4.toInt) + ((2 * f.r2.toInt) * f.r3.toInt) + (f.r6.toInt * (38 * f.r9.toInt)) + ((2 * f.r7.toInt) * (19 * f.r8.toInt)) = 1 * (f.r0.toInt * f.r5.toInt) + 1 * (f.r1.toInt * f.r4.toInt) + 1 * (f.r2.toInt * f.r3.toInt) + 1 * (f.r3.toInt * f.r2.toInt) + 1 * (f.r4.toInt * f.r1.toInt) + 1 * (f.r5.toInt * f.r0.toInt) + 19 * (f.r6.toInt * f.r9.toInt) + 19 * (f.r7.toInt * f.r8.toInt) + 19 * (f.r8.toInt * f.r7.toInt) + 19 * (f.r9.toInt * f.r6.toInt) := by ring
  rw [e1, e2]
  generalize f.r0.toInt * f.r5.toInt = t0 at *
  generalize f.r1.toInt * f.r4.toInt = t1 at *
  generalize f.r2.toInt * f.r3.toInt = t2 at *
  generalize f.r3.toInt * f.r2.toInt = t3 at *
  generalize f.r4.toInt * f.r1.toInt = t4 at *
  generalize f.r5.toInt * f.r0.toInt = t5 at *
  generalize f.r6.toInt * f.r9.toInt = t6 at *
  generalize f.r7.toInt * f.r8.toInt = t7 at *
  generalize f.r8.toInt * f.r7.toInt = t8 at *
  generalize f.r9.toInt * f.r6.toInt = t9 at *
  rw [toInt_ofInt_of_fits (by constructor <;> omega)]
  refine ⟨rfl, abs_le.2 ⟨by omega, by omega⟩⟩

theorem sqProducts_6 {f : FE} (hf : Loose f) :
    (sqProducts f).r6.toInt = 1 * (f.r0.toInt * f.r6.toInt) + 2 * (f.r1.toInt * f.r5.toInt) + 1 * (f.r2.toInt * f.r4.toInt) + 2 * (f.r3.toInt * f.r3.toInt) + 1 * (f.r4.toInt * f.r2.toInt) + 2 * (f.r5.toInt * f.r1.toInt) + 1 * (f.r6.toInt * f.r0.toInt) + 38 * (f.r7.toInt * f.r9.toInt) + 19 * (f.r8.toInt * f.r8.toInt) + 38 * (f.r9.toInt * f.r7.toInt) ∧
    |(sqProducts f).r6.toInt| ≤ 533355664049952583 := by
  have e1 : (sqProducts f).r6 = Int64.ofInt (((2 * f.r0.toInt) * f.r6.toInt) + ((2 * f.r1.toInt) * (2 * f.r5.toInt)) + ((2 * f.r2.toInt) * f.r4.toInt) + ((2 * f.r3.toInt) * f.r3.toInt) + ((2 * f.r7.toInt) * (38 * f.r9.toInt)) + (f.r8.toInt * (19 * f.r8.toInt))) := by
    simp only [Int64.ofInt_add, Int64.ofInt_mul, Int64.ofInt_toInt]
    rfl
  obtain ⟨f0, f1, f2, f3, f4, f5, f6, f7, f8, f9⟩ := hf
  have b0 := mul_bound f0 f6
  have b1 := mul_bound f1 f5
  have b2 := mul_bound f2 f4
  have b3 := mul_bound f3 f3
  have b4 := mul_bound f4 f2
  have b5 := mul_bound f5 f1
  have b6 := mul_bound f6 f0
  have b7 := mul_bound f7 f9
  have b8 := mul_bound f8 f8
  have b9 := mul_bound f9 f7
  have e2 : ((2 * f.r0.toInt) * f.r6.toInt) + ((2 * f.r1.toInt) * (2 * f.r5.toInt)) + ((2 * f.r2.toInt) * f.r4.toInt) + ((2 * f.r3.toInt) * f.r3.toInt) + ((2 * f.r7.toInt) * (38 * f.r9.toInt)) + (f.r8.toInt * (19 * f.r8.toInt)) = 1 * (f.r0.toInt * f.r6.toInt) + 2 * (f.r1.toInt * f.r5.toInt) + 1 * (f.r2.toInt * f.r4.toInt) + 2 * (f.r3.toInt * f.r3.toInt) + 1 * (f.r4.toInt * f.r2.toInt) + 2 * (f.r5.toInt * f.r1.toInt) + 1 * (f.r6.toInt * f.r0.toInt) + 38 * (f.r7.toInt * f.r9.toInt) + 19 * (f.r8.toInt * f.r8.toInt) + 38 * (f.r9.toInt * f.r7.toInt) := by ring
  rw [e1, e2]
  generalize f.r0.toInt * f.r6.toInt = t0 at *
  generalize f.r1.toInt * f.r5.toInt = t1 at *
  generalize f.r2.toInt * f.r4.toInt = t2 at *
  generalize f.r3.toInt * f.r3.toInt = t3 at *
  generalize f.r4.toInt * f.r2.toInt = t4 at *
  generalize f.r5.toInt * f.r1.toInt = t5 at *
  generalize f.r6.toInt * f.r0.toInt = t6 at *
  generalize f.r7.toInt * f.r9.toInt = t7 at *
  generalize f.r8.toInt * f.r8.toInt = t8 at *
  generalize f.r9.toInt * f.r7.toInt = t9 at *
  rw [toInt_ofInt_of_fits (by constructor <;> omega)]
  refine ⟨rfl, abs_le.2 ⟨by omega, by omega⟩⟩

theorem sqProducts_7 {f : FE} (hf : Loose f) :
    (sqProducts f).r7.toInt = 1 * (f.r0.toInt * f.r7.toInt) + 1 * (f.r1.toInt * f.r6.toInt) + 1 * (f.r2.toInt * f.r5.toInt) + 1 * (f.r3.toInt * f.r4.toInt) + 1 * (f.r4.toInt * f.r3.toInt) + 1 * (f.r5.toInt * f.r2.toInt) + 1 * (f.r6.toInt * f.r1.toInt) + 1 * (f.r7.toInt * f.r0.toInt) + 19 * (f.r8.toInt * f.r9.toInt) + 19 * (f.r9.toInt * f.r8.toInt) ∧
    |(sqProducts f).r7.toInt| ≤ 282004144063953000 := by
  have e1 : (sqProducts f).r7 = Int64.ofInt (((2 * f.r0.toInt) * f.r7.toInt) + ((2 * f.r1.toInt) * f.r6.toInt) + ((2 * f.r2.toInt) * f.r5.toInt) + ((2 * f.r3.toInt) * f.r4.toInt) + (f.r8.toInt * (38 * f.r9.toInt))) := by
    simp only [Int64.ofInt_add, Int64.ofInt_mul, Int64.ofInt_toInt]
    rfl
  obtain ⟨f0, f1, f2, f3, f4, f5, f6, f7, f8, f9⟩ := hf
  have b0 := mul_bound f0 f7
  have b1 := mul_bound f1 f6
  have b2 := mul_bound f2 f5
  have b3 := mul_bound f3 f4
  have b4 := mul_bound f4 f3
  have b5 := mul_bound f5 f2
  have b6 := mul_bound f6 f1
  have b7 := mul_bound f7 f0
  have b8 := mul_bound f8 f9
  have b9 := mul_bound f9 f8
  have e2 : ((2 * f.r0.toInt) * f.r7.toInt) + ((2 * f.r1.toInt) * f.r6.toInt) + ((2 * f.r2.toInt) * f.r5.toInt) + ((2 * f.r3.toInt) * f.r4.toInt) + (f.r8.toInt * (38 * f.r9.toInt)) = 1 * (f.r0.toInt * f.r7.toInt) + 1 * (f.r1.toInt * f.r6.toInt) + 1 * (f.r2.toInt * f.r5.toInt) + 1 * (f.r3.toInt * f.r4.toInt) + 1 * (f.r4.toInt * f.r3.toInt) + 1 * (f.r5.toInt * f.r2.toInt) + 1 * (f.r6.toInt * f.r1.toInt) + 1 * (f.r7.toInt * f.r0.toInt) + 19 * (f.r8.toInt * f.r9.toInt) + 19 * (f.r9.toInt * f.r8.toInt) := by ring
  rw [e1, e2]
  generalize f.r0.toInt * f.r7.toInt = t0 at *
  generalize f.r1.toInt * f.r6.toInt = t1 at *
  generalize f.r2.toInt * f.r5.toInt = t2 at *
  generalize f.r3.toInt * f.r4.toInt = t3 at *
  generalize f.r4.toInt * f.r3.toInt = t4 at *
  generalize f.r5.toInt * f.r2.toInt = t5 at *
  generalize f.r6.toInt * f.r1.toInt = t6 at *
  generalize f.r7.toInt * f.r0.toInt = t7 at *
  generalize f.r8.toInt * f.r9.toInt = t8 at *
  generalize f.r9.toInt * f.r8.toInt = t9 at *
  rw [toInt_ofInt_of_fits (by constructor <;> omega)]
  refine ⟨rfl, abs_le.2 ⟨by omega, by omega⟩⟩

theorem sqProducts_8 {f : FE} (hf : Loose f) :
    (sqProducts f).r8.toInt = 1 * (f.r0.toInt * f.r8.toInt) + 2 * (f.r1.toInt * f.r7.toInt) + 1 * (f.r2.toInt * f.r6.toInt) + 2 * (f.r3.toInt * f.r5.toInt) + 1 * (f.r4.toInt * f.r4.toInt) + 2 * (f.r5.toInt * f.r3.toInt) + 1 * (f.r6.toInt * f.r2.toInt) + 2 * (f.r7.toInt * f.r1.toInt) + 1 * (f.r8.toInt * f.r0.toInt) + 38 * (f.r9.toInt * f.r9.toInt) ∧
    |(sqProducts f).r8.toInt| ≤ 202307320021788949 := by
  have e1 : (sqProducts f).r8 = Int64.ofInt (((2 * f.r0.toInt) * f.r8.toInt) + ((2 * f.r1.toInt) * (2 * f.r7.toInt)) + ((2 * f.r2.toInt) * f.r6.toInt) + ((2 * f.r3.toInt) * (2 * f.r5.toInt)) + (f.r4.toInt * f.r4.toInt) + (f.r9.toInt * (38 * f.r9.toInt))) := by
    simp only [Int64.ofInt_add, Int64.ofInt_mul, Int64.ofInt_toInt]
    rfl
  obtain ⟨f0, f1, f2, f3, f4, f5, f6, f7, f8, f9⟩ := hf
  have b0 := mul_bound f0 f8
  have b1 := mul_bound f1 f7
  have b2 := mul_bound f2 f6
  have b3 := mul_bound f3 f5
  have b4 := mul_bound f4 f4
  have b5 := mul_bound f5 f3
  have b6 := mul_bound f6 f2
  have b7 := mul_bound f7 f1
  have b8 := mul_bound f8 f0
  have b9 := mul_bound f9 f9
  have e2 : ((2 * f.r0.toInt) * f.r8.toInt) + ((2 * f.r1.toInt) * (2 * f.r7.toInt)) + ((2 * f.r2.toInt) * f.r6.toInt) + ((2 * f.r3.toInt) * (2 * f.r5.toInt)) + (f.r4.toInt * f.r4.toInt) + (f.r9.toInt * (38 * f.r9.toInt)) = 1 * (f.r0.toInt * f.r8.toInt) + 2 * (f.r1.toInt * f.r7.toInt) + 1 * (f.r2.toInt * f.r6.toInt) + 2 * (f.r3.toInt * f.r5.toInt) + 1 * (f.r4.toInt * f.r4.toInt) + 2 * (f.r5.toInt * f.r3.toInt) + 1 * (f.r6.toInt * f.r2.toInt) + 2 * (f.r7.toInt * f.r1.toInt) + 1 * (f.r8.toInt * f.r0.toInt) + 38 * (f.r9.toInt * f.r9.toInt) := by ring
  rw [e1, e2]
  generalize f.r0.toInt * f.r8.toInt = t0 at *
  generalize f.r1.toInt * f.r7.toInt = t1 at *
  generalize f.r2.toInt * f.r6.toInt = t2 at *
  generalize f.r3.toInt * f.r5.toInt = t3 at *
  generalize f.r4.toInt * f.r4.toInt = t4 at *
  generalize f.r5.toInt * f.r3.toInt = t5 at *
  generalize f.r6.toInt * f.r2.toInt = t6 at *
  generalize f.r7.toInt * f.r1.toInt = t7 at *
  generalize f.r8.toInt * f.r0.toInt = t8 at *
  generalize f.r9.toInt * f.r9.toInt = t9 at *
  rw [toInt_ofInt_of_fits (by constructor <;> omega)]
  refine ⟨rfl, abs_le.2 ⟨by omega, by omega⟩⟩

theorem sqProducts_9 {f : FE} (hf : Loose f) :
    (sqProducts f).r9.toInt = 1 * (f.r0.toInt * f.r9.toInt) + 1 * (f.r1.toInt * f.r8.toInt) + 1 * (f.r2.toInt * f.r7.toInt) + 1 * (f.r3.toInt * f.r6.toInt) + 1 * (f.r4.toInt * f.r5.toInt) + 1 * (f.r5.toInt * f.r4.toInt) + 1 * (f.r6.toInt * f.r3.toInt) + 1 * (f.r7.toInt * f.r2.toInt) + 1 * (f.r8.toInt * f.r1.toInt) + 1 * (f.r9.toInt * f.r0.toInt) ∧
    |(sqProducts f).r9.toInt| ≤ 61305248709555000 := by
  have e1 : (sqProducts f).r9 = Int64.ofInt (((2 * f.r0.toInt) * f.r9.toInt) + ((2 * f.r1.toInt) * f.r8.toInt) + ((2 * f.r2.toInt) * f.r7.toInt) + ((2 * f.r3.toInt) * f.r6.toInt) + ((2 * f.r4.toInt) * f.r5.toInt)) := by
    simp only [Int64.ofInt_add, Int64.ofInt_mul, Int64.ofInt_toInt]
    rfl
  obtain ⟨f0, f1, f2, f3, f4, f5, f6, f7, f8, f9⟩ := hf
  have b0 := mul_bound f0 f9
  have b1 := mul_bound f1 f8
  have b2 := mul_bound f2 f7
  have b3 := mul_bound f3 f6
  have b4 := mul_bound f4 f5
  have b5 := mul_bound f5 f4
  have b6 := mul_bound f6 f3
  have b7 := mul_bound f7 f2
  have b8 := mul_bound f8 f1
  have b9 := mul_bound f9 f0
  have e2 : ((2 * f.r0.toInt) * f.r9.toInt) + ((2 * f.r1.toInt) * f.r8.toInt) + ((2 * f.r2.toInt) * f.r7.toInt) + ((2 * f.r3.toInt) * f.r6.toInt) + ((2 * f.r4.toInt) * f.r5.toInt) = 1 * (f.r0.toInt * f.r9.toInt) + 1 * (f.r1.toInt * f.r8.toInt) + 1 * (f.r2.toInt * f.r7.toInt) + 1 * (f.r3.toInt * f.r6.toInt) + 1 * (f.r4.toInt * f.r5.toInt) + 1 * (f.r5.toInt * f.r4.toInt) + 1 * (f.r6.toInt * f.r3.toInt) + 1 * (f.r7.toInt * f.r2.toInt) + 1 * (f.r8.toInt * f.r1.toInt) + 1 * (f.r9.toInt * f.r0.toInt) := by ring
  rw [e1, e2]
  generalize f.r0.toInt * f.r9.toInt = t0 at *
  generalize f.r1.toInt * f.r8.toInt = t1 at *
  generalize f.r2.toInt * f.r7.toInt = t2 at *
  generalize f.r3.toInt * f.r6.toInt = t3 at *
  generalize f.r4.toInt * f.r5.toInt = t4 at *
  generalize f.r5.toInt * f.r4.toInt = t5 at *
  generalize f.r6.toInt * f.r3.toInt = t6 at *
  generalize f.r7.toInt * f.r2.toInt = t7 at *
  generalize f.r8.toInt * f.r1.toInt = t8 at *
  generalize f.r9.toInt * f.r0.toInt = t9 at *
  rw [toInt_ofInt_of_fits (by constructor <;> omega)]
  refine ⟨rfl, abs_le.2 ⟨by omega, by omega⟩⟩

/-- Bounds of the products. -/
def prodB : Bnds := [(-1526500696134443485, 1526500696134443485), (-944100830127147000, 944100830127147000), (-1195452352106279851, 1195452352106279851), (-723401934772749000, 723401934772749000), (-864404008078116217, 864404008078116217), (-502703039418351000, 502703039418351000), (-533355664049952583, 533355664049952583), (-282004144063953000, 282004144063953000), (-202307320021788949, 202307320021788949), (-61305248709555000, 61305248709555000)]

theorem mulProducts_val {f g : FE} (hf : Loose f) (hg : Loose g) :
    ∃ q : ℤ, (mulProducts f g).val = f.val * g.val - (2 ^ 255 - 19) * q := by
  refine ⟨2 * (f.r1.toInt * g.r9.toInt) * 2 ^ 0 + 1 * (f.r2.toInt * g.r8.toInt) * 2 ^ 0 + 1 * (f.r2.toInt * g.r9.toInt) * 2 ^ 26 + 2 * (f.r3.toInt * g.r7.toInt) * 2 ^ 0 + 1 * (f.r3.toInt * g.r8.toInt) * 2 ^ 26 + 2 * (f.r3.toInt * g.r9.toInt) * 2 ^ 51 + 1 * (f.r4.toInt * g.r6.toInt) * 2 ^ 0 + 1 * (f.r4.toInt * g.r7.toInt) * 2 ^ 26 + 1 * (f.r4.toInt * g.r8.toInt) * 2 ^ 51 + 1 * (f.r4.toInt * g.r9.toInt) * 2 ^ 77 + 2 * (f.r5.toInt * g.r5.toInt) * 2 ^ 0 + 1 * (f.r5.toInt * g.r6.toInt) * 2 ^ 26 + 2 * (f.r5.toInt * g.r7.toInt) * 2 ^ 51 + 1 * (f.r5.toInt * g.r8.toInt) * 2 ^ 77 + 2 * (f.r5.toInt * g.r9.toInt) * 2 ^ 102 + 1 * (f.r6.toInt * g.r4.toInt) * 2 ^ 0 + 1 * (f.r6.toInt * g.r5.toInt) * 2 ^ 26 + 1 * (f.r6.toInt * g.r6.toInt) * 2 ^ 51 + 1 * (f.r6.toInt * g.r7.toInt) * 2 ^ 77 + 1 * (f.r6.toInt * g.r8.toInt) * 2 ^ 102 + 1 * (f.r6.toInt * g.r9.toInt) * 2 ^ 128 + 2 * (f.r7.toInt * g.r3.toInt) * 2 ^ 0 + 1 * (f.r7.toInt * g.r4.toInt) * 2 ^ 26 + 2 * (f.r7.toInt * g.r5.toInt) * 2 ^ 51 + 1 * (f.r7.toInt * g.r6.toInt) * 2 ^ 77 + 2 * (f.r7.toInt * g.r7.toInt) * 2 ^ 102 + 1 * (f.r7.toInt * g.r8.toInt) * 2 ^ 128 + 2 * (f.r7.toInt * g.r9.toInt) * 2 ^ 153 + 1 * (f.r8.toInt * g.r2.toInt) * 2 ^ 0 + 1 * (f.r8.toInt * g.r3.toInt) * 2 ^ 26 + 1 * (f.r8.toInt * g.r4.toInt) * 2 ^ 51 + 1 * (f.r8.toInt * g.r5.toInt) * 2 ^ 77 + 1 * (f.r8.toInt * g.r6.toInt) * 2 ^ 102 + 1 * (f.r8.toInt * g.r7.toInt) * 2 ^ 128 + 1 * (f.r8.toInt * g.r8.toInt) * 2 ^ 153 + 1 * (f.r8.toInt * g.r9.toInt) * 2 ^ 179 + 2 * (f.r9.toInt * g.r1.toInt) * 2 ^ 0 + 1 * (f.r9.toInt * g.r2.toInt) * 2 ^ 26 + 2 * (f.r9.toInt * g.r3.toInt) * 2 ^ 51 + 1 * (f.r9.toInt * g.r4.toInt) * 2 ^ 77 + 2 * (f.r9.toInt * g.r5.toInt) * 2 ^ 102 + 1 * (f.r9.toInt * g.r6.toInt) * 2 ^ 128 + 2 * (f.r9.toInt * g.r7.toInt) * 2 ^ 153 + 1 * (f.r9.toInt * g.r8.toInt) * 2 ^ 179 + 2 * (f.r9.toInt * g.r9.toInt) * 2 ^ 204, ?_⟩
  unfold val
  rw [(mulProducts_0 hf hg).1, (mulProducts_1 hf hg).1, (mulProducts_2 hf hg).1, (mulProducts_3 hf hg).1, (mulProducts_4 hf hg).1, (mulProducts_5 hf hg).1, (mulProducts_6 hf hg).1, (mulProducts_7 hf hg).1, (mulProducts_8 hf hg).1, (mulProducts_9 hf hg).1]
  ring

theorem sqProducts_val {f : FE} (hf : Loose f) :
    ∃ q : ℤ, (sqProducts f).val = f.val * f.val - (2 ^ 255 - 19) * q := by
  refine ⟨2 * (f.r1.toInt * f.r9.toInt) * 2 ^ 0 + 1 * (f.r2.toInt * f.r8.toInt) * 2 ^ 0 + 1 * (f.r2.toInt * f.r9.toInt) * 2 ^ 26 + 2 * (f.r3.toInt * f.r7.toInt) * 2 ^ 0 + 1 * (f.r3.toInt * f.r8.toInt) * 2 ^ 26 + 2 * (f.r3.toInt * f.r9.toInt) * 2 ^ 51 + 1 * (f.r4.toInt * f.r6.toInt) * 2 ^ 0 + 1 * (f.r4.toInt * f.r7.toInt) * 2 ^ 26 + 1 * (f.r4.toInt * f.r8.toInt) * 2 ^ 51 + 1 * (f.r4.toInt * f.r9.toInt) * 2 ^ 77 + 2 * (f.r5.toInt * f.r5.toInt) * 2 ^ 0 + 1 * (f.r5.toInt * f.r6.toInt) * 2 ^ 26 + 2 * (f.r5.toInt * f.r7.toInt) * 2 ^ 51 + 1 * (f.r5.toInt * f.r8.toInt) * 2 ^ 77 + 2 * (f.r5.toInt * f.r9.toInt) * 2 ^ 102 + 1 * (f.r6.toInt * f.r4.toInt) * 2 ^ 0 + 1 * (f.r6.toInt * f.r5.toInt) * 2 ^ 26 + 1 * (f.r6.toInt * f.r6.toInt) * 2 ^ 51 + 1 * (f.r6.toInt * f.r7.toInt) * 2 ^ 77 + 1 * (f.r6.toInt * f.r8.toInt) * 2 ^ 102 + 1 * (f.r6.toInt * f.r9.toInt) * 2 ^ 128 + 2 * (f.r7.toInt * f.r3.toInt) * 2 ^ 0 + 1 * (f.r7.toInt * f.r4.toInt) * 2 ^ 26 + 2 * (f.r7.toInt * f.r5.toInt) * 2 ^ 51 + 1 * (f.r7.toInt * f.r6.toInt) * 2 ^ 77 + 2 * (f.r7.toInt * f.r7.toInt) * 2 ^ 102 + 1 * (f.r7.toInt * f.r8.toInt) * 2 ^ 128 + 2 * (f.r7.toInt * f.r9.toInt) * 2 ^ 153 + 1 * (f.r8.toInt * f.r2.toInt) * 2 ^ 0 + 1 * (f.r8.toInt * f.r3.toInt) * 2 ^ 26 + 1 * (f.r8.toInt * f.r4.toInt) * 2 ^ 51 + 1 * (f.r8.toInt * f.r5.toInt) * 2 ^ 77 + 1 * (f.r8.toInt * f.r6.toInt) * 2 ^ 102 + 1 * (f.r8.toInt * f.r7.toInt) * 2 ^ 128 + 1 * (f.r8.toInt * f.r8.toInt) * 2 ^ 153 + 1 * (f.r8.toInt * f.r9.toInt) * 2 ^ 179 + 2 * (f.r9.toInt * f.r1.toInt) * 2 ^ 0 + 1 * (f.r9.toInt * f.r2.toInt) * 2 ^ 26 + 2 * (f.r9.toInt * f.r3.toInt) * 2 ^ 51 + 1 * (f.r9.toInt * f.r4.toInt) * 2 ^ 77 + 2 * (f.r9.toInt * f.r5.toInt) * 2 ^ 102 + 1 * (f.r9.toInt * f.r6.toInt) * 2 ^ 128 + 2 * (f.r9.toInt * f.r7.toInt) * 2 ^ 153 + 1 * (f.r9.toInt * f.r8.toInt) * 2 ^ 179 + 2 * (f.r9.toInt * f.r9.toInt) * 2 ^ 204, ?_⟩
  unfold val
  rw [(sqProducts_0 hf).1, (sqProducts_1 hf).1, (sqProducts_2 hf).1, (sqProducts_3 hf).1, (sqProducts_4 hf).1, (sqProducts_5 hf).1, (sqProducts_6 hf).1, (sqProducts_7 hf).1, (sqProducts_8 hf).1, (sqProducts_9 hf).1]
  ring

end Ed.FE

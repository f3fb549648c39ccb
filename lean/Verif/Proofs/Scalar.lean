import Verif.Proofs.FieldCodec
import Verif.Model.Scalar
import Mathlib.Data.Int.ModEq

/-!
# Arithmetic modulo the group order: the reduction
-/

namespace Ed

/-- Weights of the 21-bit limbs. -/
def pos21 (i : ℕ) : ℕ := 21 * i

theorem L_int : ((L : ℕ) : ℤ) = 2 ^ 252 + 27742317777372353535851937790883648493 := by
  rw [L_eq]; norm_num

theorem foldC_L : (2 ^ 252 - foldC : ℤ) = (L : ℤ) := by rw [L_int]; unfold foldC; norm_num

/-- The group order as integer literal, for the kernel evaluation of the checks. -/
def LI : ℤ := 2 ^ 252 + 27742317777372353535851937790883648493

theorem LI_eq : LI = (L : ℤ) := by rw [L_int]; rfl

/-- Ranges of the input of the common reduction. -/
def redIn : Bnds := List.replicate 23 (-2 ^ 30, 2 ^ 30) ++ [(-2 ^ 30, 2 ^ 30)]

/-- Ranges after the first part. -/
def redMid : Bnds := [(-2 ^ 31, 2 ^ 31), (-2 ^ 31, 2 ^ 31), (-2 ^ 31, 2 ^ 31), (-2 ^ 31, 2 ^ 31), (-2 ^ 31, 2 ^ 31),
  (-2 ^ 31, 2 ^ 31), (-2 ^ 31, 2 ^ 31), (-2 ^ 31, 2 ^ 31), (-2 ^ 31, 2 ^ 31), (-2 ^ 31, 2 ^ 31), (-2 ^ 31, 2 ^ 31),
  (-2 ^ 20, 2 ^ 20 - 1), (0, 0)]

/-- Ranges after the first floor carries. -/
def redMid2 : Bnds := [(0, 2 ^ 21 - 1), (0, 2 ^ 21 - 1), (0, 2 ^ 21 - 1), (0, 2 ^ 21 - 1), (0, 2 ^ 21 - 1),
  (0, 2 ^ 21 - 1), (0, 2 ^ 21 - 1), (0, 2 ^ 21 - 1), (0, 2 ^ 21 - 1), (0, 2 ^ 21 - 1), (0, 2 ^ 21 - 1),
  (0, 2 ^ 21 - 1), (-1, 0)]

/-- Ranges after the last fold. -/
def redMid3 : Bnds := [(-2 ^ 30, 2 ^ 30), (-2 ^ 30, 2 ^ 30), (-2 ^ 30, 2 ^ 30), (-2 ^ 30, 2 ^ 30), (-2 ^ 30, 2 ^ 30),
  (-2 ^ 30, 2 ^ 30), (0, 2 ^ 21 - 1), (0, 2 ^ 21 - 1), (0, 2 ^ 21 - 1), (0, 2 ^ 21 - 1), (0, 2 ^ 21 - 1),
  (0, 2 ^ 21 - 1)]

/-- Final ranges. -/
def redOut : Bnds := [(0, 2 ^ 21 - 1), (0, 2 ^ 21 - 1), (0, 2 ^ 21 - 1), (0, 2 ^ 21 - 1), (0, 2 ^ 21 - 1),
  (0, 2 ^ 21 - 1), (0, 2 ^ 21 - 1), (0, 2 ^ 21 - 1), (0, 2 ^ 21 - 1), (0, 2 ^ 21 - 1), (0, 2 ^ 21 - 1),
  (-2 ^ 22, 2 ^ 22)]

theorem reduce1_check : checkRun pos21 LI reduce1 (24, redIn) 13 redMid = true := by decide +kernel
theorem reduce2_check : checkRun pos21 0 reduce2 (13, redMid) 13 redMid2 = true := by decide +kernel
theorem fold_check : ((absOp pos21 LI (13, redMid2) (.fold 12)).any fun r => subB r.2 redMid3) = true := by
  decide +kernel
theorem reduce3_check : checkRun pos21 0 reduce3 (12, redMid3) 12 redOut = true := by decide +kernel

theorem run_append (a b : List Op) (s : Limbs) : run (a ++ b) s = run b (run a s) := by
  simp [run]

theorem InB_get {s : Limbs} {b : Bnds} (h : InB s b) (i : ℕ) {lo hi : ℤ} (e : b[i]? = some (lo, hi)) :
    lo ≤ (s i).toInt ∧ (s i).toInt ≤ hi := h i lo hi e

/-- The common reduction: the limbs end up as the digits of the residue modulo `L`. -/
theorem reduceOps_spec {s : Limbs} (hs : InB s redIn) :
    InB (run reduceOps s) redOut ∧ V pos21 (run reduceOps s) 12 = V pos21 s 24 % (L : ℤ) := by
  obtain ⟨h1, v1⟩ := checkRun_sound reduce1_check hs
  obtain ⟨h2, v2⟩ := checkRun_sound reduce2_check h1
  obtain ⟨nb, hf1, hf2⟩ : ∃ nb, absOp pos21 LI (13, redMid2) (.fold 12) = some nb ∧ subB nb.2 redMid3 = true := by
    have := fold_check
    rw [Option.any_eq_true_iff_get] at this
    obtain ⟨w, hw⟩ := this
    exact ⟨_, Option.some_get w |>.symm, hw⟩
  obtain ⟨-, h3, v3⟩ := fold_value pos21 LI h2 hf1
  replace h3 := subB_sound hf2 h3
  obtain ⟨h4, v4⟩ := checkRun_sound reduce3_check h3
  have e : run reduceOps s = run reduce3 ((Op.fold 12).exec (run reduce2 (run reduce1 s))) := by
    unfold reduceOps
    simp only [run_append]
    rfl
  rw [e]
  refine ⟨h4, ?_⟩
  generalize run reduce3 _ = s4 at *
  generalize Op.exec _ (.fold 12) = s3 at *
  generalize run reduce2 _ = s2 at *
  generalize run reduce1 s = s1 at *
  rw [zero_dvd_iff, sub_eq_zero] at v2 v4
  rw [foldC_L] at v3
  rw [LI_eq] at v1
  have V1 : -2 ^ 251 - 2 ^ 242 ≤ V pos21 s1 13 ∧ V pos21 s1 13 ≤ 2 ^ 251 + 2 ^ 242 := by
    simp only [redMid, InB_cons, InB_nil, and_true, Nat.reduceAdd, Nat.zero_add] at h1
    simp only [V, pos21]
    omega
  have V2 : 0 ≤ V pos21 s2 12 ∧ V pos21 s2 12 < 2 ^ 252 := by
    simp only [redMid2, InB_cons, InB_nil, and_true, Nat.reduceAdd, Nat.zero_add] at h2
    simp only [V, pos21]
    omega
  have V2' : V pos21 s2 13 = V pos21 s2 12 + (s2 12).toInt * 2 ^ 252 := rfl
  have hs12 := InB_get h2 12 (lo := -1) (hi := 0) rfl
  have hL := L_int
  have p0 : (2 ^ pos21 (12 - 12) : ℤ) = 1 := rfl
  rw [p0, mul_one] at v3
  have key : V pos21 s4 12 = V pos21 s1 13 - (s2 12).toInt * (L : ℤ) := by
    rw [v4, v3, v2]
  have hlt : 0 ≤ V pos21 s4 12 ∧ V pos21 s4 12 < (L : ℤ) := by
    have c : (s2 12).toInt = 0 ∨ (s2 12).toInt = -1 := by omega
    rcases c with c | c
    · rw [c] at key V2'
      simp only [zero_mul, sub_zero, add_zero] at key V2'
      omega
    · rw [c] at key V2'
      omega
  rw [← Int.emod_eq_of_lt hlt.1 hlt.2, key, Int.sub_mul_emod_self_right]
  exact Int.ModEq.symm ((Int.modEq_iff_dvd).2 v1)

end Ed

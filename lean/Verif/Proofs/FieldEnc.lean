import Verif.Proofs.FieldCodec
import Mathlib.Tactic.Linarith

/-!
# Canonical encoding and decoding of field elements
-/

namespace Ed

theorem nest_div (a b : ℤ) {m n : ℤ} (hm : 0 < m) : (a + b / m) / n = (a * m + b) / (m * n) := by
  have h : a + b / m = (a * m + b) / m := by
    rw [Int.add_comm (a * m), Int.add_mul_ediv_right _ _ (by omega)]; ring
  rw [h, Int.ediv_ediv_of_nonneg (by omega)]

theorem sar_add_fits {x q : Int64} {k : ℕ} (h : Fits (x.toInt + q.toInt)) :
    (sar (x + q) k).toInt = (x.toInt + q.toInt) / 2 ^ k := by
  rw [toInt_sar, toInt_add_of_fits h]

namespace FE

/-- The bound under which `modP`, `Encode` and the predicates are correct: all limbs at most 2^27
(ed25519_encode.go:768-773). -/
def Encodable (f : FE) : Prop := Bd (2 ^ 27) (2 ^ 27) f

theorem Loose.encodable {f : FE} (h : Loose f) : Encodable f := Bd.mono h (by norm_num) (by norm_num)
theorem Reduced.encodable {f : FE} (h : Reduced f) : Encodable f := h.loose.encodable

theorem modPQuotient_spec {f : FE} (hf : Encodable f) :
    (modPQuotient f).toInt = ((19 * f.r9.toInt + 2 ^ 24) / 2 ^ 25 + f.val) / 2 ^ 255 := by
  obtain ⟨f0, f1, f2, f3, f4, f5, f6, f7, f8, f9⟩ := hf
  rw [abs_le] at *
  simp only [modPQuotient]
  have e0 : (19 * f.r9 + Int64.ofInt (2 ^ 24)).toInt = 19 * f.r9.toInt + 2 ^ 24 := by
    have : 19 * f.r9 + Int64.ofInt (2 ^ 24) = Int64.ofInt (19 * f.r9.toInt + 2 ^ 24) := by
      rw [Int64.ofInt_add, Int64.ofInt_mul, Int64.ofInt_toInt]; rfl
    rw [this, toInt_ofInt_of_fits ⟨by omega, by omega⟩]
  have q0 := toInt_sar (19 * f.r9 + Int64.ofInt (2 ^ 24)) 25
  rw [e0] at q0
  generalize sar (19 * f.r9 + Int64.ofInt (2 ^ 24)) 25 = c0 at *
  have k0 : -2 ^ 33 ≤ c0.toInt ∧ c0.toInt ≤ 2 ^ 33 := by constructor <;> omega
  have q1 := @sar_add_fits f.r0 c0 26 ⟨by omega, by omega⟩
  generalize sar (f.r0 + c0) 26 = c1 at *
  have k1 : -2 ^ 33 ≤ c1.toInt ∧ c1.toInt ≤ 2 ^ 33 := by constructor <;> omega
  have q2 := @sar_add_fits f.r1 c1 25 ⟨by omega, by omega⟩
  generalize sar (f.r1 + c1) 25 = c2 at *
  have k2 : -2 ^ 33 ≤ c2.toInt ∧ c2.toInt ≤ 2 ^ 33 := by constructor <;> omega
  have q3 := @sar_add_fits f.r2 c2 26 ⟨by omega, by omega⟩
  generalize sar (f.r2 + c2) 26 = c3 at *
  have k3 : -2 ^ 33 ≤ c3.toInt ∧ c3.toInt ≤ 2 ^ 33 := by constructor <;> omega
  have q4 := @sar_add_fits f.r3 c3 25 ⟨by omega, by omega⟩
  generalize sar (f.r3 + c3) 25 = c4 at *
  have k4 : -2 ^ 33 ≤ c4.toInt ∧ c4.toInt ≤ 2 ^ 33 := by constructor <;> omega
  have q5 := @sar_add_fits f.r4 c4 26 ⟨by omega, by omega⟩
  generalize sar (f.r4 + c4) 26 = c5 at *
  have k5 : -2 ^ 33 ≤ c5.toInt ∧ c5.toInt ≤ 2 ^ 33 := by constructor <;> omega
  have q6 := @sar_add_fits f.r5 c5 25 ⟨by omega, by omega⟩
  generalize sar (f.r5 + c5) 25 = c6 at *
  have k6 : -2 ^ 33 ≤ c6.toInt ∧ c6.toInt ≤ 2 ^ 33 := by constructor <;> omega
  have q7 := @sar_add_fits f.r6 c6 26 ⟨by omega, by omega⟩
  generalize sar (f.r6 + c6) 26 = c7 at *
  have k7 : -2 ^ 33 ≤ c7.toInt ∧ c7.toInt ≤ 2 ^ 33 := by constructor <;> omega
  have q8 := @sar_add_fits f.r7 c7 25 ⟨by omega, by omega⟩
  generalize sar (f.r7 + c7) 25 = c8 at *
  have k8 : -2 ^ 33 ≤ c8.toInt ∧ c8.toInt ≤ 2 ^ 33 := by constructor <;> omega
  have q9 := @sar_add_fits f.r8 c8 26 ⟨by omega, by omega⟩
  generalize sar (f.r8 + c8) 26 = c9 at *
  have k9 : -2 ^ 33 ≤ c9.toInt ∧ c9.toInt ≤ 2 ^ 33 := by constructor <;> omega
  have q10 := @sar_add_fits f.r9 c9 25 ⟨by omega, by omega⟩
  rw [q10]
  obtain ⟨S1, hS1⟩ : ∃ S, S = c0.toInt + 2 ^ 0 * f.r0.toInt := ⟨_, rfl⟩
  have s1 : c1.toInt = S1 / 2 ^ 26 := by omega
  obtain ⟨S2, hS2⟩ : ∃ S, S = S1 + 2 ^ 26 * f.r1.toInt := ⟨_, rfl⟩
  have s2 : c2.toInt = S2 / 2 ^ 51 := by rw [q2, s1, hS2]; clear * -; omega
  obtain ⟨S3, hS3⟩ : ∃ S, S = S2 + 2 ^ 51 * f.r2.toInt := ⟨_, rfl⟩
  have s3 : c3.toInt = S3 / 2 ^ 77 := by rw [q3, s2, hS3]; clear * -; omega
  obtain ⟨S4, hS4⟩ : ∃ S, S = S3 + 2 ^ 77 * f.r3.toInt := ⟨_, rfl⟩
  have s4 : c4.toInt = S4 / 2 ^ 102 := by rw [q4, s3, hS4]; clear * -; omega
  obtain ⟨S5, hS5⟩ : ∃ S, S = S4 + 2 ^ 102 * f.r4.toInt := ⟨_, rfl⟩
  have s5 : c5.toInt = S5 / 2 ^ 128 := by rw [q5, s4, hS5]; clear * -; omega
  obtain ⟨S6, hS6⟩ : ∃ S, S = S5 + 2 ^ 128 * f.r5.toInt := ⟨_, rfl⟩
  have s6 : c6.toInt = S6 / 2 ^ 153 := by rw [q6, s5, hS6]; clear * -; omega
  obtain ⟨S7, hS7⟩ : ∃ S, S = S6 + 2 ^ 153 * f.r6.toInt := ⟨_, rfl⟩
  have s7 : c7.toInt = S7 / 2 ^ 179 := by rw [q7, s6, hS7]; clear * -; omega
  obtain ⟨S8, hS8⟩ : ∃ S, S = S7 + 2 ^ 179 * f.r7.toInt := ⟨_, rfl⟩
  have s8 : c8.toInt = S8 / 2 ^ 204 := by rw [q8, s7, hS8]; clear * -; omega
  obtain ⟨S9, hS9⟩ : ∃ S, S = S8 + 2 ^ 204 * f.r8.toInt := ⟨_, rfl⟩
  have s9 : c9.toInt = S9 / 2 ^ 230 := by rw [q9, s8, hS9]; clear * -; omega
  rw [s9, ← q0]
  have hS : c0.toInt + f.val = S9 + 2 ^ 230 * f.r9.toInt := by unfold val; omega
  rw [hS]; clear * -; omega

theorem modP_arith {v q x h9 W : ℤ} (hv : v = W + 2 ^ 230 * h9) (hW : -2 ^ 232 ≤ W ∧ W ≤ 2 ^ 232)
    (h9b : -2 ^ 27 ≤ h9 ∧ h9 ≤ 2 ^ 27)
    (hx : x = (19 * h9 + 2 ^ 24) / 2 ^ 25) (hq : q = (x + v) / 2 ^ 255) :
    0 ≤ v - q * (2 ^ 255 - 19) ∧ v - q * (2 ^ 255 - 19) < 2 ^ 255 - 19 := by
  have a1 : 2 ^ 25 * x ≤ 19 * h9 + 2 ^ 24 := by omega
  have a2 : 19 * h9 + 2 ^ 24 < 2 ^ 25 * x + 2 ^ 25 := by omega
  have a3 : 2 ^ 255 * q ≤ x + v := by omega
  have a4 : x + v < 2 ^ 255 * q + 2 ^ 255 := by omega
  have a5 : -8 ≤ q ∧ q ≤ 8 := by omega
  clear hx hq
  obtain ⟨hW1, hW2⟩ := hW
  obtain ⟨q1, q2⟩ := a5
  subst hv
  constructor
  · by_contra hneg
    have : W + 2 ^ 230 * h9 - q * (2 ^ 255 - 19) ≤ -1 := by omega
    nlinarith
  · by_contra hneg
    have : W + 2 ^ 230 * h9 - q * (2 ^ 255 - 19) ≥ 2 ^ 255 - 19 := by omega
    nlinarith

/-- Input ranges of the carry chain of `modP`. -/
def modPB : Bnds := [(-2 ^ 28, 2 ^ 28), (-2 ^ 27, 2 ^ 27), (-2 ^ 27, 2 ^ 27), (-2 ^ 27, 2 ^ 27), (-2 ^ 27, 2 ^ 27),
  (-2 ^ 27, 2 ^ 27), (-2 ^ 27, 2 ^ 27), (-2 ^ 27, 2 ^ 27), (-2 ^ 27, 2 ^ 27), (-2 ^ 27, 2 ^ 27)]

/-- Output ranges of the carry chain of `modP`. -/
def modPB' : Bnds := [(0, 2 ^ 26 - 1), (0, 2 ^ 25 - 1), (0, 2 ^ 26 - 1), (0, 2 ^ 25 - 1), (0, 2 ^ 26 - 1),
  (0, 2 ^ 25 - 1), (0, 2 ^ 26 - 1), (0, 2 ^ 25 - 1), (0, 2 ^ 26 - 1), (-2 ^ 28, 2 ^ 28)]

theorem modPCarries_check : checkRun pos10 0 modPCarries (10, modPB) 10 modPB' = true := by decide +kernel

theorem modP_spec {f : FE} (hf : Encodable f) :
    ∃ a0 a1 a2 a3 a4 a5 a6 a7 a8 a9 : ℕ,
      ((modP f).r0.toInt = (a0 : ℤ) ∧ a0 < 2 ^ 26) ∧
      ((modP f).r1.toInt = (a1 : ℤ) ∧ a1 < 2 ^ 25) ∧
      ((modP f).r2.toInt = (a2 : ℤ) ∧ a2 < 2 ^ 26) ∧
      ((modP f).r3.toInt = (a3 : ℤ) ∧ a3 < 2 ^ 25) ∧
      ((modP f).r4.toInt = (a4 : ℤ) ∧ a4 < 2 ^ 26) ∧
      ((modP f).r5.toInt = (a5 : ℤ) ∧ a5 < 2 ^ 25) ∧
      ((modP f).r6.toInt = (a6 : ℤ) ∧ a6 < 2 ^ 26) ∧
      ((modP f).r7.toInt = (a7 : ℤ) ∧ a7 < 2 ^ 25) ∧
      ((modP f).r8.toInt = (a8 : ℤ) ∧ a8 < 2 ^ 26) ∧
      ((modP f).r9.toInt = (a9 : ℤ) ∧ a9 < 2 ^ 25) ∧
      a0 + 2 ^ 26 * a1 + 2 ^ 51 * a2 + 2 ^ 77 * a3 + 2 ^ 102 * a4 + 2 ^ 128 * a5 + 2 ^ 153 * a6 + 2 ^ 179 * a7 + 2 ^ 204 * a8 + 2 ^ 230 * a9 = (f.val % (2 ^ 255 - 19)).toNat := by
  have hq := modPQuotient_spec hf
  obtain ⟨f0, f1, f2, f3, f4, f5, f6, f7, f8, f9⟩ := hf
  rw [abs_le] at *
  have hrange := modP_arith (v := f.val) (q := (modPQuotient f).toInt) (h9 := f.r9.toInt)
    (W := f.val - 2 ^ 230 * f.r9.toInt) (by ring) (by unfold val; constructor <;> omega) f9 rfl hq
  have hqb : -8 ≤ (modPQuotient f).toInt ∧ (modPQuotient f).toInt ≤ 8 := by
    rw [hq]; unfold val; constructor <;> omega
  have hr0 : (f.r0 + 19 * modPQuotient f).toInt = f.r0.toInt + 19 * (modPQuotient f).toInt := by
    have : f.r0 + 19 * modPQuotient f = Int64.ofInt (f.r0.toInt + 19 * (modPQuotient f).toInt) := by
      rw [Int64.ofInt_add, Int64.ofInt_mul, Int64.ofInt_toInt, Int64.ofInt_toInt]; rfl
    rw [this, toInt_ofInt_of_fits]
    clear * - hqb f0
    generalize f.modPQuotient.toInt = q at *; constructor <;> omega
  have hr0b : -2 ^ 28 ≤ f.r0.toInt + 19 * f.modPQuotient.toInt ∧ f.r0.toInt + 19 * f.modPQuotient.toInt ≤ 2 ^ 28 := by
    clear hq hrange hr0; generalize f.modPQuotient.toInt = q at *; constructor <;> omega
  obtain ⟨h, hh⟩ : ∃ h : FE, h = { f with r0 := f.r0 + 19 * modPQuotient f } := ⟨_, rfl⟩
  have hval : h.val = f.val + 19 * (modPQuotient f).toInt := by
    rw [hh]; simp only [val, hr0]; ring
  have hin : InB h.limbs modPB := by
    rw [hh]
    simp only [modPB, InB_cons, InB_nil, and_true, limbs, hr0]
    exact ⟨hr0b, f1, f2, f3, f4, f5, f6, f7, f8, f9⟩
  obtain ⟨ho, hv⟩ := checkRun_sound modPCarries_check hin
  rw [zero_dvd_iff, V_limbs, ← V_ofLimbs, sub_eq_zero] at hv
  have hm : modP f = { ofLimbs (run modPCarries h.limbs) with
      r9 := (ofLimbs (run modPCarries h.limbs)).r9 - shl (sar (ofLimbs (run modPCarries h.limbs)).r9 25) 25 } := by
    rw [hh]; rfl
  simp only [modPB', InB_cons, InB_nil, and_true] at ho
  have ho' : (0 ≤ (ofLimbs (run modPCarries h.limbs)).r0.toInt ∧ (ofLimbs (run modPCarries h.limbs)).r0.toInt ≤ 2 ^ 26 - 1) ∧
      (0 ≤ (ofLimbs (run modPCarries h.limbs)).r1.toInt ∧ (ofLimbs (run modPCarries h.limbs)).r1.toInt ≤ 2 ^ 25 - 1) ∧
      (0 ≤ (ofLimbs (run modPCarries h.limbs)).r2.toInt ∧ (ofLimbs (run modPCarries h.limbs)).r2.toInt ≤ 2 ^ 26 - 1) ∧
      (0 ≤ (ofLimbs (run modPCarries h.limbs)).r3.toInt ∧ (ofLimbs (run modPCarries h.limbs)).r3.toInt ≤ 2 ^ 25 - 1) ∧
      (0 ≤ (ofLimbs (run modPCarries h.limbs)).r4.toInt ∧ (ofLimbs (run modPCarries h.limbs)).r4.toInt ≤ 2 ^ 26 - 1) ∧
      (0 ≤ (ofLimbs (run modPCarries h.limbs)).r5.toInt ∧ (ofLimbs (run modPCarries h.limbs)).r5.toInt ≤ 2 ^ 25 - 1) ∧
      (0 ≤ (ofLimbs (run modPCarries h.limbs)).r6.toInt ∧ (ofLimbs (run modPCarries h.limbs)).r6.toInt ≤ 2 ^ 26 - 1) ∧
      (0 ≤ (ofLimbs (run modPCarries h.limbs)).r7.toInt ∧ (ofLimbs (run modPCarries h.limbs)).r7.toInt ≤ 2 ^ 25 - 1) ∧
      (0 ≤ (ofLimbs (run modPCarries h.limbs)).r8.toInt ∧ (ofLimbs (run modPCarries h.limbs)).r8.toInt ≤ 2 ^ 26 - 1) ∧
      (-2 ^ 28 ≤ (ofLimbs (run modPCarries h.limbs)).r9.toInt ∧ (ofLimbs (run modPCarries h.limbs)).r9.toInt ≤ 2 ^ 28) := ho
  rw [hm]
  generalize ofLimbs (run modPCarries h.limbs) = g at *
  obtain ⟨g0, g1, g2, g3, g4, g5, g6, g7, g8, g9⟩ := ho'
  have h9 : (g.r9 - shl (sar g.r9 25) 25).toInt = g.r9.toInt % 2 ^ 25 := by
    have e : g.r9 - shl (sar g.r9 25) 25 = Int64.ofInt (g.r9.toInt - g.r9.toInt / 2 ^ 25 * 2 ^ 25) := by
      rw [shl, toInt_sar, Int64.ofInt_sub, Int64.ofInt_toInt]
    rw [e, toInt_ofInt_of_fits ⟨by omega, by omega⟩]
    omega
  refine ⟨g.r0.toInt.toNat, g.r1.toInt.toNat, g.r2.toInt.toNat, g.r3.toInt.toNat, g.r4.toInt.toNat, g.r5.toInt.toNat, g.r6.toInt.toNat, g.r7.toInt.toNat, g.r8.toInt.toNat, (g.r9.toInt % 2 ^ 25).toNat,
    ⟨(Int.toNat_of_nonneg g0.1).symm, by omega⟩, ⟨(Int.toNat_of_nonneg g1.1).symm, by omega⟩, ⟨(Int.toNat_of_nonneg g2.1).symm, by omega⟩, ⟨(Int.toNat_of_nonneg g3.1).symm, by omega⟩, ⟨(Int.toNat_of_nonneg g4.1).symm, by omega⟩, ⟨(Int.toNat_of_nonneg g5.1).symm, by omega⟩, ⟨(Int.toNat_of_nonneg g6.1).symm, by omega⟩, ⟨(Int.toNat_of_nonneg g7.1).symm, by omega⟩, ⟨(Int.toNat_of_nonneg g8.1).symm, by omega⟩, ⟨?_, by omega⟩, ?_⟩
  · show (g.r9 - shl (sar g.r9 25) 25).toInt = _
    rw [h9, Int.toNat_of_nonneg (by omega)]
  · have hmod : f.val % (2 ^ 255 - 19) = f.val - (modPQuotient f).toInt * (2 ^ 255 - 19) := by
      rw [← Int.emod_eq_of_lt hrange.1 hrange.2, Int.sub_mul_emod_self_right]
    rw [hmod]
    rw [hval] at hv
    have : g.val = f.val + 19 * (modPQuotient f).toInt := hv
    generalize f.val = v at *
    generalize (modPQuotient f).toInt = q at *
    zify
    unfold val at this
    rw [Int.toNat_of_nonneg hrange.1, Int.toNat_of_nonneg g0.1, Int.toNat_of_nonneg g1.1, Int.toNat_of_nonneg g2.1, Int.toNat_of_nonneg g3.1, Int.toNat_of_nonneg g4.1, Int.toNat_of_nonneg g5.1, Int.toNat_of_nonneg g6.1, Int.toNat_of_nonneg g7.1, Int.toNat_of_nonneg g8.1, Int.toNat_of_nonneg (by omega)]
    clear * - this hrange g0 g1 g2 g3 g4 g5 g6 g7 g8 g9
    omega

theorem toF_val_cast (f : FE) : ((f.toF.val : ℕ) : ℤ) = f.val % (2 ^ 255 - 19) := by
  unfold toF
  rw [ZMod.val_intCast, P_int]

/-- `Encode` yields the canonical little-endian encoding. -/
theorem encode_spec {f : FE} (hf : Encodable f) : f.encode = leBytes 32 f.toF.val := by
  obtain ⟨a0, a1, a2, a3, a4, a5, a6, a7, a8, a9, ⟨h0, b0⟩, ⟨h1, b1⟩, ⟨h2, b2⟩, ⟨h3, b3⟩, ⟨h4, b4⟩, ⟨h5, b5⟩, ⟨h6, b6⟩, ⟨h7, b7⟩, ⟨h8, b8⟩, ⟨h9, b9⟩, hs⟩ := modP_spec hf
  unfold encode
  rw [toBytes_spec h0 b0 h1 b1 h2 b2 h3 b3 h4 b4 h5 b5 h6 b6 h7 b7 h8 b8 h9 b9, hs, ← toF_val_cast, Int.toNat_natCast]

end FE
end Ed

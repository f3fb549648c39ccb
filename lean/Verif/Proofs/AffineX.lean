import Verif.Proofs.MathUtils

/-! # `GetAffineXFromAffineY` -/

namespace Ed
open FE

def s1N : ℕ := 51380297829790456491237162401597246033761091082941378702394490295467508647106
def sIN : ℕ := 54086221075931470954574552489937916136008491635437306925398681311694961437879
def sJN : ℕ := 778083573067816290926478086746467285481355646726927282234330772686926757258
def wIN : ℕ := 28546399011376165956718518087591076594394256613886816876509056634789014118587
def rIN : ℕ := 44098895332114489024764480629149313233525944545781914509399868051942929619449

theorem cast_eq {a b : ℕ} (h : a % (2 ^ 255 - 19) = b % (2 ^ 255 - 19)) : (a : F) = (b : F) := F_natCast_eq.2 h

theorem pow_sq {Y s : F} (h : Y ^ 2 = s) (h0 : s ≠ 0) : s ^ ((P - 1) / 2) = 1 := by
  have hY : Y ≠ 0 := by rintro rfl; apply h0; rw [← h]; ring
  rw [← h, ← pow_mul]
  have e : 2 * ((P - 1) / 2) = P - 1 := by rw [P_eq]; decide +kernel
  rw [e]
  exact ZMod.pow_card_sub_one_eq_one hY

theorem nonsq_of {n : ℕ} (h : powMod (2 ^ 255 - 19) 256 n ((2 ^ 255 - 20) / 2) 1 = 2 ^ 255 - 20)
    (h0 : n % (2 ^ 255 - 19) ≠ 0) (Y : F) : Y ^ 2 ≠ (n : F) := by
  intro hY
  have h1 := pow_sq hY (ofNat_ne_zero_F h0)
  have he : (P - 1) / 2 = (2 ^ 255 - 20) / 2 := by rw [P_eq]; decide +kernel
  rw [he, F_pow_natCast n _ (2 ^ 255 - 20) (by decide) h] at h1
  have : ((2 ^ 255 - 20 + 1 : ℕ) : F) = 0 := by
    rw [F_natCast_eq_zero]; decide
  rw [Nat.cast_add, Nat.cast_one, h1] at this
  apply two_ne_zero_F
  linear_combination this

theorem s1_nonsq (Y : F) : Y ^ 2 ≠ (s1N : F) := nonsq_of (by decide +kernel) (by decide +kernel) Y
theorem sJ_nonsq (Y : F) : Y ^ 2 ≠ (sJN : F) := nonsq_of (by decide +kernel) (by decide +kernel) Y

theorem s1_eq : (s1N : F) * (1 - d) = 2 := by
  have h : ((s1N : ℕ) : F) = ((2 + s1N * dN : ℕ) : F) := cast_eq (by decide +kernel)
  push_cast at h
  rw [d_eq]; linear_combination h
theorem sI_eq : (sIN : F) * (1 - sqrtm1 * d) = 1 + sqrtm1 := by
  have h : ((sIN : ℕ) : F) = ((1 + sqrtm1N + sIN * sqrtm1N * dN : ℕ) : F) := cast_eq (by decide +kernel)
  push_cast at h
  rw [d_eq, sqrtm1]; linear_combination h
theorem sJ_eq : (sJN : F) * (1 + sqrtm1 * d) = 1 - sqrtm1 := by
  have h : ((sJN + sJN * sqrtm1N * dN + sqrtm1N : ℕ) : F) = ((1 : ℕ) : F) := cast_eq (by decide +kernel)
  push_cast at h
  rw [d_eq, sqrtm1]; linear_combination h

theorem one_sub_d : (1 : F) - d ≠ 0 := by
  intro h
  have := s1_eq
  rw [h, mul_zero] at this
  exact two_ne_zero_F this.symm
theorem one_add_d : (1 : F) + d ≠ 0 := by
  have : ((1 + dN : ℕ) : F) ≠ 0 := ofNat_ne_zero_F (by decide +kernel)
  push_cast at this
  rw [d_eq]; exact this
theorem one_add_s : (1 : F) + sqrtm1 ≠ 0 := by
  have : ((1 + sqrtm1N : ℕ) : F) ≠ 0 := ofNat_ne_zero_F (by decide +kernel)
  push_cast at this
  exact this
theorem one_sub_s : (1 : F) - sqrtm1 ≠ 0 := by
  intro h
  have h1 : sqrtm1 * sqrtm1 = 1 := by linear_combination (-1 - sqrtm1) * h
  rw [sqrtm1_sq] at h1
  exact one_ne_neg_one_F h1.symm

/-- The denominator never vanishes. -/
theorem den_ne (Y : F) : d * Y ^ 2 + 1 ≠ 0 := by
  intro h
  have hY : Y ≠ 0 := by
    rintro rfl
    apply one_ne_zero (α := F)
    linear_combination h
  apply d_nonsq (sqrtm1 / Y)
  have : sqrtm1 / Y * (sqrtm1 / Y) = sqrtm1 * sqrtm1 / Y ^ 2 := by field_simp
  rw [this, sqrtm1_sq, div_eq_iff (pow_ne_zero 2 hY)]
  linear_combination -h

/-- The exceptional value of y^2 for which u/v is a square root of -1: the root found is not u/v or -u/v. -/
theorem exceptional {u v : F} (hu : u = (sIN : F) - 1) (hv : v = d * (sIN : F) + 1) :
    v * ((u * v ^ 7) ^ (2 ^ 252 - 3) * u * v ^ 3) ≠ u ∧ v * ((u * v ^ 7) ^ (2 ^ 252 - 3) * u * v ^ 3) ≠ -u := by
  have hu' : u = ((sIN + (2 ^ 255 - 20) : ℕ) : F) := by
    rw [hu]
    have h : ((2 ^ 255 - 20 + 1 : ℕ) : F) = 0 := by rw [F_natCast_eq_zero]; decide
    rw [Nat.cast_add] at h ⊢
    rw [Nat.cast_one] at h
    linear_combination -h
  have hv' : v = ((dN * sIN + 1 : ℕ) : F) := by rw [hv, d_eq]; push_cast; ring
  have hw : u * v ^ 7 = (wIN : F) := by
    rw [hu', hv', ← Nat.cast_pow, ← Nat.cast_mul]
    exact cast_eq (by decide +kernel)
  rw [hw, F_pow_natCast wIN _ rIN (by decide +kernel) (by decide +kernel), hu', hv', ← Nat.cast_pow, ← Nat.cast_mul,
    ← Nat.cast_mul, ← Nat.cast_mul]
  constructor
  · rw [Ne, F_natCast_eq]; decide +kernel
  · intro h
    have h2 := eq_neg_iff_add_eq_zero.1 h
    rw [← Nat.cast_add, F_natCast_eq_zero] at h2
    revert h2; decide +kernel

/-- When the (wrong) test of the code accepts. -/
theorem root_test {Y u v x : F} (hu : u = Y ^ 2 - 1) (hv : v = d * Y ^ 2 + 1)
    (hx : x = (u * v ^ 7) ^ (2 ^ 252 - 3) * u * v ^ 3) (h : v * x = u ∨ v * x = -u) : Y = 0 ∨ Y ^ 2 = 1 := by
  by_cases hu0 : u = 0
  · right; rw [hu0] at hu; linear_combination -hu
  have hv0 : v ≠ 0 := by rw [hv]; exact den_ne Y
  have hw0 : u * v ^ 7 ≠ 0 := mul_ne_zero hu0 (pow_ne_zero 7 hv0)
  obtain ⟨e, he⟩ : ∃ e : ℕ, e = 2 ^ 252 - 3 := ⟨_, rfl⟩
  have hx' := hx
  rw [← he] at hx'
  obtain ⟨ζ, hζ⟩ : ∃ ζ, ζ = (u * v ^ 7) ^ (2 * e + 1) := ⟨_, rfl⟩
  have h4 : ζ ^ 4 = 1 := by
    have e4 : (2 * e + 1) * 4 = P - 1 := by rw [he, P_eq]; decide +kernel
    rw [hζ, ← pow_mul, e4]
    exact ZMod.pow_card_sub_one_eq_one hw0
  have hvx : v * x ^ 2 = u * ζ := by
    have e1 : (u * v ^ 7) ^ (2 * e + 1) = ((u * v ^ 7) ^ e) ^ 2 * (u * v ^ 7) := by
      rw [pow_succ, mul_comm 2 e, pow_mul]
    rw [hx', hζ, e1]
    generalize (u * v ^ 7) ^ e = k
    ring
  have hsq : (v * x) ^ 2 = u ^ 2 := by rcases h with h | h <;> rw [h] <;> ring
  have hζv : u = ζ * v := by
    apply mul_left_cancel₀ hu0
    linear_combination -hsq + v * hvx
  have hz : (ζ - 1) * (ζ + 1) * ((ζ - sqrtm1) * (ζ + sqrtm1)) = 0 := by
    linear_combination h4 - (ζ ^ 2 - 1) * sqrtm1_sq
  rcases mul_eq_zero.1 hz with hz | hz <;> rcases mul_eq_zero.1 hz with hz | hz
  · -- ζ = 1
    exfalso
    have z1 : ζ = 1 := by linear_combination hz
    apply s1_nonsq Y
    apply mul_right_cancel₀ one_sub_d
    rw [s1_eq]
    rw [z1, hu, hv] at hζv
    linear_combination hζv
  · -- ζ = -1
    left
    have z1 : ζ = -1 := by linear_combination hz
    rw [z1, hu, hv] at hζv
    have : Y ^ 2 * (1 + d) = 0 := by linear_combination hζv
    rcases mul_eq_zero.1 this with h | h
    · exact pow_eq_zero_iff (two_ne_zero) |>.1 h
    · exact absurd h one_add_d
  · -- ζ = sqrt(-1)
    exfalso
    have z1 : ζ = sqrtm1 := by linear_combination hz
    rw [z1, hu, hv] at hζv
    have hk : (1 : F) - sqrtm1 * d ≠ 0 := by
      intro h0
      have := sI_eq
      rw [h0, mul_zero] at this
      exact one_add_s this.symm
    have hY : Y ^ 2 = (sIN : F) := by
      apply mul_right_cancel₀ hk
      rw [sI_eq]
      linear_combination hζv
    have hex := exceptional (u := u) (v := v) (by rw [hu, hY]) (by rw [hv, hY])
    rw [← hx] at hex
    rcases h with h | h
    · exact hex.1 h
    · exact hex.2 h
  · -- ζ = -sqrt(-1)
    exfalso
    have z1 : ζ = -sqrtm1 := by linear_combination hz
    rw [z1, hu, hv] at hζv
    have hk : (1 : F) + sqrtm1 * d ≠ 0 := by
      intro h0
      have := sJ_eq
      rw [h0, mul_zero] at this
      exact one_sub_s this.symm
    apply sJ_nonsq Y
    apply mul_right_cancel₀ hk
    rw [sJ_eq]
    linear_combination hζv

theorem getSqrtOfFraction_eq (a b : F) :
    getSqrtOfFraction a.val b.val = ((((a * b ^ 7) ^ (2 ^ 252 - 3) * a * b ^ 3).val : ℕ) : ℤ) := by
  unfold getSqrtOfFraction
  obtain ⟨e, he⟩ : ∃ e : ℕ, e = 2 ^ 252 - 3 := ⟨_, rfl⟩
  rw [← he]
  simp only [emod_fieldP, Int.cast_mul, Int.cast_pow, cast_val]

theorem chooseSign_even {x : ℤ} (h : x % 2 = 0) (s : Bool) : chooseSign x s = 0 := by
  unfold chooseSign
  rw [h]
  cases s <;> decide

theorem one_val : ((1 : F).val : ℤ) = 1 := by
  have : Fact (1 < P) := ⟨by rw [P_eq]; norm_num⟩
  rw [ZMod.val_one]; rfl

theorem getAffineX_exact (G : Big) (y : ℤ) (s : Bool) :
    getAffineXFromAffineY G y s =
      if (y : F) = 0 ∨ (y : F) ^ 2 = 1 then .ok 0 else .err "not a valid Ed25519GroupElement" := by
  obtain ⟨D, hD, hDd⟩ := mathD_ok G
  unfold getAffineXFromAffineY
  rw [hD, Out.ok_bind]
  have e1 : (y * y - 1) % fieldP = ((((y : F) ^ 2 - 1).val : ℕ) : ℤ) := by
    rw [emod_fieldP]; push_cast; rw [pow_two]
  have e2 : (D * y * y + 1) % fieldP = (((d * (y : F) ^ 2 + 1).val : ℕ) : ℤ) := by
    rw [emod_fieldP]; push_cast; rw [hDd, pow_two, mul_assoc]
  rw [e1, e2]
  dsimp only
  generalize hY : (y : F) = Y
  obtain ⟨u, hu⟩ : ∃ u, u = Y ^ 2 - 1 := ⟨_, rfl⟩
  obtain ⟨v, hv⟩ : ∃ v, v = d * Y ^ 2 + 1 := ⟨_, rfl⟩
  rw [← hu, ← hv, getSqrtOfFraction_eq]
  obtain ⟨x, hx⟩ : ∃ x, x = (u * v ^ 7) ^ (2 ^ 252 - 3) * u * v ^ 3 := ⟨_, rfl⟩
  rw [← hx]
  have t1 : ((v.val : ℤ) * (x.val : ℤ) - (u.val : ℤ)) % fieldP = 0 ↔ v * x = u := by
    rw [emod_fieldP, Int.cast_sub, Int.cast_mul, cast_val, cast_val, cast_val, Int.natCast_eq_zero, ZMod.val_eq_zero,
      sub_eq_zero]
  have t2 : ((v.val : ℤ) * (x.val : ℤ) + (u.val : ℤ)) % fieldP = 0 ↔ v * x = -u := by
    rw [emod_fieldP, Int.cast_add, Int.cast_mul, cast_val, cast_val, cast_val, Int.natCast_eq_zero, ZMod.val_eq_zero,
      eq_neg_iff_add_eq_zero]
  unfold fixRoot
  by_cases hc : Y = 0 ∨ Y ^ 2 = 1
  · rw [if_pos hc]
    rcases hc with hc | hc
    · -- y = 0
      have hu1 : u = -1 := by rw [hu, hc]; ring
      have hv1 : v = 1 := by rw [hv, hc]; ring
      have hx1 : x = 1 := by
        have hodd : Odd (2 ^ 252 - 3) := by decide +kernel
        rw [hx, hu1, hv1, one_pow, mul_one]
        obtain ⟨e, he⟩ : ∃ e : ℕ, e = 2 ^ 252 - 3 := ⟨_, rfl⟩
        rw [← he] at hodd ⊢
        rw [hodd.neg_one_pow]; ring
      rw [if_pos (by rw [Ne, t1, hv1, hx1, hu1, one_mul]; exact one_ne_neg_one_F),
        if_neg (by rw [Ne, t2, hv1, hx1, hu1, one_mul, neg_neg]; simp), Out.ok_bind, hx1, one_val, one_mul,
        intsToBigInteger_eq, emod_fieldP]
      have : (((iFE.val : ℤ) : F).val : ℤ) = (sqrtm1N : ℤ) := by
        have h2 : ((iFE.val : ℤ) : F) = sqrtm1 := iFE_spec.2
        rw [h2, sqrtm1, val_natCast_F (by decide +kernel)]
      rw [this, chooseSign_even (by decide +kernel)]
    · -- y^2 = 1
      have hu1 : u = 0 := by rw [hu, hc]; ring
      have hx1 : x = 0 := by rw [hx, hu1, mul_zero, zero_mul]
      rw [if_neg (by rw [Ne, not_not, t1, hx1, hu1, mul_zero]), Out.ok_bind, hx1, ZMod.val_zero, Nat.cast_zero,
        chooseSign_even (by decide)]
  · rw [if_neg hc, if_pos (fun h => hc (root_test hu hv hx (Or.inl (t1.1 h)))),
      if_pos (fun h => hc (root_test hu hv hx (Or.inr (t2.1 h)))), Out.err_bind]

end Ed

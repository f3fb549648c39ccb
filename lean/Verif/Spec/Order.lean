import Verif.Spec.Base
import Mathlib.GroupTheory.OrderOfElement
import Mathlib.SetTheory.Cardinal.Finite
import Mathlib.GroupTheory.SpecificGroups.Cyclic

/-!
# Specification: the number of points of the curve

The point `T` has order 8, so `B + T` has order `8 L`.  There are at most two points for each of the `p` values of y, and
`2 p < 16 L`; so the curve has exactly `8 L` points, all of them multiples of `B + T`.
-/

set_option autoImplicit false

namespace Ed

/-- x-coordinate of `T` as a number. -/
def TxN : ℕ := 14399317868200118260347934320527232580618823971194345261214217575416788799818
/-- y-coordinate of `T` as a number. -/
def TyN : ℕ := 2707385501144840649318225287225658788936804267575313519463743609750303402022

/-- p - y of `T`. -/
def TyM : ℕ := 55188659117513257062467267217118295137698188065244968500265048394206261417927

/-- The 14 numbers whose 32-byte encodings denote the points of order 1, 2, 4 and 8. -/
def smallOrderValues : List ℕ :=
  [1, 1 + 2 ^ 255, 2 ^ 255 - 18, 2 ^ 255 - 18 + 2 ^ 255,
   2 ^ 255 - 20, 2 ^ 255 - 20 + 2 ^ 255,
   0, 2 ^ 255, 2 ^ 255 - 19, 2 ^ 255 - 19 + 2 ^ 255,
   TyN, TyN + 2 ^ 255, TyM, TyM + 2 ^ 255]

/-- A point of order 8. -/
def T : Pt where
  x := (TxN : F)
  y := (TyN : F)
  on := by
    have h : ((TyN * TyN : ℕ) : F) = ((1 + dN * TxN * TxN * TyN * TyN + TxN * TxN : ℕ) : F) := by
      rw [F_natCast_eq]; decide +kernel
    push_cast at h
    unfold OnCurve
    rw [d_eq]
    linear_combination h

theorem T_rep : (NP.mk TxN TyN 1).Rep T := NP.affine_rep _ _ _ rfl rfl

/-- A multiple of `T`, given by its coordinates. -/
theorem smul_T_eq {n : ℕ} (hn : n < 2 ^ 8) (q : Pt) (x y : ℕ) (hx : q.x = (x : F)) (hy : q.y = (y : F))
    (h1 : (NP.mul (2 ^ 255 - 19) 8 ⟨TxN, TyN, 1⟩ n ⟨0, 1, 1⟩).X * 1 % (2 ^ 255 - 19) =
      x * (NP.mul (2 ^ 255 - 19) 8 ⟨TxN, TyN, 1⟩ n ⟨0, 1, 1⟩).Z % (2 ^ 255 - 19))
    (h2 : (NP.mul (2 ^ 255 - 19) 8 ⟨TxN, TyN, 1⟩ n ⟨0, 1, 1⟩).Y * 1 % (2 ^ 255 - 19) =
      y * (NP.mul (2 ^ 255 - 19) 8 ⟨TxN, TyN, 1⟩ n ⟨0, 1, 1⟩).Z % (2 ^ 255 - 19)) : n • T = q := by
  have h := NP.mul_rep 8 _ _ n T 0 hn T_rep NP.zero_rep
  rw [zero_add] at h
  exact h.eq (NP.affine_rep x y q hx hy) h1 h2

theorem eight_smul_T : (8 : ℕ) • T = 0 :=
  smul_T_eq (by decide) 0 0 1 (by simp) (by simp) (by decide +kernel) (by decide +kernel)

/-- The point `(0, -1)` of order 2. -/
def T4 : Pt := ⟨0, -1, by unfold OnCurve; ring⟩

theorem four_smul_T : (4 : ℕ) • T = T4 :=
  smul_T_eq (by decide) T4 0 (2 ^ 255 - 20) (by simp [T4]) (by
    have : ((2 ^ 255 - 20 + 1 : ℕ) : F) = 0 := by rw [F_natCast_eq_zero]; decide
    rw [Nat.cast_add, Nat.cast_one] at this
    exact (eq_neg_of_add_eq_zero_left this).symm) (by decide +kernel) (by decide +kernel)

theorem T4_ne_zero : T4 ≠ 0 := fun h => one_ne_neg_one_F (congrArg Pt.y h).symm

theorem addOrderOf_T : addOrderOf T = 8 := by
  haveI : Fact (Nat.Prime 2) := ⟨Nat.prime_two⟩
  have h := addOrderOf_eq_prime_pow (x := T) (p := 2) (n := 2)
    (by rw [show (2 : ℕ) ^ 2 = 4 from rfl, four_smul_T]; exact T4_ne_zero)
    (by rw [show (2 : ℕ) ^ (2 + 1) = 8 from rfl, eight_smul_T])
  simpa using h

theorem L_coprime_8 : Nat.Coprime L 8 := by rw [L_eq]; decide +kernel

/-- A generator of the whole group. -/
theorem addOrderOf_BT : addOrderOf (B + T) = 8 * L := by
  rw [(AddCommute.all B T).addOrderOf_add_eq_mul_addOrderOf_of_coprime
    (by rw [addOrderOf_B, addOrderOf_T]; exact L_coprime_8), addOrderOf_B, addOrderOf_T, Nat.mul_comm]

/-- Two points with the same y-coordinate have equal or opposite x. -/
theorem Pt.x_of_y {p q : Pt} (h : p.y = q.y) : p.x = q.x ∨ p.x = -q.x := by
  have hp := p.on
  have hq := q.on
  unfold OnCurve at hp hq
  rw [h] at hp
  have e : (p.x ^ 2 - q.x ^ 2) * (1 + d * q.y ^ 2) = 0 := by linear_combination hq - hp
  rcases mul_eq_zero.mp e with e | e
  · have : (p.x - q.x) * (p.x + q.x) = 0 := by linear_combination e
    rcases mul_eq_zero.mp this with e | e
    · exact Or.inl (sub_eq_zero.mp e)
    · exact Or.inr (eq_neg_of_add_eq_zero_left e)
  · exfalso
    have hy : q.y ≠ 0 := by
      rintro h0
      rw [h0] at e
      have : (1 : F) = 0 := by linear_combination e
      exact one_ne_zero this
    have : d * (q.y ^ 2) = -1 := by linear_combination e
    apply d_nonsq (sqrtm1 / q.y)
    have hi := sqrtm1_sq
    field_simp
    linear_combination hi - this

/-- The sign of x: 0 for even representatives. -/
def Pt.code (q : Pt) : F × Fin 2 := (q.y, ⟨q.x.val % 2, Nat.mod_lt _ (by decide)⟩)

theorem Pt.code_injective : Function.Injective Pt.code := by
  intro p q h
  unfold Pt.code at h
  rw [Prod.mk.injEq, Fin.mk.injEq] at h
  obtain ⟨hy, hx⟩ := h
  rcases Pt.x_of_y hy with h | h
  · exact Pt.ext h hy
  · refine Pt.ext ?_ hy
    by_cases h0 : q.x = 0
    · rw [h, h0, neg_zero]
    · exfalso
      rw [h, ZMod.neg_val, if_neg h0] at hx
      have hlt := ZMod.val_lt q.x
      have hodd : P % 2 = 1 := by rw [P_eq]; decide
      omega

instance : Finite Pt := Finite.of_injective _ Pt.code_injective

theorem card_le : Nat.card Pt ≤ 2 * P := by
  have h := Nat.card_le_card_of_injective _ Pt.code_injective
  rw [Nat.card_prod, Nat.card_zmod, Nat.card_fin] at h
  omega

/-- The number of points of the curve. -/
theorem card_Pt : Nat.card Pt = 8 * L := by
  have h1 : 8 * L ∣ Nat.card Pt := by rw [← addOrderOf_BT]; exact addOrderOf_dvd_natCard _
  have h2 := card_le
  have h3 : 2 * P < 16 * L := by rw [P_eq, L_eq]; decide +kernel
  have h4 : 0 < Nat.card Pt := Nat.card_pos
  obtain ⟨k, hk⟩ := h1
  have hk1 : k < 2 := by
    by_contra hk2
    have : 8 * L * 2 ≤ 8 * L * k := Nat.mul_le_mul_left _ (by omega)
    omega
  have hk0 : k ≠ 0 := by rintro rfl; simp at hk; omega
  have : k = 1 := by omega
  rw [hk, this, Nat.mul_one]

theorem order_smul (q : Pt) : (8 * L) • q = 0 := by
  rw [← card_Pt]; exact card_nsmul_eq_zero'

/-- Every point is a multiple of `B + T`. -/
theorem exists_smul_BT (q : Pt) : ∃ n, n < 8 * L ∧ q = n • (B + T) := by
  classical
  have h : q ∈ AddSubgroup.zmultiples (B + T) := by
    have : AddSubgroup.zmultiples (B + T) = ⊤ := by
      apply AddSubgroup.eq_top_of_card_eq
      rw [Nat.card_zmultiples, addOrderOf_BT, card_Pt]
    rw [this]; trivial
  rw [← mem_multiples_iff_mem_zmultiples, mem_multiples_iff_mem_range_addOrderOf] at h
  rw [Finset.mem_image] at h
  obtain ⟨n, hn, he⟩ := h
  rw [Finset.mem_range, addOrderOf_BT] at hn
  exact ⟨n, hn, he.symm⟩

theorem smul_T_eq_iff (m n : ℕ) : m • T = n • T ↔ m % 8 = n % 8 := by
  rw [← addOrderOf_T]
  exact nsmul_inj_mod

/-- Every point is the sum of a multiple of the base point and a multiple of the point of order 8. -/
theorem exists_parts (q : Pt) : ∃ n t, n < L ∧ t < 8 ∧ q = n • B + t • T := by
  obtain ⟨n, _, rfl⟩ := exists_smul_BT q
  refine ⟨n % L, n % 8, Nat.mod_lt _ L_prime.pos, Nat.mod_lt _ (by decide), ?_⟩
  rw [smul_add, smul_B_mod, (smul_T_eq_iff (n % 8) n).mpr (Nat.mod_mod _ _)]

/-- The points of order dividing L are the multiples of the base point. -/
theorem L_smul_eq_zero_iff (q : Pt) : L • q = 0 ↔ ∃ n, n < L ∧ q = n • B := by
  constructor
  · intro h
    obtain ⟨n, t, hn, ht, rfl⟩ := exists_parts q
    refine ⟨n, hn, ?_⟩
    rw [smul_add, smul_comm, L_smul_B, smul_zero, zero_add, ← mul_smul] at h
    rw [← addOrderOf_dvd_iff_nsmul_eq_zero, addOrderOf_T] at h
    have := (L_coprime_8.symm).dvd_of_dvd_mul_left h
    have : t = 0 := Nat.eq_zero_of_dvd_of_lt this ht
    rw [this, zero_smul, add_zero]
  · rintro ⟨n, _, rfl⟩
    rw [smul_comm, L_smul_B, smul_zero]

/-- The points of order dividing 8 are the multiples of `T`. -/
theorem eight_smul_eq_zero_iff (q : Pt) : (8 : ℕ) • q = 0 ↔ ∃ t, t < 8 ∧ q = t • T := by
  constructor
  · intro h
    obtain ⟨n, t, hn, ht, rfl⟩ := exists_parts q
    refine ⟨t, ht, ?_⟩
    rw [smul_add, smul_comm 8 t, eight_smul_T, smul_zero, add_zero, ← mul_smul] at h
    rw [← addOrderOf_dvd_iff_nsmul_eq_zero, addOrderOf_B] at h
    have := L_coprime_8.dvd_of_dvd_mul_left h
    have : n = 0 := Nat.eq_zero_of_dvd_of_lt this hn
    rw [this, zero_smul, zero_add]
  · rintro ⟨t, _, rfl⟩
    rw [smul_comm, eight_smul_T, smul_zero]

end Ed

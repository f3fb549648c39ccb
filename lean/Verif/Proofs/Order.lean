import Verif.Spec.Order
import Verif.Proofs.PointCodec
import Verif.Proofs.Keys

/-!
# Lemmas on the whole group: small-order points, clamped scalars, accepted strings
-/

set_option autoImplicit false

namespace Ed

theorem smul_T_coords {n : ℕ} (hn : n < 2 ^ 8) (x y : ℕ)
    (h1 : (NP.mul (2 ^ 255 - 19) 8 ⟨TxN, TyN, 1⟩ n ⟨0, 1, 1⟩).X % (2 ^ 255 - 19) =
      x * (NP.mul (2 ^ 255 - 19) 8 ⟨TxN, TyN, 1⟩ n ⟨0, 1, 1⟩).Z % (2 ^ 255 - 19))
    (h2 : (NP.mul (2 ^ 255 - 19) 8 ⟨TxN, TyN, 1⟩ n ⟨0, 1, 1⟩).Y % (2 ^ 255 - 19) =
      y * (NP.mul (2 ^ 255 - 19) 8 ⟨TxN, TyN, 1⟩ n ⟨0, 1, 1⟩).Z % (2 ^ 255 - 19)) :
    (n • T).x = (x : F) ∧ (n • T).y = (y : F) := by
  have h := NP.mul_rep 8 _ _ n T 0 hn T_rep NP.zero_rep
  rw [zero_add] at h
  obtain ⟨h0, hx, hy⟩ := h
  rw [← F_natCast_eq] at h1 h2
  rw [Nat.cast_mul] at h1 h2
  rw [hx] at h1
  rw [hy] at h2
  exact ⟨mul_right_cancel₀ h0 h1, mul_right_cancel₀ h0 h2⟩

/-- p - x of `T`. -/
def TxM : ℕ := 43496726750457979451437558183816721346016168361625936758514574428539776020131
/-- p - sqrt(-1). -/
def sqrtm1M : ℕ := 38214883241950591754978413199355411911188925816896391856984770930832735035197

theorem T0 : ((0 : ℕ) • T).x = ((0 : ℕ) : F) ∧ ((0 : ℕ) • T).y = ((1 : ℕ) : F) := by simp
theorem T1 : ((1 : ℕ) • T).x = (TxN : F) ∧ ((1 : ℕ) • T).y = (TyN : F) :=
  smul_T_coords (by decide) _ _ (by decide +kernel) (by decide +kernel)
theorem T2 : ((2 : ℕ) • T).x = (sqrtm1N : F) ∧ ((2 : ℕ) • T).y = ((0 : ℕ) : F) :=
  smul_T_coords (by decide) _ _ (by decide +kernel) (by decide +kernel)
theorem T3 : ((3 : ℕ) • T).x = (TxN : F) ∧ ((3 : ℕ) • T).y = (TyM : F) :=
  smul_T_coords (by decide) _ _ (by decide +kernel) (by decide +kernel)
theorem T4' : ((4 : ℕ) • T).x = ((0 : ℕ) : F) ∧ ((4 : ℕ) • T).y = ((2 ^ 255 - 20 : ℕ) : F) :=
  smul_T_coords (by decide) _ _ (by decide +kernel) (by decide +kernel)
theorem T5 : ((5 : ℕ) • T).x = (TxM : F) ∧ ((5 : ℕ) • T).y = (TyM : F) :=
  smul_T_coords (by decide) _ _ (by decide +kernel) (by decide +kernel)
theorem T6 : ((6 : ℕ) • T).x = (sqrtm1M : F) ∧ ((6 : ℕ) • T).y = ((0 : ℕ) : F) :=
  smul_T_coords (by decide) _ _ (by decide +kernel) (by decide +kernel)
theorem T7 : ((7 : ℕ) • T).x = (TxM : F) ∧ ((7 : ℕ) • T).y = (TyN : F) :=
  smul_T_coords (by decide) _ _ (by decide +kernel) (by decide +kernel)

/-- A string denotes a point given by its coordinates. -/
theorem decodes_of_coords {raw : Bytes} {q : Pt} {x y : ℕ} (h : q.x = (x : F) ∧ q.y = (y : F)) (hx : x < 2 ^ 255 - 19)
    (hy : leVal raw % 2 ^ 255 % (2 ^ 255 - 19) = y) (hp : x = 0 ∨ x % 2 = leVal raw / 2 ^ 255 % 2) : Decodes raw q := by
  refine ⟨?_, ?_⟩
  · rw [h.2, ← hy, cast_mod]
  · rcases hp with rfl | hp
    · left; rw [h.1]; simp
    · right; rw [h.1, val_natCast_F hx, hp]

/-- The values of a 32-byte string whose y-coordinate is the number y. -/
theorem leVal_of_y {raw : Bytes} (hl : raw.length = 32) {y : ℕ} (hy : y < 2 ^ 255 - 19) (h : (y : F) = ((leVal raw % 2 ^ 255 : ℕ) : F)) :
    ∃ s, s < 2 ∧ (leVal raw = y + 2 ^ 255 * s ∨ (y < 19 ∧ leVal raw = y + (2 ^ 255 - 19) + 2 ^ 255 * s)) := by
  rw [F_natCast_eq, Nat.mod_eq_of_lt hy] at h
  have hv := leVal_lt raw
  rw [hl, show (256 : ℕ) ^ 32 = 2 ^ 255 * 2 by norm_num] at hv
  have hs := Nat.div_lt_of_lt_mul hv
  have hd := Nat.mod_add_div (leVal raw) (2 ^ 255)
  have hw := Nat.mod_lt (leVal raw) (show 0 < 2 ^ 255 by norm_num)
  generalize leVal raw % 2 ^ 255 = w at *
  generalize leVal raw / 2 ^ 255 = s at *
  refine ⟨s, hs, ?_⟩
  omega

theorem small_order_iff {raw : Bytes} (hl : raw.length = 32) :
    (∃ q, Decodes raw q ∧ (8 : ℕ) • q = 0) ↔ leVal raw ∈ smallOrderValues := by
  constructor
  · rintro ⟨q, ⟨hy, -⟩, h8⟩
    obtain ⟨t, ht, rfl⟩ := (eight_smul_eq_zero_iff q).mp h8
    have key : ∀ y : ℕ, (t • T).y = (y : F) → y < 2 ^ 255 - 19 →
        (∀ s, s < 2 → (y + 2 ^ 255 * s ∈ smallOrderValues ∧ (y < 19 → y + (2 ^ 255 - 19) + 2 ^ 255 * s ∈ smallOrderValues))) →
        leVal raw ∈ smallOrderValues := by
      intro y h1 h2 h3
      obtain ⟨s, hs, h4 | ⟨h4, h5⟩⟩ := leVal_of_y hl h2 (h1.symm.trans hy)
      · rw [h4]; exact (h3 s hs).1
      · rw [h5]; exact (h3 s hs).2 h4
    have hc : t = 0 ∨ t = 1 ∨ t = 2 ∨ t = 3 ∨ t = 4 ∨ t = 5 ∨ t = 6 ∨ t = 7 := by omega
    rcases hc with rfl | rfl | rfl | rfl | rfl | rfl | rfl | rfl
    · exact key _ T0.2 (by decide +kernel) (by decide +kernel)
    · exact key _ T1.2 (by decide +kernel) (by decide +kernel)
    · exact key _ T2.2 (by decide +kernel) (by decide +kernel)
    · exact key _ T3.2 (by decide +kernel) (by decide +kernel)
    · exact key _ T4'.2 (by decide +kernel) (by decide +kernel)
    · exact key _ T5.2 (by decide +kernel) (by decide +kernel)
    · exact key _ T6.2 (by decide +kernel) (by decide +kernel)
    · exact key _ T7.2 (by decide +kernel) (by decide +kernel)
  · intro h
    have z : ∀ t : ℕ, (8 : ℕ) • (t • T) = 0 := fun t => by rw [smul_comm, eight_smul_T, smul_zero]
    have key : ∀ (t x y v : ℕ), ((t • T).x = (x : F) ∧ (t • T).y = (y : F)) → leVal raw = v →
        x < 2 ^ 255 - 19 → v % 2 ^ 255 % (2 ^ 255 - 19) = y → (x = 0 ∨ x % 2 = v / 2 ^ 255 % 2) →
        ∃ q, Decodes raw q ∧ (8 : ℕ) • q = 0 := by
      intro t x y v h1 h2 h3 h4 h5
      exact ⟨t • T, decodes_of_coords h1 h3 (by rw [h2]; exact h4) (by rw [h2]; exact h5), z t⟩
    unfold smallOrderValues at h
    simp only [List.mem_cons, List.not_mem_nil, or_false] at h
    rcases h with h | h | h | h | h | h | h | h | h | h | h | h | h | h
    · exact key 0 _ _ _ T0 h (by decide +kernel) (by decide +kernel) (by decide +kernel)
    · exact key 0 _ _ _ T0 h (by decide +kernel) (by decide +kernel) (by decide +kernel)
    · exact key 0 _ _ _ T0 h (by decide +kernel) (by decide +kernel) (by decide +kernel)
    · exact key 0 _ _ _ T0 h (by decide +kernel) (by decide +kernel) (by decide +kernel)
    · exact key 4 _ _ _ T4' h (by decide +kernel) (by decide +kernel) (by decide +kernel)
    · exact key 4 _ _ _ T4' h (by decide +kernel) (by decide +kernel) (by decide +kernel)
    · exact key 2 _ _ _ T2 h (by decide +kernel) (by decide +kernel) (by decide +kernel)
    · exact key 6 _ _ _ T6 h (by decide +kernel) (by decide +kernel) (by decide +kernel)
    · exact key 2 _ _ _ T2 h (by decide +kernel) (by decide +kernel) (by decide +kernel)
    · exact key 6 _ _ _ T6 h (by decide +kernel) (by decide +kernel) (by decide +kernel)
    · exact key 1 _ _ _ T1 h (by decide +kernel) (by decide +kernel) (by decide +kernel)
    · exact key 7 _ _ _ T7 h (by decide +kernel) (by decide +kernel) (by decide +kernel)
    · exact key 3 _ _ _ T3 h (by decide +kernel) (by decide +kernel) (by decide +kernel)
    · exact key 5 _ _ _ T5 h (by decide +kernel) (by decide +kernel) (by decide +kernel)

/-- A multiple of 8 annihilates only the small-order points and, if it is a multiple of L, everything. -/
theorem eight_mul_smul_eq_zero_iff (c : ℕ) (q : Pt) : (8 * c) • q = 0 ↔ (8 : ℕ) • q = 0 ∨ L ∣ c := by
  constructor
  · intro h
    obtain ⟨n, t, hn, ht, rfl⟩ := exists_parts q
    have hT : ∀ m : ℕ, (8 * m) • (t • T) = 0 := fun m => by
      rw [smul_comm, Nat.mul_comm, mul_smul, eight_smul_T, smul_zero, smul_zero]
    rw [smul_add, hT c, add_zero, ← mul_smul, ← addOrderOf_dvd_iff_nsmul_eq_zero, addOrderOf_B, Nat.mul_assoc] at h
    have h1 := L_coprime_8.dvd_of_dvd_mul_left h
    rcases (L_prime.dvd_mul).mp h1 with h2 | h2
    · exact Or.inr h2
    · left
      rw [Nat.eq_zero_of_dvd_of_lt h2 hn, zero_smul, zero_add]
      have := hT 1
      rwa [Nat.mul_one] at this
  · rintro (h | ⟨k, rfl⟩)
    · rw [Nat.mul_comm, mul_smul, h, smul_zero]
    · rw [← Nat.mul_assoc, Nat.mul_comm, mul_smul, order_smul, smul_zero]

variable (E : Env)

theorem secretScalar_eight (sk : Bytes) : ∃ c, secretScalar E sk = 8 * c ∧ 2 ^ 251 ≤ c ∧ c < 2 ^ 252 := by
  obtain ⟨h1, h2, c, hc⟩ := secretScalar_bounds E sk
  exact ⟨c, hc, by omega, by omega⟩

theorem secret_smul_eq_zero_iff (sk : Bytes) (q : Pt) : secretScalar E sk • q = 0 ↔ (8 : ℕ) • q = 0 := by
  obtain ⟨c, hc, h1, h2⟩ := secretScalar_eight E sk
  rw [hc, eight_mul_smul_eq_zero_iff]
  constructor
  · rintro (h | h)
    · exact h
    · exfalso
      have h3 := Nat.le_of_dvd (by omega) h
      have := L_gt
      omega
  · exact Or.inl

/-- Two clamped scalars have the same action on a point iff they are equal or the point has small order. -/
theorem secret_smul_eq_iff (sk sk' : Bytes) (q : Pt) :
    secretScalar E sk • q = secretScalar E sk' • q ↔ (8 : ℕ) • q = 0 ∨ secretScalar E sk = secretScalar E sk' := by
  have main : ∀ a b : Bytes, secretScalar E a ≤ secretScalar E b → secretScalar E a • q = secretScalar E b • q →
      (8 : ℕ) • q = 0 ∨ secretScalar E a = secretScalar E b := by
    intro a b hle h
    obtain ⟨c, hc, h1, h2⟩ := secretScalar_eight E a
    obtain ⟨c', hc', h1', h2'⟩ := secretScalar_eight E b
    rw [hc, hc'] at h
    rw [hc, hc'] at hle
    have e : 8 * c' = 8 * c + 8 * (c' - c) := by omega
    rw [e, add_smul, left_eq_add, eight_mul_smul_eq_zero_iff] at h
    rcases h with h | h
    · exact Or.inl h
    · right
      have : c' - c = 0 := Nat.eq_zero_of_dvd_of_lt h (by have := L_gt; omega)
      rw [hc, hc']; omega
  constructor
  · intro h
    rcases le_total (secretScalar E sk) (secretScalar E sk') with hle | hle
    · exact main _ _ hle h
    · exact (main _ _ hle h.symm).imp id Eq.symm
  · rintro (h | h)
    · rw [(secret_smul_eq_zero_iff E sk q).mpr h, (secret_smul_eq_zero_iff E sk' q).mpr h]
    · rw [h]

end Ed

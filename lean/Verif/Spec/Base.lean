import Verif.Spec.Curve
import Mathlib.GroupTheory.OrderOfElement

/-!
# Specification: the base point and its order

The base point is the point with `y = 4/5` and even x.  Its order is exactly `L`.
The auxiliary arithmetic on natural numbers (`NP`) is only used to let the kernel evaluate
multiples of points.
-/

set_option autoImplicit false

namespace Ed

/-- x-coordinate of the base point as a number. -/
def BxN : ℕ := 15112221349535400772501151409588531511454012693041857206046113283949847762202
/-- y-coordinate of the base point as a number. -/
def ByN : ℕ := 46316835694926478169428394003475163141307993866256225615783033603165251855960

/-- The base point. -/
def B : Pt where
  x := (BxN : F)
  y := (ByN : F)
  on := by
    have h : ((ByN * ByN : ℕ) : F) = ((1 + dN * BxN * BxN * ByN * ByN + BxN * BxN : ℕ) : F) := by
      rw [F_natCast_eq]; decide +kernel
    push_cast at h
    unfold OnCurve
    rw [d_eq]
    linear_combination h

theorem B_y : B.y * 5 = 4 := by
  have h : ((ByN * 5 : ℕ) : F) = ((4 : ℕ) : F) := by rw [F_natCast_eq]; decide +kernel
  push_cast at h
  exact h

theorem val_natCast_F {n : ℕ} (h : n < 2 ^ 255 - 19) : ((n : F)).val = n := by
  rw [ZMod.val_natCast, P_eq, Nat.mod_eq_of_lt h]

theorem B_x_even : B.x.val % 2 = 0 := by
  show ((BxN : F)).val % 2 = 0
  rw [val_natCast_F (by decide +kernel)]; decide +kernel

/-- Projective point with natural number coordinates. -/
structure NP where
  X : ℕ
  Y : ℕ
  Z : ℕ

/-- The natural-number triple `(X : Y : Z)` represents the point `q`. -/
def NP.Rep (a : NP) (q : Pt) : Prop :=
  (a.Z : F) ≠ 0 ∧ (a.X : F) = q.x * a.Z ∧ (a.Y : F) = q.y * a.Z

/-- Projective addition. -/
def NP.add (p : ℕ) (a b : NP) : NP :=
  let A := a.Z * b.Z % p
  let BB := A * A % p
  let C := a.X * b.X % p
  let D := a.Y * b.Y % p
  let E := dN * C * D % p
  let G := BB + E
  let H := BB + (p - E)
  { X := A * H * (a.X * b.Y + b.X * a.Y) % p
    Y := A * G * (D + C) % p
    Z := H * G % p }

theorem cast_mod (n : ℕ) : ((n % (2 ^ 255 - 19) : ℕ) : F) = (n : F) := by
  rw [F_natCast_eq]; simp

theorem cast_negmod (n : ℕ) : (((2 ^ 255 - 19) - n % (2 ^ 255 - 19) : ℕ) : F) = -(n : F) := by
  have h : n % (2 ^ 255 - 19) ≤ 2 ^ 255 - 19 := (Nat.mod_lt _ (by decide)).le
  rw [Nat.cast_sub h, cast_mod]
  have : ((2 ^ 255 - 19 : ℕ) : F) = 0 := by rw [F_natCast_eq_zero]; decide
  rw [this]; ring

theorem NP.add_rep {a b : NP} {q r : Pt} (ha : a.Rep q) (hb : b.Rep r) :
    (NP.add (2 ^ 255 - 19) a b).Rep (q + r) := by
  obtain ⟨ha0, hax, hay⟩ := ha
  obtain ⟨hb0, hbx, hby⟩ := hb
  have hp := Pt.dp_ne q r
  have hm := Pt.dm_ne q r
  have hA : (a.Z : F) * b.Z ≠ 0 := mul_ne_zero ha0 hb0
  have eZ : ((NP.add (2 ^ 255 - 19) a b).Z : F) = ((a.Z : F) * b.Z) ^ 4 *
      ((1 + d * q.x * r.x * q.y * r.y) * (1 - d * q.x * r.x * q.y * r.y)) := by
    simp only [NP.add, cast_mod, cast_negmod, Nat.cast_mul, Nat.cast_add, ← d_eq, hax, hay, hbx, hby]
    ring
  have eX : ((NP.add (2 ^ 255 - 19) a b).X : F) = ((a.Z : F) * b.Z) ^ 4 *
      ((q.x * r.y + r.x * q.y) * (1 - d * q.x * r.x * q.y * r.y)) := by
    simp only [NP.add, cast_mod, cast_negmod, Nat.cast_mul, Nat.cast_add, ← d_eq, hax, hay, hbx, hby]
    ring
  have eY : ((NP.add (2 ^ 255 - 19) a b).Y : F) = ((a.Z : F) * b.Z) ^ 4 *
      ((q.y * r.y + q.x * r.x) * (1 + d * q.x * r.x * q.y * r.y)) := by
    simp only [NP.add, cast_mod, cast_negmod, Nat.cast_mul, Nat.cast_add, ← d_eq, hax, hay, hbx, hby]
    ring
  refine ⟨?_, ?_, ?_⟩
  · rw [eZ]; exact mul_ne_zero (pow_ne_zero _ hA) (mul_ne_zero hp hm)
  · rw [eX, eZ, Pt.add_x]
    generalize 1 + d * q.x * r.x * q.y * r.y = u at *
    generalize 1 - d * q.x * r.x * q.y * r.y = v at *
    field_simp
  · rw [eY, eZ, Pt.add_y]
    generalize 1 + d * q.x * r.x * q.y * r.y = u at *
    generalize 1 - d * q.x * r.x * q.y * r.y = v at *
    field_simp

/-- `NP.mul p k b n acc` represents `acc + n * b` if `n < 2^k`. -/
def NP.mul (p : ℕ) : ℕ → NP → ℕ → NP → NP
  | 0, _, _, acc => acc
  | k + 1, b, n, acc => NP.mul p k (NP.add p b b) (n / 2) (if n % 2 = 1 then NP.add p acc b else acc)

theorem NP.mul_rep : ∀ (k : ℕ) (b acc : NP) (n : ℕ) (q r : Pt), n < 2 ^ k → b.Rep q → acc.Rep r →
    (NP.mul (2 ^ 255 - 19) k b n acc).Rep (r + n • q)
  | 0, b, acc, n, q, r, hn, hb, ha => by
      have : n = 0 := by simpa using hn
      subst this
      simpa [NP.mul] using ha
  | k + 1, b, acc, n, q, r, hn, hb, ha => by
      have hdec : n = n / 2 + n / 2 + n % 2 := by omega
      have hsm : n • q = (n / 2) • (q + q) + (n % 2) • q := by
        conv_lhs => rw [hdec]
        rw [add_smul, add_smul, smul_add]
      rw [NP.mul, hsm]
      split
      · rename_i h1
        rw [h1, one_smul]
        have := NP.mul_rep k _ _ (n / 2) (q + q) (r + q) (by rw [pow_succ] at hn; omega)
          (NP.add_rep hb hb) (NP.add_rep ha hb)
        rwa [add_assoc, add_comm q] at this
      · rename_i h1
        have h0 : n % 2 = 0 := by omega
        rw [h0, zero_smul, add_zero]
        exact NP.mul_rep k _ _ (n / 2) (q + q) r (by rw [pow_succ] at hn; omega)
          (NP.add_rep hb hb) ha

theorem NP.zero_rep : (NP.mk 0 1 1).Rep 0 := by
  refine ⟨by simp, by simp, by simp⟩

theorem NP.affine_rep (x y : ℕ) (q : Pt) (hx : q.x = (x : F)) (hy : q.y = (y : F)) :
    (NP.mk x y 1).Rep q := by
  refine ⟨by simp, by simp [hx], by simp [hy]⟩

/-- Two representations of the same point, checked by cross multiplication. -/
theorem NP.Rep.eq {a b : NP} {q r : Pt} (ha : a.Rep q) (hb : b.Rep r)
    (hx : a.X * b.Z % (2 ^ 255 - 19) = b.X * a.Z % (2 ^ 255 - 19))
    (hy : a.Y * b.Z % (2 ^ 255 - 19) = b.Y * a.Z % (2 ^ 255 - 19)) : q = r := by
  obtain ⟨ha0, hax, hay⟩ := ha
  obtain ⟨hb0, hbx, hby⟩ := hb
  rw [← F_natCast_eq] at hx hy
  push_cast at hx hy
  rw [hax, hbx] at hx
  rw [hay, hby] at hy
  have h0 : (a.Z : F) * b.Z ≠ 0 := mul_ne_zero ha0 hb0
  ext
  · apply mul_right_cancel₀ h0; linear_combination hx
  · apply mul_right_cancel₀ h0; linear_combination hy

theorem B_rep : (NP.mk BxN ByN 1).Rep B := NP.affine_rep _ _ _ rfl rfl

/-- `L * B = 0`. -/
theorem L_smul_B : L • B = 0 := by
  have h1 := NP.mul_rep 253 _ _ (2 ^ 252 + 27742317777372353535851937790883648493) B 0
    (by decide +kernel) B_rep NP.zero_rep
  rw [zero_add] at h1
  have h2 := NP.zero_rep
  rw [L_eq]
  exact h1.eq h2 (by decide +kernel) (by decide +kernel)

theorem B_ne_zero : B ≠ 0 := by
  intro h
  have hx : B.x = 0 := by rw [h]; rfl
  have : ((BxN : ℕ) : F) = 0 := hx
  rw [F_natCast_eq_zero] at this
  revert this; decide +kernel

/-- The base point has order exactly `L`. -/
theorem addOrderOf_B : addOrderOf B = L := by
  have := L_prime
  haveI : Fact L.Prime := ⟨this⟩
  exact addOrderOf_eq_prime L_smul_B B_ne_zero

theorem smul_B_mod (n : ℕ) : (n % L) • B = n • B := by
  conv_rhs => rw [← Nat.mod_add_div n L]
  rw [add_smul, mul_smul, smul_comm, L_smul_B, smul_zero, add_zero]

theorem smul_B_eq_iff (m n : ℕ) : m • B = n • B ↔ m % L = n % L := by
  rw [← addOrderOf_B]
  exact nsmul_inj_mod

end Ed

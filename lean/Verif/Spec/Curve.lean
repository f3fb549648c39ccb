import Verif.Spec.Law
import Verif.Spec.Bytes
import Mathlib.Data.ZMod.Basic
import Mathlib.FieldTheory.Finite.Basic

/-!
# Specification: the field, the twisted Edwards curve and its group

`p = 2^255 - 19`, curve `-x^2 + y^2 = 1 + d x^2 y^2` with `d = -121665/121666`, group order of the
base point `L = 2^252 + 27742317777372353535851937790883648493`.
This file does not mention limbs, byte arrays of the Go code or any of its functions.
-/

set_option autoImplicit false

namespace Ed

/-- The field size. -/
@[irreducible] def P : ℕ := 2 ^ 255 - 19

/-- The order of the base point. -/
@[irreducible] def L : ℕ := 2 ^ 252 + 27742317777372353535851937790883648493

theorem P_eq : P = 2 ^ 255 - 19 := by unfold P; rfl
theorem L_eq : L = 2 ^ 252 + 27742317777372353535851937790883648493 := by unfold L; rfl

instance : Fact P.Prime := ⟨by rw [P_eq]; exact prime_p⟩
theorem L_prime : L.Prime := by rw [L_eq]; exact prime_L

/-- The base field. -/
abbrev F := ZMod P

theorem F_natCast_eq {a b : ℕ} : ((a : F) = (b : F)) ↔ a % (2 ^ 255 - 19) = b % (2 ^ 255 - 19) := by
  rw [ZMod.natCast_eq_natCast_iff', P_eq]

theorem F_natCast_eq_zero {a : ℕ} : ((a : F) = 0) ↔ a % (2 ^ 255 - 19) = 0 := by
  have := @F_natCast_eq a 0
  simpa using this

theorem two_ne_zero_F : (2 : F) ≠ 0 := by
  intro h
  have : ((2 : ℕ) : F) = 0 := by exact_mod_cast h
  rw [F_natCast_eq_zero] at this
  revert this; decide

/-- The curve constant. -/
def d : F := -121665 / 121666

/-- `d` as a natural number. -/
def dN : ℕ := 37095705934669439343138083508754565189542113879843219016388785533085940283555

/-- A square root of -1 as a natural number. -/
def sqrtm1N : ℕ := 19681161376707505956807079304988542015446066515923890162744021073123829784752

theorem d_eq : d = (dN : F) := by
  have h : (121666 : F) ≠ 0 := by
    have : ((121666 : ℕ) : F) ≠ 0 := by
      rw [Ne, F_natCast_eq_zero]; decide
    exact_mod_cast this
  have h2 : ((dN * 121666 + 121665 : ℕ) : F) = 0 := by
    rw [F_natCast_eq_zero]; decide +kernel
  push_cast at h2
  rw [d, div_eq_iff h]
  linear_combination -h2

/-- `sqrt(-1)`. -/
def sqrtm1 : F := (sqrtm1N : F)

theorem sqrtm1_sq : sqrtm1 * sqrtm1 = -1 := by
  have h2 : ((sqrtm1N * sqrtm1N + 1 : ℕ) : F) = 0 := by
    rw [F_natCast_eq_zero]; decide +kernel
  push_cast at h2
  unfold sqrtm1
  linear_combination h2

theorem F_pow_natCast (b e : ℕ) (r : ℕ) (he : e < 2 ^ 256)
    (h : powMod (2 ^ 255 - 19) 256 b e 1 = r) : (b : F) ^ e = (r : F) := by
  have := powMod_spec (2 ^ 255 - 19) 256 b e 1 he
  rw [h, ← P_eq] at this
  rw [this]; simp

theorem d_pow : d ^ ((P - 1) / 2) = -1 := by
  have he : (P - 1) / 2 = (2 ^ 255 - 20) / 2 := by rw [P_eq]; decide +kernel
  rw [d_eq, he, F_pow_natCast dN _ (2 ^ 255 - 20) (by decide) (by decide +kernel)]
  have : ((2 ^ 255 - 20 + 1 : ℕ) : F) = 0 := by
    rw [F_natCast_eq_zero]; decide
  rw [Nat.cast_add, Nat.cast_one] at this
  exact eq_neg_of_add_eq_zero_left this

theorem one_ne_neg_one_F : (1 : F) ≠ -1 := by
  intro h
  apply two_ne_zero_F
  linear_combination h

/-- `d` is not a square. -/
theorem d_nonsq (s : F) : s * s ≠ d := by
  intro h
  have h0 : s ≠ 0 := by
    rintro rfl
    have := d_pow
    rw [← h, mul_zero, zero_pow (by rw [P_eq]; decide)] at this
    have h1 : (1 : F) = 0 := by linear_combination this
    exact one_ne_zero h1
  have h1 : s ^ (P - 1) = 1 := ZMod.pow_card_sub_one_eq_one h0
  have h2 : d ^ ((P - 1) / 2) = s ^ (P - 1) := by
    rw [← h, ← sq, ← pow_mul]
    congr 1
    rw [P_eq]
    decide +kernel
  rw [h1, d_pow] at h2
  exact one_ne_neg_one_F h2.symm

/-- The curve equation. -/
def OnCurve (x y : F) : Prop := -x ^ 2 + y ^ 2 = 1 + d * x ^ 2 * y ^ 2

/-- Points of the curve. -/
@[ext] structure Pt where
  x : F
  y : F
  on : OnCurve x y

theorem OnCurve.law {x y : F} (h : OnCurve x y) : y ^ 2 - x ^ 2 = 1 + d * x ^ 2 * y ^ 2 := by
  unfold OnCurve at h; linear_combination h

namespace Pt

theorem dp_ne (p q : Pt) : 1 + d * p.x * q.x * p.y * q.y ≠ 0 :=
  Law.one_add_ne sqrtm1_sq d_nonsq two_ne_zero_F p.on.law q.on.law

theorem dm_ne (p q : Pt) : 1 - d * p.x * q.x * p.y * q.y ≠ 0 :=
  Law.one_sub_ne sqrtm1_sq d_nonsq two_ne_zero_F p.on.law q.on.law

/-- The complete addition law of the twisted Edwards curve. -/
instance : Add Pt where
  add p q :=
    { x := (p.x * q.y + q.x * p.y) / (1 + d * p.x * q.x * p.y * q.y)
      y := (p.y * q.y + p.x * q.x) / (1 - d * p.x * q.x * p.y * q.y)
      on := by
        have := Law.add_on (dp_ne p q) (dm_ne p q) p.on.law q.on.law
        unfold Law.addX Law.addY at this
        unfold OnCurve; linear_combination this }

/-- The neutral element `(0, 1)`. -/
instance : Zero Pt where
  zero := { x := 0, y := 1, on := by unfold OnCurve; ring }

/-- The negative `(-x, y)`. -/
instance : Neg Pt where
  neg p := { x := -p.x, y := p.y, on := by have := p.on; unfold OnCurve at *; linear_combination this }

theorem add_x (p q : Pt) : (p + q).x = (p.x * q.y + q.x * p.y) / (1 + d * p.x * q.x * p.y * q.y) := rfl
theorem add_y (p q : Pt) : (p + q).y = (p.y * q.y + p.x * q.x) / (1 - d * p.x * q.x * p.y * q.y) := rfl
@[simp] theorem zero_x : (0 : Pt).x = 0 := rfl
@[simp] theorem zero_y : (0 : Pt).y = 1 := rfl
@[simp] theorem neg_x (p : Pt) : (-p).x = -p.x := rfl
@[simp] theorem neg_y (p : Pt) : (-p).y = p.y := rfl

protected theorem add_comm (p q : Pt) : p + q = q + p := by
  ext
  · rw [add_x, add_x]; congr 1 <;> ring
  · rw [add_y, add_y]; congr 1 <;> ring

protected theorem zero_add (p : Pt) : 0 + p = p := by
  ext
  · rw [add_x]; simp
  · rw [add_y]; simp

protected theorem neg_add (p : Pt) : -p + p = 0 := by
  have h := p.on
  unfold OnCurve at h
  ext
  · rw [add_x]; simp
  · have hm := dm_ne (-p) p
    rw [add_y, zero_y, div_eq_one_iff_eq hm, neg_x, neg_y]
    linear_combination h

protected theorem add_assoc (p q r : Pt) : p + q + r = p + (q + r) := by
  have hp := dp_ne p q
  have hm := dm_ne p q
  have gp := dp_ne q r
  have gm := dm_ne q r
  have k1 := dp_ne (p + q) r
  have k2 := dm_ne (p + q) r
  have k3 := dp_ne (q + r) p
  have k4 := dm_ne (q + r) p
  rw [Pt.add_comm p (q + r)]
  rw [add_x p q, add_y p q, Law.den_frac hp hm, div_ne_zero_iff] at k1
  rw [add_x p q, add_y p q, Law.den_frac' hp hm, div_ne_zero_iff] at k2
  rw [add_x q r, add_y q r, Law.den_frac gp gm, div_ne_zero_iff] at k3
  rw [add_x q r, add_y q r, Law.den_frac' gp gm, div_ne_zero_iff] at k4
  ext
  · have e1 := Law.addX_frac (d := d) (n1 := p.x * q.y + q.x * p.y) (n2 := p.y * q.y + p.x * q.x)
      (x := r.x) (y := r.y) hp hm
    have e2 := Law.addX_frac (d := d) (n1 := q.x * r.y + r.x * q.y) (n2 := q.y * r.y + q.x * r.x)
      (x := p.x) (y := p.y) gp gm
    have a1 : (p + q + r).x = Law.addX d (p + q).x (p + q).y r.x r.y := rfl
    have a2 : (q + r + p).x = Law.addX d (q + r).x (q + r).y p.x p.y := rfl
    rw [a1, a2, add_x p q, add_y p q, add_x q r, add_y q r, e1, e2, div_eq_div_iff k1.1 k3.1]
    exact Law.assoc_polyX p.on.law q.on.law r.on.law rfl rfl rfl rfl rfl rfl rfl rfl
  · have e1 := Law.addY_frac (d := d) (n1 := p.x * q.y + q.x * p.y) (n2 := p.y * q.y + p.x * q.x)
      (x := r.x) (y := r.y) hp hm
    have e2 := Law.addY_frac (d := d) (n1 := q.x * r.y + r.x * q.y) (n2 := q.y * r.y + q.x * r.x)
      (x := p.x) (y := p.y) gp gm
    have a1 : (p + q + r).y = Law.addY d (p + q).x (p + q).y r.x r.y := rfl
    have a2 : (q + r + p).y = Law.addY d (q + r).x (q + r).y p.x p.y := rfl
    rw [a1, a2, add_x p q, add_y p q, add_x q r, add_y q r, e1, e2, div_eq_div_iff k2.1 k4.1]
    exact Law.assoc_polyY p.on.law q.on.law r.on.law rfl rfl rfl rfl rfl rfl rfl rfl

instance : AddCommGroup Pt where
  add_assoc := Pt.add_assoc
  zero_add := Pt.zero_add
  add_zero p := by rw [Pt.add_comm, Pt.zero_add]
  neg_add_cancel := Pt.neg_add
  add_comm := Pt.add_comm
  nsmul := nsmulRec
  zsmul := zsmulRec

end Pt

/-- Standard encoding of a point: y in little-endian, bit 255 is the parity of x. -/
def encodePoint (q : Pt) : List UInt8 := leBytes 32 (q.y.val + 2 ^ 255 * (q.x.val % 2))

/-- Decoding relation: the 32 bytes `b` denote the point `q`.  y is bits 0..254 (reduced modulo p),
the parity of x is bit 255, which is ignored if x = 0. -/
def Decodes (b : List UInt8) (q : Pt) : Prop :=
  q.y = ((leVal b % 2 ^ 255 : ℕ) : F) ∧ (q.x = 0 ∨ q.x.val % 2 = leVal b / 2 ^ 255 % 2)

end Ed

import Verif.Spec.Prime
import Mathlib.Tactic.LinearCombination
import Mathlib.Tactic.FieldSimp
import Mathlib.Tactic.Ring
import Mathlib.Algebra.Field.Basic

/-!
# The twisted Edwards group law over an arbitrary field (a = -1, -1 a square, d not a square)

Cofactors of the associativity identities generated by tools/assoc.py.
-/

set_option autoImplicit false

namespace Ed.Law

variable {K : Type*} [Field K] {d i : K}

/-- Completeness: the denominators of the addition law never vanish. -/
theorem eps_sq_ne_one (hi : i * i = -1) (hd : ∀ s : K, s * s ≠ d) (h2 : (2 : K) ≠ 0)
    {x1 y1 x2 y2 : K}
    (h1 : y1 ^ 2 - x1 ^ 2 = 1 + d * x1 ^ 2 * y1 ^ 2)
    (h3 : y2 ^ 2 - x2 ^ 2 = 1 + d * x2 ^ 2 * y2 ^ 2) :
    (d * x1 * x2 * y1 * y2) ^ 2 ≠ 1 := by
  intro he
  set e := d * x1 * x2 * y1 * y2 with hedef
  have hx1 : x1 ≠ 0 := by rintro rfl; simp [hedef] at he
  have hy1 : y1 ≠ 0 := by rintro rfl; simp [hedef] at he
  have hx2 : x2 ≠ 0 := by rintro rfl; simp [hedef] at he
  have hine : i ≠ 0 := by rintro rfl; simp at hi
  have hi2 : i ^ 2 = -1 := by rw [sq, hi]
  have key : ∀ s : K, s * s = 1 → i * x2 + s * y2 = 0 := by
    intro s hs
    by_contra hne
    have hs2 : s ^ 2 = 1 := by rw [sq, hs]
    have eq : d * (x1 * y1 * (i * x2 + s * y2)) ^ 2 = (i * x1 + s * e * y1) ^ 2 := by
      have e1 : e ^ 2 = d ^ 2 * x1 ^ 2 * x2 ^ 2 * y1 ^ 2 * y2 ^ 2 := by rw [hedef]; ring
      have e2 : d * x1 * x2 * y1 * y2 = e := rfl
      linear_combination (d * x1 ^ 2 * y1 ^ 2 * x2 ^ 2) * hi2 - x1 ^ 2 * hi2
        + (d * x1 ^ 2 * y1 ^ 2 * y2 ^ 2) * hs2 - (e ^ 2 * y1 ^ 2) * hs2
        + (d * x1 ^ 2 * y1 ^ 2) * h3 - h1 - (y1 ^ 2 - 1) * he - e1 + (2 * i * s * x1 * y1) * e2
    have hne' : x1 * y1 * (i * x2 + s * y2) ≠ 0 := mul_ne_zero (mul_ne_zero hx1 hy1) hne
    apply hd ((i * x1 + s * e * y1) / (x1 * y1 * (i * x2 + s * y2)))
    field_simp
    linear_combination -eq
  have k1 := key 1 (by ring)
  have k2 := key (-1) (by ring)
  have : 2 * (i * x2) = 0 := by linear_combination k1 + k2
  exact (mul_ne_zero h2 (mul_ne_zero hine hx2)) this

theorem one_add_ne (hi : i * i = -1) (hd : ∀ s : K, s * s ≠ d) (h2 : (2 : K) ≠ 0)
    {x1 y1 x2 y2 : K}
    (h1 : y1 ^ 2 - x1 ^ 2 = 1 + d * x1 ^ 2 * y1 ^ 2)
    (h3 : y2 ^ 2 - x2 ^ 2 = 1 + d * x2 ^ 2 * y2 ^ 2) :
    1 + d * x1 * x2 * y1 * y2 ≠ 0 := by
  intro h
  exact eps_sq_ne_one hi hd h2 h1 h3
    (by linear_combination (d * x1 * x2 * y1 * y2 - 1) * h)

theorem one_sub_ne (hi : i * i = -1) (hd : ∀ s : K, s * s ≠ d) (h2 : (2 : K) ≠ 0)
    {x1 y1 x2 y2 : K}
    (h1 : y1 ^ 2 - x1 ^ 2 = 1 + d * x1 ^ 2 * y1 ^ 2)
    (h3 : y2 ^ 2 - x2 ^ 2 = 1 + d * x2 ^ 2 * y2 ^ 2) :
    1 - d * x1 * x2 * y1 * y2 ≠ 0 := by
  intro h
  exact eps_sq_ne_one hi hd h2 h1 h3
    (by linear_combination (-(d * x1 * x2 * y1 * y2) - 1) * h)

/-- x-coordinate of the sum. -/
def addX (d x1 y1 x2 y2 : K) : K := (x1 * y2 + x2 * y1) / (1 + d * x1 * x2 * y1 * y2)

/-- y-coordinate of the sum. -/
def addY (d x1 y1 x2 y2 : K) : K := (y1 * y2 + x1 * x2) / (1 - d * x1 * x2 * y1 * y2)

theorem add_on {x1 y1 x2 y2 : K}
    (hp : 1 + d * x1 * x2 * y1 * y2 ≠ 0) (hm : 1 - d * x1 * x2 * y1 * y2 ≠ 0)
    (h1 : y1 ^ 2 - x1 ^ 2 = 1 + d * x1 ^ 2 * y1 ^ 2)
    (h3 : y2 ^ 2 - x2 ^ 2 = 1 + d * x2 ^ 2 * y2 ^ 2) :
    addY d x1 y1 x2 y2 ^ 2 - addX d x1 y1 x2 y2 ^ 2
      = 1 + d * addX d x1 y1 x2 y2 ^ 2 * addY d x1 y1 x2 y2 ^ 2 := by
  have poly : (y1 * y2 + x1 * x2) ^ 2 * (1 + d * x1 * x2 * y1 * y2) ^ 2
      - (x1 * y2 + x2 * y1) ^ 2 * (1 - d * x1 * x2 * y1 * y2) ^ 2
      = (1 + d * x1 * x2 * y1 * y2) ^ 2 * (1 - d * x1 * x2 * y1 * y2) ^ 2
        + d * (x1 * y2 + x2 * y1) ^ 2 * (y1 * y2 + x1 * x2) ^ 2 := by
    linear_combination (y2^4 - 4*x2^2*y2^2 - 2*x2^2*y2^2*d + 2*x2^2*y2^4 + x2^4 - 2*x2^4*y2^2 - 2*x2^4*y2^4*d - x2^4*y2^4*d^2 - y1^2*x2^2*y2^4*d + y1^2*x2^4*y2^2*d + y1^2*x2^4*y2^4*d^2 + x1^2*x2^2*y2^4*d - x1^2*x2^4*y2^2*d - x1^2*x2^4*y2^4*d^2 + x1^2*y1^2*x2^4*y2^4*d^3) * h1
    + (1 + y2^2 - x2^2 + 2*x2^2*y2^2 + x2^2*y2^2*d - y1^2*y2^2 + y1^2*x2^2 - 2*y1^2*x2^2*y2^2 - 2*y1^2*x2^2*y2^2*d + y1^4*x2^2*y2^2*d + x1^2*y2^2 - x1^2*x2^2 + 2*x1^2*x2^2*y2^2 + 2*x1^2*x2^2*y2^2*d + x1^4*x2^2*y2^2*d) * h3
  unfold addX addY
  generalize 1 + d * x1 * x2 * y1 * y2 = u at *
  generalize 1 - d * x1 * x2 * y1 * y2 = v at *
  generalize x1 * y2 + x2 * y1 = n at *
  generalize y1 * y2 + x1 * x2 = m at *
  field_simp
  linear_combination poly

/-- Adding a third point to a sum, with cleared denominators. -/
theorem addX_frac {n1 dp n2 dm x y : K} (hp : dp ≠ 0) (hm : dm ≠ 0) :
    addX d (n1 / dp) (n2 / dm) x y = (n1 * dm * y + x * n2 * dp) / (dp * dm + d * n1 * n2 * x * y) := by
  unfold addX
  have e1 : n1 / dp * y + x * (n2 / dm) = (n1 * dm * y + x * n2 * dp) / (dp * dm) := by field_simp
  have e2 : 1 + d * (n1 / dp) * x * (n2 / dm) * y = (dp * dm + d * n1 * n2 * x * y) / (dp * dm) := by
    field_simp
  rw [e1, e2, div_div_div_cancel_right₀ (mul_ne_zero hp hm)]

theorem addY_frac {n1 dp n2 dm x y : K} (hp : dp ≠ 0) (hm : dm ≠ 0) :
    addY d (n1 / dp) (n2 / dm) x y = (n2 * dp * y + n1 * dm * x) / (dp * dm - d * n1 * n2 * x * y) := by
  unfold addY
  have e1 : n2 / dm * y + n1 / dp * x = (n2 * dp * y + n1 * dm * x) / (dp * dm) := by field_simp
  have e2 : 1 - d * (n1 / dp) * x * (n2 / dm) * y = (dp * dm - d * n1 * n2 * x * y) / (dp * dm) := by
    field_simp
  rw [e1, e2, div_div_div_cancel_right₀ (mul_ne_zero hp hm)]

theorem den_frac {n1 dp n2 dm x y : K} (hp : dp ≠ 0) (hm : dm ≠ 0) :
    1 + d * (n1 / dp) * x * (n2 / dm) * y = (dp * dm + d * n1 * n2 * x * y) / (dp * dm) := by
  field_simp

theorem den_frac' {n1 dp n2 dm x y : K} (hp : dp ≠ 0) (hm : dm ≠ 0) :
    1 - d * (n1 / dp) * x * (n2 / dm) * y = (dp * dm - d * n1 * n2 * x * y) / (dp * dm) := by
  field_simp

set_option maxHeartbeats 4000000 in
theorem assoc_polyX {x1 y1 x2 y2 x3 y3 n1 dp n2 dm m1 ep m2 em : K}
    (h1 : y1 ^ 2 - x1 ^ 2 = 1 + d * x1 ^ 2 * y1 ^ 2)
    (h2 : y2 ^ 2 - x2 ^ 2 = 1 + d * x2 ^ 2 * y2 ^ 2)
    (h3 : y3 ^ 2 - x3 ^ 2 = 1 + d * x3 ^ 2 * y3 ^ 2)
    (hn1 : n1 = x1 * y2 + x2 * y1) (hdp : dp = 1 + d * x1 * x2 * y1 * y2)
    (hn2 : n2 = y1 * y2 + x1 * x2) (hdm : dm = 1 - d * x1 * x2 * y1 * y2)
    (hm1 : m1 = x2 * y3 + x3 * y2) (hep : ep = 1 + d * x2 * x3 * y2 * y3)
    (hm2 : m2 = y2 * y3 + x2 * x3) (hem : em = 1 - d * x2 * x3 * y2 * y3) :
    (n1 * dm * y3 + x3 * n2 * dp) * (ep * em + d * m1 * m2 * x1 * y1) =
      (m1 * em * y1 + x1 * m2 * ep) * (dp * dm + d * n1 * n2 * x3 * y3) := by
  subst hn1 hdp hn2 hdm hm1 hep hm2 hem
  linear_combination (-y1*x2*y2^4*x3^2*y3*d - y1*x2^2*y2^3*x3*d - y1*x2^2*y2^3*x3^3*d - y1*x2^3*y2^2*y3*d + y1*x2^3*y2^2*y3^3*d + y1*x2^3*y2^4*x3^2*y3*d^2 + y1*x2^4*y2*x3*y3^2*d + y1*x2^4*y2^3*x3*y3^2*d^2 + x1*x2*y2^4*x3*y3^2*d - x1*x2^2*y2^3*y3*d + x1*x2^2*y2^3*y3^3*d - x1*x2^3*y2^2*x3*d - x1*x2^3*y2^2*x3^3*d - x1*x2^3*y2^4*x3*y3^2*d^2 - x1*x2^4*y2*x3^2*y3*d - x1*x2^4*y2^3*x3^2*y3*d^2) * h1
    + (y1*y2*x3 - y1*y2*x3*y3^2 + y1*y2*x3^3 + y1*y2*x3^3*y3^2*d + y1*x2*y3 - y1*x2*y3^3 + y1*x2*x3^2*y3 + y1*x2*x3^2*y3^3*d - y1*x2*y2^2*x3^2*y3*d - y1*x2^2*y2*x3*y3^2*d - y1^3*y2*x3 + y1^3*y2*x3*y3^2 - y1^3*y2*x3^3 - y1^3*y2*x3^3*y3^2*d - y1^3*x2*y3 + y1^3*x2*y3^3 - y1^3*x2*x3^2*y3 - y1^3*x2*x3^2*y3^3*d + y1^3*x2*y2^2*x3^2*y3*d + y1^3*x2^2*y2*x3*y3^2*d + x1*y2*y3 - x1*y2*y3^3 + x1*y2*x3^2*y3 + x1*y2*x3^2*y3^3*d + x1*x2*x3 - x1*x2*x3*y3^2 + x1*x2*x3^3 + x1*x2*x3^3*y3^2*d + x1*x2*y2^2*x3*y3^2*d + x1*x2^2*y2*x3^2*y3*d - x1*y1^2*y2*y3 + x1*y1^2*y2*y3^3 - x1*y1^2*y2*x3^2*y3 - x1*y1^2*y2*x3^2*y3^3*d - x1*y1^2*x2*x3 + x1*y1^2*x2*x3*y3^2 - x1*y1^2*x2*x3^3 - x1*y1^2*x2*x3^3*y3^2*d - x1*y1^2*x2*y2^2*x3*y3^2*d + x1*y1^2*x2*y2^2*x3^3*y3^2*d^2 - x1*y1^2*x2^2*y2*x3^2*y3*d - x1*y1^2*x2^2*y2*x3^2*y3^3*d^2 + x1^2*y1*y2*x3 - x1^2*y1*y2*x3*y3^2 + x1^2*y1*y2*x3^3 + x1^2*y1*y2*x3^3*y3^2*d + x1^2*y1*x2*y3 - x1^2*y1*x2*y3^3 + x1^2*y1*x2*x3^2*y3 + x1^2*y1*x2*x3^2*y3^3*d - x1^2*y1*x2*y2^2*x3^2*y3*d - x1^2*y1*x2*y2^2*x3^2*y3^3*d^2 - x1^2*y1*x2^2*y2*x3*y3^2*d + x1^2*y1*x2^2*y2*x3^3*y3^2*d^2 + x1^3*y2*y3 - x1^3*y2*y3^3 + x1^3*y2*x3^2*y3 + x1^3*y2*x3^2*y3^3*d + x1^3*x2*x3 - x1^3*x2*x3*y3^2 + x1^3*x2*x3^3 + x1^3*x2*x3^3*y3^2*d + x1^3*x2*y2^2*x3*y3^2*d + x1^3*x2^2*y2*x3^2*y3*d) * h2
    + (-y1*y2*x3 + y1*y2^3*x3 - y1*x2*y3 + y1*x2*y2^2*y3 - y1*x2^2*y2*x3 - y1*x2^3*y3 + y1^3*y2*x3 - y1^3*y2^3*x3 + y1^3*x2*y3 - y1^3*x2*y2^2*y3 + y1^3*x2^2*y2*x3 + y1^3*x2^3*y3 - x1*y2*y3 + x1*y2^3*y3 - x1*x2*x3 + x1*x2*y2^2*x3 - x1*x2^2*y2*y3 - x1*x2^3*x3 + x1*y1^2*y2*y3 - x1*y1^2*y2^3*y3 + x1*y1^2*x2*x3 - x1*y1^2*x2*y2^2*x3 - x1*y1^2*x2*y2^2*x3*d + x1*y1^2*x2^2*y2*y3 + x1*y1^2*x2^2*y2*y3*d + x1*y1^2*x2^3*x3 - x1^2*y1*y2*x3 + x1^2*y1*y2^3*x3 - x1^2*y1*x2*y3 + x1^2*y1*x2*y2^2*y3 + x1^2*y1*x2*y2^2*y3*d - x1^2*y1*x2^2*y2*x3 - x1^2*y1*x2^2*y2*x3*d - x1^2*y1*x2^3*y3 - x1^3*y2*y3 + x1^3*y2^3*y3 - x1^3*x2*x3 + x1^3*x2*y2^2*x3 - x1^3*x2^2*y2*y3 - x1^3*x2^3*x3) * h3

set_option maxHeartbeats 4000000 in
theorem assoc_polyY {x1 y1 x2 y2 x3 y3 n1 dp n2 dm m1 ep m2 em : K}
    (h1 : y1 ^ 2 - x1 ^ 2 = 1 + d * x1 ^ 2 * y1 ^ 2)
    (h2 : y2 ^ 2 - x2 ^ 2 = 1 + d * x2 ^ 2 * y2 ^ 2)
    (h3 : y3 ^ 2 - x3 ^ 2 = 1 + d * x3 ^ 2 * y3 ^ 2)
    (hn1 : n1 = x1 * y2 + x2 * y1) (hdp : dp = 1 + d * x1 * x2 * y1 * y2)
    (hn2 : n2 = y1 * y2 + x1 * x2) (hdm : dm = 1 - d * x1 * x2 * y1 * y2)
    (hm1 : m1 = x2 * y3 + x3 * y2) (hep : ep = 1 + d * x2 * x3 * y2 * y3)
    (hm2 : m2 = y2 * y3 + x2 * x3) (hem : em = 1 - d * x2 * x3 * y2 * y3) :
    (n2 * dp * y3 + n1 * dm * x3) * (ep * em - d * m1 * m2 * x1 * y1) =
      (m2 * ep * y1 + m1 * em * x1) * (dp * dm - d * n1 * n2 * x3 * y3) := by
  subst hn1 hdp hn2 hdm hm1 hep hm2 hem
  linear_combination (y1*x2*y2^4*x3*y3^2*d - y1*x2^2*y2^3*y3*d + y1*x2^2*y2^3*y3^3*d - y1*x2^3*y2^2*x3*d - y1*x2^3*y2^2*x3^3*d - y1*x2^3*y2^4*x3*y3^2*d^2 - y1*x2^4*y2*x3^2*y3*d - y1*x2^4*y2^3*x3^2*y3*d^2 - x1*x2*y2^4*x3^2*y3*d - x1*x2^2*y2^3*x3*d - x1*x2^2*y2^3*x3^3*d - x1*x2^3*y2^2*y3*d + x1*x2^3*y2^2*y3^3*d + x1*x2^3*y2^4*x3^2*y3*d^2 + x1*x2^4*y2*x3*y3^2*d + x1*x2^4*y2^3*x3*y3^2*d^2) * h1
    + (y1*y2*y3 - y1*y2*y3^3 + y1*y2*x3^2*y3 + y1*y2*x3^2*y3^3*d + y1*x2*x3 - y1*x2*x3*y3^2 + y1*x2*x3^3 + y1*x2*x3^3*y3^2*d + y1*x2*y2^2*x3*y3^2*d + y1*x2^2*y2*x3^2*y3*d - y1^3*y2*y3 + y1^3*y2*y3^3 - y1^3*y2*x3^2*y3 - y1^3*y2*x3^2*y3^3*d - y1^3*x2*x3 + y1^3*x2*x3*y3^2 - y1^3*x2*x3^3 - y1^3*x2*x3^3*y3^2*d - y1^3*x2*y2^2*x3*y3^2*d - y1^3*x2^2*y2*x3^2*y3*d + x1*y2*x3 - x1*y2*x3*y3^2 + x1*y2*x3^3 + x1*y2*x3^3*y3^2*d + x1*x2*y3 - x1*x2*y3^3 + x1*x2*x3^2*y3 + x1*x2*x3^2*y3^3*d - x1*x2*y2^2*x3^2*y3*d - x1*x2^2*y2*x3*y3^2*d - x1*y1^2*y2*x3 + x1*y1^2*y2*x3*y3^2 - x1*y1^2*y2*x3^3 - x1*y1^2*y2*x3^3*y3^2*d - x1*y1^2*x2*y3 + x1*y1^2*x2*y3^3 - x1*y1^2*x2*x3^2*y3 - x1*y1^2*x2*x3^2*y3^3*d + x1*y1^2*x2*y2^2*x3^2*y3*d + x1*y1^2*x2*y2^2*x3^2*y3^3*d^2 + x1*y1^2*x2^2*y2*x3*y3^2*d - x1*y1^2*x2^2*y2*x3^3*y3^2*d^2 + x1^2*y1*y2*y3 - x1^2*y1*y2*y3^3 + x1^2*y1*y2*x3^2*y3 + x1^2*y1*y2*x3^2*y3^3*d + x1^2*y1*x2*x3 - x1^2*y1*x2*x3*y3^2 + x1^2*y1*x2*x3^3 + x1^2*y1*x2*x3^3*y3^2*d + x1^2*y1*x2*y2^2*x3*y3^2*d - x1^2*y1*x2*y2^2*x3^3*y3^2*d^2 + x1^2*y1*x2^2*y2*x3^2*y3*d + x1^2*y1*x2^2*y2*x3^2*y3^3*d^2 + x1^3*y2*x3 - x1^3*y2*x3*y3^2 + x1^3*y2*x3^3 + x1^3*y2*x3^3*y3^2*d + x1^3*x2*y3 - x1^3*x2*y3^3 + x1^3*x2*x3^2*y3 + x1^3*x2*x3^2*y3^3*d - x1^3*x2*y2^2*x3^2*y3*d - x1^3*x2^2*y2*x3*y3^2*d) * h2
    + (-y1*y2*y3 + y1*y2^3*y3 - y1*x2*x3 + y1*x2*y2^2*x3 - y1*x2^2*y2*y3 - y1*x2^3*x3 + y1^3*y2*y3 - y1^3*y2^3*y3 + y1^3*x2*x3 - y1^3*x2*y2^2*x3 + y1^3*x2^2*y2*y3 + y1^3*x2^3*x3 - x1*y2*x3 + x1*y2^3*x3 - x1*x2*y3 + x1*x2*y2^2*y3 - x1*x2^2*y2*x3 - x1*x2^3*y3 + x1*y1^2*y2*x3 - x1*y1^2*y2^3*x3 + x1*y1^2*x2*y3 - x1*y1^2*x2*y2^2*y3 - x1*y1^2*x2*y2^2*y3*d + x1*y1^2*x2^2*y2*x3 + x1*y1^2*x2^2*y2*x3*d + x1*y1^2*x2^3*y3 - x1^2*y1*y2*y3 + x1^2*y1*y2^3*y3 - x1^2*y1*x2*x3 + x1^2*y1*x2*y2^2*x3 + x1^2*y1*x2*y2^2*x3*d - x1^2*y1*x2^2*y2*y3 - x1^2*y1*x2^2*y2*y3*d - x1^2*y1*x2^3*x3 - x1^3*y2*x3 + x1^3*y2^3*x3 - x1^3*x2*y3 + x1^3*x2*y2^2*y3 - x1^3*x2^2*y2*x3 - x1^3*x2^3*y3) * h3

end Ed.Law

import Verif.Spec.Curve
import Verif.Model.Field

/-!
# What a limb vector represents

The value of the ten limbs as documented in ed25519_encode.go:117-121, its residue in the field, and
the limb bounds used in the documentation comments of the field operations.
-/

set_option autoImplicit false

namespace Ed.FE

/-- Raw[0] + 2^26 Raw[1] + 2^51 Raw[2] + 2^77 Raw[3] + 2^102 Raw[4] + ... + 2^230 Raw[9]. -/
def val (f : FE) : ℤ :=
  f.r0.toInt + 2 ^ 26 * f.r1.toInt + 2 ^ 51 * f.r2.toInt + 2 ^ 77 * f.r3.toInt + 2 ^ 102 * f.r4.toInt +
  2 ^ 128 * f.r5.toInt + 2 ^ 153 * f.r6.toInt + 2 ^ 179 * f.r7.toInt + 2 ^ 204 * f.r8.toInt +
  2 ^ 230 * f.r9.toInt

/-- The represented field element. -/
def toF (f : FE) : F := (f.val : F)

/-- Limb bounds: even limbs at most `e`, odd limbs at most `o` in absolute value. -/
def Bd (e o : ℤ) (f : FE) : Prop :=
  |f.r0.toInt| ≤ e ∧ |f.r1.toInt| ≤ o ∧ |f.r2.toInt| ≤ e ∧ |f.r3.toInt| ≤ o ∧ |f.r4.toInt| ≤ e ∧
  |f.r5.toInt| ≤ o ∧ |f.r6.toInt| ≤ e ∧ |f.r7.toInt| ≤ o ∧ |f.r8.toInt| ≤ e ∧ |f.r9.toInt| ≤ o

/-- Documented precondition of `multiply`: 1.65*2^26 = 110729625.6, 1.65*2^25 = 55364812.8. -/
def Loose (f : FE) : Prop := Bd 110729625 55364812 f

/-- Documented postcondition of `multiply`: 1.01*2^25 = 33889976.32, 1.01*2^24 = 16944988.16. -/
def Reduced (f : FE) : Prop := Bd 33889976 16944988 f

end Ed.FE

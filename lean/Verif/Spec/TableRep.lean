import Verif.Spec.GroupRep
import Verif.Spec.Base

/-!
# Specification of the precomputed tables (documentation in ed25519_encode.go:2028-2031, 2470, 2502-2509)
-/

set_option autoImplicit false

namespace Ed.GE

/-- The table for single scalar multiplication of the point `q`: 32 rows of 8 entries, entry (i, j) is
(j+1) * 256^i * q in PRECOMPUTED coordinates. -/
def SingleTable (g : GE) (q : Pt) : Prop :=
  ∃ t, g.single = some t ∧ t.length = 32 ∧ ∀ i < 32, ∃ row, t[i]? = some row ∧ row.length = 8 ∧
    ∀ j < 8, ∃ e, row[j]? = some e ∧ e.sys = .precomputed ∧ e.Repr (((j + 1) * 256 ^ i) • q)

/-- The table for double scalar multiplication of the point `q`: entry i is (2i+1) * q. -/
def DoubleTable (g : GE) (q : Pt) : Prop :=
  ∃ t, g.double = some t ∧ t.length = 8 ∧
    ∀ i < 8, ∃ e, t[i]? = some e ∧ e.sys = .precomputed ∧ e.Repr ((2 * i + 1) • q)

end Ed.GE

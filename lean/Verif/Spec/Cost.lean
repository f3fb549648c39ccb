import Verif.Model.Cost

/-!
# The price of a sequence of steps
-/

set_option autoImplicit false

namespace Ed

/-- The price of a sequence of steps, when a step `s` costs `w s`. -/
def price (w : Step → Nat) (l : List Step) : Nat := (l.map w).sum

end Ed

import Verif.Spec.Bytes
import Mathlib.Algebra.BigOperators.Group.Finset.Basic
import Mathlib.Algebra.BigOperators.Intervals
import Mathlib.Tactic.Ring

/-!
# Width-5 signed binary expansions

What a 256-digit sliding-window recoding can represent: every digit is zero or odd of magnitude at most
15, and between two non-zero digits there are at least four zeros.
-/

namespace Ed

open Finset

/-- `e` is a 256-digit width-5 signed expansion. -/
def IsNaf5 (e : ℕ → ℤ) : Prop :=
  (∀ j < 256, e j = 0 ∨ (e j % 2 = 1 ∧ -15 ≤ e j ∧ e j ≤ 15)) ∧
  ∀ j k, j < k → k < j + 5 → k < 256 → e j ≠ 0 → e k = 0

/-- `n` has a 256-digit width-5 signed expansion. -/
def Naf5 (n : ℤ) : Prop := ∃ e : ℕ → ℤ, IsNaf5 e ∧ ∑ j ∈ range 256, e j * 2 ^ j = n

/-- The integer a 32-byte scalar of value `n` stands for once it has been recoded into 256 digits: `n` when
it has an expansion that long, and `n - 2^256` otherwise (the carry out of the top is lost). -/
noncomputable def nafVal (n : ℕ) : ℤ := by
  classical exact if Naf5 n then (n : ℤ) else (n : ℤ) - 2 ^ 256

end Ed

import Verif.Model.Field
import Mathlib.Data.List.Forall2

/-!
# Specification of hexadecimal text
-/

set_option autoImplicit false

namespace Ed

/-- The sixteen lower case digits as ASCII bytes. -/
def lowerDigits : List UInt8 := ['0', '1', '2', '3', '4', '5', '6', '7', '8', '9', 'a', 'b', 'c', 'd', 'e', 'f'].map fun c => UInt8.ofNat c.toNat

/-- The sixteen upper case digits as ASCII bytes. -/
def upperDigits : List UInt8 := ['0', '1', '2', '3', '4', '5', '6', '7', '8', '9', 'A', 'B', 'C', 'D', 'E', 'F'].map fun c => UInt8.ofNat c.toNat

/-- The character `c` is the lower case digit of value `v`. -/
def LowerChar (c : UInt8) (v : Nat) : Prop := lowerDigits[v]? = some c
/-- The character `c` is the upper case digit of value `v`. -/
def UpperChar (c : UInt8) (v : Nat) : Prop := upperDigits[v]? = some c
/-- The character `c` is a digit of value `v`, of either case. -/
def DigitChar (c : UInt8) (v : Nat) : Prop := LowerChar c v ∨ UpperChar c v

instance (c : UInt8) (v : Nat) : Decidable (LowerChar c v) := by unfold LowerChar; infer_instance
instance (c : UInt8) (v : Nat) : Decidable (UpperChar c v) := by unfold UpperChar; infer_instance
instance (c : UInt8) (v : Nat) : Decidable (DigitChar c v) := by unfold DigitChar; infer_instance

/-- The number written with the given digits, most significant first. -/
def digitsNum (ds : List Nat) : Nat := ds.foldl (fun a d => 16 * a + d) 0

/-- The text `s` consists of hex digits of either case and denotes `n`. -/
def HexOf (s : Bytes) (n : Nat) : Prop := ∃ ds, List.Forall₂ DigitChar s ds ∧ digitsNum ds = n
/-- The same with lower case digits only. -/
def LowerHexOf (s : Bytes) (n : Nat) : Prop := ∃ ds, List.Forall₂ LowerChar s ds ∧ digitsNum ds = n
/-- The same with upper case digits only. -/
def UpperHexOf (s : Bytes) (n : Nat) : Prop := ∃ ds, List.Forall₂ UpperChar s ds ∧ digitsNum ds = n

end Ed

import Verif.Model.Field

/-!
# Constant-time helpers (crypto.go:73-90)

Go `int` is taken to be 64 bits wide here: `Int64`; Model/IntWidth and C95 treat the other widths.  `isEqualConstantTime` is in Model/Field.
-/

set_option autoImplicit false

namespace Ed

/-- `isNegativeConstantTime` (crypto.go:73-75). -/
def isNegativeConstantTime (b : Int64) : Int64 := sar b 8 &&& 1

/-- `isConstantTimeByteEq` (crypto.go:77-86). -/
def isConstantTimeByteEq (b c : Int64) : Int64 :=
  let xor := b ^^^ c
  let result := (List.range 8).foldl (fun r i => r ||| sar xor i) 0
  (result ^^^ 0x01) &&& 0x01

end Ed

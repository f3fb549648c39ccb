import Verif.Model.Field

/-!
# Arithmetic modulo the group order (transcribed by tools/gen_scalar_model.py)

The local variables `s0 ... s23` (and `a0 ... c11`) are the entries of a limb array.  The generator
checks, statement by statement, that the Go code is an instance of the `Op` patterns, and that the
reduction part of `multiplyAndAddModQ` is the same statement sequence as the one of `modQ`.
-/

set_option autoImplicit false

namespace Ed

/-- The limbs loaded by `modQ` (ed25519_encode.go:1044-1072): 21 bits each, 29 in `s23`. -/
def load24 (b : Bytes) : Limbs
  | 0 => 0x1FFFFF &&& threeBytesToLong b 0
  | 1 => 0x1FFFFF &&& sar (fourBytesToLong b 2) 5
  | 2 => 0x1FFFFF &&& sar (threeBytesToLong b 5) 2
  | 3 => 0x1FFFFF &&& sar (fourBytesToLong b 7) 7
  | 4 => 0x1FFFFF &&& sar (fourBytesToLong b 10) 4
  | 5 => 0x1FFFFF &&& sar (threeBytesToLong b 13) 1
  | 6 => 0x1FFFFF &&& sar (fourBytesToLong b 15) 6
  | 7 => 0x1FFFFF &&& sar (threeBytesToLong b 18) 3
  | 8 => 0x1FFFFF &&& threeBytesToLong b 21
  | 9 => 0x1FFFFF &&& sar (fourBytesToLong b 23) 5
  | 10 => 0x1FFFFF &&& sar (threeBytesToLong b 26) 2
  | 11 => 0x1FFFFF &&& sar (fourBytesToLong b 28) 7
  | 12 => 0x1FFFFF &&& sar (fourBytesToLong b 31) 4
  | 13 => 0x1FFFFF &&& sar (threeBytesToLong b 34) 1
  | 14 => 0x1FFFFF &&& sar (fourBytesToLong b 36) 6
  | 15 => 0x1FFFFF &&& sar (threeBytesToLong b 39) 3
  | 16 => 0x1FFFFF &&& threeBytesToLong b 42
  | 17 => 0x1FFFFF &&& sar (fourBytesToLong b 44) 5
  | 18 => 0x1FFFFF &&& sar (threeBytesToLong b 47) 2
  | 19 => 0x1FFFFF &&& sar (fourBytesToLong b 49) 7
  | 20 => 0x1FFFFF &&& sar (fourBytesToLong b 52) 4
  | 21 => 0x1FFFFF &&& sar (threeBytesToLong b 55) 1
  | 22 => 0x1FFFFF &&& sar (fourBytesToLong b 57) 6
  | 23 => sar (fourBytesToLong b 60) 3
  | _ => 0

/-- The limbs `a0 ... a11` (same for `b`, `c`) loaded by `multiplyAndAddModQ`
(ed25519_encode.go:1373-1443): 21 bits each, 25 in `a11`. -/
def load12 (b : Bytes) : Limbs
  | 0 => 0x1FFFFF &&& threeBytesToLong b 0
  | 1 => 0x1FFFFF &&& sar (fourBytesToLong b 2) 5
  | 2 => 0x1FFFFF &&& sar (threeBytesToLong b 5) 2
  | 3 => 0x1FFFFF &&& sar (fourBytesToLong b 7) 7
  | 4 => 0x1FFFFF &&& sar (fourBytesToLong b 10) 4
  | 5 => 0x1FFFFF &&& sar (threeBytesToLong b 13) 1
  | 6 => 0x1FFFFF &&& sar (fourBytesToLong b 15) 6
  | 7 => 0x1FFFFF &&& sar (threeBytesToLong b 18) 3
  | 8 => 0x1FFFFF &&& threeBytesToLong b 21
  | 9 => 0x1FFFFF &&& sar (fourBytesToLong b 23) 5
  | 10 => 0x1FFFFF &&& sar (threeBytesToLong b 26) 2
  | 11 => sar (fourBytesToLong b 28) 7
  | _ => 0

/-- `s0 ... s23` of `multiplyAndAddModQ`: the product plus `c` (ed25519_encode.go:1445-1468). -/
def mulAddProducts (a b c : Limbs) : Limbs
  | 0 => c 0 + a 0 * b 0
  | 1 => c 1 + a 0 * b 1 + a 1 * b 0
  | 2 => c 2 + a 0 * b 2 + a 1 * b 1 + a 2 * b 0
  | 3 => c 3 + a 0 * b 3 + a 1 * b 2 + a 2 * b 1 + a 3 * b 0
  | 4 => c 4 + a 0 * b 4 + a 1 * b 3 + a 2 * b 2 + a 3 * b 1 + a 4 * b 0
  | 5 => c 5 + a 0 * b 5 + a 1 * b 4 + a 2 * b 3 + a 3 * b 2 + a 4 * b 1 + a 5 * b 0
  | 6 => c 6 + a 0 * b 6 + a 1 * b 5 + a 2 * b 4 + a 3 * b 3 + a 4 * b 2 + a 5 * b 1 + a 6 * b 0
  | 7 => c 7 + a 0 * b 7 + a 1 * b 6 + a 2 * b 5 + a 3 * b 4 + a 4 * b 3 + a 5 * b 2 + a 6 * b 1 + a 7 * b 0
  | 8 => c 8 + a 0 * b 8 + a 1 * b 7 + a 2 * b 6 + a 3 * b 5 + a 4 * b 4 + a 5 * b 3 + a 6 * b 2 + a 7 * b 1 + a 8 * b 0
  | 9 => c 9 + a 0 * b 9 + a 1 * b 8 + a 2 * b 7 + a 3 * b 6 + a 4 * b 5 + a 5 * b 4 + a 6 * b 3 + a 7 * b 2 + a 8 * b 1 + a 9 * b 0
  | 10 => c 10 + a 0 * b 10 + a 1 * b 9 + a 2 * b 8 + a 3 * b 7 + a 4 * b 6 + a 5 * b 5 + a 6 * b 4 + a 7 * b 3 + a 8 * b 2 + a 9 * b 1 + a 10 * b 0
  | 11 => c 11 + a 0 * b 11 + a 1 * b 10 + a 2 * b 9 + a 3 * b 8 + a 4 * b 7 + a 5 * b 6 + a 6 * b 5 + a 7 * b 4 + a 8 * b 3 + a 9 * b 2 + a 10 * b 1 + a 11 * b 0
  | 12 => a 1 * b 11 + a 2 * b 10 + a 3 * b 9 + a 4 * b 8 + a 5 * b 7 + a 6 * b 6 + a 7 * b 5 + a 8 * b 4 + a 9 * b 3 + a 10 * b 2 + a 11 * b 1
  | 13 => a 2 * b 11 + a 3 * b 10 + a 4 * b 9 + a 5 * b 8 + a 6 * b 7 + a 7 * b 6 + a 8 * b 5 + a 9 * b 4 + a 10 * b 3 + a 11 * b 2
  | 14 => a 3 * b 11 + a 4 * b 10 + a 5 * b 9 + a 6 * b 8 + a 7 * b 7 + a 8 * b 6 + a 9 * b 5 + a 10 * b 4 + a 11 * b 3
  | 15 => a 4 * b 11 + a 5 * b 10 + a 6 * b 9 + a 7 * b 8 + a 8 * b 7 + a 9 * b 6 + a 10 * b 5 + a 11 * b 4
  | 16 => a 5 * b 11 + a 6 * b 10 + a 7 * b 9 + a 8 * b 8 + a 9 * b 7 + a 10 * b 6 + a 11 * b 5
  | 17 => a 6 * b 11 + a 7 * b 10 + a 8 * b 9 + a 9 * b 8 + a 10 * b 7 + a 11 * b 6
  | 18 => a 7 * b 11 + a 8 * b 10 + a 9 * b 9 + a 10 * b 8 + a 11 * b 7
  | 19 => a 8 * b 11 + a 9 * b 10 + a 10 * b 9 + a 11 * b 8
  | 20 => a 9 * b 11 + a 10 * b 10 + a 11 * b 9
  | 21 => a 10 * b 11 + a 11 * b 10
  | 22 => a 11 * b 11
  | 23 => 0
  | _ => 0

/-- The first carries of `multiplyAndAddModQ` (ed25519_encode.go:1469-1537). -/
def mulAddCarries : List Op :=
  [.rc 0 21, .rc 2 21, .rc 4 21, .rc 6 21, .rc 8 21, .rc 10 21, .rc 12 21, .rc 14 21, .rc 16 21,
   .rc 18 21, .rc 20 21, .rc 22 21, .rc 1 21, .rc 3 21, .rc 5 21, .rc 7 21, .rc 9 21, .rc 11 21,
   .rc 13 21, .rc 15 21, .rc 17 21, .rc 19 21, .rc 21 21]

/-- Common reduction, first part: up to the second `s12 = 0`
(ed25519_encode.go:1090-1247 in `modQ`, 1538-1686 in `multiplyAndAddModQ`). -/
def reduce1 : List Op :=
  [.fold 23, .fold 22, .fold 21, .fold 20, .fold 19, .fold 18, .rc 6 21, .rc 8 21, .rc 10 21,
   .rc 12 21, .rc 14 21, .rc 16 21, .rc 7 21, .rc 9 21, .rc 11 21, .rc 13 21, .rc 15 21, .fold 17,
   .fold 16, .fold 15, .fold 14, .fold 13, .fold 12, .zero 12, .rc 0 21, .rc 2 21, .rc 4 21,
   .rc 6 21, .rc 8 21, .rc 10 21, .rc 1 21, .rc 3 21, .rc 5 21, .rc 7 21, .rc 9 21, .rc 11 21,
   .fold 12, .zero 12]

/-- Common reduction, first chain of floor carries (ed25519_encode.go:1248-1283). -/
def reduce2 : List Op :=
  [.fc 0 21, .fc 1 21, .fc 2 21, .fc 3 21, .fc 4 21, .fc 5 21, .fc 6 21, .fc 7 21, .fc 8 21,
   .fc 9 21, .fc 10 21, .fc 11 21]

/-- Common reduction, last chain of floor carries, after the last fold of `s12`
(ed25519_encode.go:1290-1322; the fold is 1284-1289). -/
def reduce3 : List Op :=
  [.fc 0 21, .fc 1 21, .fc 2 21, .fc 3 21, .fc 4 21, .fc 5 21, .fc 6 21, .fc 7 21, .fc 8 21,
   .fc 9 21, .fc 10 21]

/-- Common reduction (ed25519_encode.go:1090-1322, 1538-1761). -/
def reduceOps : List Op := reduce1 ++ reduce2 ++ [.fold 12] ++ reduce3

/-- The 32 result bytes (ed25519_encode.go:1325-1356, 1763-1794). -/
def scalarBytes (s : Limbs) : Bytes :=
  [toByte (s 0),
   toByte (sar (s 0) 8),
   toByte ((sar (s 0) 16) ||| (shl (s 1) 5)),
   toByte (sar (s 1) 3),
   toByte (sar (s 1) 11),
   toByte ((sar (s 1) 19) ||| (shl (s 2) 2)),
   toByte (sar (s 2) 6),
   toByte ((sar (s 2) 14) ||| (shl (s 3) 7)),
   toByte (sar (s 3) 1),
   toByte (sar (s 3) 9),
   toByte ((sar (s 3) 17) ||| (shl (s 4) 4)),
   toByte (sar (s 4) 4),
   toByte (sar (s 4) 12),
   toByte ((sar (s 4) 20) ||| (shl (s 5) 1)),
   toByte (sar (s 5) 7),
   toByte ((sar (s 5) 15) ||| (shl (s 6) 6)),
   toByte (sar (s 6) 2),
   toByte (sar (s 6) 10),
   toByte ((sar (s 6) 18) ||| (shl (s 7) 3)),
   toByte (sar (s 7) 5),
   toByte (sar (s 7) 13),
   toByte (s 8),
   toByte (sar (s 8) 8),
   toByte ((sar (s 8) 16) ||| (shl (s 9) 5)),
   toByte (sar (s 9) 3),
   toByte (sar (s 9) 11),
   toByte ((sar (s 9) 19) ||| (shl (s 10) 2)),
   toByte (sar (s 10) 6),
   toByte ((sar (s 10) 14) ||| (shl (s 11) 7)),
   toByte (sar (s 11) 1),
   toByte (sar (s 11) 9),
   toByte (sar (s 11) 17)]

/-- `modQ` (ed25519_encode.go:1041-1359) on the `Raw` bytes.  Go panics when `Raw` has fewer than 64
bytes (see `modQ?` in Model/Api); here missing bytes read as 0. -/
def modQ (b : Bytes) : Bytes := scalarBytes (run reduceOps (load24 b))

/-- `multiplyAndAddModQ` (ed25519_encode.go:1370-1797): `a.multiplyAndAddModQ(b, c)`. -/
def multiplyAndAddModQ (a b c : Bytes) : Bytes :=
  scalarBytes (run reduceOps (run mulAddCarries (mulAddProducts (load12 a) (load12 b) (load12 c))))

end Ed

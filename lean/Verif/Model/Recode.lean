import Verif.Model.Field
import Verif.Go.Int8

/-!
# Scalar recodings

Go slices `[]int8` of fixed length are functions `ℕ → Int8`; indices outside never occur.
-/

set_option autoImplicit false

namespace Ed

/-- An `[]int8` slice of known length. -/
abbrev Digits := Nat → Int8

/-- `e[i] = v`. -/
def setD (e : Digits) (i : Nat) (v : Int8) : Digits := fun j => if j = i then v else e j

/-- The nibbles `e` of the first loop of `toRadix16` (ed25519_encode.go:2158-2163). -/
def radix16Nibbles (a : Bytes) : Digits := fun j =>
  if j % 2 = 0 then byteToInt8 (a.getD (j / 2) 0) &&& 15 else sar8 (byteToInt8 (a.getD (j / 2) 0)) 4 &&& 15

/-- Body of the second loop of `toRadix16` (ed25519_encode.go:2169-2173).  `carry` is a Go `int`;
its values never leave [-8, 9], so `Int` is used. -/
def radix16Step (st : Digits × Int) (i : Nat) : Digits × Int :=
  let e := st.1
  let e := setD e i (e i + Int8.ofInt st.2)
  let carry := (e i).toInt + 8
  let carry := carry / 2 ^ 4
  (setD e i (e i - shl8 (Int8.ofInt carry) 4), carry)

/-- `toRadix16` (ed25519_encode.go:2156-2178); the result has 64 entries. -/
def toRadix16 (a : Bytes) : Digits :=
  let st := (List.range 63).foldl radix16Step (radix16Nibbles a, 0)
  setD st.1 63 (st.1 63 + Int8.ofInt st.2)

/-- The bits `r` of the first loop of `slide` (ed25519_encode.go:2203-2208). -/
def slideBits (a : Bytes) : Digits := fun i => 1 &&& sar8 (byteToInt8 (a.getD (i / 2 ^ 3) 0)) (i % 8)

/-- The loop over `k` of `slide` (ed25519_encode.go:2222-2229); `n` is `256 - k`. -/
def slideCarry : Nat → Nat → Digits → Digits
  | 0, _, r => r
  | n + 1, k, r => if r k = 0 then setD r k 1 else slideCarry n (k + 1) (setD r k 0)

/-- The loop over `b` of `slide` (ed25519_encode.go:2213-2237); `n` is `7 - b`. -/
def slideInner (i : Nat) : Nat → Nat → Digits → Digits
  | 0, _, r => r
  | n + 1, b, r =>
    if i + b < 256 then
      let ib := i + b
      if r ib ≠ 0 then
        if r i + shl8 (r ib) b ≤ 15 then
          let r := setD r i (r i + shl8 (r ib) b)
          slideInner i n (b + 1) (setD r ib 0)
        else if r i - shl8 (r ib) b ≥ -15 then
          let r := setD r i (r i - shl8 (r ib) b)
          slideInner i n (b + 1) (slideCarry (256 - ib) ib r)
        else r
      else slideInner i n (b + 1) r
    else r

/-- Body of the loop over `i` of `slide` (ed25519_encode.go:2211-2241). -/
def slideStep (r : Digits) (i : Nat) : Digits := if r i ≠ 0 then slideInner i 6 1 r else r

/-- `slide` (ed25519_encode.go:2201-2244); the result has 256 entries. -/
def slide (a : Bytes) : Digits := (List.range 256).foldl slideStep (slideBits a)

end Ed

import Verif.Go.Int64

/-!
# Straight-line limb programs

The field and scalar routines of ed25519_encode.go end in long sequences of a handful of statement
patterns on an array of int64 limbs.  Each pattern is one `Op`; `exec` gives its meaning over
wrapping `Int64`.  No property of the patterns is assumed here.
-/

set_option autoImplicit false

namespace Ed

/-- An array of int64 limbs (Go: `[10]int64` or the local variables `s0 ... s23`). -/
abbrev Limbs := Nat → Int64

/-- `s[i] = v`. -/
def upd (s : Limbs) (i : Nat) (v : Int64) : Limbs := fun j => if j = i then v else s j

/-- Statement patterns of the limb routines. -/
inductive Op where
  /-- `carry := (s[i] + (1 << (w-1))) >> w; s[i+1] += carry; s[i] -= carry << w` -/
  | rc (i w : Nat)
  /-- `carry := s[i] >> w; s[i+1] += carry; s[i] -= carry << w` -/
  | fc (i w : Nat)
  /-- `carry := (s[i] + (1 << (w-1))) >> w; s[0] += carry * 19; s[i] -= carry << w` -/
  | wrap (i w : Nat)
  /-- `s[k-12] += s[k] * 666643; s[k-11] += s[k] * 470296; s[k-10] += s[k] * 654183;`
      `s[k-9] -= s[k] * 997805; s[k-8] += s[k] * 136657; s[k-7] -= s[k] * 683901` -/
  | fold (k : Nat)
  /-- `s[i] = 0` -/
  | zero (i : Nat)
deriving DecidableEq, Repr

/-- Meaning of one statement pattern, over wrapping int64. -/
def Op.exec (s : Limbs) : Op → Limbs
  | .rc i w =>
      let carry := sar (s i + Int64.ofInt (2 ^ (w - 1))) w
      let s := upd s (i + 1) (s (i + 1) + carry)
      upd s i (s i - shl carry w)
  | .fc i w =>
      let carry := sar (s i) w
      let s := upd s (i + 1) (s (i + 1) + carry)
      upd s i (s i - shl carry w)
  | .wrap i w =>
      let carry := sar (s i + Int64.ofInt (2 ^ (w - 1))) w
      let s := upd s 0 (s 0 + carry * 19)
      upd s i (s i - shl carry w)
  | .fold k =>
      let s := upd s (k - 12) (s (k - 12) + s k * 666643)
      let s := upd s (k - 11) (s (k - 11) + s k * 470296)
      let s := upd s (k - 10) (s (k - 10) + s k * 654183)
      let s := upd s (k - 9) (s (k - 9) - s k * 997805)
      let s := upd s (k - 8) (s (k - 8) + s k * 136657)
      upd s (k - 7) (s (k - 7) - s k * 683901)
  | .zero i => upd s i 0

/-- Run a program. -/
def run (ops : List Op) (s : Limbs) : Limbs := ops.foldl Op.exec s

end Ed

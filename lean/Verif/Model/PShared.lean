import Verif.Model.PGroup

/-!
# Goroutines that use shared group elements (ed25519_encode.go:2308-2882)
-/

set_option autoImplicit false

namespace Ed

/-- A call of an operation on group elements in memory. -/
inductive GCall
  /-- `Encode` -/
  | encode (a : Addr)
  /-- `toP2`, `toP3`, `toCached` -/
  | convert (a : Addr) (n : Sys)
  /-- `dbl` -/
  | dbl (a : Addr)
  /-- `negate` -/
  | negate (a : Addr)
  /-- `add` -/
  | add (a b : Addr)
  /-- `subtract` -/
  | subtract (a b : Addr)
  /-- `precomputedAdd` -/
  | precomputedAdd (a b : Addr)
  /-- `precomputedSubtract` -/
  | precomputedSubtract (a b : Addr)
  /-- `Select` -/
  | select (a : Addr) (pos : Nat) (b : Int64)
  /-- `scalarMultiply` -/
  | scalarMultiply (a : Addr) (s : Bytes)
  /-- `doubleScalarMultiplyVariableTime` -/
  | doubleScalar (a A : Addr) (s t : Bytes)
  /-- `PrecomputeForScalarMultiplication` -/
  | precomputeSingle (a : Addr)
  /-- `PrecomputeForDoubleScalarMultiplication` -/
  | precomputeDouble (a : Addr)
  /-- `Decode` of bytes -/
  | decode (raw : Bytes)

/-- What a caller sees of the result: the coordinates of a new element, bytes, or nothing. -/
inductive GRes
  | point (v : GC)
  | bytes (b : Bytes)
  | done

open PG in
/-- The goroutine of a call; the coordinates of a result are read afterwards. -/
def GCall.prog : GCall → Prog GRes
  | .encode a => do
    let b ← PG.encode a
    pure (.bytes b)
  | .convert a n => do
    let r ← PG.toCoordinateSystem a n
    let v ← loadGC r
    pure (.point v)
  | .dbl a => do
    let r ← PG.dbl a
    let v ← loadGC r
    pure (.point v)
  | .negate a => do
    let r ← PG.negate a
    let v ← loadGC r
    pure (.point v)
  | .add a b => do
    let r ← PG.add a b
    let v ← loadGC r
    pure (.point v)
  | .subtract a b => do
    let r ← PG.subtract a b
    let v ← loadGC r
    pure (.point v)
  | .precomputedAdd a b => do
    let r ← PG.precomputedAdd a b
    let v ← loadGC r
    pure (.point v)
  | .precomputedSubtract a b => do
    let r ← PG.precomputedSubtract a b
    let v ← loadGC r
    pure (.point v)
  | .select a pos b => do
    let r ← PG.select a pos b
    let v ← loadGC r
    pure (.point v)
  | .scalarMultiply a s => do
    let r ← PG.scalarMultiply a s
    let v ← loadGC r
    pure (.point v)
  | .doubleScalar a A s t => do
    let r ← PG.doubleScalarMultiplyVariableTime a A s t
    let v ← loadGC r
    pure (.point v)
  | .precomputeSingle a => do
    PG.precomputeSingle a
    pure .done
  | .precomputeDouble a => do
    PG.precomputeDouble a
    pure .done
  | .decode raw => do
    let r ← PG.decode raw
    let v ← loadGC r
    pure (.point v)

/-- A goroutine that makes calls one after the other and keeps all outcomes. -/
def GCall.progs : List GCall → Prog (List (Out GRes))
  | [] => pure []
  | c :: cs => do
    let r ← c.prog.catch_
    let rs ← progs cs
    pure (r :: rs)

/-- A goroutine that precomputes, selects from the table and looks at the result. -/
def useTable (ref : Addr) (pos : Nat) (b : Int64) : Prog GC := do
  PG.precomputeSingle ref
  let s ← PG.select ref pos b
  PG.loadGC s

end Ed

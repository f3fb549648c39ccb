import Verif.Model.Conc

/-!
# The group operations on pointers (ed25519_encode.go:2018-2882)

The same functions as in Model/Group, but on group elements in memory, with the sharing of pointers that the code has: conversions
keep coordinate pointers, `copy` and `Select` keep pointers to table entries, tables are filled entry by entry after they were stored.
The coordinates of an operand are loaded together at the start of an operation, not one by one as they are used; field arithmetic is on
values, and a result `&x` is a new object.
-/

set_option autoImplicit false

namespace Ed
namespace PG
open Prog

/-- The object at `a`. -/
def load (a : Addr) : Prog Val := .access a id fun v => .ret (.ok v)
/-- A new object. -/
def new (v : Val) : Prog Addr := .alloc v fun a => .ret (.ok a)
/-- An assignment to a part of the object at `a`. -/
def update (a : Addr) (f : Val → Val) : Prog Unit := .access a f fun _ => .ret (.ok ())

/-- `*p` of a field element. -/
def loadFE (a : Addr) : Prog FE := do
  match ← load a with
  | .fe v => pure v
  | _ => lift .panic

/-- `*p` of a group element. -/
def loadObj (a : Addr) : Prog PObj := do
  match ← load a with
  | .obj o => pure o
  | _ => lift .panic

/-- The entries of a slice of pointers; a nil slice has none. -/
def loadArr : Option Addr → Prog (List (Option Addr))
  | none => pure []
  | some a => do
    match ← load a with
    | .arr l => pure l
    | _ => lift .panic

/-- One byte of an array. -/
def loadByte (a : Addr) (i : Nat) : Prog UInt8 := do
  match ← load a with
  | .bytes b => lift (Out.index b i)
  | _ => lift .panic

/-- The next `k` bytes of an array, one by one, after those in `got`. -/
def loadRest (a : Addr) : Nat → Bytes → Prog Bytes
  | 0, got => pure got
  | k + 1, got => do
    let x ← loadByte a got.length
    loadRest a k (got ++ [x])

/-- A pass over an array, such as that of a hash function or of `copy`: its length, then its bytes one by one; they need not all be
read at one moment. -/
def loadBytes (a : Addr) : Prog Bytes := do
  match ← load a with
  | .bytes b => loadRest a b.length []
  | _ => lift .panic

/-- `s[i]` of a slice of pointers: out of range panics, the entry may be nil. -/
def loadEntry (s : Option Addr) (i : Nat) : Prog (Option Addr) := do
  let l ← loadArr s
  lift (Out.index l i)

/-- `s[i] = e`: out of range panics. -/
def storeEntry (s : Option Addr) (i : Nat) (e : Addr) : Prog Unit := do
  let l ← loadArr s
  let _ ← lift (Out.index l i)
  let a ← lift (Out.deref s)
  update a fun
    | .arr l => .arr (l.set i (some e))
    | v => v

/-- The coordinate of a possibly nil pointer. -/
def loadOpt : Option Addr → Prog (Option FE)
  | none => pure none
  | some a => do
    let t ← loadFE a
    pure (some t)

/-- The coordinates of a group element. -/
def loadGC (a : Addr) : Prog GC := do
  let o ← loadObj a
  let x ← loadFE o.X
  let y ← loadFE o.Y
  let z ← loadFE o.Z
  let t ← loadOpt o.T
  pure ⟨o.sys, x, y, z, t⟩

/-- A new coordinate, nil for none. -/
def newOpt : Option FE → Prog (Option Addr)
  | none => pure none
  | some v => do
    let a ← new (.fe v)
    pure (some a)

/-- A new group element with new coordinates. -/
def newGC (v : GC) : Prog Addr := do
  let x ← new (.fe v.X)
  let y ← new (.fe v.Y)
  let z ← new (.fe v.Z)
  let t ← newOpt v.T
  new (.obj ⟨v.sys, x, y, z, t, none, none⟩)

/-- A conversion that makes a new header with the same coordinate pointers. -/
def reuse (o : PObj) (n : Sys) (t : Option Addr) : Prog Addr := new (.obj ⟨n, o.X, o.Y, o.Z, t, none, none⟩)

/-- `toCoordinateSystem` (ed25519_encode.go:2354-2419). -/
def toCoordinateSystem (a : Addr) (n : Sys) : Prog Addr := do
  let o ← loadObj a
  match o.sys with
  | .p2 =>
    match n with
    | .p2 => reuse o .p2 none
    | _ => lift .panic
  | .p3 =>
    match n with
    | .p2 => reuse o .p2 none
    | .p3 => reuse o .p3 o.T
    | .cached => do
      let g ← loadGC a
      let T ← lift (Out.deref g.T)
      let x ← new (.fe (g.Y.add g.X))
      let y ← new (.fe (g.Y.subtract g.X))
      let t ← new (.fe (T.multiply d2FE))
      new (.obj ⟨.cached, x, y, o.Z, some t, none, none⟩)
    | _ => lift .panic
  | .p1xp1 =>
    match n with
    | .p2 => do
      let g ← loadGC a
      let T ← lift (Out.deref g.T)
      newGC (GC.newP2 (g.X.multiply T) (g.Y.multiply g.Z) (g.Z.multiply T))
    | .p3 => do
      let g ← loadGC a
      let T ← lift (Out.deref g.T)
      newGC (GC.newP3 (g.X.multiply T) (g.Y.multiply g.Z) (g.Z.multiply T) (some (g.X.multiply g.Y)))
    | .p1xp1 => reuse o .p1xp1 o.T
    | _ => lift .panic
  | .precomputed =>
    match n with
    | .precomputed => reuse o .precomputed none
    | _ => lift .panic
  | .cached =>
    match n with
    | .cached => reuse o .cached o.T
    | _ => lift .panic
  | .affine => lift .panic

/-- `toP2`, `toP3`, `toCached` (ed25519_encode.go:2329-2344). -/
def toP2 (a : Addr) : Prog Addr := toCoordinateSystem a .p2
def toP3 (a : Addr) : Prog Addr := toCoordinateSystem a .p3
def toCached (a : Addr) : Prog Addr := toCoordinateSystem a .cached

/-- `dbl` (ed25519_encode.go:2563-2583). -/
def dbl (a : Addr) : Prog Addr := do
  let g ← loadGC a
  let r ← lift g.dbl
  newGC r

/-- A binary operation whose result is all new: `precomputedAdd`, `precomputedSubtract`, `add`, `subtract`
(ed25519_encode.go:2617-2766). -/
def binary (op : GC → GC → Out GC) (a b : Addr) : Prog Addr := do
  let g ← loadGC a
  let e ← loadGC b
  let r ← lift (op g e)
  newGC r

/-- `precomputedAdd` (ed25519_encode.go:2617-2650). -/
def precomputedAdd (a b : Addr) : Prog Addr := binary GC.precomputedAdd a b
/-- `precomputedSubtract` (ed25519_encode.go:2661-2683). -/
def precomputedSubtract (a b : Addr) : Prog Addr := binary GC.precomputedSubtract a b
/-- `add` (ed25519_encode.go:2704-2732). -/
def add (a b : Addr) : Prog Addr := binary GC.add a b
/-- `subtract` (ed25519_encode.go:2743-2766). -/
def subtract (a b : Addr) : Prog Addr := binary GC.subtract a b

/-- `negate` (ed25519_encode.go:2770-2777). -/
def negate (a : Addr) : Prog Addr := do
  let o ← loadObj a
  if o.sys ≠ .p3 then lift (.err "NewUnsupportedOperationException")
  else
    let z ← newGC .zeroP3
    let c ← toCached a
    let s ← subtract z c
    toP3 s

/-- `Encode` (ed25519_encode.go:2308-2326). -/
def encode (a : Addr) : Prog Bytes := do
  let o ← loadObj a
  match o.sys with
  | .p2 | .p3 => do
    let g ← loadGC a
    pure g.encodeP
  | _ => do
    let b ← toP2 a
    let g ← loadGC b
    pure g.encodeP

/-- A row of the copied table (ed25519_encode.go:2433-2437): always 8 entries; a longer row panics. -/
def copyRow (l : List (Option Addr)) : Out (List (Option Addr)) :=
  if l.length > 8 then .panic else .ok (l ++ List.replicate (8 - l.length) none)

/-- The rows of the copied table, each in a new array. -/
def copyRows : List (Option Addr) → Prog (List (Option Addr))
  | [] => pure []
  | r :: rs => do
    let l ← loadArr r
    let l ← lift (copyRow l)
    let a ← new (.arr l)
    let as ← copyRows rs
    pure (some a :: as)

/-- `copy` (ed25519_encode.go:2422-2444).  The new object and its tables are not visible to others before the function returns, so they are
allocated when their content is known. -/
def copy (a : Addr) : Prog Addr := do
  let o ← loadObj a
  let rows ← loadArr o.single
  let rows ← copyRows rows
  let s ← new (.arr rows)
  let dbl ← loadArr o.double
  let d ← new (.arr dbl)
  new (.obj { o with single := some s, double := some d })

/-- `ref.precomputedForSingle = s`. -/
def setSingle (a s : Addr) : Prog Unit :=
  update a fun
    | .obj o => .obj { o with single := some s }
    | v => v

/-- `ref.precomputedForDouble = s`. -/
def setDouble (a s : Addr) : Prog Unit :=
  update a fun
    | .obj o => .obj { o with double := some s }
    | v => v

/-- `b.add(c.toCached()).toP3()`. -/
def addP3 (b c : Addr) : Prog Addr := do
  let c ← toCached c
  let s ← add b c
  toP3 s

/-- The loop over `j` of `PrecomputeForScalarMultiplication` (ed25519_encode.go:2458-2468), from `j` on, `n` rounds: the entry is stored
with `ref.precomputedForSingle[i][j] = ...`, for which the table and the row are looked up again. -/
def precRow (ref : Addr) (i : Nat) (bi : Addr) : Nat → Nat → Addr → Prog Unit
  | 0, _, _ => pure ()
  | n + 1, j, bij => do
    let g ← loadGC bij
    let e ← newGC g.precEntry
    let o ← loadObj ref
    let row ← loadEntry o.single i
    storeEntry row j e
    let bij ← addP3 bij bi
    precRow ref i bi n (j + 1) bij

/-- The loop over `k` (ed25519_encode.go:2470-2472). -/
def doubleN : Nat → Addr → Prog Addr
  | 0, b => pure b
  | n + 1, b => do
    let b ← addP3 b b
    doubleN n b

/-- The loop over `i` (ed25519_encode.go:2455-2474), from `i` on, `n` rounds. -/
def precRows (ref : Addr) : Nat → Nat → Addr → Prog Unit
  | 0, _, _ => pure ()
  | n + 1, i, bi => do
    let row ← new (.arr (List.replicate 8 none))
    let o ← loadObj ref
    storeEntry o.single i row
    let bij ← copy bi
    precRow ref i bi 8 0 bij
    let bi ← doubleN 8 bi
    precRows ref n (i + 1) bi

/-- `PrecomputeForScalarMultiplication` (ed25519_encode.go:2447-2476). -/
def precomputeSingle (ref : Addr) : Prog Unit := do
  let o ← loadObj ref
  if o.single.isSome then pure ()
  else
    let bi ← copy ref
    let t ← new (.arr (List.replicate 32 none))
    setSingle ref t
    precRows ref 32 0 bi

/-- The loop of `PrecomputeForDoubleScalarMultiplication` (ed25519_encode.go:2488-2499), from `i` on, `n` rounds. -/
def precOdd (ref : Addr) : Nat → Nat → Addr → Prog Unit
  | 0, _, _ => pure ()
  | n + 1, i, bi => do
    let g ← loadGC bi
    let e ← newGC g.precEntry
    let o ← loadObj ref
    storeEntry o.double i e
    let s ← addP3 ref bi
    let bi ← addP3 ref s
    precOdd ref n (i + 1) bi

/-- `PrecomputeForDoubleScalarMultiplication` (ed25519_encode.go:2479-2500). -/
def precomputeDouble (ref : Addr) : Prog Unit := do
  let o ← loadObj ref
  let l ← loadArr o.double
  if l.length > 0 then pure ()
  else
    let t ← new (.arr (List.replicate 8 none))
    setDouble ref t
    let bi ← copy ref
    precOdd ref 8 0 bi

/-- `cmov` (ed25519_encode.go:2783-2791). -/
def cmov (r : Addr) (u : Option Addr) (b : Int64) : Out (Option Addr) :=
  if b = 1 then .ok u
  else if b = 0 then .ok (some r)
  else .err "parameter 'b' must by in range {0,1}"

/-- The loop of `Select` (ed25519_encode.go:2519-2527); a nil entry that is selected gives an error. -/
def selectLoop (bAbs : Int64) : List (Option Addr) → Nat → Addr → Out Addr
  | [], _, t => .ok t
  | el :: row, i, t => do
    match ← cmov t el (isConstantTimeByteEq bAbs (Int64.ofInt (i + 1))) with
    | none => .err "get nil object - don't work "
    | some t => selectLoop bAbs row (i + 1) t

/-- `Select` (ed25519_encode.go:2510-2534). -/
def select (ref : Addr) (pos : Nat) (b : Int64) : Prog Addr := do
  let bNegative := isNegativeConstantTime b
  let bAbs := b - shl ((-bNegative) &&& b) 1
  let z ← newGC .zeroPrecomputed
  let o ← loadObj ref
  let r ← loadEntry o.single pos
  let row ← loadArr r
  let t ← lift (selectLoop bAbs row 0 z)
  let ot ← loadObj t
  let tz ← loadFE ot.Z
  let nz ← new (.fe tz.negate)
  let tm ← new (.obj ⟨.precomputed, ot.Y, ot.X, nz, none, none, none⟩)
  let r ← lift (cmov t (some tm) bNegative)
  lift (Out.deref r)

/-- Body of the two addition loops of `scalarMultiply` (ed25519_encode.go:2806-2815, 2819-2828). -/
def scalarStep (ref : Addr) (e : Digits) (h : Addr) (i : Nat) : Prog Addr := do
  let s ← select ref (i / 2) (GE.int8ToInt (e i))
  let h ← precomputedAdd h s
  toP3 h

/-- `h.dbl().toP2().dbl().toP2().dbl().toP2().dbl().toP3()` (ed25519_encode.go:2817). -/
def times16 (h : Addr) : Prog Addr := do
  let h ← dbl h
  let h ← toP2 h
  let h ← dbl h
  let h ← toP2 h
  let h ← dbl h
  let h ← toP2 h
  let h ← dbl h
  toP3 h

/-- A `for` loop over given indices. -/
def loop {β : Type} (f : β → Nat → Prog β) : β → List Nat → Prog β
  | b, [] => pure b
  | b, i :: is => do
    let b ← f b i
    loop f b is

/-- `scalarMultiply` (ed25519_encode.go:2801-2831). -/
def scalarMultiply (ref : Addr) (a : Bytes) : Prog Addr := do
  let e := toRadix16 a
  let h ← newGC .zeroP3
  let h ← loop (scalarStep ref e) h ((List.range 32).map fun k => 2 * k + 1)
  let h ← times16 h
  loop (scalarStep ref e) h ((List.range 32).map fun k => 2 * k)

/-- `t.toP3().op(ref.precomputedForDouble[i])`. -/
def tableOp (op : Addr → Addr → Prog Addr) (ref : Addr) (i : Nat) (t : Addr) : Prog Addr := do
  let t ← toP3 t
  let o ← loadObj ref
  let q ← loadEntry o.double i
  let q ← lift (Out.deref q)
  op t q

/-- The step for a digit of `a` (ed25519_encode.go:2857-2864). -/
def subDigit (A : Addr) (a : Int8) (t : Addr) : Prog Addr :=
  if a > 0 then tableOp precomputedSubtract A (a / 2).toInt.toNat t
  else if a < 0 then tableOp precomputedAdd A ((-a) / 2).toInt.toNat t
  else pure t

/-- The step for a digit of `b` (ed25519_encode.go:2866-2873). -/
def addDigit (ref : Addr) (b : Int8) (t : Addr) : Prog Addr :=
  if b > 0 then tableOp precomputedAdd ref (b / 2).toInt.toNat t
  else if b < 0 then tableOp precomputedSubtract ref ((-b) / 2).toInt.toNat t
  else pure t

/-- Body of the loop once `flag` is set (ed25519_encode.go:2856-2875). -/
def doubleStep (ref A : Addr) (a b : Int8) (r : Addr) : Prog Addr := do
  let t ← dbl r
  let t ← subDigit A a t
  let t ← addDigit ref b t
  toP2 t

/-- The loop of `doubleScalarMultiplyVariableTime` (ed25519_encode.go:2852-2879). -/
def doubleLoop (ref A : Addr) (aS bS : Digits) : Nat → Bool → Addr → Prog Addr
  | 0, _, r => pure r
  | i + 1, flag, r =>
    let flag := flag || aS i != 0 || bS i != 0
    if flag then do
      let r ← doubleStep ref A (aS i) (bS i) r
      doubleLoop ref A aS bS i flag r
    else doubleLoop ref A aS bS i flag r

/-- `doubleScalarMultiplyVariableTime` (ed25519_encode.go:2842-2882). -/
def doubleScalarMultiplyVariableTime (ref A : Addr) (a b : Bytes) : Prog Addr := do
  let r ← newGC .zeroP2
  doubleLoop ref A (slide a) (slide b) 256 false r

/-- `(&Ed25519EncodedGroupElement{raw}).Decode()` (ed25519_encode.go:1818-1831): the coordinates are new. -/
def decode (raw : Bytes) : Prog Addr := do
  let g ← lift (GC.decode raw)
  newGC g

end PG
end Ed

import Verif.Model.Tables

/-!
# Group elements with pointers (ed25519_encode.go:1928-1937, 2018-2033, 2422-2500, 2510-2534)

The coordinates of a group element and the entries of its tables are pointers, which several group elements may share.
Here memory is explicit: cells for field elements and for group elements.  Coordinate pointers are never nil except T.
Slices of table pointers are treated as values: the code fills a table before it stores it and never writes to a stored one.
-/

set_option autoImplicit false

namespace Ed

/-- An `Ed25519GroupElement` in memory: the fields hold addresses. -/
structure GObj where
  sys : Sys
  X : Nat
  Y : Nat
  Z : Nat
  T : Option Nat
  single : Option (List (List Nat))
  double : Option (List Nat)

/-- Memory: the field elements and the group elements, by address. -/
structure Mem where
  cells : List FE
  objs : List GObj

/-- An object, for valid addresses. -/
def nilObj : GObj := ⟨.affine, 0, 0, 0, none, none, none⟩

namespace Mem

/-- `*p` of a coordinate pointer. -/
def cell (m : Mem) (p : Nat) : FE := m.cells.getD p .zero
/-- `*p` of a pointer to a group element. -/
def obj (m : Mem) (p : Nat) : GObj := m.objs.getD p nilObj

/-- The coordinates a group element shows. -/
def gc (m : Mem) (p : Nat) : GC :=
  let o := m.obj p
  ⟨o.sys, m.cell o.X, m.cell o.Y, m.cell o.Z, o.T.map m.cell⟩

/-- Everything a group element shows, with its tables: a value of the model in Model/Group. -/
def ge (m : Mem) (p : Nat) : GE :=
  let o := m.obj p
  { m.gc p with single := o.single.map (·.map (·.map m.gc)), double := o.double.map (·.map m.gc) }

/-- `new` of a field element. -/
def newCell (m : Mem) (v : FE) : Mem × Nat := ({ m with cells := m.cells ++ [v] }, m.cells.length)
/-- `new` of a group element. -/
def newObj (m : Mem) (o : GObj) : Mem × Nat := ({ m with objs := m.objs ++ [o] }, m.objs.length)

/-- `*p = v`, in particular `g.X.Raw = v` or `g.X.Raw[i] = ...`. -/
def setCell (m : Mem) (p : Nat) (v : FE) : Mem := { m with cells := m.cells.set p v }
/-- `g.X = p`, `g.Y = p`, ...: any change of the fields of the object. -/
def setObj (m : Mem) (p : Nat) (f : GObj → GObj) : Mem := { m with objs := m.objs.set p (f (m.obj p)) }

/-- `copy` (ed25519_encode.go:2422-2444): a new object with the same coordinate pointers and new slices of the same
table pointers. -/
def copy (m : Mem) (p : Nat) : Mem × Nat :=
  let o := m.obj p
  m.newObj { o with single := some (o.single.getD []), double := some (o.double.getD []) }

/-- A new group element with new coordinates. -/
def newGC (m : Mem) (g : GC) : Mem × Nat :=
  let x := m.newCell g.X
  let y := x.1.newCell g.Y
  let z := y.1.newCell g.Z
  match g.T with
  | none => z.1.newObj ⟨g.sys, x.2, y.2, z.2, none, none, none⟩
  | some t =>
    let t := z.1.newCell t
    t.1.newObj ⟨g.sys, x.2, y.2, z.2, some t.2, none, none⟩

/-- New group elements for a row of a table. -/
def newRow (m : Mem) : List GC → Mem × List Nat
  | [] => (m, [])
  | g :: gs =>
    let a := m.newGC g
    let r := a.1.newRow gs
    (r.1, a.2 :: r.2)

/-- New group elements for a table. -/
def newRows (m : Mem) : List (List GC) → Mem × List (List Nat)
  | [] => (m, [])
  | g :: gs =>
    let a := m.newRow g
    let r := a.1.newRows gs
    (r.1, a.2 :: r.2)

/-- `PrecomputeForScalarMultiplication` (ed25519_encode.go:2447-2476).  (A panic, possible for a T that is nil, leaves
the memory without a table; the partial table is not modelled.) -/
def precomputeSingle (m : Mem) (p : Nat) : Mem :=
  if (m.obj p).single.isSome then m
  else
    match GC.precRows 32 (m.gc p) with
    | .ok rows =>
      let r := m.newRows rows
      r.1.setObj p fun o => { o with single := some r.2 }
    | _ => m

/-- `PrecomputeForDoubleScalarMultiplication` (ed25519_encode.go:2479-2500). -/
def precomputeDouble (m : Mem) (p : Nat) : Mem :=
  if ((m.obj p).double.getD []).length > 0 then m
  else
    match GC.precOdd (m.gc p) 8 (m.gc p) with
    | .ok row =>
      let r := m.newRow row
      r.1.setObj p fun o => { o with double := some r.2 }
    | _ => m

/-- `cmov` (ed25519_encode.go:2783-2791) on pointers. -/
def cmov (r u : Nat) (b : Int64) : Out Nat :=
  if b == 1 then .ok u
  else if b == 0 then .ok r
  else .err "parameter 'b' must by in range {0,1}"

/-- The loop of `Select` (ed25519_encode.go:2519-2527). -/
def selectLoop (bAbs : Int64) : List Nat → Nat → Nat → Out Nat
  | [], _, t => .ok t
  | el :: row, i, t => do
    let t ← cmov t el (isConstantTimeByteEq bAbs (Int64.ofInt (i + 1)))
    selectLoop bAbs row (i + 1) t

/-- `Select` (ed25519_encode.go:2510-2534): the memory afterwards and the returned pointer. -/
def select (m : Mem) (p : Nat) (pos : Nat) (b : Int64) : Out (Mem × Nat) := do
  let bNegative := isNegativeConstantTime b
  let bAbs := b - shl ((-bNegative) &&& b) 1
  let z := m.newGC .zeroPrecomputed
  let row ← Out.index ((z.1.obj p).single.getD []) pos
  let t ← selectLoop bAbs row 0 z.2
  let nz := z.1.newCell (z.1.cell (z.1.obj t).Z).negate
  let tm := nz.1.newObj ⟨.precomputed, (z.1.obj t).Y, (z.1.obj t).X, nz.2, none, none, none⟩
  let r ← cmov t tm.2 bNegative
  .ok (tm.1, r)

end Mem

/-- The memory after the initialisation of the package, reduced to the shared base point, which is at address 0
(ed25519_encode.go:1984-2003); the tables are those of ed25519_const.go. -/
def initMem (bp : GC) : Mem × Nat :=
  let b := (Mem.mk [] []).newGC bp
  let s := b.1.newRows basePrecSingle
  let d := s.1.newRow basePrecDouble
  (d.1.setObj b.2 fun o => { o with single := some s.2, double := some d.2 }, b.2)

end Ed

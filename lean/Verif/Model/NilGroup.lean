import Verif.Model.Group
import Verif.Model.Misc

/-!
# Group elements with nil coordinates and any coordinate system (ed25519_encode.go:1909-2908)

`NewEd25519GroupElement` and the other constructors are exported and check nothing: every coordinate may be nil, and `CoordinateSystem`
is an int.  The functions of `Model/Group` again for such elements; the methods of field elements have value receivers (or dereference
theirs at once), so a nil operand panics where the method is called.
-/

set_option autoImplicit false

namespace Ed

/-- `Ed25519GroupElement` without the tables (ed25519_encode.go:2018-2028): the system is any int, a coordinate `none` is nil. -/
structure GCN where
  sys : Int
  X : Option FE
  Y : Option FE
  Z : Option FE
  T : Option FE
deriving DecidableEq

/-- The constants of ed25519_encode.go:1912-1927. -/
def Sys.num : Sys → Int
  | .affine => 0 | .p2 => 1 | .p3 => 2 | .p1xp1 => 3 | .precomputed => 4 | .cached => 5

/-- An element without nil X, Y, Z in one of the six systems (ed25519_encode.go:2018-2028). -/
def GC.toN (g : GC) : GCN := ⟨g.sys.num, some g.X, some g.Y, some g.Z, g.T⟩

namespace GCN

/-- `NewEd25519GroupElementP2` (ed25519_encode.go:2059-2064). -/
def newP2 (x y z : Option FE) : GCN := ⟨1, x, y, z, none⟩
/-- `NewEd25519GroupElementP3` (ed25519_encode.go:2067-2073). -/
def newP3 (x y z t : Option FE) : GCN := ⟨2, x, y, z, t⟩
/-- `NewEd25519GroupElementP1XP1` (ed25519_encode.go:2076-2082). -/
def newP1xP1 (x y z t : Option FE) : GCN := ⟨3, x, y, z, t⟩
/-- `NewEd25519GroupElementPrecomputed` (ed25519_encode.go:2086-2091). -/
def newPrecomputed (x y z : Option FE) : GCN := ⟨4, x, y, z, none⟩
/-- `NewEd25519GroupElementCached` (ed25519_encode.go:2095-2101). -/
def newCached (x y z t : Option FE) : GCN := ⟨5, x, y, z, t⟩

/-- A binary method of field elements, `x.f(*y)` (ed25519_encode.go:172-252). -/
def op (f : FE → FE → FE) (x y : Option FE) : Out FE := do
  let a ← Out.deref x
  let b ← Out.deref y
  .ok (f a b)

/-- `x.Equals(y)` (ed25519_encode.go:911-914). -/
def eq (x y : Option FE) : Out Bool := do
  let a ← Out.deref x
  let b ← Out.deref y
  .ok (a.equals b)

/-- `x && y`, the second operand only if the first holds. -/
def andThen (x : Out Bool) (y : Out Bool) : Out Bool := do
  let b ← x
  if b then y else .ok false

/-- `toCoordinateSystem` (ed25519_encode.go:2354-2419): most conversions copy the pointers without looking at them. -/
def toCoordinateSystem (g : GCN) (n : Int) : Out GCN :=
  if g.sys = 1 then
    if n = 1 then .ok (newP2 g.X g.Y g.Z) else .panic
  else if g.sys = 2 then
    if n = 1 then .ok (newP2 g.X g.Y g.Z)
    else if n = 2 then .ok (newP3 g.X g.Y g.Z g.T)
    else if n = 5 then do
      let X ← op FE.add g.Y g.X
      let Y ← op FE.subtract g.Y g.X
      let t ← op FE.multiply g.T (some d2FE)
      .ok (newCached (some X) (some Y) g.Z (some t))
    else .panic
  else if g.sys = 3 then
    if n = 1 then do
      let x ← op FE.multiply g.X g.T
      let y ← op FE.multiply g.Y g.Z
      let z ← op FE.multiply g.Z g.T
      .ok (newP2 (some x) (some y) (some z))
    else if n = 2 then do
      let x ← op FE.multiply g.X g.T
      let y ← op FE.multiply g.Y g.Z
      let z ← op FE.multiply g.Z g.T
      let t ← op FE.multiply g.X g.Y
      .ok (newP3 (some x) (some y) (some z) (some t))
    else if n = 3 then .ok (newP1xP1 g.X g.Y g.Z g.T)
    else .panic
  else if g.sys = 4 then
    if n = 4 then .ok (newPrecomputed g.X g.Y g.Z) else .panic
  else if g.sys = 5 then
    if n = 5 then .ok (newCached g.X g.Y g.Z g.T) else .panic
  else .panic

/-- `Encode`, case P2, P3 (ed25519_encode.go:2311-2322). -/
def encodeP (g : GCN) : Out Bytes := do
  let Z ← Out.deref g.Z
  let x ← op FE.multiply g.X (some Z.invert)
  let y ← op FE.multiply g.Y (some Z.invert)
  let s := y.encode
  if x.isNegative then .ok (GC.setTopBit s) else .ok s

/-- `Encode` (ed25519_encode.go:2308-2326). -/
def encode (g : GCN) : Out Bytes :=
  if g.sys = 1 ∨ g.sys = 2 then g.encodeP
  else do
    let h ← g.toCoordinateSystem 1
    h.encodeP

/-- `SatisfiesCurveEquation`, case P2, P3 (ed25519_encode.go:2887-2895). -/
def satisfiesP (g : GCN) : Out Bool := do
  let Z ← Out.deref g.Z
  let x ← op FE.multiply g.X (some Z.invert)
  let y ← op FE.multiply g.Y (some Z.invert)
  let xSquare := x.square
  let ySquare := y.square
  let dXSquareYSquare := (dFE.multiply xSquare).multiply ySquare
  .ok (((FE.one.add dXSquareYSquare).add xSquare).encode == ySquare.encode)

/-- `SatisfiesCurveEquation` (ed25519_encode.go:2884-2899). -/
def satisfiesCurveEquation (g : GCN) : Out Bool :=
  if g.sys = 1 ∨ g.sys = 2 then g.satisfiesP
  else do
    let h ← g.toCoordinateSystem 1
    h.satisfiesP

/-- `String` (ed25519_encode.go:2900-2908). -/
def string (g : GCN) : Out Bytes := do
  let x ← Out.deref g.X
  let y ← Out.deref g.Y
  let z ← Out.deref g.Z
  let t ← Out.deref g.T
  .ok (str "X=" ++ x.string ++ str "\nY=" ++ y.string ++ str "\nZ=" ++ z.string ++ str "\nT=" ++ t.string ++ str "\n")

/-- The comparison of `Equals` for P2, P3 (ed25519_encode.go:2119-2127). -/
def equalsP (r g : GCN) : Out Bool := do
  let b ← eq r.Z g.Z
  if b then andThen (eq r.X g.X) (eq r.Y g.Y)
  else do
    let x1 ← op FE.multiply r.X g.Z
    let y1 ← op FE.multiply r.Y g.Z
    let x2 ← op FE.multiply g.X r.Z
    let y2 ← op FE.multiply g.Y r.Z
    .ok (x1.equals x2 && y1.equals y2)

/-- A deferred `recover` that sets the result to false (ed25519_encode.go:2108-2114). -/
def recoverFalse : Out Bool → Out Bool
  | .panic => .ok false
  | o => o

/-- `ref.toP2().Equals(ge)` (ed25519_encode.go:2129, 2105-2127): the receiver is in P2. -/
def equalsToP2 (r g : GCN) : Out Bool :=
  if g.sys ≠ 1 then
    recoverFalse (do
      let g' ← g.toCoordinateSystem 1
      equalsP r g')
  else equalsP r g

/-- The `switch` of `Equals` (ed25519_encode.go:2118-2148). -/
def equalsSame (r g : GCN) : Out Bool :=
  if r.sys = 1 ∨ r.sys = 2 then equalsP r g
  else if r.sys = 3 then do
    let r' ← r.toCoordinateSystem 1
    equalsToP2 r' g
  else if r.sys = 4 then andThen (andThen (eq r.X g.X) (eq r.Y g.Y)) (eq r.Z g.Z)
  else if r.sys = 5 then do
    let b ← eq r.Z g.Z
    if b then andThen (andThen (eq r.X g.X) (eq r.Y g.Y)) (eq r.T g.T)
    else do
      let x3 ← op FE.multiply r.X g.Z
      let y3 ← op FE.multiply r.Y g.Z
      let t3 ← op FE.multiply r.T g.Z
      let x4 ← op FE.multiply g.X r.Z
      let y4 ← op FE.multiply g.Y r.Z
      let t4 ← op FE.multiply g.T r.Z
      .ok (x3.equals x4 && y3.equals y4 && t3.equals t4)
  else .panic

/-- `Equals` (ed25519_encode.go:2105-2150) of non-nil elements. -/
def equals (r g : GCN) : Out Bool :=
  if r.sys ≠ g.sys then
    recoverFalse (do
      let g' ← g.toCoordinateSystem r.sys
      equalsSame r g')
  else equalsSame r g

/-- `Equals` (ed25519_encode.go:2105-2150) of pointers: the systems are compared before `recover` is installed. -/
def equalsPtr (r g : Option GCN) : Out Bool := do
  let a ← Out.deref r
  let b ← Out.deref g
  equals a b

/-- `add` (ed25519_encode.go:2704-2732). -/
def add (r g : GCN) : Out GCN :=
  if r.sys ≠ 2 then .panic
  else if g.sys ≠ 5 then .panic
  else do
    let YX ← op FE.add r.Y r.X
    let B ← op FE.multiply (some YX) g.X
    let YmX ← op FE.subtract r.Y r.X
    let A ← op FE.multiply (some YmX) g.Y
    let C ← op FE.multiply g.T r.T
    let ZSquare ← op FE.multiply r.Z g.Z
    let D := ZSquare.add ZSquare
    let x := B.subtract A
    let y := A.add B
    let z := D.add C
    let t := D.subtract C
    .ok (newP1xP1 (some x) (some y) (some z) (some t))

/-- A table entry (ed25519_encode.go:2459-2466, 2489-2496). -/
def precEntry (b : GCN) : Out GC := do
  let Z ← Out.deref b.Z
  let x ← op FE.multiply b.X (some Z.invert)
  let y ← op FE.multiply b.Y (some Z.invert)
  .ok (GC.newPrecomputed (y.add x) (y.subtract x) ((x.multiply y).multiply d2FE))

/-- `Bij.add(Bi.toCached()).toP3()` (ed25519_encode.go:2467). -/
def addP3 (b c : GCN) : Out GCN := do
  let c ← c.toCoordinateSystem 5
  let s ← b.add c
  s.toCoordinateSystem 2

/-- The loop over `k` (ed25519_encode.go:2470-2472); `n` rounds remain. -/
def doubleN : Nat → GCN → Out GCN
  | 0, b => .ok b
  | n + 1, b => do
    let b ← b.addP3 b
    doubleN n b

/-! ## The tables, with the stores that a panic leaves behind -/

/-- One row of `PrecomputeForScalarMultiplication` as it is filled (ed25519_encode.go:2456-2468): the cells written so far, nil after
a panic, and whether the loop ended.  `n` rounds remain. -/
def fillRow (bi : GCN) : Nat → GCN → List (Option GC) × Out Unit
  | 0, _ => ([], .ok ())
  | n + 1, bij =>
    match bij.precEntry with
    | .ok e =>
      match bij.addP3 bi with
      | .ok b => (some e :: (fillRow bi n b).1, (fillRow bi n b).2)
      | _ => (some e :: List.replicate n none, .panic)
    | _ => (List.replicate (n + 1) none, .panic)

/-- The loop over `i` (ed25519_encode.go:2454-2474); a row not reached is nil, written `[]`.  `n` rounds remain. -/
def fillRows : Nat → GCN → List (List (Option GC)) × Out Unit
  | 0, _ => ([], .ok ())
  | n + 1, bi =>
    match (fillRow bi 8 bi).2 with
    | .ok _ =>
      match doubleN 8 bi with
      | .ok b => ((fillRow bi 8 bi).1 :: (fillRows n b).1, (fillRows n b).2)
      | _ => ((fillRow bi 8 bi).1 :: List.replicate n [], .panic)
    | _ => ((fillRow bi 8 bi).1 :: List.replicate n [], .panic)

/-- The loop of `PrecomputeForDoubleScalarMultiplication` as the table is filled (ed25519_encode.go:2486-2499); `n` rounds remain. -/
def fillOdd (r : GCN) : Nat → GCN → List (Option GC) × Out Unit
  | 0, _ => ([], .ok ())
  | n + 1, bi =>
    match bi.precEntry with
    | .ok e =>
      match (do let s ← r.addP3 bi; r.addP3 s) with
      | .ok b => (some e :: (fillOdd r n b).1, (fillOdd r n b).2)
      | _ => (some e :: List.replicate n none, .panic)
    | _ => (List.replicate (n + 1) none, .panic)

end GCN

/-- `Ed25519GroupElement` with tables whose cells may be nil (ed25519_encode.go:2018-2033); `none` is a nil table. -/
structure GEN extends GCN where
  single : Option (List (List (Option GC)))
  double : Option (List (Option GC))

namespace GEN

/-- `NewEd25519GroupElement` (ed25519_encode.go:2036-2048). -/
def new (sys : Int) (x y z t : Option FE) : GEN := ⟨⟨sys, x, y, z, t⟩, none, none⟩

/-- `PrecomputeForScalarMultiplication` (ed25519_encode.go:2447-2476): the receiver afterwards, also after a panic that a caller
recovers, and how the call ended. -/
def precomputeForScalarMultiplication (g : GEN) : GEN × Out Unit :=
  match g.single with
  | some _ => (g, .ok ())
  | none => ({ g with single := some (GCN.fillRows 32 g.toGCN).1 }, (GCN.fillRows 32 g.toGCN).2)

/-- `PrecomputeForDoubleScalarMultiplication` (ed25519_encode.go:2479-2500), as above. -/
def precomputeForDoubleScalarMultiplication (g : GEN) : GEN × Out Unit :=
  if (g.double.getD []).length > 0 then (g, .ok ())
  else ({ g with double := some (GCN.fillOdd g.toGCN 8 g.toGCN).1 }, (GCN.fillOdd g.toGCN 8 g.toGCN).2)

/-- `IsPrecomputedForDoubleScalarMultiplication` (ed25519_encode.go:2301-2304). -/
def isPrecomputedForDouble (g : GEN) : Bool := g.double.isSome

/-- `t.cmov(el, b)` and the check of its result (ed25519_encode.go:2519-2525, 2783-2791). -/
def cmovN (t : GC) (el : Option GC) (b : Int64) : Out GC :=
  if b = 1 then
    match el with
    | some u => .ok u
    | none => .err "get nil object - don't work "
  else if b = 0 then .ok t
  else .err "parameter 'b' must by in range {0,1}"

/-- The loop of `Select` (ed25519_encode.go:2518-2527) over a row with nil cells. -/
def selectLoop (bAbs : Int64) : List (Option GC) → Nat → GC → Out GC
  | [], _, t => .ok t
  | el :: row, i, t => do
    let t ← cmovN t el (isConstantTimeByteEq bAbs (Int64.ofInt (i + 1)))
    selectLoop bAbs row (i + 1) t

/-- `Select` (ed25519_encode.go:2510-2534). -/
def select (g : GEN) (pos : Nat) (b : Int64) : Out GC := do
  let bNegative := isNegativeConstantTime b
  let bAbs := b - shl ((-bNegative) &&& b) 1
  let row ← Out.index (g.single.getD []) pos
  let t ← selectLoop bAbs row 0 .zeroPrecomputed
  let z := t.Z.negate
  let tMinus := GC.newPrecomputed t.Y t.X z
  t.cmov tMinus bNegative

end GEN
end Ed

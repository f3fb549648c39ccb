import Verif.Go.Outcome
import Verif.Model.CT
import Verif.Model.Recode

/-!
# Model of group elements (ed25519_encode.go lines 1804-2908)

Coordinates X, Y, Z are never nil here (all calls of constructors in the repository pass non-nil
pointers; for nil see Model/NilGroup); T is nil for the coordinate systems without T, so it is optional and every access
to a nil T panics.
-/

set_option autoImplicit false

namespace Ed

/-- `CoordinateSystem` (ed25519_encode.go:1911-1927).  Integers other than 0..5 are treated by every
`switch` of the code like `AFFINE`. -/
inductive Sys | affine | p2 | p3 | p1xp1 | precomputed | cached
deriving DecidableEq, Repr

/-- The coordinates of an `Ed25519GroupElement` (ed25519_encode.go:2018-2028), without the tables. -/
structure GC where
  sys : Sys
  X : FE
  Y : FE
  Z : FE
  T : Option FE
deriving DecidableEq

/-- `Ed25519GroupElement` (ed25519_encode.go:2018-2033).  `none` is a nil slice, `some []` an empty
non-nil one.  Entries of tables never carry tables of their own. -/
structure GE extends GC where
  single : Option (List (List GC))
  double : Option (List GC)

/-- `d` (ed25519_const.go:9-11), `Ed25519FieldD()` (ed25519_encode.go:59-62). -/
def dFE : FE := FE.ofInts (-10913610) 13857413 (-15372611) 6949391 114729 (-8787816) (-6275908) (-3247719) (-18696448) (-12055116)

/-- `d2` (ed25519_const.go:12-14), `Ed25519FieldDTimesTwo()` (ed25519_encode.go:65-68), `Ed25519Field.DTimesTWO`. -/
def d2FE : FE := FE.ofInts (-21827239) (-5839606) (-30745221) 13898782 229458 15978800 (-12551817) (-6495438) 29715968 9444199

/-- The constant of ed25519_encode.go:55 (`ed25519FieldI`, hex) as bytes. -/
def iBytes : Bytes :=
  [0xb0, 0xa0, 0x0e, 0x4a, 0x27, 0x1b, 0xee, 0xc4, 0x78, 0xe4, 0x2f, 0xad, 0x06, 0x18, 0x43, 0x2f,
   0xa7, 0xd7, 0xfb, 0x3d, 0x99, 0x00, 0x4d, 0x2b, 0x0b, 0xdf, 0xc1, 0x4f, 0x80, 0x24, 0x83, 0x2b]

/-- `Ed25519Field.I` (ed25519_encode.go:111). -/
def iFE : FE := FE.decode iBytes

/-- `NewEd25519EncodedFieldElement` (ed25519_encode.go:931-944) followed by the use of `Raw` only:
32 or 64 bytes are accepted. -/
def newEncodedFieldElement (raw : Bytes) : Out Bytes :=
  if raw.length = 32 ∨ raw.length = 64 then .ok raw else .err "Invalid 2^8 bit representation."

/-- Bit `i` of a little-endian byte string: `utils.GetBitToBool` (go-xpx-utils, contract). -/
def getBitToBool (raw : Bytes) (i : Nat) : Bool := (raw.getD (i / 8) 0).toNat.testBit (i % 8)

namespace GC

/-- `NewEd25519GroupElementAffine` (ed25519_encode.go:2051-2056). -/
def newAffine (x y z : FE) : GC := ⟨.affine, x, y, z, none⟩
/-- `NewEd25519GroupElementP2` (ed25519_encode.go:2059-2064). -/
def newP2 (x y z : FE) : GC := ⟨.p2, x, y, z, none⟩
/-- `NewEd25519GroupElementP3` (ed25519_encode.go:2067-2073); `t` may be nil. -/
def newP3 (x y z : FE) (t : Option FE) : GC := ⟨.p3, x, y, z, t⟩
/-- `NewEd25519GroupElementP1XP1` (ed25519_encode.go:2076-2082). -/
def newP1xP1 (x y z : FE) (t : Option FE) : GC := ⟨.p1xp1, x, y, z, t⟩
/-- `NewEd25519GroupElementPrecomputed` (ed25519_encode.go:2086-2091). -/
def newPrecomputed (x y z : FE) : GC := ⟨.precomputed, x, y, z, none⟩
/-- `NewEd25519GroupElementCached` (ed25519_encode.go:2095-2101). -/
def newCached (x y z : FE) (t : Option FE) : GC := ⟨.cached, x, y, z, t⟩

/-- `ZERO_P2` (ed25519_encode.go:1939-1941). -/
def zeroP2 : GC := newP2 .zero .one .one
/-- `ZERO_P3` (ed25519_encode.go:1943-1945). -/
def zeroP3 : GC := newP3 .zero .one .one (some .zero)
/-- `ZERO_PRECOMPUTED` (ed25519_encode.go:1947-1949). -/
def zeroPrecomputed : GC := newPrecomputed .one .one .zero

/-- `toCoordinateSystem` (ed25519_encode.go:2354-2419). -/
def toCoordinateSystem (g : GC) (n : Sys) : Out GC :=
  match g.sys with
  | .p2 =>
    match n with
    | .p2 => .ok (newP2 g.X g.Y g.Z)
    | _ => .panic
  | .p3 =>
    match n with
    | .p2 => .ok (newP2 g.X g.Y g.Z)
    | .p3 => .ok (newP3 g.X g.Y g.Z g.T)
    | .cached => do
      let X := g.Y.add g.X
      let Y := g.Y.subtract g.X
      let T ← Out.deref g.T
      let t := T.multiply d2FE
      .ok (newCached X Y g.Z (some t))
    | _ => .panic
  | .p1xp1 =>
    match n with
    | .p2 => do
      let T ← Out.deref g.T
      .ok (newP2 (g.X.multiply T) (g.Y.multiply g.Z) (g.Z.multiply T))
    | .p3 => do
      let T ← Out.deref g.T
      .ok (newP3 (g.X.multiply T) (g.Y.multiply g.Z) (g.Z.multiply T) (some (g.X.multiply g.Y)))
    | .p1xp1 => .ok (newP1xP1 g.X g.Y g.Z g.T)
    | _ => .panic
  | .precomputed =>
    match n with
    | .precomputed => .ok (newPrecomputed g.X g.Y g.Z)
    | _ => .panic
  | .cached =>
    match n with
    | .cached => .ok (newCached g.X g.Y g.Z g.T)
    | _ => .panic
  | .affine => .panic

/-- `toP2` (ed25519_encode.go:2329-2332). -/
def toP2 (g : GC) : Out GC := g.toCoordinateSystem .p2
/-- `toP3` (ed25519_encode.go:2335-2338). -/
def toP3 (g : GC) : Out GC := g.toCoordinateSystem .p3
/-- `toCached` (ed25519_encode.go:2341-2344). -/
def toCached (g : GC) : Out GC := g.toCoordinateSystem .cached

/-- Setting the top bit of the last byte: `s[len(s)-1] |= 0x80`. -/
def setTopBit (s : Bytes) : Bytes := s.set (s.length - 1) (s.getD (s.length - 1) 0 ||| 0x80)

/-- `Encode`, case P2, P3 (ed25519_encode.go:2311-2322).  The result always has 32 bytes, so
`NewEd25519EncodedGroupElement` cannot fail. -/
def encodeP (g : GC) : Bytes :=
  let inverse := g.Z.invert
  let x := g.X.multiply inverse
  let y := g.Y.multiply inverse
  let s := y.encode
  if x.isNegative then setTopBit s else s

/-- `Encode` (ed25519_encode.go:2308-2326). -/
def encode (g : GC) : Out Bytes :=
  match g.sys with
  | .p2 | .p3 => .ok g.encodeP
  | _ => do
    let h ← g.toP2
    .ok h.encodeP

/-- `GetAffineY` (ed25519_encode.go:1877-1887). -/
def getAffineY (raw : Bytes) : Out FE := do
  let encoded ← newEncodedFieldElement raw
  .ok (FE.decode encoded)

/-- `GetAffineX` (ed25519_encode.go:1842-1871). -/
def getAffineX (raw : Bytes) : Out FE := do
  let y ← getAffineY raw
  let ySquare := y.square
  let u := ySquare.subtract .one
  let v := (ySquare.multiply dFE).add .one
  let x := FE.sqrt u v
  let vxSquare := x.square.multiply v
  let checkForZero := vxSquare.subtract u
  let x ←
    if checkForZero.isNonZero then
      let checkForZero := vxSquare.add u
      if checkForZero.isNonZero then .err "not a valid Ed25519EncodedGroupElement."
      else .ok (x.multiply iFE)
    else .ok x
  if x.isNegative != getBitToBool raw 255 then .ok x.negate else .ok x

/-- `Ed25519EncodedGroupElement.Decode` (ed25519_encode.go:1818-1831). -/
def decode (raw : Bytes) : Out GC := do
  let x ← getAffineX raw
  let y ← getAffineY raw
  let t := x.multiply y
  .ok (newP3 x y .one (some t))

/-- `dbl` (ed25519_encode.go:2563-2583). -/
def dbl (g : GC) : Out GC :=
  match g.sys with
  | .p2 | .p3 =>
    let XSquare := g.X.square
    let YSquare := g.Y.square
    let B := g.Z.squareAndDouble
    let A := g.X.add g.Y
    let ASquare := A.square
    let YSquarePlusXSquare := YSquare.add XSquare
    let YSquareMinusXSquare := YSquare.subtract XSquare
    let X := ASquare.subtract YSquarePlusXSquare
    let T := B.subtract YSquareMinusXSquare
    .ok (newP1xP1 X YSquarePlusXSquare YSquareMinusXSquare (some T))
  | _ => .panic

/-- `precomputedAdd` (ed25519_encode.go:2617-2650). -/
def precomputedAdd (r g : GC) : Out GC :=
  if r.sys ≠ .p3 then .err "NewUnsupportedOperationException("
  else if g.sys ≠ .precomputed then .err "NewIllegalArgumentException("
  else do
    let YPlusX := r.Y.add r.X
    let YMinusX := r.Y.subtract r.X
    let A := YMinusX.multiply g.Y
    let B := YPlusX.multiply g.X
    let T ← Out.deref r.T
    let C := T.multiply g.Z
    let D := r.Z.add r.Z
    let x := B.subtract A
    let y := A.add B
    let z := D.add C
    let t := D.subtract C
    .ok (newP1xP1 x y z (some t))

/-- `precomputedSubtract` (ed25519_encode.go:2661-2683). -/
def precomputedSubtract (r g : GC) : Out GC :=
  if r.sys ≠ .p3 then .panic
  else if g.sys ≠ .precomputed then .panic
  else do
    let YPlusX := r.Y.add r.X
    let YMinusX := r.Y.subtract r.X
    let A := YPlusX.multiply g.Y
    let B := YMinusX.multiply g.X
    let T ← Out.deref r.T
    let C := g.Z.multiply T
    let D := r.Z.add r.Z
    let x := A.subtract B
    let y := A.add B
    let z := D.subtract C
    let t := D.add C
    .ok (newP1xP1 x y z (some t))

/-- `add` (ed25519_encode.go:2704-2732). -/
def add (r g : GC) : Out GC :=
  if r.sys ≠ .p3 then .panic
  else if g.sys ≠ .cached then .panic
  else do
    let B := (r.Y.add r.X).multiply g.X
    let A := (r.Y.subtract r.X).multiply g.Y
    let gT ← Out.deref g.T
    let rT ← Out.deref r.T
    let C := gT.multiply rT
    let ZSquare := r.Z.multiply g.Z
    let D := ZSquare.add ZSquare
    let x := B.subtract A
    let y := A.add B
    let z := D.add C
    let t := D.subtract C
    .ok (newP1xP1 x y z (some t))

/-- `subtract` (ed25519_encode.go:2743-2766). -/
def subtract (r g : GC) : Out GC :=
  if r.sys ≠ .p3 then .panic
  else if g.sys ≠ .cached then .panic
  else do
    let YPlusX := r.Y.add r.X
    let YMinusX := r.Y.subtract r.X
    let A := YPlusX.multiply g.Y
    let B := YMinusX.multiply g.X
    let gT ← Out.deref g.T
    let rT ← Out.deref r.T
    let C := gT.multiply rT
    let ZSquare := r.Z.multiply g.Z
    let D := ZSquare.add ZSquare
    let x := A.subtract B
    let y := A.add B
    let z := D.subtract C
    let t := D.add C
    .ok (newP1xP1 x y z (some t))

/-- `negate` (ed25519_encode.go:2770-2777). -/
def negate (r : GC) : Out GC :=
  if r.sys ≠ .p3 then .err "NewUnsupportedOperationException"
  else do
    let c ← r.toCached
    let s ← zeroP3.subtract c
    s.toP3

/-- `cmov` (ed25519_encode.go:2783-2791). -/
def cmov (r u : GC) (b : Int64) : Out GC :=
  if b = 1 then .ok u
  else if b = 0 then .ok r
  else .err "parameter 'b' must by in range {0,1}"

/-- The comparison of `Equals` for P2/P3 (ed25519_encode.go:2119-2127). -/
def equalsP (r g : GC) : Bool :=
  if r.Z.equals g.Z then r.X.equals g.X && r.Y.equals g.Y
  else
    let x1 := r.X.multiply g.Z
    let y1 := r.Y.multiply g.Z
    let x2 := g.X.multiply r.Z
    let y2 := g.Y.multiply r.Z
    x1.equals x2 && y1.equals y2

/-- The call `ref.toP2().Equals(ge)` of ed25519_encode.go:2129 where the receiver is in P2: a receiver
in P2 converts the argument (panics become `false`, lines 2107-2116) and compares. -/
def equalsToP2 (r g : GC) : Out Bool :=
  if g.sys = .p2 then .ok (equalsP r g)
  else
    match g.toP2 with
    | .ok g' => .ok (equalsP r g')
    | _ => .ok false

/-- The `switch` of `Equals` (ed25519_encode.go:2118-2148), both elements in the same system. -/
def equalsSame (r g : GC) : Out Bool :=
  match r.sys with
  | .p2 | .p3 => .ok (equalsP r g)
  | .p1xp1 => do
    let r' ← r.toP2
    equalsToP2 r' g
  | .precomputed => .ok (r.X.equals g.X && r.Y.equals g.Y && r.Z.equals g.Z)
  | .cached => do
    if r.Z.equals g.Z then
      if r.X.equals g.X && r.Y.equals g.Y then
        let rT ← Out.deref r.T
        let gT ← Out.deref g.T
        .ok (rT.equals gT)
      else .ok false
    else
      let x3 := r.X.multiply g.Z
      let y3 := r.Y.multiply g.Z
      let rT ← Out.deref r.T
      let t3 := rT.multiply g.Z
      let x4 := g.X.multiply r.Z
      let y4 := g.Y.multiply r.Z
      let gT ← Out.deref g.T
      let t4 := gT.multiply r.Z
      .ok (x3.equals x4 && y3.equals y4 && t3.equals t4)
  | .affine => .panic

/-- `Ed25519GroupElement.Equals` (ed25519_encode.go:2105-2150).  The deferred `recover` is only
installed when the coordinate systems differ; a recovered panic yields `false`. -/
def equals (r g : GC) : Out Bool :=
  if r.sys ≠ g.sys then
    match g.toCoordinateSystem r.sys with
    | .ok g' =>
      match equalsSame r g' with
      | .panic => .ok false
      | o => o
    | _ => .ok false
  else equalsSame r g

/-- `SatisfiesCurveEquation`, case P2, P3 (ed25519_encode.go:2887-2895). -/
def satisfiesP (g : GC) : Bool :=
  let inverse := g.Z.invert
  let x := g.X.multiply inverse
  let y := g.Y.multiply inverse
  let xSquare := x.square
  let ySquare := y.square
  let dXSquareYSquare := (dFE.multiply xSquare).multiply ySquare
  ((FE.one.add dXSquareYSquare).add xSquare).encode == ySquare.encode

/-- `SatisfiesCurveEquation` (ed25519_encode.go:2884-2899). -/
def satisfiesCurveEquation (g : GC) : Out Bool :=
  match g.sys with
  | .p2 | .p3 => .ok g.satisfiesP
  | _ => do
    let h ← g.toP2
    .ok h.satisfiesP

/-- A table entry (ed25519_encode.go:2459-2466 and 2489-2496). -/
def precEntry (b : GC) : GC :=
  let inverse := b.Z.invert
  let x := b.X.multiply inverse
  let y := b.Y.multiply inverse
  newPrecomputed (y.add x) (y.subtract x) ((x.multiply y).multiply d2FE)

/-- `Bij = Bij.add(Bi.toCached()).toP3()` (ed25519_encode.go:2467). -/
def addP3 (b c : GC) : Out GC := do
  let c ← c.toCached
  let s ← b.add c
  s.toP3

/-- The loop over `j` (ed25519_encode.go:2458-2468); `n` rounds remain. -/
def precRow (bi : GC) : Nat → GC → Out (List GC)
  | 0, _ => .ok []
  | n + 1, bij => do
    let e := bij.precEntry
    let bij ← bij.addP3 bi
    let r ← precRow bi n bij
    .ok (e :: r)

/-- The loop over `k` (ed25519_encode.go:2470-2472); `n` rounds remain. -/
def doubleN : Nat → GC → Out GC
  | 0, b => .ok b
  | n + 1, b => do
    let b ← b.addP3 b
    doubleN n b

/-- The loop over `i` (ed25519_encode.go:2455-2474); `n` rounds remain. -/
def precRows : Nat → GC → Out (List (List GC))
  | 0, _ => .ok []
  | n + 1, bi => do
    let row ← precRow bi 8 bi
    let bi ← doubleN 8 bi
    let rest ← precRows n bi
    .ok (row :: rest)

/-- The loop of `PrecomputeForDoubleScalarMultiplication` (ed25519_encode.go:2488-2499);
`n` rounds remain: `Bi = ref.add(ref.add(Bi.toCached()).toP3().toCached()).toP3()`. -/
def precOdd (r : GC) : Nat → GC → Out (List GC)
  | 0, _ => .ok []
  | n + 1, bi => do
    let e := bi.precEntry
    let s ← r.addP3 bi
    let bi ← r.addP3 s
    let rest ← precOdd r n bi
    .ok (e :: rest)

end GC

namespace GE

/-- A group element without tables. -/
def ofGC (g : GC) : GE := { g with single := none, double := none }

/-- `copy` (ed25519_encode.go:2422-2444): the tables of the copy are fresh non-nil slices.
Rows have 8 entries in all tables of the repository.  (Pointer identity: see Model/Pointers.) -/
def copy (g : GE) : GE := { g with single := some (g.single.getD []), double := some (g.double.getD []) }

/-- `IsPrecomputedForDoubleScalarMultiplication` (ed25519_encode.go:2301-2304). -/
def isPrecomputedForDouble (g : GE) : Bool := g.double.isSome

/-- `PrecomputeForScalarMultiplication` (ed25519_encode.go:2447-2476): the receiver afterwards. -/
def precomputeForScalarMultiplication (g : GE) : Out GE :=
  if g.single.isSome then .ok g
  else do
    let t ← GC.precRows 32 g.toGC
    .ok { g with single := some t }

/-- `PrecomputeForDoubleScalarMultiplication` (ed25519_encode.go:2479-2500): the receiver afterwards. -/
def precomputeForDoubleScalarMultiplication (g : GE) : Out GE :=
  if (g.double.getD []).length > 0 then .ok g
  else do
    let t ← GC.precOdd g.toGC 8 g.toGC
    .ok { g with double := some t }

/-- The loop of `Select` (ed25519_encode.go:2519-2527). -/
def selectLoop (bAbs : Int64) : List GC → Nat → GC → Out GC
  | [], _, t => .ok t
  | el :: row, i, t => do
    let t ← t.cmov el (isConstantTimeByteEq bAbs (Int64.ofInt (i + 1)))
    selectLoop bAbs row (i + 1) t

/-- `Select` (ed25519_encode.go:2510-2534). -/
def select (g : GE) (pos : Nat) (b : Int64) : Out GC := do
  let bNegative := isNegativeConstantTime b
  let bAbs := b - shl ((-bNegative) &&& b) 1
  let row ← Out.index (g.single.getD []) pos
  let t ← selectLoop bAbs row 0 .zeroPrecomputed
  let z := t.Z.negate
  let tMinus := GC.newPrecomputed t.Y t.X z
  t.cmov tMinus bNegative

/-- `int(e)` for an `int8`. -/
def int8ToInt (x : Int8) : Int64 := Int64.ofInt x.toInt

/-- Body of the two addition loops of `scalarMultiply` (ed25519_encode.go:2806-2815, 2819-2828). -/
def scalarStep (g : GE) (e : Digits) (h : GC) (i : Nat) : Out GC := do
  let s ← g.select (i / 2) (int8ToInt (e i))
  let h ← h.precomputedAdd s
  h.toP3

/-- `h.dbl().toP2().dbl().toP2().dbl().toP2().dbl().toP3()` (ed25519_encode.go:2817). -/
def times16 (h : GC) : Out GC := do
  let h ← h.dbl
  let h ← h.toP2
  let h ← h.dbl
  let h ← h.toP2
  let h ← h.dbl
  let h ← h.toP2
  let h ← h.dbl
  h.toP3

/-- `scalarMultiply` (ed25519_encode.go:2801-2831).  The tables are not built on demand, contrary to
the comment in the code. -/
def scalarMultiply (g : GE) (a : Bytes) : Out GC := do
  let e := toRadix16 a
  let h ← ((List.range 32).map fun k => 2 * k + 1).foldlM (scalarStep g e) GC.zeroP3
  let h ← times16 h
  ((List.range 32).map fun k => 2 * k).foldlM (scalarStep g e) h

/-- The step for a digit of `a` in `doubleScalarMultiplyVariableTime` (ed25519_encode.go:2857-2864):
positive digits subtract a multiple of `A`, negative ones add it.  Go's `/` truncates; the operands are
non-negative here.  A nil table has no entry, so indexing it panics. -/
def subDigit (A : GE) (a : Int8) (t : GC) : Out GC :=
  if a > 0 then do
    let t ← t.toP3
    let q ← Out.index (A.double.getD []) (a / 2).toInt.toNat
    t.precomputedSubtract q
  else if a < 0 then do
    let t ← t.toP3
    let q ← Out.index (A.double.getD []) ((-a) / 2).toInt.toNat
    t.precomputedAdd q
  else .ok t

/-- The step for a digit of `b` in `doubleScalarMultiplyVariableTime` (ed25519_encode.go:2866-2873). -/
def addDigit (g : GE) (b : Int8) (t : GC) : Out GC :=
  if b > 0 then do
    let t ← t.toP3
    let q ← Out.index (g.double.getD []) (b / 2).toInt.toNat
    t.precomputedAdd q
  else if b < 0 then do
    let t ← t.toP3
    let q ← Out.index (g.double.getD []) ((-b) / 2).toInt.toNat
    t.precomputedSubtract q
  else .ok t

/-- Body of the loop of `doubleScalarMultiplyVariableTime` once `flag` is set
(ed25519_encode.go:2856-2875). -/
def doubleStep (g A : GE) (a b : Int8) (r : GC) : Out GC := do
  let t ← r.dbl
  let t ← subDigit A a t
  let t ← addDigit g b t
  t.toP2

/-- The loop of `doubleScalarMultiplyVariableTime` (ed25519_encode.go:2852-2879), `i` from `n-1` to 0. -/
def doubleLoop (g A : GE) (aS bS : Digits) : Nat → Bool → GC → Out GC
  | 0, _, r => .ok r
  | i + 1, flag, r =>
    let flag := flag || aS i != 0 || bS i != 0
    if flag then do
      let r ← doubleStep g A (aS i) (bS i) r
      doubleLoop g A aS bS i flag r
    else doubleLoop g A aS bS i flag r

/-- `doubleScalarMultiplyVariableTime` (ed25519_encode.go:2842-2882). -/
def doubleScalarMultiplyVariableTime (g A : GE) (a b : Bytes) : Out GC :=
  doubleLoop g A (slide a) (slide b) 256 false .zeroP2

end GE
end Ed

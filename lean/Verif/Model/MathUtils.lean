import Verif.Model.Group
import Verif.Model.Hex
import Verif.Model.Reader

/-!
# The big-integer helpers (math.go)

A `*big.Int` is the integer it holds; the chained in-place operations of the code are written out as expressions.  The
one place where two big integers share memory (a `big.Int` passed by value, math.go:531-532, 543) is made explicit by
`Big.xAfter` and `Big.resAfter`.
-/

set_option autoImplicit false

namespace Ed

/-- `Ed25519FieldP()` (ed25519_encode.go:95-100). -/
def fieldP : Int := 2 ^ 255 - 19
/-- The affine coordinates for which the by-value argument of `XMulY_Plus_ZMulT_DelD` is harmless: math/big multiplies
in place only by numbers of one word. -/
def SafeArgs (g1x g2y : Int) : Prop := g1x = 0 ∨ (2 ^ 64 ≤ g1x ∧ 2 ^ 64 ≤ g2y)

/-- math/big (contract): `ModInverse` with a modulus greater than 1 returns the inverse in [0, n) or nil; and the effect
of passing a `big.Int` by value: the copy shares the memory of the original, so that an operation on the copy that works
in place changes the original.  In `AddGroupElements`, `xAfter g1x g1y g2x g2y` is what `*g1x` holds after the first
call of `XMulY_Plus_ZMulT_DelD`, and `resAfter g1x g1y g2x g2y x3` what `*x3` holds after the second one.  `words`: the
sign and the number of words of `x3` are in the struct and not in the shared memory; only the words can change. -/
structure Big where
  modInverse : Int → Int → Option Int
  inv_some : ∀ a n x, 1 < n → modInverse a n = some x → 0 ≤ x ∧ x < n ∧ a * x % n = 1
  inv_none : ∀ a n, 1 < n → modInverse a n = none → ∀ x, a * x % n ≠ 1
  xAfter : Int → Int → Int → Int → Int
  resAfter : Int → Int → Int → Int → Int → Int
  keeps : ∀ g1x g1y g2x g2y, SafeArgs g1x g2y → xAfter g1x g1y g2x g2y = g1x
  keeps' : ∀ g1x g1y g2x g2y x3, SafeArgs g1x g2y → resAfter g1x g1y g2x g2y x3 = x3
  words : ∀ g1x g1y g2x g2y x3, 0 ≤ g1x → g1x < 2 ^ 256 → 0 ≤ g1y → g1y < 2 ^ 256 → 0 ≤ g2x → g2x < 2 ^ 256 → 0 ≤ g2y →
    g2y < 2 ^ 256 → 0 ≤ x3 → x3 < 2 ^ 256 → 0 ≤ resAfter g1x g1y g2x g2y x3 ∧ resAfter g1x g1y g2x g2y x3 < 2 ^ 256

/-- The loop of `BytesToBigInteger` (math.go:46-58). -/
def bytesToBigLoop : Bytes → Nat → Int → Int
  | [], _, b => b
  | v :: bs, i, b => bytesToBigLoop bs (i + 1) (b + (v.toNat : Int) * 2 ^ (i * 8))

/-- `BytesToBigInteger` (math.go:46-58), `EncodedFieldToBigInteger` (math.go:66-69), from
`bigIntegerZERO()` (math.go:17-19); `bigIntegerONE` (math.go:21-23) is the integer 1. -/
def bytesToBigInteger (bytes : Bytes) : Int := bytesToBigLoop bytes 0 0

/-- `FieldToBigInteger` (math.go:77-80). -/
def fieldToBigInteger (f : FE) : Int := bytesToBigInteger f.encode

/-- `MathUtils.EXPONENTS` (math.go:611-622). -/
def exponents : List Nat :=
  [0, 26, 26 + 25, 2 * 26 + 25, 2 * 26 + 2 * 25, 3 * 26 + 2 * 25, 3 * 26 + 3 * 25, 4 * 26 + 3 * 25, 4 * 26 + 4 * 25,
    5 * 26 + 4 * 25]

/-- `IntsToBigInteger` (math.go:87-97). -/
def intsToBigInteger (t : FE) : Int :=
  (List.range 10).foldl (fun b i => b + (t.limbs i).toInt * 2 ^ exponents.getD i 0) 0

variable (U : Utils) (G : Big)

/-- `ToByteArray` (math.go:476-485). -/
def toByteArray (b : Int) : Out Bytes :=
  if 2 ^ 256 ≤ b then .panic else U.bigIntToByteArray b 32

/-- `ToFieldElement` (math.go:160-163). -/
def toFieldElement (b : Int) : Out FE := do
  let raw ← toByteArray U b
  .ok (FE.decode raw)

/-- `ToEncodedFieldElement` (math.go:458-468): the raw bytes. -/
def toEncodedFieldElement (b : Int) : Out Bytes := do
  let bytes ← toByteArray U b
  if bytes.length = 64 ∨ bytes.length = 32 then .ok bytes else .panic

/-- `toEncodedFieldElement` (math.go:603-606): the raw bytes. -/
def toEncodedFieldElement' (b : Int) : Out Bytes := do
  let bytes ← toByteArray U b
  newEncodedFieldElement bytes

/-- `ReduceModGroupOrder` (math.go:445-450). -/
def reduceModGroupOrder (encoded : Bytes) : Out Bytes :=
  toEncodedFieldElement U (bytesToBigInteger encoded % (groupOrder : Int))

/-- `multiplyAndAddModGroupOrder` (math.go:587-595). -/
def multiplyAndAddModGroupOrder (a b c : Bytes) : Out Bytes :=
  toEncodedFieldElement U
    ((bytesToBigInteger a * bytesToBigInteger b + bytesToBigInteger c) % (groupOrder : Int))

/-- `ModInverse(a, Ed25519Field.P)`: a nil result is dereferenced by the next operation. -/
def invP (a : Int) : Out Int := Out.deref (G.modInverse a fieldP)

/-- `MathUtils.D` (math.go:623-624): the product is not reduced. -/
def mathD : Out Int := do
  let i ← invP G 121666
  .ok (-121665 * i)

/-- `coorModify` (math.go:486-489) and `xMulYModInverseAndModP` (math.go:301-304). -/
def coorModify (g b : Int) : Out Int := do
  let i ← invP G b
  .ok (g * i % fieldP)

/-- `XMulY_Plus_ZMulT_DelD` (math.go:543-546), the result. -/
def xMulYPlusZMulTDelD (x y z t d : Int) : Out Int := do
  let i ← invP G d
  .ok ((x * y + z * t) * i % fieldP)

/-- `AddGroupElements` (math.go:500-541). -/
def addGroupElements (g1 g2 : GC) : Out GC :=
  if (g1.sys ≠ .p2 ∧ g1.sys ≠ .p3) ∨ (g2.sys ≠ .p2 ∧ g2.sys ≠ .p3) then .panic
  else do
    let g1x ← coorModify G (fieldToBigInteger g1.X) (fieldToBigInteger g1.Z)
    let g1y ← coorModify G (fieldToBigInteger g1.Y) (fieldToBigInteger g1.Z)
    let g2x ← coorModify G (fieldToBigInteger g2.X) (fieldToBigInteger g2.Z)
    let g2y ← coorModify G (fieldToBigInteger g2.Y) (fieldToBigInteger g2.Z)
    let d ← mathD G
    let dx1x2y1y2 := d * g1x * g2x * g1y * g2y % fieldP
    let x3 ← xMulYPlusZMulTDelD G g1x g2y g2x g1y (1 + dx1x2y1y2)
    let g1x' := G.xAfter g1x g1y g2x g2y
    let y3 ← xMulYPlusZMulTDelD G g1x' g2x g1y g2y (1 - dx1x2y1y2)
    let x3' := G.resAfter g1x g1y g2x g2y x3
    let t3 := x3' * y3 % fieldP
    let x ← toFieldElement U x3'
    let y ← toFieldElement U y3
    let t ← toFieldElement U t3
    .ok (.newP3 x y .one (some t))

/-- `DoubleGroupElement` (math.go:556-559). -/
def doubleGroupElement (g : GC) : Out GC := addGroupElements U G g g

/-- `NegateGroupElement` (math.go:567-576). -/
def negateGroupElement (g : GC) : Out GC :=
  if g.sys ≠ .p3 then .panic
  else do
    let t ← Out.deref g.T
    .ok (.newP3 g.X.negate g.Y g.Z (some t.negate))

/-- The loop of `ScalarMultiplyGroupElement` (math.go:121-133); `n` bits remain. -/
def scalarLoop (g : GC) (bytes : Bytes) : Nat → GC → Out GC
  | 0, h => .ok h
  | n + 1, h => do
    let h ← doubleGroupElement U G h
    if getBitToBool bytes n then do
      let h ← addGroupElements U G h g
      scalarLoop g bytes n h
    else scalarLoop g bytes n h

/-- `ScalarMultiplyGroupElement` (math.go:121-133). -/
def scalarMultiplyGroupElement (g : GC) (f : FE) : Out GC := scalarLoop U G g f.encode 255 .zeroP3

/-- `doubleScalarMultiplyGroupElements` (math.go:144-157); an error of `negate` panics. -/
def doubleScalarMultiplyGroupElements (g1 : GC) (f1 : FE) (g2 : GC) (f2 : FE) : Out GC := do
  let h1 ← scalarMultiplyGroupElement U G g1 f1
  let h2 ← scalarMultiplyGroupElement U G g2 f2
  let h2Neg ← Out.orPanic h2.negate
  addGroupElements U G h1 h2Neg

/-- `getNeeCoor` (math.go:306-348). -/
def getNeeCoor (x y : Int) (newCoorSys : Sys) : Out GC := do
  let x1 ← toFieldElement U x
  let y1 ← toFieldElement U y
  match newCoorSys with
  | .affine => .ok (.newAffine x1 y1 .one)
  | .p2 => .ok (.newP2 x1 y1 .one)
  | .p3 => do
    let z ← toFieldElement U (x * y % fieldP)
    .ok (.newP3 x1 y1 .one (some z))
  | .p1xp1 => .ok (.newP1xP1 x1 y1 .one (some .one))
  | .cached => do
    let x1 ← toFieldElement U ((y + x) % fieldP)
    let y1 ← toFieldElement U ((y - x) % fieldP)
    let d ← mathD G
    let t ← toFieldElement U (d * 2 * x * y % fieldP)
    .ok (.newCached x1 y1 .one (some t))
  | .precomputed => do
    let x1 ← toFieldElement U ((y + x) % fieldP)
    let y1 ← toFieldElement U ((y - x) % fieldP)
    let d ← mathD G
    let z ← toFieldElement U (d * 2 * x * y % fieldP)
    .ok (.newPrecomputed x1 y1 z)

/-- `ToRepresentation` (math.go:256-299).  Coordinate systems outside the list of `Sys` give an error; they are not
modelled. -/
def toRepresentation (g : GC) (newCoorSys : Sys) : Out GC :=
  let gX := fieldToBigInteger g.X
  let gY := fieldToBigInteger g.Y
  let gZ := fieldToBigInteger g.Z
  let gT := g.T.map fieldToBigInteger
  match g.sys with
  | .affine => getNeeCoor U G gX gY newCoorSys
  | .p2 | .p3 => do
    let x ← coorModify G gX gZ
    let y ← coorModify G gY gZ
    getNeeCoor U G x y newCoorSys
  | .p1xp1 =>
    match gT with
    | none => .err "coordinate T must not nil for P!XP1 "
    | some gT => do
      let x ← coorModify G gX gZ
      let y ← coorModify G gY gT
      getNeeCoor U G x y newCoorSys
  | .cached => do
    let z := gZ * 2
    let x ← coorModify G (gX - gY) z
    let y ← coorModify G (gX + gY) z
    getNeeCoor U G x y newCoorSys
  | .precomputed => do
    let x ← invP G ((gX - gY) * (gZ * 2))
    let y ← invP G ((gX + gY) * 2)
    getNeeCoor U G (x % fieldP) (y % fieldP) newCoorSys

/-- `getSqrtOfFraction` (math.go:235-248). -/
def getSqrtOfFraction (u v : Int) : Int :=
  let x := (u * v ^ 7) ^ (2 ^ 252 - 3) % fieldP % fieldP
  x * u * v ^ 3 % fieldP

/-- The test of the root (math.go:210-216). -/
def fixRoot (u vx2 x : Int) : Out Int :=
  if (vx2 - u) % fieldP ≠ 0 then
    if (vx2 + u) % fieldP ≠ 0 then .err "not a valid Ed25519GroupElement"
    else .ok (x * intsToBigInteger iFE % fieldP)
  else .ok x

/-- The choice of the sign (math.go:218-221): `x.Mod(x, 2)` overwrites x. -/
def chooseSign (x : Int) (shouldBeNegative : Bool) : Int :=
  let x := x % 2
  let isNegative := x == 1
  if (shouldBeNegative && !isNegative) || (!shouldBeNegative && isNegative) then -x % fieldP else x

/-- `GetAffineXFromAffineY` (math.go:197-225): `vx2` is v*x (the second `Mul(v, x)` repeats the first). -/
def getAffineXFromAffineY (y : Int) (shouldBeNegative : Bool) : Out Int := do
  let u := (y * y - 1) % fieldP
  let d ← mathD G
  let v := (d * y * y + 1) % fieldP
  let x := getSqrtOfFraction u v
  let vx2 := v * x
  let x ← fixRoot u vx2 x
  .ok (chooseSign x shouldBeNegative)

/-- `ToGroupElement` (math.go:172-186): the argument afterwards and the result. -/
def toGroupElement (bytes : Bytes) : Bytes × Out GC :=
  let last : Option UInt8 := bytes[31]?
  match last with
  | none => (bytes, .panic)
  | some b =>
    let shouldBeNegative := (b >>> 7) != 0
    let bytes := bytes.set 31 (b &&& 0x7f)
    let y := bytesToBigInteger bytes
    (bytes, do
      let x ← getAffineXFromAffineY G y shouldBeNegative
      let x' ← toFieldElement U x
      let y' ← toFieldElement U y
      let t ← toFieldElement U (x * y % fieldP)
      .ok (.newP3 x' y' .one (some t)))

/-! ## Random test data -/

/-- `GetRandomByteArray` (math.go:419-428): an error of the reader panics. -/
def getRandomByteArray (length : Nat) : Act Bytes := fun w =>
  let r := Act.read 0 length w
  (Out.orPanic r.1, r.2)

/-- `GetRandomInt64` (math.go:430-439). -/
def getRandomInt64 : Act Int64 := (getRandomByteArray 8).bind fun b => Act.lift (.ok (Int64.ofInt (leVal b)))

/-- `GetRandomEncodedFieldElement` (math.go:350-361): the raw bytes. -/
def getRandomEncodedFieldElement (length : Nat) : Act Bytes :=
  (getRandomByteArray length).bind fun bytes => Act.lift <|
    match bytes[31]? with
    | none => .panic
    | some b => if length = 64 ∨ length = 32 then .ok (bytes.set 31 (b &&& 0x7f)) else .panic

/-- One limb of `GetRandomFieldElement` (math.go:110), when `rand.Read` delivered `v`: `Lsh(big.NewInt(1), 25)` replaces
the receiver by 1 << 25. -/
def randomLimb (_v : Bytes) : Int64 := Int64.ofInt (1 * 2 ^ 25) - 16777216

/-- `rand.Read(v[:])` with two bytes (math.go:105-108): one answer of the reader; an error panics. -/
def readTwo : Act Bytes := fun w =>
  match w 0 with
  | [] => (.panic, w)
  | e :: r =>
    let w' : World := fun i => if i = 0 then (if 2 < e.data.length then ⟨e.data.drop 2, e.err⟩ :: r else r) else w i
    if e.err.isSome ∧ ¬ 2 < e.data.length then (.panic, w') else (.ok (e.data.take 2), w')

/-- The loop of `GetRandomFieldElement` (math.go:99-115): `n` limbs remain. -/
def randomLimbs : Nat → Act (List Int64)
  | 0 => Act.lift (.ok [])
  | n + 1 => readTwo.bind fun v => (randomLimbs n).bind fun l => Act.lift (.ok (randomLimb v :: l))

/-- `GetRandomFieldElement` (math.go:99-115). -/
def getRandomFieldElement : Act FE :=
  (randomLimbs 10).bind fun l => Act.lift (.ok (.ofLimbs fun i => l.getD i 0))

/-- `GetRandomGroupElement` (math.go:365-382) with `tryToCreateObject` (math.go:384-391), at most `n` rounds: the first 32 bytes
that decode.  `random` (math.go:31-39) panics on an error of the reader; the last error panics. -/
def getRandomGroupElementN : Nat → Act GC
  | 0 => fun w => (.panic, w)
  | n + 1 => (getRandomByteArray 32).bind fun bytes =>
    match GC.decode bytes with
    | .err _ => getRandomGroupElementN n
    | r => Act.lift r

/-- `GetRandomGroupElement` (math.go:365-382). -/
def getRandomGroupElement : Act GC := getRandomGroupElementN 100000000

/-- `GetRandomEncodedGroupElement` (math.go:399-411), at most `n` rounds. -/
def getRandomEncodedGroupElementN : Nat → Act Bytes
  | 0 => fun w => (.panic, w)
  | n + 1 => getRandomGroupElement.bind fun g =>
    match g.encode with
    | .err _ => getRandomEncodedGroupElementN n
    | r => Act.lift r

/-- `GetRandomEncodedGroupElement` (math.go:399-411). -/
def getRandomEncodedGroupElement : Act Bytes := getRandomEncodedGroupElementN 100000000

end Ed

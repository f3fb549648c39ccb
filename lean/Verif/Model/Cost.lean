import Verif.Model.Cipher
import Verif.Model.Dsa

/-!
# The work of a call

The functions behind `DerivePublicKey`, `Sign`, `Verify`, `GetSharedKey`, `Encrypt` and `Decrypt` once more, together with the operations they carry out, in
order: the operations on field elements, the reductions modulo the group order, the hash calls with the lengths of what is hashed, and the
AES blocks.
Recorded are the calls of the functions named in `Step`; copies of pointers, comparisons of integers, table accesses and the conditional
moves (C60) are not recorded.  `C94_same_results` says that the results are those of the other model.
-/

set_option autoImplicit false

namespace Ed

/-- What is recorded. -/
inductive Step where
  /-- `Ed25519FieldElement.add` (ed25519_encode.go:172-178) -/
  | add
  /-- `subtract` (ed25519_encode.go:193-200) -/
  | sub
  /-- `negate` (ed25519_encode.go:213-220) -/
  | neg
  /-- `multiply` (ed25519_encode.go:252-458) -/
  | mul
  /-- `square` (ed25519_encode.go:473-476) -/
  | sq
  /-- `squareAndDouble` (ed25519_encode.go:490-493) -/
  | sqd
  /-- `Encode`, also as a part of `IsNonZero` and `IsNegative` (ed25519_encode.go:853-893, 153-156, 905-908) -/
  | enc
  /-- `Ed25519EncodedFieldElement.Decode` (ed25519_encode.go:989-1037) -/
  | dec
  /-- `modQ` (ed25519_encode.go:1041-1359) -/
  | modQ
  /-- `multiplyAndAddModQ` (ed25519_encode.go:1370-1797) -/
  | mulAddModQ
  /-- `HashesSha3_512` of pieces of these lengths (crypto.go:49-60) -/
  | sha512 (lengths : List Nat)
  /-- `HashesSha3_256` of one piece of this length (crypto.go:38-47) -/
  | sha256 (length : Nat)
  /-- AES applied to one block, inside `CryptBlocks` (ed25519_model.go:83-87, 96-100) -/
  | aes
deriving DecidableEq

/-- The outcome of a call and its steps. -/
structure Cost (α : Type) where
  out : Out α
  steps : List Step

namespace Cost

/-- A part of a call in which nothing is recorded. -/
def lift {α : Type} (o : Out α) : Cost α := ⟨o, []⟩

/-- One recorded step, with its result. -/
def tick {α : Type} (s : Step) (a : α) : Cost α := ⟨.ok a, [s]⟩

instance : Monad Cost where
  pure a := ⟨.ok a, []⟩
  bind x f := match x.out with
    | .ok a => ⟨(f a).out, x.steps ++ (f a).steps⟩
    | .err m => ⟨.err m, x.steps⟩
    | .panic => ⟨.panic, x.steps⟩

/-- A change of the outcome alone. -/
def mapOut {α β : Type} (f : Out α → Out β) (x : Cost α) : Cost β := ⟨f x.out, x.steps⟩

/-- A returned error that the caller turns into a panic. -/
def orPanic {α : Type} (x : Cost α) : Cost α := x.mapOut Out.orPanic

end Cost
open Cost

namespace FE

/-! The recorded operations on field elements (ed25519_encode.go:153-220, 252-476, 490-493, 853-908, 989-1037). -/

def addC (f g : FE) : Cost FE := tick .add (f.add g)
def subC (f g : FE) : Cost FE := tick .sub (f.subtract g)
def negC (f : FE) : Cost FE := tick .neg f.negate
def mulC (f g : FE) : Cost FE := tick .mul (f.multiply g)
def sqC (f : FE) : Cost FE := tick .sq f.square
def sqdC (f : FE) : Cost FE := tick .sqd f.squareAndDouble
def encC (f : FE) : Cost Bytes := tick .enc f.encode
def isNonZeroC (f : FE) : Cost Bool := tick .enc f.isNonZero
def isNegativeC (f : FE) : Cost Bool := tick .enc f.isNegative
def decC (b : Bytes) : Cost FE := tick .dec (FE.decode b)

/-- `n` successive squarings (the loops of `pow2to252sub4` and `invert`). -/
def squareNC : Nat → FE → Cost FE
  | 0, f => pure f
  | n + 1, f => do
    let f ← f.sqC
    squareNC n f

/-- `pow2to9` (ed25519_encode.go:671-681). -/
def pow2to9C (f : FE) : Cost FE := do
  let h ← f.sqC
  let h ← h.sqC
  let h ← h.sqC
  f.mulC h

/-- `pow2to252sub4` (ed25519_encode.go:684-763). -/
def pow2to252sub4C (f : FE) : Cost FE := do
  let f0 ← f.sqC
  let f1 ← f.pow2to9C
  let f0 ← f0.mulC f1
  let f0 ← f0.sqC
  let f0 ← f1.mulC f0
  let f1 ← f0.sqC
  let f1 ← squareNC 4 f1
  let f0 ← f1.mulC f0
  let f1 ← f0.sqC
  let f1 ← squareNC 9 f1
  let f1 ← f1.mulC f0
  let f2 ← f1.sqC
  let f2 ← squareNC 19 f2
  let f1 ← f2.mulC f1
  let f1 ← f1.sqC
  let f1 ← squareNC 9 f1
  let f0 ← f1.mulC f0
  let f1 ← f0.sqC
  let f1 ← squareNC 49 f1
  let f1 ← f1.mulC f0
  let f2 ← f1.sqC
  let f2 ← squareNC 99 f2
  let f1 ← f2.mulC f1
  let f1 ← f1.sqC
  let f1 ← squareNC 49 f1
  let f0 ← f1.mulC f0
  let f0 ← f0.sqC
  f0.sqC

/-- `invert` (ed25519_encode.go:650-668). -/
def invertC (f : FE) : Cost FE := do
  let f0 ← f.sqC
  let f1 ← f.pow2to9C
  let f0 ← f0.mulC f1
  let f1 ← f.pow2to252sub4C
  let f1 ← squareNC 3 f1
  f1.mulC f0

/-- `Ed25519FieldElementSqrt` (ed25519_encode.go:139-150). -/
def sqrtC (u v : FE) : Cost FE := do
  let v2 ← v.sqC
  let v3 ← v2.mulC v
  let x ← v3.sqC
  let x ← x.mulC v
  let x ← x.mulC u
  let p ← x.pow2to252sub4C
  let x ← p.mulC x
  let w ← v3.mulC u
  w.mulC x

end FE

namespace GC

/-- `toP2` from P2, P3, P1xP1 (ed25519_encode.go:2329-2332, 2354-2419). -/
def toP2C (g : GC) : Cost GC :=
  match g.sys with
  | .p1xp1 => do
    let T ← lift (Out.deref g.T)
    let x ← g.X.mulC T
    let y ← g.Y.mulC g.Z
    let z ← g.Z.mulC T
    pure (newP2 x y z)
  | _ => lift g.toP2

/-- `toP3` (ed25519_encode.go:2335-2338, 2354-2419). -/
def toP3C (g : GC) : Cost GC :=
  match g.sys with
  | .p1xp1 => do
    let T ← lift (Out.deref g.T)
    let x ← g.X.mulC T
    let y ← g.Y.mulC g.Z
    let z ← g.Z.mulC T
    let t ← g.X.mulC g.Y
    pure (newP3 x y z (some t))
  | _ => lift g.toP3

/-- `toCached` (ed25519_encode.go:2341-2344, 2354-2419). -/
def toCachedC (g : GC) : Cost GC :=
  match g.sys with
  | .p3 => do
    let X ← g.Y.addC g.X
    let Y ← g.Y.subC g.X
    let T ← lift (Out.deref g.T)
    let t ← T.mulC d2FE
    pure (newCached X Y g.Z (some t))
  | _ => lift g.toCached

/-- `Encode`, case P2, P3 (ed25519_encode.go:2311-2322). -/
def encodePC (g : GC) : Cost Bytes := do
  let inverse ← g.Z.invertC
  let x ← g.X.mulC inverse
  let y ← g.Y.mulC inverse
  let s ← y.encC
  let n ← x.isNegativeC
  pure (if n then setTopBit s else s)

/-- `Encode` (ed25519_encode.go:2308-2326). -/
def encodeC (g : GC) : Cost Bytes :=
  match g.sys with
  | .p2 | .p3 => g.encodePC
  | _ => do
    let h ← g.toP2C
    h.encodePC

/-- `GetAffineY` (ed25519_encode.go:1877-1887). -/
def getAffineYC (raw : Bytes) : Cost FE := do
  let encoded ← lift (newEncodedFieldElement raw)
  FE.decC encoded

/-- `GetAffineX` (ed25519_encode.go:1842-1871). -/
def getAffineXC (raw : Bytes) : Cost FE := do
  let y ← getAffineYC raw
  let ySquare ← y.sqC
  let u ← ySquare.subC .one
  let v ← ySquare.mulC dFE
  let v ← v.addC .one
  let x ← FE.sqrtC u v
  let xSquare ← x.sqC
  let vxSquare ← xSquare.mulC v
  let checkForZero ← vxSquare.subC u
  let n ← checkForZero.isNonZeroC
  let x ←
    if n then do
      let checkForZero ← vxSquare.addC u
      let n ← checkForZero.isNonZeroC
      if n then lift (.err "not a valid Ed25519EncodedGroupElement.")
      else x.mulC iFE
    else pure x
  let n ← x.isNegativeC
  if n != getBitToBool raw 255 then x.negC else pure x

/-- `Ed25519EncodedGroupElement.Decode` (ed25519_encode.go:1818-1831). -/
def decodeC (raw : Bytes) : Cost GC := do
  let x ← getAffineXC raw
  let y ← getAffineYC raw
  let t ← x.mulC y
  pure (newP3 x y .one (some t))

/-- `dbl` (ed25519_encode.go:2563-2583). -/
def dblC (g : GC) : Cost GC :=
  match g.sys with
  | .p2 | .p3 => do
    let XSquare ← g.X.sqC
    let YSquare ← g.Y.sqC
    let B ← g.Z.sqdC
    let A ← g.X.addC g.Y
    let ASquare ← A.sqC
    let YSquarePlusXSquare ← YSquare.addC XSquare
    let YSquareMinusXSquare ← YSquare.subC XSquare
    let X ← ASquare.subC YSquarePlusXSquare
    let T ← B.subC YSquareMinusXSquare
    pure (newP1xP1 X YSquarePlusXSquare YSquareMinusXSquare (some T))
  | _ => lift .panic

/-- `precomputedAdd` (ed25519_encode.go:2617-2650). -/
def precomputedAddC (r g : GC) : Cost GC :=
  if r.sys ≠ .p3 then lift (.err "NewUnsupportedOperationException(")
  else if g.sys ≠ .precomputed then lift (.err "NewIllegalArgumentException(")
  else do
    let YPlusX ← r.Y.addC r.X
    let YMinusX ← r.Y.subC r.X
    let A ← YMinusX.mulC g.Y
    let B ← YPlusX.mulC g.X
    let T ← lift (Out.deref r.T)
    let C ← T.mulC g.Z
    let D ← r.Z.addC r.Z
    let x ← B.subC A
    let y ← A.addC B
    let z ← D.addC C
    let t ← D.subC C
    pure (newP1xP1 x y z (some t))

/-- `precomputedSubtract` (ed25519_encode.go:2661-2683). -/
def precomputedSubtractC (r g : GC) : Cost GC :=
  if r.sys ≠ .p3 then lift .panic
  else if g.sys ≠ .precomputed then lift .panic
  else do
    let YPlusX ← r.Y.addC r.X
    let YMinusX ← r.Y.subC r.X
    let A ← YPlusX.mulC g.Y
    let B ← YMinusX.mulC g.X
    let T ← lift (Out.deref r.T)
    let C ← g.Z.mulC T
    let D ← r.Z.addC r.Z
    let x ← A.subC B
    let y ← A.addC B
    let z ← D.subC C
    let t ← D.addC C
    pure (newP1xP1 x y z (some t))

/-- `add` (ed25519_encode.go:2704-2732). -/
def addC (r g : GC) : Cost GC :=
  if r.sys ≠ .p3 then lift .panic
  else if g.sys ≠ .cached then lift .panic
  else do
    let B ← r.Y.addC r.X
    let B ← B.mulC g.X
    let A ← r.Y.subC r.X
    let A ← A.mulC g.Y
    let gT ← lift (Out.deref g.T)
    let rT ← lift (Out.deref r.T)
    let C ← gT.mulC rT
    let ZSquare ← r.Z.mulC g.Z
    let D ← ZSquare.addC ZSquare
    let x ← B.subC A
    let y ← A.addC B
    let z ← D.addC C
    let t ← D.subC C
    pure (newP1xP1 x y z (some t))

/-- A table entry (ed25519_encode.go:2459-2466 and 2489-2496). -/
def precEntryC (b : GC) : Cost GC := do
  let inverse ← b.Z.invertC
  let x ← b.X.mulC inverse
  let y ← b.Y.mulC inverse
  let X ← y.addC x
  let Y ← y.subC x
  let Z ← x.mulC y
  let Z ← Z.mulC d2FE
  pure (newPrecomputed X Y Z)

/-- `Bij = Bij.add(Bi.toCached()).toP3()` (ed25519_encode.go:2467). -/
def addP3C (b c : GC) : Cost GC := do
  let c ← c.toCachedC
  let s ← b.addC c
  s.toP3C

/-- The loop over `j` (ed25519_encode.go:2458-2468); `n` rounds remain. -/
def precRowC (bi : GC) : Nat → GC → Cost (List GC)
  | 0, _ => pure []
  | n + 1, bij => do
    let e ← bij.precEntryC
    let bij ← bij.addP3C bi
    let r ← precRowC bi n bij
    pure (e :: r)

/-- The loop over `k` (ed25519_encode.go:2470-2472); `n` rounds remain. -/
def doubleNC : Nat → GC → Cost GC
  | 0, b => pure b
  | n + 1, b => do
    let b ← b.addP3C b
    doubleNC n b

/-- The loop over `i` (ed25519_encode.go:2455-2474); `n` rounds remain. -/
def precRowsC : Nat → GC → Cost (List (List GC))
  | 0, _ => pure []
  | n + 1, bi => do
    let row ← precRowC bi 8 bi
    let bi ← doubleNC 8 bi
    let rest ← precRowsC n bi
    pure (row :: rest)

/-- The loop of `PrecomputeForDoubleScalarMultiplication` (ed25519_encode.go:2488-2499); `n` rounds remain. -/
def precOddC (r : GC) : Nat → GC → Cost (List GC)
  | 0, _ => pure []
  | n + 1, bi => do
    let e ← bi.precEntryC
    let s ← r.addP3C bi
    let bi ← r.addP3C s
    let rest ← precOddC r n bi
    pure (e :: rest)

end GC

namespace GE

/-- `PrecomputeForScalarMultiplication` (ed25519_encode.go:2447-2476). -/
def precomputeForScalarMultiplicationC (g : GE) : Cost GE :=
  if g.single.isSome then pure g
  else do
    let t ← GC.precRowsC 32 g.toGC
    pure { g with single := some t }

/-- `PrecomputeForDoubleScalarMultiplication` (ed25519_encode.go:2479-2500). -/
def precomputeForDoubleScalarMultiplicationC (g : GE) : Cost GE :=
  if (g.double.getD []).length > 0 then pure g
  else do
    let t ← GC.precOddC g.toGC 8 g.toGC
    pure { g with double := some t }

/-- `Select` (ed25519_encode.go:2510-2534). -/
def selectC (g : GE) (pos : Nat) (b : Int64) : Cost GC := do
  let bNegative := isNegativeConstantTime b
  let bAbs := b - shl ((-bNegative) &&& b) 1
  let row ← lift (Out.index (g.single.getD []) pos)
  let t ← lift (selectLoop bAbs row 0 .zeroPrecomputed)
  let z ← t.Z.negC
  let tMinus := GC.newPrecomputed t.Y t.X z
  lift (t.cmov tMinus bNegative)

/-- Body of the two addition loops of `scalarMultiply` (ed25519_encode.go:2806-2815, 2819-2828). -/
def scalarStepC (g : GE) (e : Digits) (h : GC) (i : Nat) : Cost GC := do
  let s ← g.selectC (i / 2) (int8ToInt (e i))
  let h ← h.precomputedAddC s
  h.toP3C

/-- `h.dbl().toP2().dbl().toP2().dbl().toP2().dbl().toP3()` (ed25519_encode.go:2817). -/
def times16C (h : GC) : Cost GC := do
  let h ← h.dblC
  let h ← h.toP2C
  let h ← h.dblC
  let h ← h.toP2C
  let h ← h.dblC
  let h ← h.toP2C
  let h ← h.dblC
  h.toP3C

/-- The body of a loop over `l`. -/
def foldC {α : Type} (f : α → Nat → Cost α) : α → List Nat → Cost α
  | a, [] => pure a
  | a, i :: l => do
    let a ← f a i
    foldC f a l

/-- `scalarMultiply` (ed25519_encode.go:2801-2831). -/
def scalarMultiplyC (g : GE) (a : Bytes) : Cost GC := do
  let e := toRadix16 a
  let h ← foldC (scalarStepC g e) GC.zeroP3 ((List.range 32).map fun k => 2 * k + 1)
  let h ← times16C h
  foldC (scalarStepC g e) h ((List.range 32).map fun k => 2 * k)

/-- The step for a digit of `a` in `doubleScalarMultiplyVariableTime` (ed25519_encode.go:2857-2864). -/
def subDigitC (A : GE) (a : Int8) (t : GC) : Cost GC :=
  if a > 0 then do
    let t ← t.toP3C
    let q ← lift (Out.index (A.double.getD []) (a / 2).toInt.toNat)
    t.precomputedSubtractC q
  else if a < 0 then do
    let t ← t.toP3C
    let q ← lift (Out.index (A.double.getD []) ((-a) / 2).toInt.toNat)
    t.precomputedAddC q
  else pure t

/-- The step for a digit of `b` in `doubleScalarMultiplyVariableTime` (ed25519_encode.go:2866-2873). -/
def addDigitC (g : GE) (b : Int8) (t : GC) : Cost GC :=
  if b > 0 then do
    let t ← t.toP3C
    let q ← lift (Out.index (g.double.getD []) (b / 2).toInt.toNat)
    t.precomputedAddC q
  else if b < 0 then do
    let t ← t.toP3C
    let q ← lift (Out.index (g.double.getD []) ((-b) / 2).toInt.toNat)
    t.precomputedSubtractC q
  else pure t

/-- Body of the loop of `doubleScalarMultiplyVariableTime` once `flag` is set (ed25519_encode.go:2856-2875). -/
def doubleStepC (g A : GE) (a b : Int8) (r : GC) : Cost GC := do
  let t ← r.dblC
  let t ← subDigitC A a t
  let t ← addDigitC g b t
  t.toP2C

/-- The loop of `doubleScalarMultiplyVariableTime` (ed25519_encode.go:2852-2879), `i` from `n-1` to 0. -/
def doubleLoopC (g A : GE) (aS bS : Digits) : Nat → Bool → GC → Cost GC
  | 0, _, r => pure r
  | i + 1, flag, r =>
    let flag := flag || aS i != 0 || bS i != 0
    if flag then do
      let r ← doubleStepC g A (aS i) (bS i) r
      doubleLoopC g A aS bS i flag r
    else doubleLoopC g A aS bS i flag r

/-- `doubleScalarMultiplyVariableTime` (ed25519_encode.go:2842-2882). -/
def doubleScalarMultiplyVariableTimeC (g A : GE) (a b : Bytes) : Cost GC :=
  doubleLoopC g A (slide a) (slide b) 256 false .zeroP2

end GE

variable (E : Env)

/-- `HashesSha3_512` (crypto.go:49-60). -/
def sha512C (pieces : List Bytes) : Cost Bytes := tick (.sha512 (pieces.map List.length)) (hashesSha3_512 E pieces)

/-- `modQ` (ed25519_encode.go:1041-1359). -/
def modQC (b : Bytes) : Cost Bytes := tick .modQ (modQ b)

/-- `PrepareForScalarMultiply` (ed25519_encode.go:18-29). -/
def prepareForScalarMultiplyC (key : Option PrivateKey) : Cost Bytes := do
  let k ← lift (Out.deref key)
  let hash ← sha512C E [k.raw]
  pure (clamp (hash.take 32))

/-- `DerivePublicKey` (ed25519_model.go:374-384). -/
def derivePublicKeyC (key : Option PrivateKey) : Cost PublicKey := do
  let a ← prepareForScalarMultiplyC E key
  let b ← lift basePoint
  let pubKey ← (b.scalarMultiplyC a).orPanic
  let el ← pubKey.encodeC.orPanic
  pure (newPublicKey el)

/-- `Sign` (ed25519_model.go:206-263). -/
def signC (kp : KeyPair) (mess : Bytes) : Cost Signature :=
  if !kp.hasPrivateKey then lift (.err "cannot sign without private key")
  else do
    let k ← lift (Out.deref kp.priv)
    let hash ← sha512C E [k.raw]
    let hashR ← sha512C E [hash.drop 32, mess]
    let r ← lift (newEncodedFieldElement hashR)
    let rModQ ← modQC r
    let b ← lift basePoint
    let R ← b.scalarMultiplyC rModQ
    let encodedR ← R.encodeC
    let hashH ← sha512C E [encodedR, kp.pub.raw, mess]
    let h ← lift (newEncodedFieldElement hashH)
    let hModQ ← modQC h
    let a ← prepareForScalarMultiplyC E kp.priv
    let encodedS ← tick .mulAddModQ (multiplyAndAddModQ hModQ a rModQ)
    let signature ← lift (newSignature encodedR encodedS)
    lift (if !isCanonicalSignature signature then .err "Generated signature is not canonical" else .ok signature)

/-- The part of `Verify` after the two initial checks (ed25519_model.go:281-321). -/
def verifyEquationC (pub : PublicKey) (mess : Bytes) (sig : Signature) : Cost Bool := do
  let hashR ← sha512C E [sig.R, pub.raw, mess]
  let h ← lift (newEncodedFieldElement hashR)
  let hModQ ← modQC h
  let A ← GC.decodeC pub.raw
  let A ← (GE.ofGC A).precomputeForDoubleScalarMultiplicationC
  let b ← lift basePoint
  lift (checkSlide hModQ)
  lift (checkSlide sig.S)
  let calculatedR ← b.doubleScalarMultiplyVariableTimeC A hModQ sig.S
  let encodedCalculatedR ← calculatedR.encodeC
  pure (isEqualConstantTime encodedCalculatedR sig.R)

/-- `Verify` (ed25519_model.go:270-322). -/
def verifyC (pub : PublicKey) (mess : Bytes) (sig : Signature) : Cost Bool :=
  if !isCanonicalSignature sig then pure false
  else if isEqualConstantTime pub.raw (List.replicate 32 0) then pure false
  else (verifyEquationC E pub mess sig).mapOut Out.orFalse

/-- `GetSharedKey` (ed25519_model.go:120-144). -/
def getSharedKeyC (keyLength : Nat) (priv : Option PrivateKey) (pub : PublicKey) (salt : Bytes) : Cost Bytes := do
  let grA ← lift (newEncodedGroupElement pub.raw)
  let senderA ← GC.decodeC grA
  let senderA ← (GE.ofGC senderA).precomputeForScalarMultiplicationC
  let a ← prepareForScalarMultiplyC E priv
  let el ← senderA.scalarMultiplyC a
  let sharedKey ← el.encodeC
  let sharedKey ← lift ((List.range keyLength).foldlM (xorSaltStep salt) sharedKey)
  tick (.sha256 sharedKey.length) (hashesSha3_256 E sharedKey)

/-- `decode` (ed25519_model.go:90-118). -/
def decodeC (ciphertext sharedKey iv : Bytes) : Cost Bytes := do
  lift (aesNewCipher sharedKey)
  lift (cbcChecks iv ciphertext)
  let buf ← (⟨.ok (cbcDecBlocks E sharedKey iv (chunks16 ciphertext)).flatten, List.replicate (chunks16 ciphertext).length .aes⟩ : Cost Bytes)
  lift (unpad buf)

/-- `Decrypt` (ed25519_model.go:178-193). -/
def BlockCipher.decryptC (c : BlockCipher) (input : Bytes) : Cost Bytes :=
  if input.length < 64 then lift (.err "input is to short for decryption")
  else if c.keyLength > 48 then lift .panic
  else do
    let salt := input.take c.keyLength
    let iv := (input.take 48).drop c.keyLength
    let encData := input.drop 48
    let sharedKey ← getSharedKeyC E c.keyLength c.recipient.priv c.sender.pub salt
    decodeC E encData sharedKey iv

/-- `encode` (ed25519_model.go:64-88). -/
def encodeC (message sharedKey iv : Bytes) : Cost Bytes := do
  lift (aesNewCipher sharedKey)
  let buf := padMessage message
  lift (cbcChecks iv buf)
  (⟨.ok (cbcEncBlocks E sharedKey iv (chunks16 buf)).flatten, List.replicate (chunks16 buf).length .aes⟩ : Cost Bytes)

/-- `Encrypt` (ed25519_model.go:147-175) when the sources of random bytes are `w`.  Reading them is not recorded. -/
def BlockCipher.encryptC (c : BlockCipher) (input : Bytes) (w : World) : Cost Bytes := do
  let salt ← lift (Act.read c.seed c.keyLength w).1
  let sharedKey ← getSharedKeyC E c.keyLength c.sender.priv c.recipient.pub salt
  let iv ← lift (Act.read c.seed 16 (Act.read c.seed c.keyLength w).2).1
  let buf ← encodeC E input sharedKey iv
  pure ((salt ++ iv) ++ buf)

end Ed

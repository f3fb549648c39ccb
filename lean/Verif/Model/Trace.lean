import Verif.Model.Cipher
import Verif.Model.Dsa

/-!
# The conditional jumps of the conditional move

The functions that multiply by a secret scalar, once more, together with the outcomes of the tests `b == 1` and `b == 0` in the body of
`cmov`, in the order in which they are made.  All other tests are left out: the observer of this model sees a part of what an observer of
the program sees.  `C60_same_results` says that the results are those of the other model.
-/

set_option autoImplicit false

namespace Ed

/-- The outcome of a call and the outcomes of the tests made during the call. -/
structure Traced (α : Type) where
  out : Out α
  tests : List Bool

namespace Traced

/-- A call in which no test is observed. -/
def lift {α : Type} (o : Out α) : Traced α := ⟨o, []⟩

/-- Sequencing. -/
def bind {α β : Type} (x : Traced α) (f : α → Traced β) : Traced β :=
  match x.out with
  | .ok a => ⟨(f a).out, x.tests ++ (f a).tests⟩
  | .err m => ⟨.err m, x.tests⟩
  | .panic => ⟨.panic, x.tests⟩

/-- The body of a loop over `l`. -/
def fold {α : Type} (f : α → Nat → Traced α) : α → List Nat → Traced α
  | a, [] => lift (.ok a)
  | a, i :: l => (f a i).bind fun a' => fold f a' l

end Traced

/-- `cmov` (ed25519_encode.go:2783-2791). -/
def GC.cmovT (r u : GC) (b : Int64) : Traced GC :=
  if b = 1 then ⟨.ok u, [true]⟩
  else if b = 0 then ⟨.ok r, [false, true]⟩
  else ⟨.err "parameter 'b' must by in range {0,1}", [false, false]⟩

namespace GE

/-- The loop of `Select` (ed25519_encode.go:2519-2527). -/
def selectLoopT (bAbs : Int64) : List GC → Nat → GC → Traced GC
  | [], _, t => .lift (.ok t)
  | el :: row, i, t => (t.cmovT el (isConstantTimeByteEq bAbs (Int64.ofInt (i + 1)))).bind fun t => selectLoopT bAbs row (i + 1) t

/-- `Select` (ed25519_encode.go:2510-2534). -/
def selectT (g : GE) (pos : Nat) (b : Int64) : Traced GC :=
  let bNegative := isNegativeConstantTime b
  let bAbs := b - shl ((-bNegative) &&& b) 1
  (Traced.lift (Out.index (g.single.getD []) pos)).bind fun row =>
  (selectLoopT bAbs row 0 .zeroPrecomputed).bind fun t =>
  t.cmovT (GC.newPrecomputed t.Y t.X t.Z.negate) bNegative

/-- Body of the two addition loops of `scalarMultiply` (ed25519_encode.go:2806-2815, 2819-2828). -/
def scalarStepT (g : GE) (e : Digits) (h : GC) (i : Nat) : Traced GC :=
  (g.selectT (i / 2) (int8ToInt (e i))).bind fun s => .lift (h.precomputedAdd s >>= fun h => h.toP3)

/-- `scalarMultiply` (ed25519_encode.go:2801-2831). -/
def scalarMultiplyT (g : GE) (a : Bytes) : Traced GC :=
  (Traced.fold (scalarStepT g (toRadix16 a)) GC.zeroP3 ((List.range 32).map fun k => 2 * k + 1)).bind fun h =>
  (Traced.lift (times16 h)).bind fun h =>
  Traced.fold (scalarStepT g (toRadix16 a)) h ((List.range 32).map fun k => 2 * k)

end GE

variable (E : Env)

/-- `DerivePublicKey` (ed25519_model.go:374-384). -/
def derivePublicKeyT (key : Option PrivateKey) : Traced PublicKey :=
  (Traced.lift (prepareForScalarMultiply E key)).bind fun a =>
  (Traced.lift basePoint).bind fun b =>
  let p := b.scalarMultiplyT a
  (Traced.mk p.out.orPanic p.tests).bind fun pubKey =>
  .lift (pubKey.encode.orPanic >>= fun el => .ok (newPublicKey el))

/-- The part of `Sign` after the multiplication (ed25519_model.go:235-263). -/
def signRest (kp : KeyPair) (mess rModQ : Bytes) (R : GC) : Out Signature := do
  let encodedR ← R.encode
  let hashH := hashesSha3_512 E [encodedR, kp.pub.raw, mess]
  let h ← newEncodedFieldElement hashH
  let hModQ := modQ h
  let a ← prepareForScalarMultiply E kp.priv
  let encodedS := multiplyAndAddModQ hModQ a rModQ
  let signature ← newSignature encodedR encodedS
  if !isCanonicalSignature signature then .err "Generated signature is not canonical"
  else .ok signature

/-- `Sign` (ed25519_model.go:206-263). -/
def signT (kp : KeyPair) (mess : Bytes) : Traced Signature :=
  if !kp.hasPrivateKey then .lift (.err "cannot sign without private key")
  else
    (Traced.lift (Out.deref kp.priv)).bind fun k =>
    (Traced.lift (newEncodedFieldElement (hashesSha3_512 E [(hashesSha3_512 E [k.raw]).drop 32, mess]))).bind fun r =>
    (Traced.lift basePoint).bind fun b =>
    (b.scalarMultiplyT (modQ r)).bind fun R =>
    .lift (signRest E kp mess (modQ r) R)

/-- `GetSharedKey` (ed25519_model.go:120-144). -/
def getSharedKeyT (keyLength : Nat) (priv : Option PrivateKey) (pub : PublicKey) (salt : Bytes) : Traced Bytes :=
  (Traced.lift (newEncodedGroupElement pub.raw)).bind fun grA =>
  (Traced.lift (GC.decode grA)).bind fun senderA =>
  (Traced.lift (GE.ofGC senderA).precomputeForScalarMultiplication).bind fun senderA =>
  (Traced.lift (prepareForScalarMultiply E priv)).bind fun a =>
  (senderA.scalarMultiplyT a).bind fun el =>
  .lift (el.encode >>= fun sharedKey => (List.range keyLength).foldlM (xorSaltStep salt) sharedKey >>= fun sharedKey =>
    .ok (hashesSha3_256 E sharedKey))

end Ed

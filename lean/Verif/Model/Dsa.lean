import Verif.Model.Keys
import Verif.Model.Scalar

/-!
# The DSA signer (ed25519_model.go:196-342)
-/

set_option autoImplicit false

namespace Ed

/-- `(*big.Int).Uint64` (math/big): the low 64 bits of the absolute value. -/
def bigUint64 (n : Int) : Nat := n.natAbs % 2 ^ 64

/-- `Ed25519Group.GROUP_ORDER` (ed25519_encode.go:1951, 1961-1968). -/
def groupOrder : Nat := 2 ^ 252 + 27742317777372353535851937790883648493

/-- `IsCanonicalSignature` (ed25519_model.go:325-329). -/
def isCanonicalSignature (sig : Signature) : Bool :=
  let sgnS := bigUint64 sig.getS
  sgnS != bigUint64 groupOrder && decide (sgnS > 0)

/-- `make([]byte, 64); copy(sign, s)` (ed25519_model.go:334-335). -/
def copy64 (s : Bytes) : Bytes := s.take 64 ++ List.replicate (64 - s.length) 0

/-- `MakeSignatureCanonical` (ed25519_model.go:332-342). -/
def makeSignatureCanonical (sig : Signature) : Out Signature := do
  let s ← newEncodedFieldElement (copy64 sig.S)
  newSignature sig.R (modQ s)

variable (E : Env)

/-- `Sign` (ed25519_model.go:206-263). -/
def sign (kp : KeyPair) (mess : Bytes) : Out Signature :=
  if !kp.hasPrivateKey then .err "cannot sign without private key"
  else do
    let k ← Out.deref kp.priv
    let hash := hashesSha3_512 E [k.raw]
    let hashR := hashesSha3_512 E [hash.drop 32, mess]
    let r ← newEncodedFieldElement hashR
    let rModQ := modQ r
    let b ← basePoint
    let R ← b.scalarMultiply rModQ
    let encodedR ← R.encode
    let hashH := hashesSha3_512 E [encodedR, kp.pub.raw, mess]
    let h ← newEncodedFieldElement hashH
    let hModQ := modQ h
    let a ← prepareForScalarMultiply E kp.priv
    let encodedS := multiplyAndAddModQ hModQ a rModQ
    let signature ← newSignature encodedR encodedS
    if !isCanonicalSignature signature then .err "Generated signature is not canonical"
    else .ok signature

/-- `if err != nil { fmt.Println(err); return false }`. -/
def Out.orFalse : Out Bool → Out Bool
  | .ok b => .ok b
  | .err _ => .ok false
  | .panic => .panic

/-- The index expressions `a[i>>3]`, `i < 256`, of `slide` (ed25519_encode.go:2207): fewer than 32 bytes
panic. -/
def checkSlide (a : Bytes) : Out Unit := if a.length < 32 then .panic else .ok ()

/-- The part of `Verify` after the two initial checks (ed25519_model.go:281-321). -/
def verifyEquation (pub : PublicKey) (mess : Bytes) (sig : Signature) : Out Bool := do
  let hashR := hashesSha3_512 E [sig.R, pub.raw, mess]
  let h ← newEncodedFieldElement hashR
  let hModQ := modQ h
  let A ← GC.decode pub.raw
  let A ← (GE.ofGC A).precomputeForDoubleScalarMultiplication
  let b ← basePoint
  checkSlide hModQ
  checkSlide sig.S
  let calculatedR ← b.doubleScalarMultiplyVariableTime A hModQ sig.S
  let encodedCalculatedR ← calculatedR.encode
  .ok (isEqualConstantTime encodedCalculatedR sig.R)

/-- `Verify` (ed25519_model.go:270-322).  Only the public key of the pair is used. -/
def verify (pub : PublicKey) (mess : Bytes) (sig : Signature) : Out Bool :=
  if !isCanonicalSignature sig then .ok false
  else if isEqualConstantTime pub.raw (List.replicate 32 0) then .ok false
  else Out.orFalse (verifyEquation E pub mess sig)

end Ed

import Verif.Model.Cipher
import Verif.Model.Dsa
import Verif.Model.CT

/-!
# The width of `int`

Go's `int` has 32 or 64 bits, depending on the platform.  The other modules take 64.  Here are the functions of the API that compute with
values of type `int` once more, with an `int` of `w` bits (`BitVec w`).  `C95` says that the results are those of the other model.  Loop
counters, positions and lengths are written as numbers where they are only compared and used as indices.
-/

set_option autoImplicit false

namespace Ed

variable (w : Nat)

/-- `isNegativeConstantTime` (crypto.go:74-76). -/
def isNegativeConstantTimeW {w : Nat} (b : BitVec w) : BitVec w := b.sshiftRight 8 &&& 1#w

/-- `isConstantTimeByteEq` (crypto.go:78-87). -/
def isConstantTimeByteEqW {w : Nat} (b c : BitVec w) : BitVec w :=
  let xor := b ^^^ c
  let result := (List.range 8).foldl (fun r i => r ||| xor.sshiftRight i) 0#w
  (result ^^^ 1#w) &&& 1#w

/-- `cmov` (ed25519_encode.go:2783-2791). -/
def GC.cmovW {w : Nat} (r u : GC) (b : BitVec w) : Out GC :=
  if b = 1#w then .ok u
  else if b = 0#w then .ok r
  else .err "parameter 'b' must by in range {0,1}"

/-- Body of the second loop of `toRadix16` (ed25519_encode.go:2169-2173); `carry` is an `int`. -/
def radix16StepW {w : Nat} (st : Digits × BitVec w) (i : Nat) : Digits × BitVec w :=
  let e := st.1
  let e := setD e i (e i + Int8.ofBitVec (st.2.setWidth 8))
  let carry := (e i).toBitVec.signExtend w + 8#w
  let carry := carry.sshiftRight 4
  (setD e i (e i - shl8 (Int8.ofBitVec (carry.setWidth 8)) 4), carry)

/-- `toRadix16` (ed25519_encode.go:2156-2178). -/
def toRadix16W (a : Bytes) : Digits :=
  let st := (List.range 63).foldl radix16StepW (radix16Nibbles a, 0#w)
  setD st.1 63 (st.1 63 + Int8.ofBitVec (st.2.setWidth 8))

namespace GE

/-- The loop of `Select` (ed25519_encode.go:2519-2527). -/
def selectLoopW {w : Nat} (bAbs : BitVec w) : List GC → Nat → GC → Out GC
  | [], _, t => .ok t
  | el :: row, i, t => do
    let t ← t.cmovW el (isConstantTimeByteEqW bAbs (BitVec.ofNat w (i + 1)))
    selectLoopW bAbs row (i + 1) t

/-- `Select` (ed25519_encode.go:2510-2534). -/
def selectW {w : Nat} (g : GE) (pos : Nat) (b : BitVec w) : Out GC := do
  let bNegative := isNegativeConstantTimeW b
  let bAbs := b - (((-bNegative) &&& b) <<< 1)
  let row ← Out.index (g.single.getD []) pos
  let t ← selectLoopW bAbs row 0 .zeroPrecomputed
  let z := t.Z.negate
  let tMinus := GC.newPrecomputed t.Y t.X z
  t.cmovW tMinus bNegative

/-- Body of the two addition loops of `scalarMultiply` (ed25519_encode.go:2806-2815, 2819-2828). -/
def scalarStepW (g : GE) (e : Digits) (h : GC) (i : Nat) : Out GC := do
  let s ← g.selectW (i / 2) ((e i).toBitVec.signExtend w)
  let h ← h.precomputedAdd s
  h.toP3

/-- `scalarMultiply` (ed25519_encode.go:2801-2831). -/
def scalarMultiplyW (g : GE) (a : Bytes) : Out GC := do
  let h ← ((List.range 32).map fun k => 2 * k + 1).foldlM (scalarStepW w g (toRadix16W w a)) GC.zeroP3
  let h ← times16 h
  ((List.range 32).map fun k => 2 * k).foldlM (scalarStepW w g (toRadix16W w a)) h

end GE

variable (E : Env)

/-- `DerivePublicKey` (ed25519_model.go:374-384). -/
def derivePublicKeyW (key : Option PrivateKey) : Out PublicKey := do
  let a ← prepareForScalarMultiply E key
  let b ← basePoint
  let pubKey ← (b.scalarMultiplyW w a).orPanic
  let el ← pubKey.encode.orPanic
  .ok (newPublicKey el)

/-- `NewKeyPair` (key_pair.go:23-35). -/
def newKeyPairW (priv : Option PrivateKey) (pub : Option PublicKey) : Out KeyPair :=
  match pub with
  | none => do
    let p ← derivePublicKeyW w E priv
    .ok ⟨priv, p⟩
  | some p => if !isKeyCompressed p then .err "publicKey must be in compressed form" else .ok ⟨priv, p⟩

/-- `Sign` (ed25519_model.go:206-263). -/
def signW (kp : KeyPair) (mess : Bytes) : Out Signature :=
  if !kp.hasPrivateKey then .err "cannot sign without private key"
  else do
    let k ← Out.deref kp.priv
    let r ← newEncodedFieldElement (hashesSha3_512 E [(hashesSha3_512 E [k.raw]).drop 32, mess])
    let rModQ := modQ r
    let b ← basePoint
    let R ← b.scalarMultiplyW w rModQ
    let encodedR ← R.encode
    let hashH := hashesSha3_512 E [encodedR, kp.pub.raw, mess]
    let h ← newEncodedFieldElement hashH
    let hModQ := modQ h
    let a ← prepareForScalarMultiply E kp.priv
    let encodedS := multiplyAndAddModQ hModQ a rModQ
    let signature ← newSignature encodedR encodedS
    if !isCanonicalSignature signature then .err "Generated signature is not canonical"
    else .ok signature

/-- `GetSharedKey` (ed25519_model.go:120-144). -/
def getSharedKeyW (keyLength : Nat) (priv : Option PrivateKey) (pub : PublicKey) (salt : Bytes) : Out Bytes := do
  let grA ← newEncodedGroupElement pub.raw
  let senderA ← GC.decode grA
  let senderA ← (GE.ofGC senderA).precomputeForScalarMultiplication
  let a ← prepareForScalarMultiply E priv
  let el ← senderA.scalarMultiplyW w a
  let sharedKey ← el.encode
  let sharedKey ← (List.range keyLength).foldlM (xorSaltStep salt) sharedKey
  .ok (hashesSha3_256 E sharedKey)

/-- The padded buffer of `encode` (ed25519_model.go:71-81), computed with `int`s; `make` panics for a negative length. -/
def padMessageW (message : Bytes) : Out Bytes :=
  let messageSize := BitVec.ofNat w message.length
  let blockSize := 16#w
  let paddingSize := blockSize - messageSize.srem blockSize
  let bufferSize := messageSize + paddingSize
  if bufferSize.slt 0#w then .panic
  else .ok (message ++ List.replicate paddingSize.toNat (UInt8.ofBitVec (paddingSize.setWidth 8)))

/-- `encode` (ed25519_model.go:64-88). -/
def encodeW (message sharedKey iv : Bytes) : Out Bytes := do
  aesNewCipher sharedKey
  let buf ← padMessageW w message
  cbcChecks iv buf
  .ok (cbcEncBlocks E sharedKey iv (chunks16 buf)).flatten

/-- The check and removal of the padding in `decode` (ed25519_model.go:101-117), with `int`s.  A negative `messageSize` is an index out of
range. -/
def unpadW (buf : Bytes) : Out Bytes :=
  if buf.length = 0 then .panic
  else
    let bufferSize := BitVec.ofNat w buf.length
    let paddingSize := ((buf.getD (buf.length - 1) 0).toBitVec &&& 0xFF#8).setWidth w
    if paddingSize = 0#w ∨ (16#w).slt paddingSize then .err "blocks are corrupted, paddingSize is wrong"
    else
      let messageSize := bufferSize - paddingSize
      if messageSize.slt 0#w then .panic
      else if (buf.drop messageSize.toNat).any (fun b => b.toBitVec.setWidth w != paddingSize) then
        .err "blocks are corrupted, fake byte is not equal to paddingSize"
      else .ok (buf.take messageSize.toNat)

/-- `decode` (ed25519_model.go:90-118). -/
def decodeW (ciphertext sharedKey iv : Bytes) : Out Bytes := do
  aesNewCipher sharedKey
  cbcChecks iv ciphertext
  unpadW w (cbcDecBlocks E sharedKey iv (chunks16 ciphertext)).flatten

/-- `Encrypt` (ed25519_model.go:147-175). -/
def BlockCipher.encryptW (c : BlockCipher) (input : Bytes) : Act Bytes :=
  Act.bind (Act.read c.seed c.keyLength) fun salt =>
  Act.bind (Act.lift (getSharedKeyW w E c.keyLength c.sender.priv c.recipient.pub salt)) fun sharedKey =>
  Act.bind (Act.read c.seed 16) fun iv =>
  Act.bind (Act.lift (encodeW w E input sharedKey iv)) fun buf =>
  Act.lift (.ok ((salt ++ iv) ++ buf))

/-- `Decrypt` (ed25519_model.go:178-193). -/
def BlockCipher.decryptW (c : BlockCipher) (input : Bytes) : Out Bytes :=
  if input.length < 64 then .err "input is to short for decryption"
  else if c.keyLength > 48 then .panic
  else do
    let salt := input.take c.keyLength
    let iv := (input.take 48).drop c.keyLength
    let encData := input.drop 48
    let sharedKey ← getSharedKeyW w E c.keyLength c.recipient.priv c.sender.pub salt
    decodeW w E encData sharedKey iv

/-- `GenerateKeyPair` (ed25519_model.go:360-371). -/
def generateKeyPairW (seed : Nat) : Act KeyPair :=
  Act.bind (Act.read seed 32) fun raw =>
  let privateKey := newPrivateKey raw
  Act.bind (Act.lift (derivePublicKeyW w E (some privateKey))) fun publicKey =>
  Act.lift (newKeyPairW w E (some privateKey) (some publicKey))

end Ed

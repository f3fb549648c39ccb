import Verif.Model.Engine
import Verif.Model.Hex

/-!
# Nil pointers (key_pair.go, ed25519_model.go, signature.go, signer.go, cipher_model.go, crypto_engine.go)

The same functions as in `Model/Keys, Dsa, Cipher, Engine`, with every pointer of the API optional: receivers, key pairs, the two keys in
a pair (both fields are exported), signatures, engines.  `none` is nil, an access through it panics.  The order of the accesses is that
of the Go text.
-/

set_option autoImplicit false

namespace Ed

/-- `KeyPair` (key_pair.go:10-13) as a caller may fill it: either pointer may be nil. -/
structure KeyPairN where
  priv : Option PrivateKey
  pub : Option PublicKey

/-- A pair without nil public key, as `NewKeyPair` returns it (key_pair.go:34). -/
def KeyPair.toN (k : KeyPair) : KeyPairN := ⟨k.priv, some k.pub⟩

/-- `HasPrivateKey` (key_pair.go:43-46) of a `*KeyPair`. -/
def hasPrivateKeyN (kp : Option KeyPairN) : Out Bool := do
  let k ← Out.deref kp
  .ok k.priv.isSome

/-- `IsKeyCompressed` (ed25519_encode.go:43-46) of a `*PublicKey`. -/
def isKeyCompressedN (pub : Option PublicKey) : Out Bool := do
  let p ← Out.deref pub
  .ok (isKeyCompressed p)

/-- `(*PrivateKey).String` (key_model.go:64-66). -/
def privateStringN (k : Option PrivateKey) : Out Bytes := do
  let k ← Out.deref k
  .ok k.string

/-- `(*PublicKey).String` (key_model.go:97-99). -/
def publicStringN (k : Option PublicKey) : Out Bytes := do
  let k ← Out.deref k
  .ok k.string

/-- `(*Signature).GetR` (signature.go:60-63). -/
def getRN (s : Option Signature) : Out Nat := do
  let s ← Out.deref s
  .ok s.getR

/-- `(*Signature).GetS` (signature.go:66-69). -/
def getSN (s : Option Signature) : Out Nat := do
  let s ← Out.deref s
  .ok s.getS

/-- `(*Signature).Bytes` (signature.go:72-75). -/
def bytesN (s : Option Signature) : Out Bytes := do
  let s ← Out.deref s
  .ok s.bytes

/-- `(*Signature).String` (signature.go:77-80). -/
def signatureStringN (s : Option Signature) : Out Bytes := do
  let b ← bytesN s
  .ok (hexEncode b)

/-- `Ed25519DsaSigner` (ed25519_model.go:196-198). -/
structure SignerN where
  keyPair : Option KeyPairN

/-- `NewEd25519DsaSigner` (ed25519_model.go:201-203). -/
def newDsaSignerN (kp : Option KeyPairN) : Option SignerN := some ⟨kp⟩

/-- `IsCanonicalSignature` (ed25519_model.go:325-329); the receiver is not used. -/
def isCanonicalSignatureN (sig : Option Signature) : Out Bool := do
  let s ← getSN sig
  .ok (bigUint64 s != bigUint64 groupOrder && decide (bigUint64 s > 0))

/-- `MakeSignatureCanonical` (ed25519_model.go:332-342); the receiver is not used. -/
def makeSignatureCanonicalN (sig : Option Signature) : Out Signature := do
  let sg ← Out.deref sig
  let s ← newEncodedFieldElement (copy64 sg.S)
  newSignature sg.R (modQ s)

variable (E : Env)

/-- `Sign` (ed25519_model.go:206-263). -/
def signN (ref : Option SignerN) (mess : Bytes) : Out Signature := do
  let d ← Out.deref ref
  let has ← hasPrivateKeyN d.keyPair
  if !has then .err "cannot sign without private key"
  else do
    let kp ← Out.deref d.keyPair
    let k ← Out.deref kp.priv
    let hash := hashesSha3_512 E [k.raw]
    let hashR := hashesSha3_512 E [hash.drop 32, mess]
    let r ← newEncodedFieldElement hashR
    let rModQ := modQ r
    let b ← basePoint
    let R ← b.scalarMultiply rModQ
    let encodedR ← R.encode
    let pub ← Out.deref kp.pub
    let hashH := hashesSha3_512 E [encodedR, pub.raw, mess]
    let h ← newEncodedFieldElement hashH
    let hModQ := modQ h
    let a ← prepareForScalarMultiply E kp.priv
    let encodedS := multiplyAndAddModQ hModQ a rModQ
    let signature ← newSignature encodedR encodedS
    let can ← isCanonicalSignatureN (some signature)
    if !can then .err "Generated signature is not canonical"
    else .ok signature

/-- `Verify` (ed25519_model.go:270-322): the signature is looked at first, then the public key. -/
def verifyN (ref : Option SignerN) (mess : Bytes) (sig : Option Signature) : Out Bool := do
  let can ← isCanonicalSignatureN sig
  if !can then .ok false
  else do
    let d ← Out.deref ref
    let kp ← Out.deref d.keyPair
    let pub ← Out.deref kp.pub
    if isEqualConstantTime pub.raw (List.replicate 32 0) then .ok false
    else do
      let s ← Out.deref sig
      Out.orFalse (verifyEquation E pub mess s)

/-- `Ed25519BlockCipher` (ed25519_model.go:42-47). -/
structure CipherN where
  sender : Option KeyPairN
  recipient : Option KeyPairN
  keyLength : Nat
  seed : Nat

/-- `NewEd25519BlockCipher` (ed25519_model.go:50-62): the public key of the recipient is accessed here. -/
def newBlockCipherN (sender recipient : Option KeyPairN) (seed : Option Nat) : Out CipherN := do
  let r ← Out.deref recipient
  let p ← Out.deref r.pub
  .ok ⟨sender, recipient, p.raw.length, seed.getD 0⟩

/-- `GetSharedKey` (ed25519_model.go:120-144); the receiver is accessed after the encoding of the point. -/
def getSharedKeyN (ref : Option CipherN) (priv : Option PrivateKey) (pub : Option PublicKey) (salt : Bytes) : Out Bytes := do
  let p ← Out.deref pub
  let grA ← newEncodedGroupElement p.raw
  let senderA ← GC.decode grA
  let senderA ← (GE.ofGC senderA).precomputeForScalarMultiplication
  let a ← prepareForScalarMultiply E priv
  let el ← senderA.scalarMultiply a
  let sharedKey ← el.encode
  let c ← Out.deref ref
  let sharedKey ← (List.range c.keyLength).foldlM (xorSaltStep salt) sharedKey
  .ok (hashesSha3_256 E sharedKey)

/-- `ref.senderKeyPair.PrivateKey`, `ref.recipientKeyPair.PublicKey`, ... (ed25519_model.go:156, 187): a field of a pair behind a
pointer. -/
def privOf (kp : Option KeyPairN) : Out (Option PrivateKey) := do
  let k ← Out.deref kp
  .ok k.priv

/-- The public key behind a pointer to a pair (ed25519_model.go:156, 187). -/
def pubOf (kp : Option KeyPairN) : Out (Option PublicKey) := do
  let k ← Out.deref kp
  .ok k.pub

/-- `Encrypt` (ed25519_model.go:147-175). -/
def encryptN (ref : Option CipherN) (input : Bytes) : Act Bytes :=
  Act.bind (Act.lift (Out.deref ref)) fun c =>
  Act.bind (Act.read c.seed c.keyLength) fun salt =>
  Act.bind (Act.lift (privOf c.sender)) fun priv =>
  Act.bind (Act.lift (pubOf c.recipient)) fun pub =>
  Act.bind (Act.lift (getSharedKeyN E ref priv pub salt)) fun sharedKey =>
  Act.bind (Act.read c.seed 16) fun iv =>
  Act.bind (Act.lift (encode E input sharedKey iv)) fun buf =>
  Act.lift (.ok ((salt ++ iv) ++ buf))

/-- `Decrypt` (ed25519_model.go:178-193). -/
def decryptN (ref : Option CipherN) (input : Bytes) : Out Bytes :=
  if input.length < 64 then .err "input is to short for decryption"
  else do
    let c ← Out.deref ref
    if c.keyLength > 48 then .panic
    else do
      let salt := input.take c.keyLength
      let iv := (input.take 48).drop c.keyLength
      let encData := input.drop 48
      let priv ← privOf c.recipient
      let pub ← pubOf c.sender
      let sharedKey ← getSharedKeyN E ref priv pub salt
      decode E encData sharedKey iv

/-- An argument of type `CryptoEngine` (crypto_engine.go:8-17): the nil interface, a nil `*Ed25519SeedCryptoEngine` inside the interface,
or an engine with its source. -/
inductive EngineN | nilInterface | nilPointer | engine (seed : Option Nat)

/-- `if engine == nil { engine = CryptoEngines.DefaultEngine }` (key_pair.go:25-27, signer.go:19-21, cipher_model.go:12-14): a nil
pointer in an interface is not the nil interface. -/
def EngineN.orDefault : EngineN → EngineN
  | .nilInterface => .engine none
  | e => e

/-- `CreateKeyGenerator` (ed25519_model.go:27-29): the source, which a nil pointer does not have. -/
def EngineN.createKeyGenerator : EngineN → Out Nat
  | .engine seed => .ok (seed.getD 0)
  | _ => .panic

/-- `CreateKeyAnalyzer` (ed25519_model.go:37-39): does not access the engine. -/
def EngineN.createKeyAnalyzer : EngineN → Out Unit
  | .nilInterface => .panic
  | _ => .ok ()

/-- `CreateDsaSigner` (ed25519_model.go:22-24): does not access the engine. -/
def EngineN.createDsaSigner (e : EngineN) (kp : Option KeyPairN) : Out (Option SignerN) :=
  match e with
  | .nilInterface => .panic
  | _ => .ok (newDsaSignerN kp)

/-- `CreateBlockCipher` (ed25519_model.go:32-34). -/
def EngineN.createBlockCipher (e : EngineN) (sender recipient : Option KeyPairN) : Out CipherN :=
  match e with
  | .engine seed => newBlockCipherN sender recipient seed
  | _ => .panic

/-- `NewKeyPair` (key_pair.go:23-35). -/
def newKeyPairN (priv : Option PrivateKey) (pub : Option PublicKey) (engine : EngineN) : Out KeyPairN := do
  let engine := engine.orDefault
  match pub with
  | none => do
    let _ ← engine.createKeyGenerator
    let p ← derivePublicKey E priv
    .ok ⟨priv, some p⟩
  | some p => do
    engine.createKeyAnalyzer
    if !isKeyCompressed p then .err "publicKey must be in compressed form" else .ok ⟨priv, some p⟩

/-- `NewKeyPairByEngine` (key_pair.go:38-40): no default here. -/
def newKeyPairByEngineN (engine : EngineN) : Act KeyPairN :=
  Act.bind (Act.lift engine.createKeyGenerator) fun seed =>
  Act.bind (generateKeyPair E seed) fun kp =>
  Act.lift (.ok kp.toN)

/-- `NewSignerFromKeyPair` (signer.go:18-23). -/
def newSignerFromKeyPairN (kp : Option KeyPairN) (engine : EngineN) : Out (Option SignerN) := engine.orDefault.createDsaSigner kp

/-- `NewBlockCipher` (cipher_model.go:11-16). -/
def newBlockCipherIN (sender recipient : Option KeyPairN) (engine : EngineN) : Out CipherN :=
  engine.orDefault.createBlockCipher sender recipient

end Ed

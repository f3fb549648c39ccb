import Verif.Model.Keys
import Verif.Model.Reader

/-!
# The block cipher and the key generator (ed25519_model.go:41-193, 344-384)
-/

set_option autoImplicit false

namespace Ed

/-- Blocks of 16 bytes (the last one may be shorter). -/
def chunks16 (b : Bytes) : List Bytes :=
  if _h : b.length = 0 then [] else b.take 16 :: chunks16 (b.drop 16)
termination_by b.length
decreasing_by rw [List.length_drop]; omega

/-- XOR of two blocks. -/
def xorBlock (a b : Bytes) : Bytes := List.zipWith (· ^^^ ·) a b

variable (E : Env)

/-- CBC encryption of whole blocks (crypto/cipher, contract): c_i = E(p_i xor c_(i-1)), c_0 = iv. -/
def cbcEncBlocks (key : Bytes) : Bytes → List Bytes → List Bytes
  | _, [] => []
  | iv, p :: ps =>
    let c := E.aesE key (xorBlock p iv)
    c :: cbcEncBlocks key c ps

/-- CBC decryption of whole blocks (crypto/cipher, contract): p_i = D(c_i) xor c_(i-1). -/
def cbcDecBlocks (key : Bytes) : Bytes → List Bytes → List Bytes
  | _, [] => []
  | iv, c :: cs => xorBlock (E.aesD key c) iv :: cbcDecBlocks key c cs

/-- `aes.NewCipher` (contract): keys have 16, 24 or 32 bytes. -/
def aesNewCipher (key : Bytes) : Out Unit :=
  if key.length = 16 ∨ key.length = 24 ∨ key.length = 32 then .ok () else .err "crypto/aes: invalid key size"

/-- `cipher.NewCBCEncrypter/NewCBCDecrypter` panic unless the IV has the block size; `CryptBlocks` panics unless the
input is a multiple of the block size (contract). -/
def cbcChecks (iv src : Bytes) : Out Unit :=
  if iv.length ≠ 16 then .panic else if src.length % 16 ≠ 0 then .panic else .ok ()

/-- The padded buffer of `encode` (ed25519_model.go:71-81): 16 - len % 16 bytes of this value are appended. -/
def padMessage (message : Bytes) : Bytes :=
  let paddingSize := 16 - message.length % 16
  message ++ List.replicate paddingSize (UInt8.ofNat paddingSize)

/-- `encode` (ed25519_model.go:64-88). -/
def encode (message sharedKey iv : Bytes) : Out Bytes := do
  aesNewCipher sharedKey
  let buf := padMessage message
  cbcChecks iv buf
  .ok (cbcEncBlocks E sharedKey iv (chunks16 buf)).flatten

/-- The check and removal of the padding in `decode` (ed25519_model.go:101-117).  The loop compares
`buf[messageSize..]`; an empty buffer panics, and so does a padding longer than the buffer (negative index). -/
def unpad (buf : Bytes) : Out Bytes :=
  if buf.length = 0 then .panic
  else
    let paddingSize := (buf.getD (buf.length - 1) 0).toNat
    if paddingSize = 0 ∨ paddingSize > 16 then .err "blocks are corrupted, paddingSize is wrong"
    else if paddingSize > buf.length then .panic
    else
      let messageSize := buf.length - paddingSize
      if (buf.drop messageSize).any (fun b => b.toNat != paddingSize) then
        .err "blocks are corrupted, fake byte is not equal to paddingSize"
      else .ok (buf.take messageSize)

/-- `decode` (ed25519_model.go:90-118). -/
def decode (ciphertext sharedKey iv : Bytes) : Out Bytes := do
  aesNewCipher sharedKey
  cbcChecks iv ciphertext
  unpad (cbcDecBlocks E sharedKey iv (chunks16 ciphertext)).flatten

/-- `NewEd25519EncodedGroupElement` (ed25519_encode.go:1809-1815). -/
def newEncodedGroupElement (raw : Bytes) : Out Bytes :=
  if 32 ≠ raw.length then .err "Invalid encoded group element." else .ok raw

/-- One step of the loop at ed25519_model.go:139-141. -/
def xorSaltStep (salt raw : Bytes) (i : Nat) : Out Bytes := do
  let x ← Out.index raw i
  let s ← Out.index salt i
  .ok (raw.set i (x ^^^ s))

/-- `GetSharedKey` (ed25519_model.go:120-144).  The receiver is only used for its key length. -/
def getSharedKey (keyLength : Nat) (priv : Option PrivateKey) (pub : PublicKey) (salt : Bytes) : Out Bytes := do
  let grA ← newEncodedGroupElement pub.raw
  let senderA ← GC.decode grA
  let senderA ← (GE.ofGC senderA).precomputeForScalarMultiplication
  let a ← prepareForScalarMultiply E priv
  let el ← senderA.scalarMultiply a
  let sharedKey ← el.encode
  let sharedKey ← (List.range keyLength).foldlM (xorSaltStep salt) sharedKey
  .ok (hashesSha3_256 E sharedKey)

/-- `Ed25519BlockCipher` (ed25519_model.go:42-47). -/
structure BlockCipher where
  sender : KeyPair
  recipient : KeyPair
  keyLength : Nat
  seed : Nat

/-- `NewEd25519BlockCipher` (ed25519_model.go:50-62); a nil seed is `rand.Reader`. -/
def newBlockCipher (sender recipient : KeyPair) (seed : Option Nat) : BlockCipher :=
  ⟨sender, recipient, recipient.pub.raw.length, seed.getD 0⟩

/-- `Encrypt` (ed25519_model.go:147-175). -/
def BlockCipher.encrypt (c : BlockCipher) (input : Bytes) : Act Bytes :=
  Act.bind (Act.read c.seed c.keyLength) fun salt =>
  Act.bind (Act.lift (getSharedKey E c.keyLength c.sender.priv c.recipient.pub salt)) fun sharedKey =>
  Act.bind (Act.read c.seed 16) fun iv =>
  Act.bind (Act.lift (encode E input sharedKey iv)) fun buf =>
  Act.lift (.ok ((salt ++ iv) ++ buf))

/-- `Decrypt` (ed25519_model.go:178-193).  `input[:keyLength]` and `input[keyLength:48]` panic for key lengths above
48 (the input has at least 64 bytes). -/
def BlockCipher.decrypt (c : BlockCipher) (input : Bytes) : Out Bytes :=
  if input.length < 64 then .err "input is to short for decryption"
  else if c.keyLength > 48 then .panic
  else do
    let salt := input.take c.keyLength
    let iv := (input.take 48).drop c.keyLength
    let encData := input.drop 48
    let sharedKey ← getSharedKey E c.keyLength c.recipient.priv c.sender.pub salt
    decode E encData sharedKey iv

/-- `GenerateKeyPair` (ed25519_model.go:360-371). -/
def generateKeyPair (seed : Nat) : Act KeyPair :=
  Act.bind (Act.read seed 32) fun raw =>
  let privateKey := newPrivateKey raw
  Act.bind (Act.lift (derivePublicKey E (some privateKey))) fun publicKey =>
  Act.lift (newKeyPair E (some privateKey) (some publicKey))

end Ed

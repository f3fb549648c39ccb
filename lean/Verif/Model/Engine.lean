import Verif.Model.Cipher
import Verif.Model.Dsa

/-!
# The interfaces and their implementations (crypto_engine.go, signer.go, cipher_model.go, dsa_signer.go, key_model.go:19-32)

A Go interface value is a record of its methods; `none` is the nil interface.
-/

set_option autoImplicit false

namespace Ed

/-- `DsaSigner` (dsa_signer.go:8-17). -/
structure DsaSigner where
  sign : Bytes → Out Signature
  verify : Bytes → Signature → Out Bool
  isCanonicalSignature : Signature → Bool
  makeSignatureCanonical : Signature → Out Signature

/-- `KeyGenerator` (key_model.go:26-31). -/
structure KeyGenerator where
  generateKeyPair : Act KeyPair
  derivePublicKey : Option PrivateKey → Out PublicKey

/-- `BlockCipher` (cipher_model.go:19-24). -/
structure Cipher where
  encrypt : Bytes → Act Bytes
  decrypt : Bytes → Out Bytes

/-- `CryptoEngine` (crypto_engine.go:8-17). -/
structure CryptoEngine where
  createDsaSigner : KeyPair → DsaSigner
  createKeyGenerator : KeyGenerator
  createBlockCipher : KeyPair → KeyPair → Cipher
  /-- the method `IsKeyCompressed` of the `KeyAnalyzer` -/
  createKeyAnalyzer : PublicKey → Bool

variable (E : Env)

/-- `NewEd25519DsaSigner` (ed25519_model.go:201-203) with its methods. -/
def ed25519DsaSigner (kp : KeyPair) : DsaSigner := ⟨Ed.sign E kp, Ed.verify E kp.pub, Ed.isCanonicalSignature, Ed.makeSignatureCanonical⟩

/-- `NewEd25519KeyGenerator` (ed25519_model.go:350-357); nil is `rand.Reader`. -/
def ed25519KeyGenerator (seed : Option Nat) : KeyGenerator := ⟨Ed.generateKeyPair E (seed.getD 0), Ed.derivePublicKey E⟩

/-- `Ed25519SeedCryptoEngine` with its methods (ed25519_model.go:17-39). -/
def ed25519Engine (seed : Option Nat) : CryptoEngine where
  createDsaSigner := ed25519DsaSigner E
  createKeyGenerator := ed25519KeyGenerator E seed
  createBlockCipher := fun s r => ⟨(newBlockCipher s r seed).encrypt E, (newBlockCipher s r seed).decrypt E⟩
  createKeyAnalyzer := isKeyCompressed

/-- `CryptoEngines.DefaultEngine` (crypto_engine.go:26-29). -/
def defaultCryptoEngine : CryptoEngine := ed25519Engine E none

/-- `Signer` (signer.go:8-10). -/
structure Signer where
  signer : DsaSigner

/-- `NewSigner` (signer.go:13-15). -/
def newSigner (s : DsaSigner) : Signer := ⟨s⟩

/-- `NewSignerFromKeyPair` (signer.go:18-23). -/
def newSignerFromKeyPair (kp : KeyPair) (engine : Option CryptoEngine) : Signer :=
  let engine := engine.getD (defaultCryptoEngine E)
  newSigner (engine.createDsaSigner kp)

namespace Signer

/-- `Sign` (signer.go:26-29). -/
def sign (s : Signer) (data : Bytes) : Out Signature := s.signer.sign data
/-- `Verify` (signer.go:32-35). -/
def verify (s : Signer) (data : Bytes) (sig : Signature) : Out Bool := s.signer.verify data sig
/-- `IsCanonicalSignature` (signer.go:38-41). -/
def isCanonicalSignature (s : Signer) (sig : Signature) : Bool := s.signer.isCanonicalSignature sig
/-- `MakeSignatureCanonical` (signer.go:44-47). -/
def makeSignatureCanonical (s : Signer) (sig : Signature) : Out Signature := s.signer.makeSignatureCanonical sig

end Signer

/-- `NewBlockCipher` (cipher_model.go:11-16). -/
def newBlockCipherI (sender recipient : KeyPair) (engine : Option CryptoEngine) : Cipher :=
  let engine := engine.getD (defaultCryptoEngine E)
  engine.createBlockCipher sender recipient

/-- `NewKeyPair` (key_pair.go:23-35) with any engine. -/
def newKeyPairI (priv : Option PrivateKey) (pub : Option PublicKey) (engine : Option CryptoEngine) : Out KeyPair :=
  let engine := engine.getD (defaultCryptoEngine E)
  match pub with
  | none => do
    let p ← engine.createKeyGenerator.derivePublicKey priv
    .ok ⟨priv, p⟩
  | some p => if !engine.createKeyAnalyzer p then .err "publicKey must be in compressed form" else .ok ⟨priv, p⟩

/-- `NewKeyPairByEngine` (key_pair.go:38-40). -/
def newKeyPairByEngineI (engine : CryptoEngine) : Act KeyPair := engine.createKeyGenerator.generateKeyPair

/-- `NewRandomKeyPair` (key_pair.go:16-18). -/
def newRandomKeyPair : Act KeyPair := newKeyPairByEngineI (defaultCryptoEngine E)

end Ed

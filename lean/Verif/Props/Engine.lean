import Verif.Model.Engine
import Verif.Props.Cipher

/-!
# Property C46: signers, ciphers and key pairs created through engines
-/

set_option autoImplicit false

namespace Ed

variable (E : Env)

/-- `Signer` forwards every method to the DSA signer of the engine for the same key pair and with the same arguments, for every engine; a nil
engine means the default engine. -/
theorem C46_signer (kp : KeyPair) (engine : Option CryptoEngine) (m : Bytes) (sig : Signature) :
    let d := (match engine with | some e => e | none => defaultCryptoEngine E).createDsaSigner kp
    let s := newSignerFromKeyPair E kp engine
    s.sign m = d.sign m ∧ s.verify m sig = d.verify m sig ∧ s.isCanonicalSignature sig = d.isCanonicalSignature sig ∧
      s.makeSignatureCanonical sig = d.makeSignatureCanonical sig := by
  cases engine <;> exact ⟨rfl, rfl, rfl, rfl⟩

/-- With a nil engine or any Ed25519 engine, whatever its seed: the scheme of Spec/Scheme. -/
theorem C46_signer_ed25519 (k : PrivateKey) (pub : PublicKey) (engine : Option CryptoEngine)
    (he : engine = none ∨ ∃ seed, engine = some (ed25519Engine E seed)) (m : Bytes) (sig : Signature) :
    (newSignerFromKeyPair E ⟨some k, pub⟩ engine).sign m =
      (if LowBitsOk (sigS E k.raw pub.raw m) then .ok ⟨encodePoint (nonce E k.raw m • B), leBytes 32 (sigS E k.raw pub.raw m)⟩
      else .err "Generated signature is not canonical") ∧
    (newSignerFromKeyPair E ⟨some k, pub⟩ engine).verify m sig = Ed.verify E pub m sig := by
  rcases he with rfl | ⟨seed, rfl⟩ <;> exact ⟨sign_spec E k pub m, rfl⟩

/-- End to end: what one signer signs, every signer with the same public key (also without private key) accepts, for any Ed25519
engines on both sides; the signature is canonical and canonicalising leaves it alone. -/
theorem C46_sign_verify (k : PrivateKey) (kp kp' : KeyPair) (m : Bytes) (sig : Signature) (e1 e2 e3 : Option CryptoEngine)
    (h1 : e1 = none ∨ ∃ seed, e1 = some (ed25519Engine E seed)) (h2 : e2 = none ∨ ∃ seed, e2 = some (ed25519Engine E seed))
    (h3 : e3 = none ∨ ∃ seed, e3 = some (ed25519Engine E seed))
    (hk : newKeyPairI E (some k) none e1 = .ok kp) (hp : kp'.pub = kp.pub)
    (hs : (newSignerFromKeyPair E kp e2).sign m = .ok sig) :
    (newSignerFromKeyPair E kp' e3).verify m sig = .ok true ∧
    (newSignerFromKeyPair E kp' e3).isCanonicalSignature sig = true ∧
    (newSignerFromKeyPair E kp' e3).makeSignatureCanonical sig = .ok sig := by
  have hk' : newKeyPair E (some k) none = .ok kp := by
    rcases h1 with rfl | ⟨seed, rfl⟩ <;> exact hk
  have hs' : Ed.sign E kp m = .ok sig := by rcases h2 with rfl | ⟨seed, rfl⟩ <;> exact hs
  have hv := C18_keypair E k kp m sig hk' hs'
  have hc := C22_identity_on_signed E kp m sig hs'
  have hi : Ed.isCanonicalSignature sig = true := by
    rw [C30_derive] at hk'; injection hk' with hk'; subst hk'
    rw [sign_spec] at hs'
    split at hs'
    · rename_i hl
      injection hs' with hs'
      subst hs'
      rw [isCanonical_eq]
      show decide (LowBitsOk (leVal (leBytes 32 (sigS E k.raw (publicKeyOf E k.raw) m)))) = true
      have e : leVal (leBytes 32 (sigS E k.raw (publicKeyOf E k.raw) m)) = sigS E k.raw (publicKeyOf E k.raw) m := leVal_leBytes_modL _
      rw [e]
      exact decide_eq_true hl
    · cases hs'
  rcases h3 with rfl | ⟨seed, rfl⟩
  · exact ⟨by rw [← hv, ← hp]; rfl, hi, hc⟩
  · exact ⟨by rw [← hv, ← hp]; rfl, hi, hc⟩

/-- `NewKeyPair`: for all engines with the Ed25519 key analyzer and generator the result is the one of the default engine; for another
engine its generator and analyzer decide. -/
theorem C46_keypair (priv : Option PrivateKey) (pub : Option PublicKey) (seed : Option ℕ) :
    newKeyPairI E priv pub (some (ed25519Engine E seed)) = newKeyPairI E priv pub none ∧
    newKeyPairI E priv pub none = newKeyPair E priv pub := by
  cases pub <;> exact ⟨rfl, rfl⟩

theorem C46_keypair_other (e : CryptoEngine) (priv : Option PrivateKey) (p : PublicKey) (kp : KeyPair) :
    (newKeyPairI E priv (some p) (some e) = .ok kp ↔ e.createKeyAnalyzer p = true ∧ kp = ⟨priv, p⟩) ∧
    (newKeyPairI E priv none (some e) = .ok kp ↔ ∃ q, e.createKeyGenerator.derivePublicKey priv = .ok q ∧ kp = ⟨priv, q⟩) := by
  constructor
  · unfold newKeyPairI
    dsimp only [Option.getD]
    cases e.createKeyAnalyzer p <;> simp [eq_comm]
  · unfold newKeyPairI
    dsimp only [Option.getD]
    cases e.createKeyGenerator.derivePublicKey priv with
    | ok q => simp [eq_comm]
    | err m => simp
    | panic => simp

/-- `NewBlockCipher` with a nil engine reads from `crypto/rand`, with an Ed25519 engine from the seed of the engine (nil: `crypto/rand`); the message
comes back whatever engines the two sides use. -/
theorem C46_cipher (kA kB : PrivateKey) (pA pB : PublicKey) (hA : derivePublicKey E (some kA) = .ok pA)
    (hB : derivePublicKey E (some kB) = .ok pB) (privB' privA' : Option PrivateKey) (seed seed' : Option (Option ℕ)) (m : Bytes) (w : World)
    (hf : ErrorFree (w (seed.join.getD 0))) (hl : 48 ≤ (content (w (seed.join.getD 0))).length) :
    ∃ out, ((newBlockCipherI E ⟨some kA, pA⟩ ⟨privB', pB⟩ (seed.map (ed25519Engine E))).encrypt m w).1 = .ok out ∧
      out.take 48 = (content (w (seed.join.getD 0))).take 48 ∧
      (newBlockCipherI E ⟨privA', pA⟩ ⟨some kB, pB⟩ (seed'.map (ed25519Engine E))).decrypt out = .ok m := by
  have e1 : (newBlockCipherI E ⟨some kA, pA⟩ ⟨privB', pB⟩ (seed.map (ed25519Engine E))).encrypt =
      (newBlockCipher ⟨some kA, pA⟩ ⟨privB', pB⟩ seed.join).encrypt E := by cases seed <;> rfl
  have e2 : (newBlockCipherI E ⟨privA', pA⟩ ⟨some kB, pB⟩ (seed'.map (ed25519Engine E))).decrypt =
      (newBlockCipher ⟨privA', pA⟩ ⟨some kB, pB⟩ seed'.join).decrypt E := by cases seed' <;> rfl
  obtain ⟨out, o1, o2, o3⟩ := C25_roundtrip E kA kB pA pB hA hB privB' privA' seed.join seed'.join m w hf hl
  refine ⟨out, by rw [e1]; exact o1, ?_, by rw [e2]; exact o3⟩
  rw [derive_spec] at hA hB; cases hA; cases hB
  obtain ⟨out', p1, p2, _⟩ := C28_encrypt E (newBlockCipher ⟨some kA, ⟨publicKeyOf E kA.raw⟩⟩ ⟨privB', ⟨publicKeyOf E kB.raw⟩⟩ seed.join)
    kA (secretScalar E kB.raw • B) m w rfl (publicKeyOf_length E _) (publicKeyOf_length E _) (decodes_encodePoint _) hf hl
  rw [o1] at p1; injection p1 with p1; subst p1
  exact p2

/-- `NewKeyPairByEngine` and `NewRandomKeyPair` read the 32 bytes of the private key from the seed of the engine and from `crypto/rand`. -/
theorem C46_random (w : World) (seed : Option ℕ) (h : 32 ≤ (avail (w (seed.getD 0))).length) (h0 : 32 ≤ (avail (w 0)).length) :
    (newKeyPairByEngineI (ed25519Engine E seed) w).1 =
      .ok ⟨some (newPrivateKey ((content (w (seed.getD 0))).take 32)), ⟨publicKeyOf E ((content (w (seed.getD 0))).take 32)⟩⟩ ∧
    (newRandomKeyPair E w).1 = .ok ⟨some (newPrivateKey ((content (w 0)).take 32)), ⟨publicKeyOf E ((content (w 0)).take 32)⟩⟩ :=
  ⟨(C28_generate E _ w h).1, (C28_generate E 0 w h0).1⟩

/-- They leave the source 32 bytes further and the other sources as they were; any other engine's generator is called once, its result returned. -/
theorem C46_random_sources (w : World) (seed : Option ℕ) (h : 32 ≤ (avail (w (seed.getD 0))).length) :
    content ((newKeyPairByEngineI (ed25519Engine E seed) w).2 (seed.getD 0)) = (content (w (seed.getD 0))).drop 32 ∧
    (∀ i, i ≠ seed.getD 0 → (newKeyPairByEngineI (ed25519Engine E seed) w).2 i = w i) ∧
    newRandomKeyPair E w = newKeyPairByEngineI (ed25519Engine E none) w ∧
    ∀ e : CryptoEngine, newKeyPairByEngineI e w = e.createKeyGenerator.generateKeyPair w :=
  ⟨(C28_generate E _ w h).2.1, (C28_generate E _ w h).2.2.2, rfl, fun _ => rfl⟩

/-- `NewSigner` around any other signer changes nothing. -/
theorem C46_wrap (d : DsaSigner) (m : Bytes) (sig : Signature) :
    (newSigner d).sign m = d.sign m ∧ (newSigner d).verify m sig = d.verify m sig ∧
    (newSigner d).isCanonicalSignature sig = d.isCanonicalSignature sig ∧
    (newSigner d).makeSignatureCanonical sig = d.makeSignatureCanonical sig := ⟨rfl, rfl, rfl, rfl⟩

theorem signer_ok (raw m : Bytes) (pub : PublicKey) (h : LowBitsOk (sigS E raw pub.raw m)) :
    ∃ sig, (newSignerFromKeyPair E ⟨some (newPrivateKey raw), pub⟩ none).sign m = .ok sig := by
  have := (C46_signer_ed25519 E (newPrivateKey raw) pub none (.inl rfl) m ⟨[], []⟩).1
  exact ⟨_, this.trans (if_pos h)⟩

example : ∃ kp sig, newKeyPairI Env.toy (some (newPrivateKey (List.replicate 32 7))) none (some (ed25519Engine Env.toy (some 3))) = .ok kp ∧
    (newSignerFromKeyPair Env.toy kp none).sign [1, 2, 3] = .ok sig := by
  obtain ⟨sig, hs⟩ := signer_ok Env.toy (List.replicate 32 7) [1, 2, 3] ⟨publicKeyOf Env.toy (List.replicate 32 7)⟩ toy_sign_ok
  refine ⟨_, sig, ?_, hs⟩
  rw [(C46_keypair Env.toy _ _ _).1, (C46_keypair Env.toy _ _ none).2]; exact C30_derive Env.toy _

end Ed

import Verif.Model.Nil
import Verif.Props.Panics

/-!
# Property C80: nil pointers

`Model/Nil` has the functions of the API with every pointer optional.  Without nil they are the functions of the other properties
(`C80_no_nil_*`); with nil the theorems say exactly which calls panic, and that no call with a nil it needs returns a result.
-/

set_option autoImplicit false

namespace Ed

variable (E : Env)

/-! ## Without nil -/

theorem C80_no_nil_sign (kp : KeyPair) (m : Bytes) : signN E (newDsaSignerN (some kp.toN)) m = sign E kp m := by
  obtain ⟨priv, pub⟩ := kp
  cases priv <;> rfl

theorem C80_no_nil_verify (kp : KeyPair) (m : Bytes) (sig : Signature) :
    verifyN E (newDsaSignerN (some kp.toN)) m (some sig) = verify E kp.pub m sig := rfl

theorem C80_no_nil_canonical (sig : Signature) :
    isCanonicalSignatureN (some sig) = .ok (isCanonicalSignature sig) ∧ makeSignatureCanonicalN (some sig) = makeSignatureCanonical sig :=
  ⟨rfl, rfl⟩

theorem C80_no_nil_sharedKey (c : CipherN) (priv : Option PrivateKey) (pub : PublicKey) (salt : Bytes) :
    getSharedKeyN E (some c) priv (some pub) salt = getSharedKey E c.keyLength priv pub salt := rfl

/-- The cipher that `NewEd25519BlockCipher` makes of two complete pairs. -/
def CipherN.of (snd rcp : KeyPair) (seed : Option ℕ) : CipherN := ⟨some snd.toN, some rcp.toN, rcp.pub.raw.length, seed.getD 0⟩

theorem C80_no_nil_cipher (snd rcp : KeyPair) (seed : Option ℕ) :
    newBlockCipherN (some snd.toN) (some rcp.toN) seed = .ok (CipherN.of snd rcp seed) ∧
    (∀ m, encryptN E (some (CipherN.of snd rcp seed)) m = (newBlockCipher snd rcp seed).encrypt E m) ∧
    ∀ b, decryptN E (some (CipherN.of snd rcp seed)) b = (newBlockCipher snd rcp seed).decrypt E b :=
  ⟨rfl, fun _ => rfl, fun _ => rfl⟩

/-- The engine: with a nil interface or an engine, a non-nil public key or private key, the constructors are those of C30, C46. -/
theorem C80_no_nil_keyPair (priv : Option PrivateKey) (pub : Option PublicKey) (e : EngineN) (he : e ≠ .nilPointer) :
    newKeyPairN E priv pub e = (newKeyPair E priv pub >>= fun kp => .ok kp.toN) := by
  cases e with
  | nilPointer => exact absurd rfl he
  | nilInterface =>
    cases pub with
    | none => show (derivePublicKey E priv >>= _) = ((derivePublicKey E priv >>= _) >>= _); cases derivePublicKey E priv <;> rfl
    | some p => by_cases h : isKeyCompressed p <;> simp [newKeyPairN, newKeyPair, EngineN.orDefault, EngineN.createKeyAnalyzer, h, KeyPair.toN]
  | engine seed =>
    cases pub with
    | none => show (derivePublicKey E priv >>= _) = ((derivePublicKey E priv >>= _) >>= _); cases derivePublicKey E priv <;> rfl
    | some p => by_cases h : isKeyCompressed p <;> simp [newKeyPairN, newKeyPair, EngineN.orDefault, EngineN.createKeyAnalyzer, h, KeyPair.toN]

/-- With an engine, the signer and the cipher of the engine are those of the constructors, sender and recipient in this order, and a new pair is generated from
the source of the engine (nil: `crypto/rand`), which is left as `GenerateKeyPair` leaves it. -/
theorem C80_no_nil_engine (a b : Option KeyPairN) (seed : Option ℕ) (w : World) :
    newSignerFromKeyPairN a (.engine seed) = .ok (newDsaSignerN a) ∧ newBlockCipherIN a b (.engine seed) = newBlockCipherN a b seed ∧
    (newKeyPairByEngineN E (.engine seed) w).1 = ((generateKeyPair E (seed.getD 0) w).1 >>= fun kp => .ok kp.toN) ∧
    (newKeyPairByEngineN E (.engine seed) w).2 = (generateKeyPair E (seed.getD 0) w).2 := by
  refine ⟨rfl, rfl, ?_⟩
  show (Act.bind (generateKeyPair E (seed.getD 0)) (fun kp => Act.lift (.ok kp.toN)) w).1 = _ ∧
    (Act.bind (generateKeyPair E (seed.getD 0)) (fun kp => Act.lift (.ok kp.toN)) w).2 = _
  unfold Act.bind
  generalize generateKeyPair E (seed.getD 0) w = r
  obtain ⟨o, w'⟩ := r
  cases o <;> exact ⟨rfl, rfl⟩

/-! ## Methods that only read their pointer -/

/-- The methods of keys, pairs and signatures panic exactly for a nil receiver, `IsKeyCompressed`, `IsCanonicalSignature` and
`MakeSignatureCanonical` exactly for a nil argument. -/
theorem C80_methods (kp : Option KeyPairN) (k : Option PrivateKey) (p : Option PublicKey) (s : Option Signature) :
    (hasPrivateKeyN kp = .panic ↔ kp = none) ∧ (privateStringN k = .panic ↔ k = none) ∧
    (publicStringN p = .panic ↔ p = none) ∧ (isKeyCompressedN p = .panic ↔ p = none) ∧
    (getRN s = .panic ↔ s = none) ∧ (getSN s = .panic ↔ s = none) ∧ (bytesN s = .panic ↔ s = none) ∧
    (signatureStringN s = .panic ↔ s = none) ∧ (isCanonicalSignatureN s = .panic ↔ s = none) ∧
    (makeSignatureCanonicalN s = .panic ↔ s = none) := by
  refine ⟨?_, ?_, ?_, ?_, ?_, ?_, ?_, ?_, ?_, ?_⟩
  · cases kp <;> first | exact ⟨fun _ => rfl, fun _ => rfl⟩ | exact ⟨nofun, nofun⟩
  · cases k <;> first | exact ⟨fun _ => rfl, fun _ => rfl⟩ | exact ⟨nofun, nofun⟩
  · cases p <;> first | exact ⟨fun _ => rfl, fun _ => rfl⟩ | exact ⟨nofun, nofun⟩
  · cases p <;> first | exact ⟨fun _ => rfl, fun _ => rfl⟩ | exact ⟨nofun, nofun⟩
  · cases s <;> first | exact ⟨fun _ => rfl, fun _ => rfl⟩ | exact ⟨nofun, nofun⟩
  · cases s <;> first | exact ⟨fun _ => rfl, fun _ => rfl⟩ | exact ⟨nofun, nofun⟩
  · cases s <;> first | exact ⟨fun _ => rfl, fun _ => rfl⟩ | exact ⟨nofun, nofun⟩
  · cases s <;> first | exact ⟨fun _ => rfl, fun _ => rfl⟩ | exact ⟨nofun, nofun⟩
  · cases s <;> first | exact ⟨fun _ => rfl, fun _ => rfl⟩ | exact ⟨nofun, nofun⟩
  · cases s with
    | none => exact ⟨fun _ => rfl, fun _ => rfl⟩
    | some s => exact ⟨fun h => absurd h (C78_makeCanonical s), nofun⟩

/-- For a non-nil receiver they give what the methods of C33, C34, C35 and C37 give. -/
theorem C80_methods_values (kp : KeyPairN) (k : PrivateKey) (p : PublicKey) (s : Signature) :
    hasPrivateKeyN (some kp) = .ok kp.priv.isSome ∧ privateStringN (some k) = .ok k.string ∧ publicStringN (some p) = .ok p.string ∧
    isKeyCompressedN (some p) = .ok (isKeyCompressed p) ∧ getRN (some s) = .ok s.getR ∧ getSN (some s) = .ok s.getS ∧
    bytesN (some s) = .ok s.bytes ∧ signatureStringN (some s) = .ok s.string :=
  ⟨rfl, rfl, rfl, rfl, rfl, rfl, rfl, rfl⟩

/-! ## Sign and Verify -/

/-- A private key without public key: `Sign` computes R and then panics. -/
theorem signN_nilPub (k : PrivateKey) (m : Bytes) : signN E (some ⟨some ⟨some k, none⟩⟩) m = .panic := by
  obtain ⟨g, g1, g2, g3, g4, g5⟩ := basePoint_spec
  have hr : modQ (Hash E ((Hash E k.raw).drop 32 ++ m)) = leBytes 32 (nonce E k.raw m) := modQ_hash (Hash_length E _)
  have hrv : leVal (leBytes 32 (nonce E k.raw m)) = nonce E k.raw m := leVal_leBytes_modL _
  obtain ⟨h, h1, h2, h3⟩ := GE.scalarMultiply_spec g4 (leBytes 32 (nonce E k.raw m)) (by rw [hrv]; exact modL_lt255 _)
  rw [hrv] at h3
  have henc : h.encode = .ok (sigR E k.raw m) := GC.encode_repr (Or.inr (Or.inl h2)) h3
  unfold signN hasPrivateKeyN
  generalize basePoint = bp at g1 ⊢
  simp only [Option.isSome_some, Bool.not_true, Bool.false_eq_true, if_false, Out.deref,
    Out.bind_ok, hashes_flatten, List.flatten_cons, List.flatten_nil, List.append_nil,
    newEncoded_64 (Hash_length E _), hr, g1, h1, henc]
  rfl

/-- `Sign` panics exactly if the signer or its pair is nil, or the pair has a private but no public key. -/
theorem C80_sign (ref : Option SignerN) (m : Bytes) :
    signN E ref m = .panic ↔
      ref = none ∨ ref = some ⟨none⟩ ∨ ∃ k, ref = some ⟨some ⟨some k, none⟩⟩ := by
  rcases ref with _ | ⟨_ | ⟨priv, pub⟩⟩
  · exact ⟨fun _ => Or.inl rfl, fun _ => rfl⟩
  · exact ⟨fun _ => Or.inr (Or.inl rfl), fun _ => rfl⟩
  · cases priv with
    | none => exact ⟨nofun, fun h => by rcases h with h | h | ⟨k, h⟩ <;> exact nomatch h⟩
    | some k =>
      cases pub with
      | none => exact ⟨fun _ => Or.inr (Or.inr ⟨k, rfl⟩), fun _ => signN_nilPub E k m⟩
      | some p =>
        refine ⟨fun h => absurd ((C80_no_nil_sign E ⟨some k, p⟩ m).symm.trans h) (C78_sign E _ m), fun h => ?_⟩
        rcases h with h | h | ⟨k, h⟩ <;> exact nomatch h

/-- A pair without private key gets the error, whatever its public key, even nil. -/
theorem C80_sign_no_private (pub : Option PublicKey) (m : Bytes) :
    signN E (newDsaSignerN (some ⟨none, pub⟩)) m = .err "cannot sign without private key" := rfl

/-- `Verify` panics exactly if the signature is nil or, for an S that passes the filter on its low bits, if the signer, its pair or the
public key is nil or the call panics without any nil (see C78). -/
theorem C80_verify (ref : Option SignerN) (m : Bytes) (sig : Option Signature) :
    verifyN E ref m sig = .panic ↔
      sig = none ∨ ∃ s, sig = some s ∧ LowBitsOk (leVal s.S) ∧
        (ref = none ∨ ref = some ⟨none⟩ ∨ (∃ k, ref = some ⟨some ⟨k, none⟩⟩) ∨
          ∃ k p, ref = some ⟨some ⟨k, some p⟩⟩ ∧ verify E p m s = .panic) := by
  cases sig with
  | none => exact ⟨fun _ => Or.inl rfl, fun _ => rfl⟩
  | some s =>
    have hiff := C23_decides_low_bits s
    by_cases hc : LowBitsOk (leVal s.S)
    · have hi : isCanonicalSignatureN (some s) = .ok true := congrArg Out.ok (hiff.2 hc)
      rcases ref with _ | ⟨_ | ⟨priv, pub⟩⟩
      · refine ⟨fun _ => Or.inr ⟨s, rfl, hc, Or.inl rfl⟩, fun _ => ?_⟩
        unfold verifyN; rw [hi]; rfl
      · refine ⟨fun _ => Or.inr ⟨s, rfl, hc, Or.inr (Or.inl rfl)⟩, fun _ => ?_⟩
        unfold verifyN; rw [hi]; rfl
      · cases pub with
        | none =>
          refine ⟨fun _ => Or.inr ⟨s, rfl, hc, Or.inr (Or.inr (Or.inl ⟨priv, rfl⟩))⟩, fun _ => ?_⟩
          unfold verifyN; rw [hi]; rfl
        | some p =>
          rw [show verifyN E (some ⟨some ⟨priv, some p⟩⟩) m (some s) = verify E p m s from rfl]
          refine ⟨fun h => Or.inr ⟨s, rfl, hc, Or.inr (Or.inr (Or.inr ⟨priv, p, rfl, h⟩))⟩, fun h => ?_⟩
          rcases h with h | ⟨s', hs, _, h | h | ⟨k, h⟩ | ⟨k, p', h, hv⟩⟩
          · exact nomatch h
          · exact nomatch h
          · exact nomatch h
          · exact nomatch h
          · cases h; cases hs; exact hv
    · have hi : isCanonicalSignatureN (some s) = .ok false := congrArg Out.ok (Bool.eq_false_iff.2 fun h => hc (hiff.1 h))
      have hv : verifyN E ref m (some s) = .ok false := by unfold verifyN; rw [hi]; rfl
      rw [hv]
      refine ⟨nofun, fun h => ?_⟩
      rcases h with h | ⟨s', hs, h', _⟩
      · exact nomatch h
      · cases hs; exact absurd h' hc

/-! ## Encryption -/

/-- `NewEd25519BlockCipher` panics exactly if the recipient or its public key is nil; the sender is not looked at. -/
theorem C80_newCipher (snd rcp : Option KeyPairN) (seed : Option ℕ) :
    newBlockCipherN snd rcp seed = .panic ↔ rcp = none ∨ ∃ k, rcp = some ⟨k, none⟩ := by
  rcases rcp with _ | ⟨priv, _ | p⟩
  · exact ⟨fun _ => Or.inl rfl, fun _ => rfl⟩
  · exact ⟨fun _ => Or.inr ⟨priv, rfl⟩, fun _ => rfl⟩
  · exact ⟨nofun, fun h => by rcases h with h | ⟨k, h⟩ <;> exact nomatch h⟩

/-- `GetSharedKey` panics exactly for a nil public key or, if the public key is usable, for a nil private key, a nil cipher, a key length above
32 or a salt shorter than the key length. -/
theorem C80_sharedKey (ref : Option CipherN) (priv : Option PrivateKey) (pub : Option PublicKey) (salt : Bytes) :
    getSharedKeyN E ref priv pub salt = .panic ↔
      pub = none ∨ ∃ p, pub = some p ∧ UsableKey p ∧
        (priv = none ∨ ref = none ∨ ∃ c, ref = some c ∧ (32 < c.keyLength ∨ salt.length < c.keyLength)) := by
  cases pub with
  | none => exact ⟨fun _ => Or.inl rfl, fun _ => rfl⟩
  | some p =>
    cases ref with
    | some c =>
      rw [C80_no_nil_sharedKey, C78_sharedKey]
      constructor
      · rintro ⟨h1, h2⟩
        refine Or.inr ⟨p, rfl, h1, ?_⟩
        rcases h2 with h2 | h2
        · exact Or.inl h2
        · exact Or.inr (Or.inr ⟨c, rfl, h2⟩)
      · rintro (h | ⟨p', hp, h1, h2 | h2 | ⟨c', hc, h2⟩⟩)
        · exact nomatch h
        · cases hp; exact ⟨h1, Or.inl h2⟩
        · exact nomatch h2
        · cases hp; cases hc; exact ⟨h1, Or.inr h2⟩
    | none =>
      have key : getSharedKeyN E none priv (some p) salt = .panic ↔ UsableKey p := by
        constructor
        · intro h
          by_contra hu
          unfold getSharedKeyN newEncodedGroupElement at h
          simp only [Out.deref, Out.bind_ok] at h
          by_cases hl : p.raw.length = 32
          · rw [if_neg (by omega), Out.bind_ok] at h
            rcases GC.decode_cases (Or.inl hl) with ⟨q, hq⟩ | ⟨⟨e, hd⟩, _⟩
            · rw [List.take_of_length_le (by omega)] at hq
              exact absurd ⟨hl, q, hq⟩ hu
            · rw [hd] at h; exact nomatch h
          · rw [if_pos (by omega)] at h; exact nomatch h
        · rintro ⟨hl, q, hq⟩
          obtain ⟨A, A1, A2, A3, _⟩ := GC.decode_ok (Or.inl hl) (by rw [List.take_of_length_le (by omega)]; exact hq)
          obtain ⟨A', B1, B2, B3, B4⟩ := GE.precomputeSingle_spec (g := GE.ofGC A) A2 A3 rfl
          unfold getSharedKeyN newEncodedGroupElement
          simp only [Out.deref, Out.bind_ok]
          rw [if_neg (by omega), Out.bind_ok, A1, Out.bind_ok, B1, Out.bind_ok]
          cases priv with
          | none => rfl
          | some k =>
            obtain ⟨a, a1, a2, a3⟩ := prepare_spec E k
            obtain ⟨h, h1, h2, h3⟩ := GE.scalarMultiply_spec B4 a (by rw [a3]; exact (secretScalar_bounds E _).2.1)
            have henc := GC.encode_repr (Or.inr (Or.inl h2)) h3
            rw [a1, Out.bind_ok, h1, Out.bind_ok, henc, Out.bind_ok]
            rfl
      rw [key]
      constructor
      · exact fun h => Or.inr ⟨p, rfl, h, Or.inr (Or.inl rfl)⟩
      · rintro (h | ⟨p', hp, h1, _⟩)
        · exact nomatch h
        · cases hp; exact h1

/-- A cipher of `NewEd25519BlockCipher`, sender possibly nil: `Encrypt` panics exactly if the source delivers the salt and the sender is nil,
or has no private key while the recipient's public key is usable.  A nil public key of the sender does not matter. -/
theorem C80_encrypt (snd : Option KeyPairN) (rpriv : Option PrivateKey) (p : PublicKey) (seed : Option ℕ) (c : CipherN)
    (hc : newBlockCipherN snd (some ⟨rpriv, some p⟩) seed = .ok c) (m : Bytes) (w : World) :
    (encryptN E (some c) m w).1 = .panic ↔
      (p.raw.length ≤ (avail (w (seed.getD 0))).length ∧ snd = none) ∨
      (32 ≤ (avail (w (seed.getD 0))).length ∧ UsableKey p ∧ ∃ sp, snd = some ⟨none, sp⟩) := by
  cases hc
  rcases snd with _ | ⟨spriv, sp⟩
  · have hs : (encryptN E (some ⟨none, some ⟨rpriv, some p⟩, p.raw.length, seed.getD 0⟩) m w).1 =
        (Act.bind (Act.read (seed.getD 0) p.raw.length) (fun _ => Act.lift (.panic : Out Bytes)) w).1 := by
      show (Act.bind (Act.read (seed.getD 0) p.raw.length) _ w).1 = _
      unfold Act.bind
      cases (Act.read (seed.getD 0) p.raw.length w).1 <;> rfl
    rw [hs]
    by_cases h : p.raw.length ≤ (avail (w (seed.getD 0))).length
    · obtain ⟨r1, _, _⟩ := read_ok h
      rw [Act.bind_ok' r1]
      exact ⟨fun _ => Or.inl ⟨h, rfl⟩, fun _ => rfl⟩
    · obtain ⟨e, he⟩ := read_short (seed := seed.getD 0) (w := w) (n := p.raw.length) (by omega)
      rw [Act.bind_err he]
      refine ⟨nofun, fun hh => ?_⟩
      rcases hh with hh | ⟨_, _, _, hh⟩
      · exact absurd hh.1 h
      · exact nomatch hh
  · have hs : encryptN E (some ⟨some ⟨spriv, sp⟩, some ⟨rpriv, some p⟩, p.raw.length, seed.getD 0⟩) m =
        (newBlockCipher ⟨spriv, p⟩ ⟨rpriv, p⟩ seed).encrypt E m := rfl
    rw [hs, C78_encrypt]
    constructor
    · rintro ⟨h1, h2, h3⟩
      exact Or.inr ⟨h1, h2, sp, congrArg (fun x => some (KeyPairN.mk x sp)) h3⟩
    · rintro (h | ⟨h1, h2, sp', h3⟩)
      · exact nomatch h.2
      · cases h3; exact ⟨h1, h2, rfl⟩

/-- The same for `Decrypt`: it needs the private key of the recipient and the public key of the sender. -/
theorem C80_decrypt (snd : Option KeyPairN) (rpriv : Option PrivateKey) (p : PublicKey) (seed : Option ℕ) (c : CipherN)
    (hc : newBlockCipherN snd (some ⟨rpriv, some p⟩) seed = .ok c) (b : Bytes) :
    decryptN E (some c) b = .panic ↔
      64 ≤ b.length ∧ (48 < p.raw.length ∨ snd = none ∨ (∃ k, snd = some ⟨k, none⟩) ∨
        ∃ k q, snd = some ⟨k, some q⟩ ∧ UsableKey q ∧ (rpriv = none ∨ p.raw.length ≠ 32 ∨ b.length % 16 ≠ 0)) := by
  cases hc
  by_cases hb : b.length < 64
  · have : decryptN E (some ⟨snd, some ⟨rpriv, some p⟩, p.raw.length, seed.getD 0⟩) b = .err "input is to short for decryption" := by
      unfold decryptN; rw [if_pos hb]
    rw [this]
    exact ⟨nofun, fun h => absurd h.1 (by omega)⟩
  · rcases snd with _ | ⟨spriv, _ | q⟩
    · refine ⟨fun _ => ⟨by omega, Or.inr (Or.inl rfl)⟩, fun _ => ?_⟩
      unfold decryptN
      rw [if_neg hb]
      simp only [Out.deref, Out.bind_ok]
      split <;> rfl
    · refine ⟨fun _ => ⟨by omega, Or.inr (Or.inr (Or.inl ⟨_, rfl⟩))⟩, fun _ => ?_⟩
      unfold decryptN
      rw [if_neg hb]
      simp only [Out.deref, Out.bind_ok]
      split <;> rfl
    · have hs : decryptN E (some ⟨some ⟨spriv, some q⟩, some ⟨rpriv, some p⟩, p.raw.length, seed.getD 0⟩) b =
          (newBlockCipher ⟨spriv, q⟩ ⟨rpriv, p⟩ seed).decrypt E b := rfl
      rw [hs, C78_decrypt]
      constructor
      · rintro ⟨h1, h2 | ⟨h2, h3⟩⟩
        · exact ⟨h1, Or.inl h2⟩
        · exact ⟨h1, Or.inr (Or.inr (Or.inr ⟨_, _, rfl, h2, h3⟩))⟩
      · rintro ⟨h1, h2 | h2 | ⟨k, h2⟩ | ⟨k, q', h2, h3, h4⟩⟩
        · exact ⟨h1, Or.inl h2⟩
        · exact nomatch h2
        · exact nomatch h2
        · cases h2; exact ⟨h1, Or.inr ⟨h3, h4⟩⟩

/-- The methods of a nil cipher: `Encrypt` panics, `Decrypt` reports short inputs and panics on the others. -/
theorem C80_nil_cipher (m b : Bytes) (w : World) :
    (encryptN E none m w).1 = .panic ∧ (decryptN E none b = .panic ↔ 64 ≤ b.length) := by
  refine ⟨rfl, ?_⟩
  unfold decryptN
  by_cases hb : b.length < 64
  · rw [if_pos hb]; exact ⟨nofun, fun h => by omega⟩
  · rw [if_neg hb]; exact ⟨fun _ => by omega, fun _ => rfl⟩

/-! ## Engines -/

/-- A nil interface means the default engine for `NewKeyPair`, `NewSignerFromKeyPair` and `NewBlockCipher`, but makes
`NewKeyPairByEngine` panic. -/
theorem C80_nil_interface (priv : Option PrivateKey) (pub : Option PublicKey) (a b : Option KeyPairN) (w : World) :
    newKeyPairN E priv pub .nilInterface = newKeyPairN E priv pub (.engine none) ∧
    newSignerFromKeyPairN a .nilInterface = newSignerFromKeyPairN a (.engine none) ∧
    newBlockCipherIN a b .nilInterface = newBlockCipherIN a b (.engine none) ∧
    (newKeyPairByEngineN E .nilInterface w).1 = .panic := ⟨rfl, rfl, rfl, rfl⟩

/-- A nil pointer to an engine, stored in the interface, does not: it can check a public key and make a signer, but panics where the
source would be needed, even to derive a public key or to make a cipher. -/
theorem C80_nil_pointer (priv : Option PrivateKey) (p : PublicKey) (a b : Option KeyPairN) (w : World) :
    newKeyPairN E priv (some p) .nilPointer = newKeyPairN E priv (some p) (.engine none) ∧
    newKeyPairN E priv none .nilPointer = .panic ∧
    newSignerFromKeyPairN a .nilPointer = .ok (newDsaSignerN a) ∧
    newBlockCipherIN a b .nilPointer = .panic ∧
    (newKeyPairByEngineN E .nilPointer w).1 = .panic := ⟨rfl, rfl, rfl, rfl, rfl⟩

/-! ## No result without the keys -/

/-- A signature is only returned for a pair with both keys; `Verify` only returns true for a non-nil signature and public key. -/
theorem C80_result_sign (ref : Option SignerN) (m : Bytes) (sig : Signature) (h : signN E ref m = .ok sig) :
    ∃ k p, ref = some ⟨some ⟨some k, some p⟩⟩ ∧ sign E ⟨some k, p⟩ m = .ok sig := by
  rcases ref with _ | ⟨_ | ⟨_ | k, _ | p⟩⟩
  · exact nomatch h
  · exact nomatch h
  · exact nomatch h
  · exact nomatch h
  · rw [signN_nilPub] at h; exact nomatch h
  · exact ⟨k, p, rfl, (C80_no_nil_sign E ⟨some k, p⟩ m).symm.trans h⟩

theorem C80_result_verify (ref : Option SignerN) (m : Bytes) (sig : Option Signature) (h : verifyN E ref m sig = .ok true) :
    ∃ k p s, ref = some ⟨some ⟨k, some p⟩⟩ ∧ sig = some s ∧ verify E p m s = .ok true := by
  cases sig with
  | none => exact nomatch h
  | some s =>
    rcases ref with _ | ⟨_ | ⟨k, _ | p⟩⟩
    · unfold verifyN at h
      cases hi : isCanonicalSignatureN (some s) with
      | ok b => rw [hi] at h; cases b <;> exact nomatch h
      | err e => rw [hi] at h; exact nomatch h
      | panic => rw [hi] at h; exact nomatch h
    · unfold verifyN at h
      cases hi : isCanonicalSignatureN (some s) with
      | ok b => rw [hi] at h; cases b <;> exact nomatch h
      | err e => rw [hi] at h; exact nomatch h
      | panic => rw [hi] at h; exact nomatch h
    · unfold verifyN at h
      cases hi : isCanonicalSignatureN (some s) with
      | ok b => rw [hi] at h; cases b <;> exact nomatch h
      | err e => rw [hi] at h; exact nomatch h
      | panic => rw [hi] at h; exact nomatch h
    · exact ⟨k, p, s, rfl, rfl, h⟩

theorem sharedKeyN_ok {ref : Option CipherN} {priv : Option PrivateKey} {pub : Option PublicKey} {salt key : Bytes}
    (h : getSharedKeyN E ref priv pub salt = .ok key) : (∃ k, priv = some k) ∧ (∃ p, pub = some p ∧ UsableKey p) ∧ ∃ c, ref = some c := by
  have hn : ¬ getSharedKeyN E ref priv pub salt = .panic := by rw [h]; exact nofun
  rw [C80_sharedKey, not_or] at hn
  cases pub with
  | none => exact absurd rfl hn.1
  | some p =>
    have hu : UsableKey p := by
      by_contra hu
      cases ref with
      | some c =>
        obtain ⟨e, he⟩ := C24_bad_key E c.keyLength priv p salt hu
        exact nomatch (show Out.err e = .ok key from he.symm.trans h)
      | none =>
        unfold getSharedKeyN newEncodedGroupElement at h
        simp only [Out.deref, Out.bind_ok] at h
        by_cases hl : p.raw.length = 32
        · rw [if_neg (by omega), Out.bind_ok] at h
          rcases GC.decode_cases (Or.inl hl) with ⟨q, hq⟩ | ⟨⟨e, hd⟩, _⟩
          · rw [List.take_of_length_le (by omega)] at hq
            exact absurd ⟨hl, q, hq⟩ hu
          · rw [hd] at h; exact nomatch h
        · rw [if_pos (by omega)] at h; exact nomatch h
    refine ⟨?_, ⟨p, rfl, hu⟩, ?_⟩
    · cases priv with
      | some k => exact ⟨k, rfl⟩
      | none => exact absurd ⟨p, rfl, hu, Or.inl rfl⟩ hn.2
    · cases ref with
      | some c => exact ⟨c, rfl⟩
      | none => exact absurd ⟨p, rfl, hu, Or.inr (Or.inl rfl)⟩ hn.2

/-- `GetSharedKey` only returns a key if neither of the keys is nil (nor the cipher). -/
theorem C80_result_sharedKey (ref : Option CipherN) (priv : Option PrivateKey) (pub : Option PublicKey) (salt key : Bytes)
    (h : getSharedKeyN E ref priv pub salt = .ok key) : priv ≠ none ∧ pub ≠ none ∧ ref ≠ none := by
  obtain ⟨⟨k, rfl⟩, ⟨p, rfl, _⟩, ⟨c, rfl⟩⟩ := sharedKeyN_ok E h
  exact ⟨nofun, nofun, nofun⟩

/-- `Encrypt` only returns a ciphertext if the sender has a private key and the recipient a public one. -/
theorem C80_result_encrypt (ref : Option CipherN) (m ct : Bytes) (w : World) (h : (encryptN E ref m w).1 = .ok ct) :
    ∃ k sp rpriv p kl sd, ref = some ⟨some ⟨some k, sp⟩, some ⟨rpriv, some p⟩, kl, sd⟩ := by
  rcases ref with _ | ⟨snd, rcp, kl, sd⟩
  · exact nomatch h
  · have h' : (Act.bind (Act.read sd kl) (fun salt =>
        Act.bind (Act.lift (privOf snd)) fun priv =>
        Act.bind (Act.lift (pubOf rcp)) fun pub =>
        Act.bind (Act.lift (getSharedKeyN E (some ⟨snd, rcp, kl, sd⟩) priv pub salt)) fun sharedKey =>
        Act.bind (Act.read sd 16) fun iv =>
        Act.bind (Act.lift (encode E m sharedKey iv)) fun buf =>
        Act.lift (.ok ((salt ++ iv) ++ buf))) w).1 = .ok ct := h
    cases hr : (Act.read sd kl w).1 with
    | err e => rw [Act.bind_err hr] at h'; exact nomatch h'
    | panic => rw [Act.bind_panic hr] at h'; exact nomatch h'
    | ok salt =>
      rw [Act.bind_ok' hr] at h'
      rcases snd with _ | ⟨spriv, sp⟩
      · exact nomatch h'
      · rcases rcp with _ | ⟨rpriv, rp⟩
        · exact nomatch h'
        · cases hk : getSharedKeyN E (some ⟨some ⟨spriv, sp⟩, some ⟨rpriv, rp⟩, kl, sd⟩) spriv rp salt with
          | ok key =>
            obtain ⟨⟨k, rfl⟩, ⟨p, rfl, _⟩, _⟩ := sharedKeyN_ok E hk
            exact ⟨k, sp, rpriv, p, kl, sd, rfl⟩
          | err e =>
            exfalso
            have h2 : (Act.bind (Act.lift (getSharedKeyN E (some ⟨some ⟨spriv, sp⟩, some ⟨rpriv, rp⟩, kl, sd⟩) spriv rp salt)) (fun sharedKey =>
              Act.bind (Act.read sd 16) fun iv =>
              Act.bind (Act.lift (encode E m sharedKey iv)) fun buf =>
              Act.lift (.ok ((salt ++ iv) ++ buf))) (Act.read sd kl w).2).1 = .ok ct := h'
            rw [hk, Act.bind_err (e := e) rfl] at h2
            exact nomatch h2
          | panic =>
            exfalso
            have h2 : (Act.bind (Act.lift (getSharedKeyN E (some ⟨some ⟨spriv, sp⟩, some ⟨rpriv, rp⟩, kl, sd⟩) spriv rp salt)) (fun sharedKey =>
              Act.bind (Act.read sd 16) fun iv =>
              Act.bind (Act.lift (encode E m sharedKey iv)) fun buf =>
              Act.lift (.ok ((salt ++ iv) ++ buf))) (Act.read sd kl w).2).1 = .ok ct := h'
            rw [hk, Act.bind_panic rfl] at h2
            exact nomatch h2

/-- `Decrypt` only returns a message if the recipient has a private key and the sender a public one. -/
theorem C80_result_decrypt (ref : Option CipherN) (b m : Bytes) (h : decryptN E ref b = .ok m) :
    ∃ k sp rpub p kl sd, ref = some ⟨some ⟨sp, some p⟩, some ⟨some k, rpub⟩, kl, sd⟩ := by
  unfold decryptN at h
  split at h
  · exact nomatch h
  · rcases ref with _ | ⟨snd, rcp, kl, sd⟩
    · exact nomatch h
    · simp only [Out.deref, Out.bind_ok] at h
      split at h
      · exact nomatch h
      · rcases rcp with _ | ⟨rpriv, rp⟩
        · exact nomatch h
        · rcases snd with _ | ⟨spriv, sp⟩
          · exact nomatch h
          · simp only [privOf, pubOf, Out.deref, Out.bind_ok] at h
            cases hk : getSharedKeyN E (some ⟨some ⟨spriv, sp⟩, some ⟨rpriv, rp⟩, kl, sd⟩) rpriv sp (b.take kl) with
            | ok key =>
              obtain ⟨⟨k, rfl⟩, ⟨p, rfl, _⟩, _⟩ := sharedKeyN_ok E hk
              exact ⟨k, spriv, rp, p, kl, sd, rfl⟩
            | err e => rw [hk] at h; exact nomatch h
            | panic => rw [hk] at h; exact nomatch h

/-! ## Cases -/

/-- The hypotheses and both sides of the equivalences occur: a pair with a private but no public key; a signature that a signer without
pair rejects instead of panicking; a cipher with nil sender. -/
example (m : Bytes) :
    signN E (newDsaSignerN (some ⟨some (newPrivateKey [1]), none⟩)) m = .panic ∧
    signN E (newDsaSignerN (some ⟨none, none⟩)) m ≠ .panic ∧
    verifyN E (newDsaSignerN none) m (some ⟨[], [0]⟩) = .ok false ∧
    verifyN E (newDsaSignerN none) m (some ⟨[], [1]⟩) = .panic := by
  refine ⟨(C80_sign E _ m).2 (Or.inr (Or.inr ⟨_, rfl⟩)), nofun, rfl, ?_⟩
  exact (C80_verify E _ m _).2 (Or.inr ⟨_, rfl, low_one, Or.inr (Or.inl rfl)⟩)

example : ∃ c, newBlockCipherN none (some ⟨none, some ⟨encodePoint B⟩⟩) none = .ok c ∧
    decryptN E (some c) (List.replicate 64 0) = .panic ∧ decryptN E (some c) (List.replicate 63 0) ≠ .panic := by
  refine ⟨_, rfl, ?_, ?_⟩
  · rw [C80_decrypt E none none ⟨encodePoint B⟩ none _ rfl]
    exact ⟨by rw [List.length_replicate], Or.inr (Or.inl rfl)⟩
  · rw [Ne, C80_decrypt E none none ⟨encodePoint B⟩ none _ rfl, List.length_replicate]
    exact fun h => absurd h.1 (by omega)

end Ed

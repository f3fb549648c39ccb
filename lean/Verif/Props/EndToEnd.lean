import Verif.Props.Panics

/-!
# Property C79: the whole way, with keys as text and signatures as bytes

The two parties share nothing but texts and bytes.
-/

set_option autoImplicit false

namespace Ed

variable (E : Env)

/-- The nil engine or any Ed25519 engine. -/
def IsEd25519 (e : Option CryptoEngine) : Prop := e = none ∨ ∃ seed, e = some (ed25519Engine E seed)

theorem newKeyPairI_ed {e : Option CryptoEngine} (he : IsEd25519 E e) (priv : Option PrivateKey) (pub : Option PublicKey) :
    newKeyPairI E priv pub e = newKeyPair E priv pub := by
  rcases he with rfl | ⟨seed, rfl⟩
  · exact (C46_keypair E priv pub none).2
  · exact (C46_keypair E priv pub seed).1.trans (C46_keypair E priv pub seed).2

/-- A pair made from a private key: printing its public key and reading it again gives the same public key, and a pair without
private key. -/
theorem C79_public_text (k : PrivateKey) (kp : KeyPair) (e1 e2 : Option CryptoEngine) (h1 : IsEd25519 E e1)
    (h2 : IsEd25519 E e2) (hk : newKeyPairI E (some k) none e1 = .ok kp) :
    ∃ p, newPublicKeyFromHex kp.pub.string = .ok p ∧ newKeyPairI E none (some p) e2 = .ok ⟨none, kp.pub⟩ := by
  rw [newKeyPairI_ed E h1, C30_derive] at hk
  have hkp := Out.ok.inj hk
  have hl : kp.pub.raw.length = 32 := by rw [← hkp]; exact publicKeyOf_length E _
  clear hk hkp
  obtain ⟨⟨raw⟩, hraw⟩ : ∃ p, kp.pub = p := ⟨_, rfl⟩
  rw [hraw] at hl ⊢
  refine ⟨⟨raw⟩, (C31_public_print raw).2.2 hl, ?_⟩
  rw [newKeyPairI_ed E h2]
  exact C30_no_consistency_check E none raw hl

/-- Signing: the signer reads its private key from a text, signs, and sends the bytes of the signature and the text of its public key.
A verifier that reads both accepts, for every message, every key text and any engines. -/
theorem C79_sign_verify (s : Bytes) (v : ℕ) (hs : s.length = 63 ∨ s.length = 64) (hx : HexOf s v) (m : Bytes)
    (e1 e2 e3 e4 : Option CryptoEngine)
    (h1 : IsEd25519 E e1) (h2 : IsEd25519 E e2) (h3 : IsEd25519 E e3) (h4 : IsEd25519 E e4) :
    ∃ k kp p kp', newPrivateKeyFromHexString s = .ok k ∧ newKeyPairI E (some k) none e1 = .ok kp ∧
      newPublicKeyFromHex kp.pub.string = .ok p ∧ newKeyPairI E none (some p) e3 = .ok kp' ∧
      ∀ sig, (newSignerFromKeyPair E kp e2).sign m = .ok sig →
        ∃ sig', newSignatureFromBytes sig.bytes = .ok sig' ∧ (newSignerFromKeyPair E kp' e4).verify m sig' = .ok true := by
  obtain ⟨k, hk0, _⟩ := C31_private_complete s v hs hx
  have hk : newKeyPairI E (some k) none e1 = .ok ⟨some k, ⟨publicKeyOf E k.raw⟩⟩ := by
    rw [newKeyPairI_ed E h1, C30_derive]
  generalize (⟨some k, ⟨publicKeyOf E k.raw⟩⟩ : KeyPair) = kp at hk
  obtain ⟨p, p1, p2⟩ := C79_public_text E k kp e1 e3 h1 h3 hk
  refine ⟨k, kp, p, ⟨none, kp.pub⟩, hk0, hk, p1, p2, fun sig hsig => ?_⟩
  have hv := C46_sign_verify E k kp ⟨none, kp.pub⟩ m sig e1 e2 e4 h1 h2 h4 hk rfl hsig
  have hw : sig.R.length = 32 ∧ sig.S.length = 32 := by
    have : sign E kp m = .ok sig := by
      rcases h2 with rfl | ⟨seed, rfl⟩ <;> exact hsig
    exact ⟨(C19_well_formed E kp m sig this).1, (C19_well_formed E kp m sig this).2.1⟩
  have hb : newSignatureFromBytes sig.bytes = .ok sig :=
    (C33_parse _ _).2 ⟨by unfold Signature.bytes; rw [List.length_append]; omega, hw.1, hw.2, rfl⟩
  exact ⟨sig, hb, hv.1⟩

/-- The only thing that can go wrong on the signer's side, with a private key from a text of 63 or 64 hex digits, is the filter on the low
bits of S. -/
theorem C79_sign_only_filter (s : Bytes) (v : ℕ) (hs : s.length = 63 ∨ s.length = 64) (hx : HexOf s v) (m : Bytes)
    (e1 e2 : Option CryptoEngine) (h1 : IsEd25519 E e1) (h2 : IsEd25519 E e2) :
    ∃ k kp, newPrivateKeyFromHexString s = .ok k ∧ beVal k.raw = v ∧ newKeyPairI E (some k) none e1 = .ok kp ∧
      ((∃ sig, (newSignerFromKeyPair E kp e2).sign m = .ok sig) ↔ LowBitsOk (sigS E k.raw (publicKeyOf E k.raw) m)) ∧
      ((∃ sig, (newSignerFromKeyPair E kp e2).sign m = .ok sig) ∨
        (newSignerFromKeyPair E kp e2).sign m = .err "Generated signature is not canonical") := by
  obtain ⟨k, hk, hv⟩ := C31_private_complete s v hs hx
  have hkp : newKeyPairI E (some k) none e1 = .ok ⟨some k, ⟨publicKeyOf E k.raw⟩⟩ := by
    rw [newKeyPairI_ed E h1, C30_derive]
  refine ⟨k, _, hk, hv, hkp, ?_⟩
  have := (C46_signer_ed25519 E k ⟨publicKeyOf E k.raw⟩ e2 h2 m ⟨[], []⟩).1
  rw [this]
  by_cases hc : LowBitsOk (sigS E k.raw (publicKeyOf E k.raw) m)
  · rw [if_pos hc]
    exact ⟨Iff.intro (fun _ => hc) (fun _ => ⟨_, rfl⟩), Or.inl ⟨_, rfl⟩⟩
  · rw [if_neg hc]
    exact ⟨Iff.intro (fun ⟨_, h⟩ => nomatch h) (fun h => absurd h hc), Or.inr rfl⟩

/-- Encryption: both parties read their private key from a text and the other's public key from the printed form.  The ciphertext of one is
decrypted by the other to the message, for all messages, key texts, engines and random sources that deliver 48 bytes. -/
theorem C79_encrypt_decrypt (sA sB : Bytes) (vA vB : ℕ) (hsA : sA.length = 63 ∨ sA.length = 64) (hxA : HexOf sA vA)
    (hsB : sB.length = 63 ∨ sB.length = 64) (hxB : HexOf sB vB) (seed seed' : Option (Option ℕ))
    (e1 e2 : Option CryptoEngine) (h1 : IsEd25519 E e1) (h2 : IsEd25519 E e2)
    (m : Bytes) (w : World) (hf : ErrorFree (w (seed.join.getD 0))) (hl : 48 ≤ (content (w (seed.join.getD 0))).length) :
    ∃ kA kB kpA kpB pA pB peerA peerB out,
      newPrivateKeyFromHexString sA = .ok kA ∧ newPrivateKeyFromHexString sB = .ok kB ∧
      newKeyPairI E (some kA) none e1 = .ok kpA ∧ newKeyPairI E (some kB) none e2 = .ok kpB ∧
      newPublicKeyFromHex kpA.pub.string = .ok pA ∧ newPublicKeyFromHex kpB.pub.string = .ok pB ∧
      newKeyPairI E none (some pA) e2 = .ok peerA ∧ newKeyPairI E none (some pB) e1 = .ok peerB ∧
      ((newBlockCipherI E kpA peerB (seed.map (ed25519Engine E))).encrypt m w).1 = .ok out ∧
      out.length = 48 + 16 * (m.length / 16 + 1) ∧
      (newBlockCipherI E peerA kpB (seed'.map (ed25519Engine E))).decrypt out = .ok m := by
  obtain ⟨kA, tA, _⟩ := C31_private_complete sA vA hsA hxA
  obtain ⟨kB, tB, _⟩ := C31_private_complete sB vB hsB hxB
  have hkA : newKeyPairI E (some kA) none e1 = .ok ⟨some kA, ⟨publicKeyOf E kA.raw⟩⟩ := by
    rw [newKeyPairI_ed E h1, C30_derive]
  have hkB : newKeyPairI E (some kB) none e2 = .ok ⟨some kB, ⟨publicKeyOf E kB.raw⟩⟩ := by
    rw [newKeyPairI_ed E h2, C30_derive]
  generalize (⟨some kA, ⟨publicKeyOf E kA.raw⟩⟩ : KeyPair) = kpA at hkA
  generalize (⟨some kB, ⟨publicKeyOf E kB.raw⟩⟩ : KeyPair) = kpB at hkB
  obtain ⟨pA, a1, a2⟩ := C79_public_text E kA kpA e1 e2 h1 h2 hkA
  obtain ⟨pB, b1, b2⟩ := C79_public_text E kB kpB e2 e1 h2 h1 hkB
  have hA : derivePublicKey E (some kA) = .ok kpA.pub ∧ kpA.priv = some kA := by
    have hkA := hkA
    rw [newKeyPairI_ed E h1, C30_derive] at hkA
    rw [← Out.ok.inj hkA]; exact ⟨derive_spec E kA, rfl⟩
  have hB : derivePublicKey E (some kB) = .ok kpB.pub ∧ kpB.priv = some kB := by
    have hkB := hkB
    rw [newKeyPairI_ed E h2, C30_derive] at hkB
    rw [← Out.ok.inj hkB]; exact ⟨derive_spec E kB, rfl⟩
  have eA : kpA = ⟨some kA, kpA.pub⟩ := by rw [← hA.2]
  have eB : kpB = ⟨some kB, kpB.pub⟩ := by rw [← hB.2]
  obtain ⟨out, o1, _, o3⟩ := C46_cipher E kA kB kpA.pub kpB.pub hA.1 hB.1 none none seed seed' m w hf hl
  rw [← eA] at o1
  rw [← eB] at o3
  refine ⟨kA, kB, kpA, kpB, pA, pB, _, _, out, tA, tB, hkA, hkB, a1, b1, a2, b2, o1, ?_, o3⟩
  obtain ⟨out', o1', o2', _⟩ := C25_roundtrip E kA kB kpA.pub kpB.pub hA.1 hB.1 none none seed.join seed'.join m w hf hl
  have : out' = out := by
    rw [← eA] at o1'
    refine Out.ok.inj (o1'.symm.trans (Eq.trans ?_ o1))
    rcases seed with _ | _ | s <;> rfl
  rw [← this]; exact o2'

/-- The key of the example: the text "07" thirty-two times; all hypotheses are met and `Sign` succeeds. -/
example : ∃ (s : Bytes) (v : ℕ) (k : PrivateKey) (kp : KeyPair) (sig : Signature), s.length = 64 ∧ HexOf s v ∧
    newPrivateKeyFromHexString s = .ok k ∧
    newKeyPairI Env.toy (some k) none none = .ok kp ∧ (newSignerFromKeyPair Env.toy kp none).sign [1, 2, 3] = .ok sig := by
  obtain ⟨l1, l2, l3⟩ := C31_private_print (List.replicate 32 7)
  have h1 := l3 (by simp)
  have h2 := (newKeyPairI_ed Env.toy (Or.inl rfl) (some (newPrivateKey (List.replicate 32 7))) none).trans (C30_derive _ _)
  obtain ⟨sig, h3⟩ := signer_ok Env.toy (List.replicate 32 7) [1, 2, 3] ⟨publicKeyOf Env.toy (List.replicate 32 7)⟩ toy_sign_ok
  exact ⟨_, _, _, _, sig, l1.trans (by simp), l2.hex, h1, h2, h3⟩

end Ed

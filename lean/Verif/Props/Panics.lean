import Verif.Props.Cipher
import Verif.Props.Text
import Verif.Props.Engine

/-!
# Property C78: exactly which calls of the API panic

`.panic` is a run-time panic of the Go program.  Each theorem names, for every argument of a function, the arguments that
make it panic; all others return a value or an error.
-/

set_option autoImplicit false

namespace Ed

variable (E : Env)

/-- 32 bytes that are the encoding of a point. -/
def UsableKey (pub : PublicKey) : Prop := pub.raw.length = 32 ∧ ∃ q, Decodes pub.raw q

/-! ## Keys and signatures as values -/

/-- The parsers never panic, whatever the text or the bytes. -/
theorem C78_parsers (s : Bytes) (r t : Bytes) :
    newPrivateKeyFromHexString s ≠ .panic ∧ newPublicKeyFromHex s ≠ .panic ∧ newSignatureFromBytes s ≠ .panic ∧
    newSignature r t ≠ .panic := by
  refine ⟨?_, ?_, ?_, ?_⟩
  · rcases C31_private_total s with ⟨k, h⟩ | ⟨e, h⟩ <;> rw [h] <;> exact nofun
  · rcases C31_public_total s with ⟨k, h⟩ | ⟨e, h⟩ <;> rw [h] <;> exact nofun
  · unfold newSignatureFromBytes newSignature
    split
    · exact nofun
    · split <;> exact nofun
  · unfold newSignature
    split <;> exact nofun

/-- `NewPrivateKeyfromBigInt` panics exactly for nil. -/
theorem C78_fromBigInt (v : Option ℤ) : newPrivateKeyFromBigInt v = .panic ↔ v = none := by
  cases v with
  | none => exact ⟨fun _ => rfl, fun _ => C32_nil_panics⟩
  | some v =>
    obtain ⟨k, h, _⟩ := C32_value v
    rw [h]
    exact ⟨nofun, nofun⟩

/-- `DerivePublicKey` panics exactly for a nil key. -/
theorem C78_derive (k : Option PrivateKey) : derivePublicKey E k = .panic ↔ k = none := by
  cases k with
  | none => exact ⟨fun _ => rfl, fun _ => C29_nil E⟩
  | some k =>
    obtain ⟨pk, q, h, _⟩ := C29_derived E k
    rw [h]
    exact ⟨nofun, nofun⟩

/-- `NewKeyPair` panics exactly if both keys are nil. -/
theorem C78_newKeyPair (priv : Option PrivateKey) (pub : Option PublicKey) :
    newKeyPair E priv pub = .panic ↔ priv = none ∧ pub = none := by
  cases pub with
  | some p =>
    refine ⟨fun h => ?_, fun h => nomatch h.2⟩
    by_cases hl : p.raw.length = 32
    · rw [(C30_given E priv p ⟨priv, p⟩).2 ⟨hl, rfl⟩] at h
      exact nomatch h
    · obtain ⟨e, he⟩ := C30_given_error E priv p hl
      rw [he] at h
      exact nomatch h
  | none =>
    cases priv with
    | none => exact ⟨fun _ => ⟨rfl, rfl⟩, fun _ => C30_nil_nil E⟩
    | some k => rw [C30_derive]; exact ⟨nofun, fun h => nomatch h.1⟩

/-- `GenerateKeyPair` never panics, whatever the random source does. -/
theorem C78_generate (seed : ℕ) (w : World) : (generateKeyPair E seed w).1 ≠ .panic := by
  by_cases h : 32 ≤ (avail (w seed)).length
  · rw [(C28_generate E seed w h).1]; exact nofun
  · obtain ⟨e, he⟩ := C28_generate_short E seed w (by omega)
    rw [he]; exact nofun

/-! ## Signatures -/

/-- `Sign` never panics. -/
theorem C78_sign (kp : KeyPair) (m : Bytes) : sign E kp m ≠ .panic := C19_never_panics E kp m

/-- `Verify` panics exactly if S has fewer than 32 bytes and gets as far as the equation: its low bits pass the filter and the
key is usable. -/
theorem C78_verify (pub : PublicKey) (m : Bytes) (sig : Signature) :
    verify E pub m sig = .panic ↔
      sig.S.length < 32 ∧ LowBitsOk (leVal sig.S) ∧ pub.raw ≠ List.replicate 32 0 ∧
      (pub.raw.length = 32 ∨ pub.raw.length = 64) ∧ ∃ A, Decodes (pub.raw.take 32) A := by
  constructor
  · intro h
    by_cases hS : sig.S.length < 32
    · refine ⟨hS, ?_⟩
      by_cases hk : (pub.raw.length = 32 ∨ pub.raw.length = 64) ∧ ∃ A, Decodes (pub.raw.take 32) A
      · refine ⟨?_, ?_, hk⟩
        · by_contra hc
          have hi : isCanonicalSignature sig = false := by
            rw [← Bool.not_eq_true, C23_decides_low_bits]
            exact hc
          unfold verify at h
          rw [hi] at h
          exact nomatch h
        · intro h0
          unfold verify at h
          rw [(isEqualConstantTime_iff _ _).2 h0] at h
          split at h <;> exact nomatch h
      · rw [C20_malformed_key E pub m sig hk] at h
        exact nomatch h
    · obtain ⟨b, hb⟩ := C20_total E pub m sig (by omega)
      rw [hb] at h
      exact nomatch h
  · rintro ⟨hS, hc, h0, hl, A, hA⟩
    exact C20_short_S_panics E pub m sig hS hl hA h0 hc

/-- So it never panics on a signature that came through `NewSignature` or `NewSignatureFromBytes`, for every key and message. -/
theorem C78_verify_parsed (pub : PublicKey) (m b : Bytes) (sig : Signature) (h : newSignatureFromBytes b = .ok sig) :
    verify E pub m sig ≠ .panic := by
  intro hp
  have h1 := ((C33_parse b sig).1 h).2.2.1
  have h2 := ((C78_verify E pub m sig).1 hp).1
  omega

/-- `MakeSignatureCanonical` never panics. -/
theorem C78_makeCanonical (sig : Signature) : makeSignatureCanonical sig ≠ .panic := by
  unfold makeSignatureCanonical newEncodedFieldElement newSignature
  split
  · rw [Out.bind_ok]
    split <;> exact nofun
  · exact nofun

/-! ## Encryption -/

/-- `GetSharedKey` panics exactly if the public key is usable and the private key is nil, the key length exceeds the 32 bytes of a
point or the salt is shorter than the key length. -/
theorem C78_sharedKey (kl : ℕ) (priv : Option PrivateKey) (pub : PublicKey) (salt : Bytes) :
    getSharedKey E kl priv pub salt = .panic ↔ UsableKey pub ∧ (priv = none ∨ 32 < kl ∨ salt.length < kl) := by
  by_cases hp : UsableKey pub
  · obtain ⟨hl, q, hq⟩ := hp
    cases priv with
    | none =>
      rw [C24_nil_private_panics E kl pub salt hl hq]
      exact ⟨fun _ => ⟨⟨hl, q, hq⟩, Or.inl rfl⟩, fun _ => rfl⟩
    | some k =>
      rw [getSharedKey_point E hl hq]
      by_cases h : 32 < kl ∨ salt.length < kl
      · rw [xorSalt_panic _ _ _ (by rw [encodePoint_length]; exact h)]
        exact ⟨fun _ => ⟨⟨hl, q, hq⟩, Or.inr h⟩, fun _ => rfl⟩
      · rw [xorSalt_ok _ _ _ (by rw [encodePoint_length]; omega) (by omega), Out.bind_ok]
        exact ⟨nofun, fun hh => absurd (hh.2.resolve_left nofun) h⟩
  · obtain ⟨e, he⟩ := C24_bad_key E kl priv pub salt hp
    rw [he]
    exact ⟨nofun, fun hh => absurd hh.1 hp⟩

theorem sharedKey_length {kl : ℕ} {priv : Option PrivateKey} {pub : PublicKey} {salt key : Bytes}
    (h : getSharedKey E kl priv pub salt = .ok key) : key.length = 32 := by
  by_cases hp : UsableKey pub
  · obtain ⟨hl, q, hq⟩ := hp
    cases priv with
    | none => rw [C24_nil_private_panics E kl pub salt hl hq] at h; exact nomatch h
    | some k =>
      rw [getSharedKey_point E hl hq] at h
      generalize (List.range kl).foldlM (xorSaltStep salt) (encodePoint (secretScalar E k.raw • q)) = o at h
      cases o with
      | ok s => cases h; exact sha256_length E _
      | err e => exact nomatch h
      | panic => exact nomatch h
  · obtain ⟨e, he⟩ := C24_bad_key E kl priv pub salt hp
    rw [he] at h
    exact nomatch h

/-- `Encrypt` panics exactly if the source delivers the salt, the recipient's key is usable and the sender has no private key. -/
theorem C78_encrypt (snd rcp : KeyPair) (seed : Option ℕ) (m : Bytes) (w : World) :
    ((newBlockCipher snd rcp seed).encrypt E m w).1 = .panic ↔
      32 ≤ (avail (w (seed.getD 0))).length ∧ UsableKey rcp.pub ∧ snd.priv = none := by
  set c := newBlockCipher snd rcp seed with hc
  have hkl : c.keyLength = rcp.pub.raw.length := rfl
  have hseed : c.seed = seed.getD 0 := rfl
  have hs : c.sender = snd := rfl
  have hr : c.recipient = rcp := rfl
  unfold BlockCipher.encrypt
  rw [hkl, hseed, hs, hr]
  generalize seed.getD 0 = sd
  by_cases h : rcp.pub.raw.length ≤ (avail (w sd)).length
  · obtain ⟨r1, _, _⟩ := read_ok h
    rw [Act.bind_ok' r1]
    generalize (Act.read sd rcp.pub.raw.length w).2 = w'
    have hsl : ((content (w sd)).take rcp.pub.raw.length).length = rcp.pub.raw.length := by
      obtain ⟨t, ht⟩ := avail_prefix (w sd)
      rw [List.length_take, ht, List.length_append]; omega
    generalize (content (w sd)).take rcp.pub.raw.length = salt at hsl ⊢
    have hiff := C78_sharedKey E rcp.pub.raw.length snd.priv rcp.pub salt
    cases hg : getSharedKey E rcp.pub.raw.length snd.priv rcp.pub salt with
    | panic =>
      have hu := hiff.1 hg
      rw [Act.bind_panic rfl]
      have h32 := hu.1.1
      refine ⟨fun _ => ⟨by omega, hu.1, ?_⟩, fun _ => rfl⟩
      rcases hu.2 with h1 | h1 | h1
      · exact h1
      · omega
      · omega
    | err e =>
      rw [Act.bind_err (e := e) rfl]
      refine ⟨nofun, fun hh => ?_⟩
      rw [hiff.2 ⟨hh.2.1, Or.inl hh.2.2⟩] at hg
      exact nomatch hg
    | ok key =>
      have hno : ¬ (32 ≤ (avail (w sd)).length ∧ UsableKey rcp.pub ∧ snd.priv = none) := fun hh => by
        rw [hiff.2 ⟨hh.2.1, Or.inl hh.2.2⟩] at hg
        exact nomatch hg
      have hlen := sharedKey_length E hg
      rw [Act.bind_ok' (a := key) rfl]
      refine ⟨fun hp => absurd hp ?_, fun hh => absurd hh hno⟩
      by_cases h16 : 16 ≤ (avail (w' sd)).length
      · obtain ⟨r1, _, _⟩ := read_ok h16
        have hivl : ((content (w' sd)).take 16).length = 16 := by
          obtain ⟨t, ht⟩ := avail_prefix (w' sd)
          rw [List.length_take, ht, List.length_append]; omega
        obtain ⟨buf, hb, _⟩ := encode_ok E (m := m) hlen hivl
        show (Act.bind (Act.read sd 16) _ w').1 ≠ _
        rw [Act.bind_ok' r1]
        rw [Act.bind_ok' (a := buf) (by rw [hb]; rfl)]
        exact nofun
      · obtain ⟨e, he⟩ := read_short (seed := sd) (w := w') (n := 16) (by omega)
        show (Act.bind (Act.read sd 16) _ w').1 ≠ _
        rw [Act.bind_err he]
        exact nofun
  · obtain ⟨e, he⟩ := read_short (seed := sd) (w := w) (n := rcp.pub.raw.length) (by omega)
    rw [Act.bind_err he]
    refine ⟨nofun, fun hh => ?_⟩
    have := hh.2.1.1
    omega

/-- `Decrypt` panics exactly if the input has at least 64 bytes and: the recipient's public key has more than 48 bytes, or the sender's
key is usable and the recipient has no private key, a public key of another length than 32, or the length of the input is not a
multiple of 16. -/
theorem C78_decrypt (snd rcp : KeyPair) (seed : Option ℕ) (b : Bytes) :
    (newBlockCipher snd rcp seed).decrypt E b = .panic ↔
      64 ≤ b.length ∧ (48 < rcp.pub.raw.length ∨
        UsableKey snd.pub ∧ (rcp.priv = none ∨ rcp.pub.raw.length ≠ 32 ∨ b.length % 16 ≠ 0)) := by
  set c := newBlockCipher snd rcp seed with hc
  have hkl : c.keyLength = rcp.pub.raw.length := rfl
  by_cases hb : b.length < 64
  · obtain ⟨e, he⟩ := C26_short E c b hb
    rw [he]
    exact ⟨nofun, fun h => by omega⟩
  · by_cases h48 : 48 < rcp.pub.raw.length
    · refine ⟨fun _ => ⟨by omega, Or.inl h48⟩, fun _ => ?_⟩
      unfold BlockCipher.decrypt
      rw [if_neg hb, hkl, if_pos h48]
    · by_cases hu : UsableKey snd.pub
      · obtain ⟨hl, q, hq⟩ := id hu
        cases hk : rcp.priv with
        | none =>
          refine ⟨fun _ => ⟨by omega, Or.inr ⟨hu, Or.inl rfl⟩⟩, fun _ => ?_⟩
          exact C26_no_private_key_panics E c q b (by omega) hk hl hq
        | some k =>
          by_cases h32 : rcp.pub.raw.length = 32
          · by_cases h16 : b.length % 16 = 0
            · refine ⟨fun h => ?_, fun h => ?_⟩
              · rcases C26_multiple_of_16 E c k b h16 (hkl.trans h32) hk with ⟨m, hm⟩ | ⟨e, he⟩
                · rw [hm] at h; exact nomatch h
                · rw [he] at h; exact nomatch h
              · rcases h.2 with h | ⟨_, h | h | h⟩
                · exact absurd h h48
                · exact nomatch h
                · exact absurd h32 h
                · exact absurd h16 h
            · exact ⟨fun _ => ⟨by omega, Or.inr ⟨hu, Or.inr (Or.inr h16)⟩⟩,
                fun _ => C26_bad_length_panics E c k q b (by omega) h16 (hkl.trans h32) hk hl hq⟩
          · exact ⟨fun _ => ⟨by omega, Or.inr ⟨hu, Or.inr (Or.inl h32)⟩⟩,
              fun _ => C26_other_key_length_panics E c k q b (by omega) (by rw [hkl]; exact h32) hk hl hq⟩
      · refine ⟨fun h => ?_, fun h => ?_⟩
        · exfalso
          unfold BlockCipher.decrypt at h
          rw [if_neg hb, hkl, if_neg (by omega)] at h
          obtain ⟨e, he⟩ := C24_bad_key E rcp.pub.raw.length c.recipient.priv c.sender.pub (b.take rcp.pub.raw.length) hu
          dsimp only at h
          rw [he] at h
          exact nomatch h
        · rcases h.2 with h | h
          · exact absurd h h48
          · exact absurd h.1 hu

/-- With keys from `NewKeyPair`: the only inputs that make `Decrypt` panic are those of 64 or more bytes whose length is not a multiple of
16 (for a sender key that is a point); the input comes from outside, so anybody can send one. -/
theorem C78_decrypt_remote (snd rcp : KeyPair) (k : PrivateKey) (p : PublicKey) (seed : Option ℕ)
    (hr : newKeyPair E (some k) none = .ok rcp) (hs : newKeyPair E none (some p) = .ok snd) (b : Bytes) :
    (newBlockCipher snd rcp seed).decrypt E b = .panic ↔ 64 ≤ b.length ∧ (∃ q, Decodes p.raw q) ∧ b.length % 16 ≠ 0 := by
  obtain ⟨hpl, rfl⟩ := (C30_given E none p snd).1 hs
  have hr1 : rcp.priv = some k ∧ rcp.pub.raw.length = 32 := by
    rw [C30_derive] at hr
    have := Out.ok.inj hr
    rw [← this]
    exact ⟨rfl, publicKeyOf_length E _⟩
  rw [C78_decrypt, hr1.1, hr1.2]
  unfold UsableKey
  constructor
  · rintro ⟨h1, h2 | ⟨⟨_, h2⟩, h3 | h3 | h3⟩⟩
    · omega
    · exact nomatch h3
    · exact absurd rfl h3
    · exact ⟨h1, h2, h3⟩
  · rintro ⟨h1, h2, h3⟩
    exact ⟨h1, Or.inr ⟨⟨hpl, h2⟩, Or.inr (Or.inr h3)⟩⟩

/-- Both sides of the equivalences occur: an S of one byte (see also C20), and the input of 65 zero bytes. -/
example : verify E ⟨encodePoint B⟩ [] ⟨[], [1]⟩ = .panic ∧ verify E ⟨encodePoint B⟩ [] ⟨[], List.replicate 32 1⟩ ≠ .panic := by
  refine ⟨(C78_verify E _ _ _).2 ⟨by decide, low_one, ?_, Or.inl (encodePoint_length B), B, ?_⟩, fun h => ?_⟩
  · intro h
    have hv := encodePoint_val B
    dsimp only at h
    rw [h, leVal_replicate_zero] at hv
    exact y_ne_zero_of_order L_smul_B B_ne_zero ((ZMod.val_eq_zero _).mp (by omega))
  · rw [List.take_of_length_le (by rw [encodePoint_length])]; exact decodes_encodePoint B
  · have := ((C78_verify E _ _ _).1 h).1
    simp at this

example : ∃ snd rcp, newKeyPair E (some (newPrivateKey [2])) none = .ok rcp ∧ newKeyPair E none (some ⟨encodePoint B⟩) = .ok snd ∧
    (newBlockCipher snd rcp none).decrypt E (List.replicate 65 0) = .panic ∧
    (newBlockCipher snd rcp none).decrypt E (List.replicate 64 0) ≠ .panic := by
  have h2 := C30_no_consistency_check E none (encodePoint B) (encodePoint_length _)
  have h1 := C30_derive E (newPrivateKey [2])
  refine ⟨_, _, h1, h2, ?_, ?_⟩
  · rw [C78_decrypt_remote E _ _ _ _ none h1 h2, List.length_replicate]
    exact ⟨by omega, ⟨B, decodes_encodePoint B⟩, by omega⟩
  · rw [Ne, C78_decrypt_remote E _ _ _ _ none h1 h2, List.length_replicate]
    rintro ⟨_, _, h⟩
    omega

end Ed

import Verif.Proofs.Cipher
import Verif.Props.Dsa

/-!
# Properties C24-C28, C30, C36: key agreement, encryption, use of the random source
-/

set_option autoImplicit false

namespace Ed

variable (E : Env)

/-! ## C24: shared keys agree -/

/-- For two private keys and the public keys derived from them, and every salt of at least 32 bytes, both sides compute the same
shared key of 32 bytes. -/
theorem C24_agree (kA kB : PrivateKey) (pA pB : PublicKey) (salt : Bytes) (hs : 32 ≤ salt.length)
    (hA : derivePublicKey E (some kA) = .ok pA) (hB : derivePublicKey E (some kB) = .ok pB) :
    ∃ s, s.length = 32 ∧ getSharedKey E 32 (some kA) pB salt = .ok s ∧ getSharedKey E 32 (some kB) pA salt = .ok s := by
  rw [derive_spec] at hA hB; cases hA; cases hB
  refine ⟨_, sha256_length E _, getSharedKey_derived E _ _ _ hs, ?_⟩
  rw [getSharedKey_derived E _ _ _ hs]
  rw [← mul_nsmul, ← mul_nsmul, Nat.mul_comm]

/-- The value: SHA3-256 of the encoding of a*b*B xored with the salt. -/
theorem C24_value (kA kB : PrivateKey) (salt : Bytes) (hs : salt.length = 32) :
    getSharedKey E 32 (some kA) ⟨publicKeyOf E kB.raw⟩ salt =
      .ok (hashesSha3_256 E (List.zipWith (· ^^^ ·) (encodePoint ((secretScalar E kA.raw * secretScalar E kB.raw) • B)) salt)) := by
  rw [getSharedKey_derived E _ _ _ (by omega), ← mul_nsmul]
  unfold xorPrefix
  rw [List.take_of_length_le (by rw [encodePoint_length]), List.take_of_length_le (by omega),
    List.drop_eq_nil_of_le (by rw [encodePoint_length]), List.append_nil, Nat.mul_comm]

/-- A malformed public key (not 32 bytes, or not a point) gives an error, never a key. -/
theorem C24_bad_key (kl : ℕ) (priv : Option PrivateKey) (pub : PublicKey) (salt : Bytes)
    (h : ¬ (pub.raw.length = 32 ∧ ∃ q, Decodes pub.raw q)) : ∃ e, getSharedKey E kl priv pub salt = .err e := by
  unfold getSharedKey newEncodedGroupElement
  by_cases hl : pub.raw.length = 32
  · rw [if_neg (by omega), Out.bind_ok]
    rcases GC.decode_cases (Or.inl hl) with ⟨q, hq⟩ | ⟨⟨e, hd⟩, _⟩
    · rw [List.take_of_length_le (by omega)] at hq
      exact absurd ⟨hl, q, hq⟩ h
    · rw [hd]; exact ⟨_, rfl⟩
  · rw [if_pos (by omega)]; exact ⟨_, rfl⟩

/-- Without private key it panics (for a usable public key). -/
theorem C24_nil_private_panics (kl : ℕ) (pub : PublicKey) (salt : Bytes) {q : Pt} (hl : pub.raw.length = 32)
    (hq : Decodes pub.raw q) : getSharedKey E kl none pub salt = .panic := by
  obtain ⟨A, A1, A2, A3, _⟩ := GC.decode_ok (Or.inl hl) (by rw [List.take_of_length_le (by omega)]; exact hq)
  obtain ⟨A', B1, _⟩ := GE.precomputeSingle_spec (g := GE.ofGC A) A2 A3 rfl
  unfold getSharedKey newEncodedGroupElement
  rw [if_neg (by omega), Out.bind_ok, A1, Out.bind_ok, B1, Out.bind_ok]
  rfl

/-- A salt shorter than 32 bytes panics. -/
theorem C24_short_salt_panics (k : PrivateKey) (pub : PublicKey) (salt : Bytes) {q : Pt} (hl : pub.raw.length = 32)
    (hq : Decodes pub.raw q) (hs : salt.length < 32) : getSharedKey E 32 (some k) pub salt = .panic := by
  rw [getSharedKey_point E hl hq, xorSalt_panic _ _ _ (Or.inr hs)]; rfl

/-- The hypotheses of C24: two derived pairs; a public key which is no point, one of 31 bytes; a salt of 31 bytes. -/
example : ∃ s, s.length = 32 ∧ getSharedKey E 32 (some (newPrivateKey [1])) ⟨publicKeyOf E [2]⟩ (List.replicate 32 9) = .ok s ∧
    getSharedKey E 32 (some (newPrivateKey [2])) ⟨publicKeyOf E [1]⟩ (List.replicate 32 9) = .ok s :=
  C24_agree E (newPrivateKey [1]) (newPrivateKey [2]) _ _ _ (by rw [List.length_replicate]) (derive_spec E _) (derive_spec E _)

theorem seven_no_point : ¬ ∃ q, Decodes (7 :: List.replicate 31 0) q := by
  rintro ⟨q, hq⟩
  obtain ⟨g, hg, -⟩ := GC.decode_ok (raw := 7 :: List.replicate 31 0) (Or.inl (by simp)) (q := q)
    (by rw [List.take_of_length_le (by simp)]; exact hq)
  obtain ⟨e, he⟩ := decode_seven
  rw [he] at hg
  exact nomatch hg

example (k : PrivateKey) : (∃ e, getSharedKey E 32 (some k) ⟨7 :: List.replicate 31 0⟩ (List.replicate 32 9) = .err e) ∧
    (∃ e, getSharedKey E 32 (some k) ⟨List.replicate 31 1⟩ (List.replicate 32 9) = .err e) :=
  ⟨C24_bad_key E 32 _ _ _ fun h => seven_no_point h.2, C24_bad_key E 32 _ _ _ fun h => absurd h.1 (by simp)⟩

example (k : PrivateKey) : getSharedKey E 32 none ⟨publicKeyOf E [2]⟩ (List.replicate 32 9) = .panic ∧
    getSharedKey E 32 (some k) ⟨publicKeyOf E [2]⟩ (List.replicate 31 9) = .panic :=
  ⟨C24_nil_private_panics E 32 _ _ (publicKeyOf_length E _) (decodes_encodePoint _),
    C24_short_salt_panics E k _ _ (publicKeyOf_length E _) (decodes_encodePoint _) (by simp)⟩

/-! ## C36: small-order public keys -/

/-- For a public key of order dividing 8 the shared key is the same for all private keys. -/
theorem C36_key_independent (pub : PublicKey) (q : Pt) (hl : pub.raw.length = 32) (hq : Decodes pub.raw q)
    (h8 : (8 : ℕ) • q = 0) (k k' : PrivateKey) (kl : ℕ) (salt : Bytes) :
    getSharedKey E kl (some k) pub salt = getSharedKey E kl (some k') pub salt := by
  have hz : ∀ sk, secretScalar E sk • q = 0 := by
    intro sk
    obtain ⟨_, _, c, hc⟩ := secretScalar_bounds E sk
    rw [hc, mul_nsmul, h8, smul_zero]
  rw [getSharedKey_point E hl hq, getSharedKey_point E hl hq, hz, hz]

/-- It is the hash of the salt xored with the encoding of the neutral element: computable without any secret. -/
theorem C36_known_to_everybody (pub : PublicKey) (q : Pt) (hl : pub.raw.length = 32) (hq : Decodes pub.raw q)
    (h8 : (8 : ℕ) • q = 0) (k : PrivateKey) (salt : Bytes) (hs : salt.length = 32) :
    getSharedKey E 32 (some k) pub salt = .ok (hashesSha3_256 E (List.zipWith (· ^^^ ·) (leBytes 32 1) salt)) := by
  have hz : secretScalar E k.raw • q = 0 := by
    obtain ⟨_, _, c, hc⟩ := secretScalar_bounds E k.raw
    rw [hc, mul_nsmul, h8, smul_zero]
  rw [getSharedKey_ok E hl hq (by omega), hz, encode_zero]
  unfold xorPrefix
  rw [List.take_of_length_le (by rw [leBytes_length]), List.take_of_length_le (by omega),
    List.drop_eq_nil_of_le (by rw [leBytes_length]), List.append_nil]

/-- The point (0, -1) of order 2. -/
def minusOne : Pt := ⟨0, -1, by unfold OnCurve; ring⟩

theorem two_smul_minusOne : (2 : ℕ) • minusOne = 0 := by
  rw [two_nsmul]
  apply Pt.ext
  · rw [Pt.add_x]; simp [minusOne]
  · rw [Pt.add_y]; simp [minusOne]

/-- Such keys exist and are accepted by `NewKeyPair`: 01 00 ... 00, and a point of order 2. -/
theorem C36_accepted : ∃ p1 p2 : PublicKey, p1 ≠ p2 ∧ ∀ p, p = p1 ∨ p = p2 →
    (∀ (E : Env) priv, newKeyPair E priv (some p) = .ok ⟨priv, p⟩) ∧ p.raw.length = 32 ∧
      ∃ q, Decodes p.raw q ∧ (8 : ℕ) • q = 0 := by
  refine ⟨⟨encodePoint 0⟩, ⟨encodePoint minusOne⟩, ?_, ?_⟩
  · intro h
    have := encodePoint_inj (PublicKey.mk.inj h)
    have hy := congrArg Pt.y this
    simp only [minusOne, Pt.zero_y] at hy
    exact one_ne_neg_one_F hy
  · rintro p (rfl | rfl)
    · exact ⟨fun E priv => C30_no_consistency_check E priv _ (encodePoint_length _), encodePoint_length _, 0, decodes_encodePoint _, smul_zero _⟩
    · refine ⟨fun E priv => C30_no_consistency_check E priv _ (encodePoint_length _), encodePoint_length _, minusOne, decodes_encodePoint _, ?_⟩
      rw [show (8 : ℕ) = 2 * 4 by norm_num, mul_nsmul, two_smul_minusOne, smul_zero]

/-! ## C27: padding -/

/-- `decode` accepts a ciphertext (a non-empty multiple of 16 bytes) iff its CBC decryption ends with n copies of the byte n
for some 1 ≤ n ≤ 16, and then returns what is before them. -/
theorem C27_accepts_iff (c k iv m : Bytes) (hk : k.length = 32) (hiv : iv.length = 16) (hc : c.length % 16 = 0) :
    decode E c k iv = .ok m ↔
      ∃ n, 1 ≤ n ∧ n ≤ 16 ∧ (cbcDecBlocks E k iv (chunks16 c)).flatten = m ++ List.replicate n (UInt8.ofNat n) := by
  rw [decode_eq E hk hiv hc]
  exact ⟨fun h => unpad_ok h, fun h => unpad_padded h⟩

/-- The message is determined by the decrypted buffer. -/
theorem C27_unique (buf m m' : Bytes) (n n' : ℕ) (h1 : 1 ≤ n ∧ n ≤ 16) (h1' : 1 ≤ n' ∧ n' ≤ 16)
    (h : buf = m ++ List.replicate n (UInt8.ofNat n)) (h' : buf = m' ++ List.replicate n' (UInt8.ofNat n')) : m = m' :=
  padded_unique ⟨n, h1.1, h1.2, h⟩ ⟨n', h1'.1, h1'.2, h'⟩

/-- Otherwise it returns an error and does not panic. -/
theorem C27_total (c k iv : Bytes) (hk : k.length = 32) (hiv : iv.length = 16) (hc : c.length % 16 = 0) (h0 : c ≠ []) :
    (∃ m, decode E c k iv = .ok m) ∨ ∃ e, decode E c k iv = .err e := by
  rw [decode_eq E hk hiv hc]
  apply unpad_total
  rw [cbcPlain_length E hiv hc]
  have := List.length_pos_iff.mpr h0
  omega

/-- `encode`'s output is always accepted and gives the message back; its length is the next multiple of 16 above the
length of the message. -/
theorem C27_encode_decode (m k iv : Bytes) (hk : k.length = 32) (hiv : iv.length = 16) :
    ∃ c, encode E m k iv = .ok c ∧ c.length = 16 * (m.length / 16 + 1) ∧ decode E c k iv = .ok m := encode_ok E hk hiv

example : decode E [] (List.replicate 32 0) (List.replicate 16 0) = .panic := by
  rw [decode_eq E (by rfl) (by rfl) (by rfl)]
  unfold cbcPlain; rw [chunks16_nil]; rfl

/-! ## C28: use of the random source -/

/-- `GenerateKeyPair` takes the next 32 bytes of its reader as private key, whatever the sizes of the chunks, derives the public key
and leaves the rest of the reader and all other readers alone. -/
theorem C28_generate (seed : ℕ) (w : World) (h : 32 ≤ (avail (w seed)).length) :
    (generateKeyPair E seed w).1 =
      .ok ⟨some (newPrivateKey ((content (w seed)).take 32)), ⟨publicKeyOf E ((content (w seed)).take 32)⟩⟩ ∧
    content ((generateKeyPair E seed w).2 seed) = (content (w seed)).drop 32 ∧
    (ErrorFree (w seed) → ErrorFree ((generateKeyPair E seed w).2 seed)) ∧
    (∀ i, i ≠ seed → (generateKeyPair E seed w).2 i = w i) := by
  obtain ⟨r1, r2, r3⟩ := read_ok h
  have e : generateKeyPair E seed w =
      (.ok ⟨some (newPrivateKey ((content (w seed)).take 32)), ⟨publicKeyOf E ((content (w seed)).take 32)⟩⟩, (Act.read seed 32 w).2) := by
    unfold generateKeyPair
    rw [Act.bind_ok' r1]
    rw [Act.bind_ok (w' := (Act.read seed 32 w).2) (a := ⟨publicKeyOf E ((content (w seed)).take 32)⟩)
      (by unfold Act.lift; rw [derive_spec]; rfl)]
    unfold Act.lift
    rw [(C30_given E (some (newPrivateKey ((content (w seed)).take 32))) ⟨publicKeyOf E ((content (w seed)).take 32)⟩ _).mpr
      ⟨publicKeyOf_length E _, rfl⟩]
  rw [e]
  exact ⟨rfl, r2, r3, fun i hi => read_other _ _ _ _ hi⟩

/-- If the source runs dry (or fails) before 32 bytes, there is an error and no key. -/
theorem C28_generate_short (seed : ℕ) (w : World) (h : (avail (w seed)).length < 32) :
    ∃ e, (generateKeyPair E seed w).1 = .err e := by
  obtain ⟨e, he⟩ := read_short h
  unfold generateKeyPair
  rw [Act.bind_err he]
  exact ⟨e, rfl⟩

theorem encrypt_eq (c : BlockCipher) (k : PrivateKey) (q : Pt) (m : Bytes) (w : World)
    (hk : c.sender.priv = some k) (hkl : c.keyLength = 32) (hl : c.recipient.pub.raw.length = 32) (hq : Decodes c.recipient.pub.raw q)
    (hf : ErrorFree (w c.seed)) (h : 48 ≤ (content (w c.seed)).length) :
    ∃ key buf, getSharedKey E 32 (some k) c.recipient.pub ((content (w c.seed)).take 32) = .ok key ∧
      encode E m key (((content (w c.seed)).take 48).drop 32) = .ok buf ∧
      (c.encrypt E m w).1 = .ok ((content (w c.seed)).take 48 ++ buf) ∧
      content ((c.encrypt E m w).2 c.seed) = (content (w c.seed)).drop 48 ∧ ErrorFree ((c.encrypt E m w).2 c.seed) ∧
      (∀ i, i ≠ c.seed → (c.encrypt E m w).2 i = w i) := by
  have ha := avail_errorFree _ hf
  obtain ⟨r1, r2, r3⟩ := read_ok (seed := c.seed) (w := w) (n := 32) (by rw [ha]; omega)
  set w1 := (Act.read c.seed 32 w).2 with hw1
  have hf1 := r3 hf
  obtain ⟨s1, s2, s3⟩ := read_ok (seed := c.seed) (w := w1) (n := 16) (by rw [avail_errorFree _ hf1, r2, List.length_drop]; omega)
  set w2 := (Act.read c.seed 16 w1).2 with hw2
  rw [r2] at s1 s2
  have hsl : ((content (w c.seed)).take 32).length = 32 := by rw [List.length_take]; omega
  have hkey := getSharedKey_ok E (k := k) (salt := (content (w c.seed)).take 32) hl hq (by omega)
  generalize hashesSha3_256 E (xorPrefix 32 ((content (w c.seed)).take 32) (encodePoint (secretScalar E k.raw • q))) = key at hkey
  have hkeyl : key.length = 32 := by
    have h2 := getSharedKey_ok E (k := k) (salt := (content (w c.seed)).take 32) hl hq (by omega)
    rw [hkey] at h2; injection h2 with h2; rw [h2]; exact sha256_length E _
  have hiv : (((content (w c.seed)).drop 32).take 16).length = 16 := by rw [List.length_take, List.length_drop]; omega
  obtain ⟨buf, b1, b2, b3⟩ := encode_ok E (m := m) hkeyl hiv
  have e : c.encrypt E m w = (.ok (((content (w c.seed)).take 32 ++ ((content (w c.seed)).drop 32).take 16) ++ buf), w2) := by
    unfold BlockCipher.encrypt
    rw [hkl, Act.bind_ok' r1, hk, Act.bind_ok (x := Act.lift _) (w' := w1) (a := key) (by unfold Act.lift; rw [hkey]),
      Act.bind_ok' s1, Act.bind_ok (x := Act.lift _) (w' := w2) (a := buf) (by unfold Act.lift; rw [b1])]
    rfl
  have e48 : (content (w c.seed)).take 32 ++ ((content (w c.seed)).drop 32).take 16 = (content (w c.seed)).take 48 := by
    rw [← List.take_add]
  have eiv : ((content (w c.seed)).take 48).drop 32 = ((content (w c.seed)).drop 32).take 16 := by
    rw [List.drop_take]
  refine ⟨key, buf, hkey, by rw [eiv]; exact b1, ?_, ?_, ?_, ?_⟩
  · rw [e, e48]
  · rw [e]; dsimp only; rw [s2, List.drop_drop]
  · rw [e]; exact s3 hf1
  · intro i hi
    rw [e]; dsimp only
    rw [hw2, read_other _ _ _ _ hi, hw1, read_other _ _ _ _ hi]

/-- `Encrypt` puts the next 48 bytes of its reader (32 of salt, 16 of IV) in front of the ciphertext, consumes exactly these and leaves
all other readers alone. -/
theorem C28_encrypt (c : BlockCipher) (k : PrivateKey) (q : Pt) (m : Bytes) (w : World)
    (hk : c.sender.priv = some k) (hkl : c.keyLength = 32) (hl : c.recipient.pub.raw.length = 32) (hq : Decodes c.recipient.pub.raw q)
    (hf : ErrorFree (w c.seed)) (h : 48 ≤ (content (w c.seed)).length) :
    ∃ out, (c.encrypt E m w).1 = .ok out ∧ out.take 48 = (content (w c.seed)).take 48 ∧
      content ((c.encrypt E m w).2 c.seed) = (content (w c.seed)).drop 48 ∧ ErrorFree ((c.encrypt E m w).2 c.seed) ∧
      (∀ i, i ≠ c.seed → (c.encrypt E m w).2 i = w i) := by
  obtain ⟨key, buf, _, _, h3, h4, h5, h6⟩ := encrypt_eq E c k q m w hk hkl hl hq hf h
  refine ⟨_, h3, ?_, h4, h5, h6⟩
  have : ((content (w c.seed)).take 48).length = 48 := by rw [List.length_take]; omega
  rw [List.take_append_of_le_length (by omega), List.take_of_length_le (by omega)]

/-- If an error-free source has fewer than 48 bytes left, `Encrypt` returns an error and no ciphertext. -/
theorem C28_encrypt_short (c : BlockCipher) (k : PrivateKey) (q : Pt) (m : Bytes) (w : World)
    (hk : c.sender.priv = some k) (hkl : c.keyLength = 32) (hl : c.recipient.pub.raw.length = 32) (hq : Decodes c.recipient.pub.raw q)
    (hf : ErrorFree (w c.seed)) (h : (content (w c.seed)).length < 48) : ∃ e, (c.encrypt E m w).1 = .err e := by
  have ha := avail_errorFree _ hf
  unfold BlockCipher.encrypt
  rw [hkl]
  by_cases h32 : (content (w c.seed)).length < 32
  · obtain ⟨e, he⟩ := read_short (seed := c.seed) (w := w) (n := 32) (by rw [ha]; exact h32)
    rw [Act.bind_err he]; exact ⟨e, rfl⟩
  · obtain ⟨r1, r2, r3⟩ := read_ok (seed := c.seed) (w := w) (n := 32) (by rw [ha]; omega)
    have hsl : ((content (w c.seed)).take 32).length = 32 := by rw [List.length_take]; omega
    have hkey := getSharedKey_ok E (k := k) (salt := (content (w c.seed)).take 32) hl hq (by omega)
    obtain ⟨e, he⟩ := read_short (seed := c.seed) (w := (Act.read c.seed 32 w).2) (n := 16)
      (by rw [avail_errorFree _ (r3 hf), r2, List.length_drop]; omega)
    rw [Act.bind_ok' r1, hk, Act.bind_ok (x := Act.lift _) (w' := (Act.read c.seed 32 w).2) (by unfold Act.lift; rw [hkey]), Act.bind_err he]
    exact ⟨e, rfl⟩

/-- The same for every reader, also one that reports errors between or together with the bytes: `Encrypt` succeeds exactly if 32 bytes come before
the first error and, in the reader as the first reading leaves it, 16 more do; the ciphertext then starts with the next 48 bytes the reader
delivers.  Otherwise it returns an error; it never panics, and it leaves all other readers alone. -/
theorem C28_encrypt_any_reader (c : BlockCipher) (k : PrivateKey) (q : Pt) (m : Bytes) (w : World)
    (hk : c.sender.priv = some k) (hkl : c.keyLength = 32) (hl : c.recipient.pub.raw.length = 32) (hq : Decodes c.recipient.pub.raw q) :
    (32 ≤ (avail (w c.seed)).length → 16 ≤ (avail (readFull (w c.seed) 32).2).length →
      ∃ out, (c.encrypt E m w).1 = .ok out ∧ out.length = 48 + 16 * (m.length / 16 + 1) ∧
        out.take 48 = (content (w c.seed)).take 48 ∧
        content ((c.encrypt E m w).2 c.seed) = (content (w c.seed)).drop 48) ∧
    (¬ (32 ≤ (avail (w c.seed)).length ∧ 16 ≤ (avail (readFull (w c.seed) 32).2).length) →
      ∃ e, (c.encrypt E m w).1 = .err e) ∧
    ∀ i, i ≠ c.seed → (c.encrypt E m w).2 i = w i := by
  have hw1 : (Act.read c.seed 32 w).2 c.seed = (readFull (w c.seed) 32).2 := by unfold Act.read; simp
  rw [← hw1]
  by_cases h32 : 32 ≤ (avail (w c.seed)).length
  · obtain ⟨r1, r2, -⟩ := read_ok (seed := c.seed) (w := w) (n := 32) h32
    have o1 : ∀ i, i ≠ c.seed → (Act.read c.seed 32 w).2 i = w i := fun i hi => read_other _ _ _ _ hi
    generalize hW : (Act.read c.seed 32 w).2 = w1 at *
    have hav : (avail (w c.seed)).length ≤ (content (w c.seed)).length := by
      obtain ⟨t, ht⟩ := avail_prefix (w c.seed)
      rw [ht, List.length_append]; omega
    have hsl : ((content (w c.seed)).take 32).length = 32 := by rw [List.length_take]; omega
    have hkey := getSharedKey_ok E (k := k) (salt := (content (w c.seed)).take 32) hl hq (by omega)
    have hkeyl := sha256_length E (xorPrefix 32 ((content (w c.seed)).take 32) (encodePoint (secretScalar E k.raw • q)))
    generalize hashesSha3_256 E (xorPrefix 32 ((content (w c.seed)).take 32) (encodePoint (secretScalar E k.raw • q))) = key at hkey hkeyl
    have o2 : ∀ i, i ≠ c.seed → (Act.read c.seed 16 w1).2 i = w1 i := fun i hi => read_other _ _ _ _ hi
    have e0 : ∀ f, Act.bind (Act.lift (getSharedKey E 32 (some k) c.recipient.pub ((content (w c.seed)).take 32))) f w1 =
        (f key w1 : Out Bytes × World) := fun f => by
      rw [Act.bind_ok (x := Act.lift _) (w' := w1) (a := key) (by unfold Act.lift; rw [hkey])]
    by_cases h16 : 16 ≤ (avail (w1 c.seed)).length
    · obtain ⟨s1, s2, -⟩ := read_ok (seed := c.seed) (w := w1) (n := 16) h16
      have hav1 : (avail (w1 c.seed)).length ≤ (content (w1 c.seed)).length := by
        obtain ⟨t, ht⟩ := avail_prefix (w1 c.seed)
        rw [ht, List.length_append]; omega
      have hlen : 48 ≤ (content (w c.seed)).length := by rw [r2, List.length_drop] at hav1; omega
      generalize hW2 : (Act.read c.seed 16 w1).2 = w2 at *
      rw [r2] at s1 s2
      have hiv : (((content (w c.seed)).drop 32).take 16).length = 16 := by rw [List.length_take, List.length_drop]; omega
      obtain ⟨buf, b1, b2, b3⟩ := encode_ok E (m := m) hkeyl hiv
      have e48 : (content (w c.seed)).take 32 ++ ((content (w c.seed)).drop 32).take 16 = (content (w c.seed)).take 48 := by
        rw [← List.take_add]
      have e : c.encrypt E m w = (.ok ((content (w c.seed)).take 48 ++ buf), w2) := by
        unfold BlockCipher.encrypt
        rw [hkl, Act.bind_ok' r1, hW, hk, e0, Act.bind_ok' s1, hW2,
          Act.bind_ok (x := Act.lift _) (w' := w2) (a := buf) (by unfold Act.lift; rw [b1]), ← e48]
        rfl
      have l48 : ((content (w c.seed)).take 48).length = 48 := by rw [List.length_take]; omega
      refine ⟨fun _ _ => ⟨_, by rw [e], ?_, ?_, ?_⟩, fun h => absurd ⟨h32, h16⟩ h, fun i hi => ?_⟩
      · rw [List.length_append, l48, b2]
      · rw [List.take_append_of_le_length (by omega), List.take_of_length_le (by omega)]
      · rw [e]; dsimp only; rw [s2, List.drop_drop]
      · rw [e]; dsimp only; rw [o2 i hi, o1 i hi]
    · obtain ⟨er, he⟩ := read_short (seed := c.seed) (w := w1) (n := 16) (by omega)
      have e : c.encrypt E m w = (.err er, (Act.read c.seed 16 w1).2) := by
        unfold BlockCipher.encrypt
        rw [hkl, Act.bind_ok' r1, hW, hk, e0, Act.bind_err he]
      refine ⟨fun _ h => absurd h h16, fun _ => ⟨er, by rw [e]⟩, fun i hi => ?_⟩
      rw [e]; dsimp only; rw [o2 i hi, o1 i hi]
  · obtain ⟨er, he⟩ := read_short (seed := c.seed) (w := w) (n := 32) (by omega)
    have e : c.encrypt E m w = (.err er, (Act.read c.seed 32 w).2) := by
      unfold BlockCipher.encrypt
      rw [hkl, Act.bind_err he]
    refine ⟨fun h => absurd h h32, fun _ => ⟨er, by rw [e]⟩, fun i hi => ?_⟩
    rw [e]; exact read_other _ _ _ _ hi

/-- Both cases occur with a reader that reports an error: an error together with the 32nd byte is not noticed, one before it is. -/
example (x : UInt8) : let r : Reader := [⟨List.replicate 32 x, some "broken"⟩, ⟨List.replicate 16 x, none⟩]
    let r' : Reader := [⟨[], some "broken"⟩, ⟨List.replicate 48 x, none⟩]
    (32 ≤ (avail r).length ∧ 16 ≤ (avail (readFull r 32).2).length) ∧ ¬ 32 ≤ (avail r').length := by
  intro r r'
  refine ⟨⟨?_, ?_⟩, ?_⟩
  · show 32 ≤ (List.replicate 32 x).length
    simp
  · simp [r, readFull, readLoop, avail]
  · show ¬ 32 ≤ ([] : Bytes).length
    simp

/-- Only the bytes matter, not their division into chunks: error-free readers with the same content give the same result and are left with the
same content. -/
theorem C28_chunking_irrelevant (seed : ℕ) (w w' : World) (h : ErrorFree (w seed)) (h' : ErrorFree (w' seed))
    (hc : content (w seed) = content (w' seed)) (n : ℕ) (hn : n ≤ (content (w seed)).length) :
    (Act.read seed n w).1 = (Act.read seed n w').1 ∧
    content ((Act.read seed n w).2 seed) = content ((Act.read seed n w').2 seed) := by
  obtain ⟨a1, a2, _⟩ := read_ok (seed := seed) (w := w) (n := n) (by rw [avail_errorFree _ h]; exact hn)
  obtain ⟨b1, b2, _⟩ := read_ok (seed := seed) (w := w') (n := n) (by rw [avail_errorFree _ h', ← hc]; exact hn)
  rw [a1, a2, b1, b2, hc]
  exact ⟨rfl, rfl⟩

/-- An operation of a history: creating a key pair or encrypting, on an engine with the given seed reader. -/
inductive RandOp
  | generate (seed : ℕ)
  | encrypt (c : BlockCipher) (m : Bytes)

/-- The reader it uses. -/
def RandOp.seed : RandOp → ℕ
  | .generate s => s
  | .encrypt c _ => c.seed

/-- The number of bytes it takes. -/
def RandOp.size : RandOp → ℕ
  | .generate _ => 32
  | .encrypt _ _ => 48

/-- Key generation is always possible, encryption with a private key of the sender and a valid public key of the recipient. -/
def RandOp.Usable : RandOp → Prop
  | .generate _ => True
  | .encrypt c _ => (∃ k, c.sender.priv = some k) ∧ c.keyLength = 32 ∧ c.recipient.pub.raw.length = 32 ∧ ∃ q, Decodes c.recipient.pub.raw q

/-- The world after an operation. -/
def RandOp.exec (E : Env) : RandOp → World → World
  | .generate s, w => (generateKeyPair E s w).2
  | .encrypt c m, w => (c.encrypt E m w).2

/-- The random bytes visible in the result of an operation: the private key, or the first 48 bytes of the ciphertext. -/
def RandOp.used (E : Env) : RandOp → World → Option Bytes
  | .generate s, w => match (generateKeyPair E s w).1 with
    | .ok kp => kp.priv.map PrivateKey.raw
    | _ => none
  | .encrypt c m, w => match (c.encrypt E m w).1 with
    | .ok out => some (out.take 48)
    | _ => none

/-- The world after a history. -/
def execAll (E : Env) : List RandOp → World → World
  | [], w => w
  | o :: os, w => execAll E os (o.exec E w)

/-- How many bytes a history takes from reader `i`. -/
def taken (i : ℕ) (ops : List RandOp) : ℕ := (ops.map fun o => if o.seed = i then o.size else 0).sum

theorem RandOp.step (o : RandOp) (hu : o.Usable) (w : World) (hf : ErrorFree (w o.seed)) (hl : o.size ≤ (content (w o.seed)).length) :
    o.used E w = some ((content (w o.seed)).take o.size) ∧
    content (o.exec E w o.seed) = (content (w o.seed)).drop o.size ∧ ErrorFree (o.exec E w o.seed) ∧
    (∀ i, i ≠ o.seed → o.exec E w i = w i) := by
  cases o with
  | generate s =>
    obtain ⟨h1, h2, h3, h4⟩ := C28_generate E s w (by have := avail_errorFree _ hf; dsimp only [RandOp.seed] at this; rw [this]; exact hl)
    refine ⟨?_, h2, h3 hf, h4⟩
    dsimp only [RandOp.used]; rw [h1]; rfl
  | encrypt c m =>
    obtain ⟨⟨k, hk⟩, hkl, hpl, q, hq⟩ := hu
    obtain ⟨out, h1, h2, h3, h4, h5⟩ := C28_encrypt E c k q m w hk hkl hpl hq hf hl
    refine ⟨?_, h3, h4, h5⟩
    dsimp only [RandOp.used]; rw [h1]; exact congrArg some h2

theorem execAll_content (E : Env) : ∀ (ops : List RandOp) (w : World), (∀ o ∈ ops, o.Usable) → (∀ i, ErrorFree (w i)) →
    (∀ i, taken i ops ≤ (content (w i)).length) →
    ∀ i, content (execAll E ops w i) = (content (w i)).drop (taken i ops) ∧ ErrorFree (execAll E ops w i)
  | [], w, _, hf, _, i => by simp [execAll, taken, hf i]
  | o :: os, w, hu, hf, hl, i => by
    have ht : ∀ j, taken j (o :: os) = (if o.seed = j then o.size else 0) + taken j os := fun j => by simp [taken]
    have hlo : o.size ≤ (content (w o.seed)).length := by have := hl o.seed; rw [ht, if_pos rfl] at this; omega
    obtain ⟨_, s2, s3, s4⟩ := o.step E (hu o (by simp)) w (hf _) hlo
    have hc : ∀ j, content (o.exec E w j) = (content (w j)).drop (if o.seed = j then o.size else 0) ∧ ErrorFree (o.exec E w j) := by
      intro j
      by_cases hj : o.seed = j
      · subst hj; rw [if_pos rfl]; exact ⟨s2, s3⟩
      · rw [if_neg hj, s4 j (Ne.symm hj)]; exact ⟨by simp, hf j⟩
    obtain ⟨e1, e2⟩ := execAll_content E os (o.exec E w) (fun x hx => hu x (by simp [hx])) (fun j => (hc j).2)
      (fun j => by have := hl j; rw [ht] at this; rw [(hc j).1, List.length_drop]; omega) i
    refine ⟨?_, e2⟩
    rw [execAll, e1, (hc i).1, List.drop_drop, ht]

/-- Histories: after any sequence of operations on any engines, the next operation uses the bytes of its reader right behind those
used by the earlier operations on the same reader; so no random byte is used twice and none is skipped. -/
theorem C28_history (ops : List RandOp) (o : RandOp) (w : World) (hu : ∀ x ∈ ops, x.Usable) (huo : o.Usable)
    (hf : ∀ i, ErrorFree (w i)) (hl : ∀ i, taken i (ops ++ [o]) ≤ (content (w i)).length) :
    o.used E (execAll E ops w) = some (((content (w o.seed)).drop (taken o.seed ops)).take o.size) := by
  have ht : ∀ i, taken i (ops ++ [o]) = taken i ops + (if o.seed = i then o.size else 0) := fun i => by simp [taken]
  obtain ⟨e1, e2⟩ := execAll_content E ops w hu hf (fun i => by have := hl i; rw [ht] at this; omega) o.seed
  have hlo := hl o.seed
  rw [ht, if_pos rfl] at hlo
  obtain ⟨s1, _⟩ := o.step E huo (execAll E ops w) e2 (by rw [e1, List.length_drop]; omega)
  rw [s1, e1]

/-- The salt has as many bytes as the public key of the recipient.  If these are not 32, `Encrypt` reads them and then
returns an error, whatever the other keys are. -/
theorem C28_encrypt_bad_recipient (snd rcp : KeyPair) (seed : Option ℕ) (m : Bytes) (w : World)
    (hl : rcp.pub.raw.length ≠ 32) (h : rcp.pub.raw.length ≤ (avail (w (seed.getD 0))).length) :
    (∃ e, ((newBlockCipher snd rcp seed).encrypt E m w).1 = .err e) ∧
    content (((newBlockCipher snd rcp seed).encrypt E m w).2 (seed.getD 0)) = (content (w (seed.getD 0))).drop rcp.pub.raw.length := by
  obtain ⟨r1, r2, r3⟩ := read_ok (seed := seed.getD 0) (w := w) (n := rcp.pub.raw.length) h
  have he : ∃ e, getSharedKey E rcp.pub.raw.length snd.priv rcp.pub ((content (w (seed.getD 0))).take rcp.pub.raw.length) = .err e := by
    unfold getSharedKey newEncodedGroupElement
    rw [if_pos (by omega)]
    exact ⟨_, rfl⟩
  obtain ⟨e, he⟩ := he
  have ee : (newBlockCipher snd rcp seed).encrypt E m w = (.err e, (Act.read (seed.getD 0) rcp.pub.raw.length w).2) := by
    unfold BlockCipher.encrypt newBlockCipher
    dsimp only
    rw [Act.bind_ok' r1]
    unfold Act.bind Act.lift
    rw [he]
  rw [ee]
  exact ⟨⟨e, rfl⟩, r2⟩

/-- A reader that delivers 80 bytes in odd chunks: a key pair is generated, then a message encrypted. -/
example : ∃ (w : World) (c : BlockCipher), (∀ i, ErrorFree (w i)) ∧ (w 1).length = 4 ∧
    (RandOp.encrypt c [1, 2, 3]).Usable ∧ c.seed = 1 ∧
    ∀ i, taken i ([RandOp.generate 1] ++ [RandOp.encrypt c [1, 2, 3]]) ≤ (content (w i)).length := by
  refine ⟨fun i => if i = 1 then [⟨List.replicate 5 1, none⟩, ⟨[], none⟩, ⟨List.replicate 70 2, none⟩, ⟨List.replicate 5 3, none⟩] else [],
    ⟨⟨some (newPrivateKey [1]), ⟨encodePoint B⟩⟩, ⟨none, ⟨encodePoint B⟩⟩, 32, 1⟩, ?_, rfl,
    ⟨⟨_, rfl⟩, rfl, encodePoint_length _, B, decodes_encodePoint _⟩, rfl, ?_⟩
  · intro i e he
    by_cases h : i = 1
    · dsimp only at he; rw [if_pos h] at he
      simp only [List.mem_cons, List.not_mem_nil, or_false] at he
      rcases he with rfl | rfl | rfl | rfl <;> rfl
    · dsimp only at he; rw [if_neg h] at he; cases he
  · intro i
    by_cases h : i = 1
    · subst h; decide
    · have : taken i ([RandOp.generate 1] ++ [RandOp.encrypt ⟨⟨some (newPrivateKey [1]), ⟨encodePoint B⟩⟩, ⟨none, ⟨encodePoint B⟩⟩, 32, 1⟩ [1, 2, 3]]) = 0 := by
        simp [taken, RandOp.seed, Ne.symm h]
      rw [this]; exact Nat.zero_le _

/-! ## C30: generated key pairs -/

/-- A pair returned by `GenerateKeyPair` matches: its public key is the one derived from its private key, which has 32 bytes. -/
theorem C30_generated (seed : ℕ) (w : World) (kp : KeyPair) (h : (generateKeyPair E seed w).1 = .ok kp) :
    ∃ k, kp.priv = some k ∧ k.raw.length = 32 ∧ derivePublicKey E (some k) = .ok kp.pub := by
  by_cases hl : 32 ≤ (avail (w seed)).length
  · obtain ⟨h1, _⟩ := C28_generate E seed w hl
    rw [h1] at h
    injection h with h
    subst h
    refine ⟨_, rfl, ?_, derive_spec E _⟩
    obtain ⟨t, ht⟩ := avail_prefix (w seed)
    have : (content (w seed)).length = (avail (w seed)).length + t.length := by rw [ht, List.length_append]
    show ((content (w seed)).take 32).length = 32
    rw [List.length_take]; omega
  · obtain ⟨e, he⟩ := C28_generate_short E seed w (by omega)
    rw [he] at h; cases h

/-! ## C25: Decrypt inverts Encrypt -/

/-- Encrypting with the sender's private and the recipient's public key and decrypting with the recipient's private and the sender's public
key gives the message back, for all messages and random sources with 48 bytes; the ciphertext has 48 + 16*(len/16 + 1) bytes. -/
theorem C25_roundtrip (kA kB : PrivateKey) (pA pB : PublicKey) (hA : derivePublicKey E (some kA) = .ok pA)
    (hB : derivePublicKey E (some kB) = .ok pB) (privB' privA' : Option PrivateKey) (seed seed' : Option ℕ) (m : Bytes) (w : World)
    (hf : ErrorFree (w (seed.getD 0))) (hl : 48 ≤ (content (w (seed.getD 0))).length) :
    ∃ out, ((newBlockCipher ⟨some kA, pA⟩ ⟨privB', pB⟩ seed).encrypt E m w).1 = .ok out ∧
      out.length = 48 + 16 * (m.length / 16 + 1) ∧
      (newBlockCipher ⟨privA', pA⟩ ⟨some kB, pB⟩ seed').decrypt E out = .ok m := by
  have hAB := fun salt hs => C24_agree E kA kB pA pB salt hs hA hB
  rw [derive_spec] at hA hB; cases hA; cases hB
  obtain ⟨key, buf, h1, h2, h3, _⟩ := encrypt_eq E (newBlockCipher ⟨some kA, ⟨publicKeyOf E kA.raw⟩⟩ ⟨privB', ⟨publicKeyOf E kB.raw⟩⟩ seed)
    kA (secretScalar E kB.raw • B) m w rfl (publicKeyOf_length E _) (publicKeyOf_length E _) (decodes_encodePoint _) hf hl
  have hs : (newBlockCipher ⟨some kA, ⟨publicKeyOf E kA.raw⟩⟩ ⟨privB', ⟨publicKeyOf E kB.raw⟩⟩ seed).seed = seed.getD 0 := rfl
  have hp : (newBlockCipher ⟨some kA, ⟨publicKeyOf E kA.raw⟩⟩ ⟨privB', ⟨publicKeyOf E kB.raw⟩⟩ seed).recipient.pub = ⟨publicKeyOf E kB.raw⟩ := rfl
  rw [hs] at h1 h2 h3
  rw [hp] at h1
  set ct := content (w (seed.getD 0)) with hct
  have hsl : (ct.take 32).length = 32 := by rw [List.length_take]; omega
  obtain ⟨s, s1, s2, s3⟩ := hAB (ct.take 32) (by omega)
  rw [s2] at h1; injection h1 with h1; subst h1
  have hiv : ((ct.take 48).drop 32).length = 16 := by rw [List.length_drop, List.length_take]; omega
  obtain ⟨buf', b1, b2, b3⟩ := encode_ok E (m := m) s1 hiv
  rw [h2] at b1; injection b1 with b1; subst b1
  have h48 : (ct.take 48).length = 48 := by rw [List.length_take]; omega
  refine ⟨_, h3, by rw [List.length_append, h48, b2], ?_⟩
  unfold BlockCipher.decrypt
  have hkl : (newBlockCipher ⟨privA', ⟨publicKeyOf E kA.raw⟩⟩ ⟨some kB, ⟨publicKeyOf E kB.raw⟩⟩ seed').keyLength = 32 := publicKeyOf_length E _
  have hr : (newBlockCipher ⟨privA', ⟨publicKeyOf E kA.raw⟩⟩ ⟨some kB, ⟨publicKeyOf E kB.raw⟩⟩ seed').recipient.priv = some kB := rfl
  have hsd : (newBlockCipher ⟨privA', ⟨publicKeyOf E kA.raw⟩⟩ ⟨some kB, ⟨publicKeyOf E kB.raw⟩⟩ seed').sender.pub = ⟨publicKeyOf E kA.raw⟩ := rfl
  rw [hkl, hr, hsd, if_neg (by rw [List.length_append, h48, b2]; omega), if_neg (by omega)]
  dsimp only
  have e1 : (ct.take 48 ++ buf).take 32 = ct.take 32 := by
    rw [List.take_append_of_le_length (by omega), List.take_take]; rfl
  have e2 : (ct.take 48 ++ buf).take 48 = ct.take 48 := by
    rw [List.take_append_of_le_length (by omega), List.take_take]; rfl
  have e3 : (ct.take 48 ++ buf).drop 48 = buf := by
    rw [List.drop_append_of_le_length (by omega), List.drop_eq_nil_of_le (by omega), List.nil_append]
  rw [e1, e2, e3, s3, Out.bind_ok]
  exact b3

example : ∃ out, ((newBlockCipher ⟨some (newPrivateKey [1]), ⟨publicKeyOf E [1]⟩⟩ ⟨none, ⟨publicKeyOf E [2]⟩⟩ none).encrypt E [1, 2, 3]
    (fun _ => [⟨List.replicate 48 9, none⟩])).1 = .ok out ∧ out.length = 64 ∧
    (newBlockCipher ⟨none, ⟨publicKeyOf E [1]⟩⟩ ⟨some (newPrivateKey [2]), ⟨publicKeyOf E [2]⟩⟩ none).decrypt E out = .ok [1, 2, 3] :=
  C25_roundtrip E (newPrivateKey [1]) (newPrivateKey [2]) _ _ (derive_spec E _) (derive_spec E _) none none none none [1, 2, 3] _
    (by intro e he; simp only [List.mem_cons, List.not_mem_nil, or_false] at he; rw [he]) (by simp [content])

/-! ## C26: Decrypt on arbitrary input -/

/-- Input shorter than 64 bytes gives an error. -/
theorem C26_short (c : BlockCipher) (b : Bytes) (h : b.length < 64) : ∃ e, c.decrypt E b = .err e := by
  unfold BlockCipher.decrypt; rw [if_pos h]; exact ⟨_, rfl⟩

theorem decrypt_split (c : BlockCipher) (k : PrivateKey) (q : Pt) (b : Bytes) (hb : 64 ≤ b.length)
    (hkl : c.keyLength = 32) (hk : c.recipient.priv = some k) (hl : c.sender.pub.raw.length = 32) (hq : Decodes c.sender.pub.raw q) :
    ∃ key, key.length = 32 ∧ ((b.take 48).drop 32).length = 16 ∧ c.decrypt E b = decode E (b.drop 48) key ((b.take 48).drop 32) := by
  refine ⟨hashesSha3_256 E (xorPrefix 32 (b.take 32) (encodePoint (secretScalar E k.raw • q))), sha256_length E _,
    by rw [List.length_drop, List.length_take]; omega, ?_⟩
  unfold BlockCipher.decrypt
  rw [if_neg (by omega), hkl, if_neg (by omega)]
  dsimp only
  rw [hk, getSharedKey_ok E hl hq (by rw [List.length_take]; omega), Out.bind_ok]

/-- With the recipient's private key, whatever the sender's public key is: an input whose length is a multiple of 16 gives a
message or an error, never a panic. -/
theorem C26_multiple_of_16 (c : BlockCipher) (k : PrivateKey) (b : Bytes) (h16 : b.length % 16 = 0)
    (hkl : c.keyLength = 32) (hk : c.recipient.priv = some k) :
    (∃ m, c.decrypt E b = .ok m) ∨ ∃ e, c.decrypt E b = .err e := by
  by_cases hb : b.length < 64
  · exact Or.inr (C26_short E c b hb)
  by_cases hp : c.sender.pub.raw.length = 32 ∧ ∃ q, Decodes c.sender.pub.raw q
  · obtain ⟨hl, q, hq⟩ := hp
    obtain ⟨key, k1, k2, k3⟩ := decrypt_split E c k q b (by omega) hkl hk hl hq
    rw [k3]
    apply C27_total E _ _ _ k1 k2
    · rw [List.length_drop]; omega
    · intro h0
      have := congrArg List.length h0
      rw [List.length_drop, List.length_nil] at this
      omega
  · right
    unfold BlockCipher.decrypt
    rw [if_neg hb, hkl, if_neg (by omega)]
    obtain ⟨e, he⟩ := C24_bad_key E 32 c.recipient.priv c.sender.pub (b.take 32) hp
    dsimp only
    rw [he]; exact ⟨e, rfl⟩

/-- The accepted messages: the plaintext must carry a correct padding. -/
theorem C26_accepts (c : BlockCipher) (k : PrivateKey) (q : Pt) (b m : Bytes) (hb : 64 ≤ b.length) (h16 : b.length % 16 = 0)
    (hkl : c.keyLength = 32) (hk : c.recipient.priv = some k) (hl : c.sender.pub.raw.length = 32) (hq : Decodes c.sender.pub.raw q) :
    c.decrypt E b = .ok m ↔ ∃ key n, getSharedKey E 32 (some k) c.sender.pub (b.take 32) = .ok key ∧ 1 ≤ n ∧ n ≤ 16 ∧
      (cbcDecBlocks E key ((b.take 48).drop 32) (chunks16 (b.drop 48))).flatten = m ++ List.replicate n (UInt8.ofNat n) := by
  have hg := getSharedKey_ok E (k := k) (salt := b.take 32) hl hq (by rw [List.length_take]; omega)
  have hd : c.decrypt E b = decode E (b.drop 48) (hashesSha3_256 E (xorPrefix 32 (b.take 32) (encodePoint (secretScalar E k.raw • q))))
      ((b.take 48).drop 32) := by
    unfold BlockCipher.decrypt
    rw [if_neg (by omega), hkl, if_neg (by omega)]
    dsimp only
    rw [hk, hg, Out.bind_ok]
  rw [hd, C27_accepts_iff E _ _ _ _ (sha256_length E _) (by rw [List.length_drop, List.length_take]; omega)
    (by rw [List.length_drop]; omega), hg]
  constructor
  · rintro ⟨n, h1, h2, h3⟩; exact ⟨_, n, rfl, h1, h2, h3⟩
  · rintro ⟨key, n, h0, h1, h2, h3⟩
    injection h0 with h0
    subst h0
    exact ⟨n, h1, h2, h3⟩

/-- It should never panic, but every longer input whose length is not a multiple of 16 makes it panic. -/
theorem C26_bad_length_panics (c : BlockCipher) (k : PrivateKey) (q : Pt) (b : Bytes) (hb : 64 ≤ b.length) (h16 : b.length % 16 ≠ 0)
    (hkl : c.keyLength = 32) (hk : c.recipient.priv = some k) (hl : c.sender.pub.raw.length = 32) (hq : Decodes c.sender.pub.raw q) :
    c.decrypt E b = .panic := by
  obtain ⟨key, k1, k2, k3⟩ := decrypt_split E c k q b hb hkl hk hl hq
  rw [k3]
  unfold decode cbcChecks
  rw [aesNewCipher_32 k1, Out.bind_ok, if_neg (by omega), if_pos (by rw [List.length_drop]; omega)]
  rfl

/-- So does a missing private key of the recipient. -/
theorem C26_no_private_key_panics (c : BlockCipher) (q : Pt) (b : Bytes) (hb : 64 ≤ b.length) (hk : c.recipient.priv = none)
    (hl : c.sender.pub.raw.length = 32) (hq : Decodes c.sender.pub.raw q) : c.decrypt E b = .panic := by
  unfold BlockCipher.decrypt
  rw [if_neg (by omega)]
  split
  · rfl
  · dsimp only
    rw [hk, C24_nil_private_panics E _ _ _ hl hq]; rfl

/-- And a recipient public key that has not 32 bytes (possible in a `KeyPair` literal only). -/
theorem C26_other_key_length_panics (c : BlockCipher) (k : PrivateKey) (q : Pt) (b : Bytes) (hb : 64 ≤ b.length)
    (hkl : c.keyLength ≠ 32) (hk : c.recipient.priv = some k) (hl : c.sender.pub.raw.length = 32) (hq : Decodes c.sender.pub.raw q) :
    c.decrypt E b = .panic := by
  unfold BlockCipher.decrypt
  rw [if_neg (by omega)]
  split
  · rfl
  · rename_i h48
    dsimp only
    rw [hk, getSharedKey_point E hl hq]
    by_cases h : 32 < c.keyLength
    · rw [xorSalt_panic _ _ _ (Or.inl (by rw [encodePoint_length]; exact h))]; rfl
    · rw [xorSalt_ok _ _ _ (by rw [encodePoint_length]; omega) (by rw [List.length_take]; omega), Out.bind_ok, Out.bind_ok]
      unfold decode cbcChecks
      rw [aesNewCipher_32 (sha256_length E _), Out.bind_ok, if_pos (by rw [List.length_drop, List.length_take]; omega)]
      rfl

/-- The length that counts is that of the recipient's public key, as given to `NewEd25519BlockCipher`: if it is not 32,
`Decrypt` panics; if it is 32 and the one of the sender is not, there is an error. -/
theorem C26_key_lengths (snd rcp : KeyPair) (seed : Option ℕ) (k : PrivateKey) (b : Bytes) (hb : 64 ≤ b.length) (hk : rcp.priv = some k) :
    (∀ q, rcp.pub.raw.length ≠ 32 → snd.pub.raw.length = 32 → Decodes snd.pub.raw q →
      (newBlockCipher snd rcp seed).decrypt E b = .panic) ∧
    (rcp.pub.raw.length = 32 → snd.pub.raw.length ≠ 32 → ∃ e, (newBlockCipher snd rcp seed).decrypt E b = .err e) := by
  refine ⟨fun q h1 h2 h3 => C26_other_key_length_panics E (newBlockCipher snd rcp seed) k q b hb h1 hk h2 h3, fun h1 h2 => ?_⟩
  unfold BlockCipher.decrypt newBlockCipher getSharedKey newEncodedGroupElement
  dsimp only
  rw [if_neg (by omega), if_neg (by omega), if_pos (by omega)]
  exact ⟨_, rfl⟩

example : (newBlockCipher ⟨none, ⟨encodePoint B⟩⟩ ⟨some (newPrivateKey [2]), ⟨[1, 2, 3]⟩⟩ none).decrypt E (List.replicate 64 0) = .panic :=
  (C26_key_lengths E _ _ none (newPrivateKey [2]) _ (by simp) rfl).1 B (by simp) (encodePoint_length _) (decodes_encodePoint _)

example : (newBlockCipher ⟨none, ⟨encodePoint B⟩⟩ ⟨some (newPrivateKey [2]), ⟨encodePoint B⟩⟩ none).decrypt E (List.replicate 65 0) = .panic :=
  C26_bad_length_panics E _ (newPrivateKey [2]) B _ (by simp) (by simp) (encodePoint_length _) rfl (encodePoint_length _) (decodes_encodePoint _)

end Ed

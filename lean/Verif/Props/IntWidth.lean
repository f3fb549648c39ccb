import Verif.Proofs.IntWidth
import Verif.Props.Cipher
import Verif.Props.Dsa

/-!
# Property C95: nothing depends on the width of `int`

`w` is the number of bits of Go's `int`; the language has 32 and 64.  The functions with `W` in their names (Model/IntWidth.lean) compute
with `int`s of `w` bits that wrap around; those without are the ones all the other properties are about.  `Verify`, `Encode`, `Decode` and
the field arithmetic compute with types of fixed widths only (`int8`, `int32`, `int64`, `byte`).
-/

set_option autoImplicit false

namespace Ed

variable (E : Env) {w : ℕ}

/-- `isNegativeConstantTime` gives bit 8 of its argument: for -256 <= b < 256, whether b is negative. -/
theorem C95_negative (hw : 10 ≤ w) (b : BitVec w) (h1 : -256 ≤ b.toInt) (h2 : b.toInt < 256) :
    isNegativeConstantTimeW b = if b.toInt < 0 then 1#w else 0#w := by
  obtain ⟨hp, h5⟩ := powW hw
  obtain ⟨m, rfl⟩ := Nat.exists_eq_add_of_le (show 9 ≤ w by omega)
  have hd : 2 ^ (9 + m) = 512 * 2 ^ m := by rw [pow_add]; norm_num
  have hlt := b.isLt
  rw [BitVec.toInt_eq_toNat_cond] at h1 h2 ⊢
  rw [isNegativeConstantTimeW_eq hw, ← BitVec.testBit_toNat, Nat.testBit_eq_decide_div_mod_eq]
  generalize b.toNat = x at *
  generalize 2 ^ (9 + m) = W at *
  generalize 2 ^ m = T at *
  have key : (decide (x / 2 ^ 8 % 2 = 1) = true) ↔ (if 2 * x < W then (x : ℤ) else (x : ℤ) - (W : ℤ)) < 0 := by
    rw [decide_eq_true_iff]
    norm_num
    split at h1 <;> rename_i hc
    · rw [if_pos hc] at h2 ⊢; omega
    · rw [if_neg hc] at h2 ⊢; omega
  by_cases h : (if 2 * x < W then (x : ℤ) else (x : ℤ) - (W : ℤ)) < 0
  · rw [if_pos h, if_pos (key.2 h)]
  · rw [if_neg h, if_neg (fun hh => h (key.1 hh))]

/-- `isConstantTimeByteEq` compares the low bytes. -/
theorem C95_byte_eq (hw : 10 ≤ w) (b c : BitVec w) :
    isConstantTimeByteEqW b c = if b.toNat % 256 = c.toNat % 256 then 1#w else 0#w := by
  rw [isConstantTimeByteEqW_eq hw]
  have : b.setWidth 8 = c.setWidth 8 ↔ b.toNat % 256 = c.toNat % 256 := by
    rw [← BitVec.toNat_inj, BitVec.toNat_setWidth, BitVec.toNat_setWidth]
  by_cases h : b.toNat % 256 = c.toNat % 256
  · rw [if_pos h, if_pos (this.2 h)]
  · rw [if_neg h, if_neg (fun hh => h (this.1 hh))]

example : isNegativeConstantTimeW (BitVec.ofInt 32 (-8)) = 1#32 ∧ isNegativeConstantTimeW (8#32) = 0#32 ∧
    isConstantTimeByteEqW (7#32) 263#32 = 1#32 := by
  refine ⟨?_, ?_, ?_⟩
  · rw [C95_negative (by norm_num) _ (by decide) (by decide)]; decide
  · rw [C95_negative (by norm_num) _ (by decide) (by decide)]; decide
  · rw [C95_byte_eq (by norm_num)]; decide

/-- `Select` with any `int` gives what it gives with the `int` of 64 bits of the same value. -/
theorem C95_select (hw : 10 ≤ w) (g : GE) (pos : ℕ) (b : BitVec w) : g.selectW pos b = g.select pos (Int64.ofInt b.toInt) := by
  apply GE.selectW_eq hw
  by_cases h64 : w ≤ 64
  · show _ = (BitVec.ofInt 64 b.toInt).setWidth 9
    apply BitVec.eq_of_toNat_eq
    obtain ⟨k, hk⟩ := toInt_eq_toNatW b
    obtain ⟨m, rfl⟩ := Nat.exists_eq_add_of_le (show 9 ≤ w by omega)
    rw [BitVec.toNat_setWidth, BitVec.toNat_setWidth, BitVec.toNat_ofInt, hk]
    have hd : (2 : ℤ) ^ (9 + m) = 512 * 2 ^ m := by rw [pow_add]; norm_num
    rw [hd]
    have : k * (512 * 2 ^ m) = 512 * (k * 2 ^ m) := by ring
    rw [this]
    generalize k * 2 ^ m = t
    generalize b.toNat = x
    norm_num
    omega
  · show _ = (BitVec.ofInt 64 b.toInt).setWidth 9
    rw [ofInt_toIntW (by omega)]
    rw [BitVec.setWidth_setWidth_of_le _ (by omega)]

/-- The recoding, and every scalar product. -/
theorem C95_scalarMultiply (hw : 10 ≤ w) (g : GE) (a : Bytes) :
    toRadix16W w a = toRadix16 a ∧ g.scalarMultiplyW w a = g.scalarMultiply a :=
  ⟨toRadix16W_eq hw a, GE.scalarMultiplyW_eq hw g a⟩

/-- Derivation of public keys, `NewKeyPair`, `GenerateKeyPair`. -/
theorem C95_keys (hw : 10 ≤ w) (key : Option PrivateKey) (pub : Option PublicKey) (seed : ℕ) (wd : World) :
    derivePublicKeyW w E key = derivePublicKey E key ∧ newKeyPairW w E key pub = newKeyPair E key pub ∧
    generateKeyPairW w E seed wd = generateKeyPair E seed wd :=
  ⟨derivePublicKeyW_eq E hw key, newKeyPairW_eq E hw key pub, by rw [generateKeyPairW_eq E hw]⟩

/-- `Sign`. -/
theorem C95_sign (hw : 10 ≤ w) (kp : KeyPair) (m : Bytes) : signW w E kp m = sign E kp m := signW_eq E hw kp m

/-- `GetSharedKey`. -/
theorem C95_shared_key (hw : 10 ≤ w) (n : ℕ) (priv : Option PrivateKey) (pub : PublicKey) (salt : Bytes) :
    getSharedKeyW w E n priv pub salt = getSharedKey E n priv pub salt := getSharedKeyW_eq E hw n priv pub salt

/-- `Encrypt`, for messages whose padded length is an `int`. -/
theorem C95_encrypt (hw : 10 ≤ w) (c : BlockCipher) (m : Bytes) (wd : World) (hm : m.length + (16 - m.length % 16) < 2 ^ (w - 1)) :
    c.encryptW w E m wd = c.encrypt E m wd := by rw [encryptW_eq E hw c m hm]

/-- `Decrypt`; the length of a slice is an `int`. -/
theorem C95_decrypt (hw : 10 ≤ w) (c : BlockCipher) (b : Bytes) (hb : b.length < 2 ^ (w - 1)) : c.decryptW w E b = c.decrypt E b :=
  decryptW_eq E hw c b hb

/-- `Encrypt` of a message of 2^(w-1) - 16 bytes or more: the padded length wraps around to a negative number.
With a working pair and reader the call panics. -/
theorem C95_encrypt_large (hw : 10 ≤ w) (c : BlockCipher) (k : PrivateKey) (q : Pt) (m : Bytes) (wd : World)
    (hm : m.length < 2 ^ (w - 1)) (hl : 2 ^ (w - 1) ≤ m.length + (16 - m.length % 16))
    (hk : c.sender.priv = some k) (hkl : c.keyLength = 32) (hpl : c.recipient.pub.raw.length = 32) (hq : Decodes c.recipient.pub.raw q)
    (hf : ErrorFree (wd c.seed)) (h : 48 ≤ (content (wd c.seed)).length) : (c.encryptW w E m wd).1 = .panic := by
  have ha := avail_errorFree _ hf
  obtain ⟨r1, r2, r3⟩ := read_ok (seed := c.seed) (w := wd) (n := 32) (by rw [ha]; omega)
  have hf1 := r3 hf
  obtain ⟨s1, s2, s3⟩ := read_ok (seed := c.seed) (w := (Act.read c.seed 32 wd).2) (n := 16)
    (by rw [avail_errorFree _ hf1, r2, List.length_drop]; omega)
  have hkey := getSharedKey_ok E (k := k) (salt := (content (wd c.seed)).take 32) hpl hq (by rw [List.length_take]; omega)
  unfold BlockCipher.encryptW
  rw [hkl, Act.bind_ok' r1, hk, Act.bind_ok (x := Act.lift _) (by unfold Act.lift; rw [getSharedKeyW_eq E hw, hkey]),
    Act.bind_ok' s1, Act.bind_panic (by unfold Act.lift; rw [encodeW_large E hw m _ _ hm (sha256_length E _) hl])]

/-- Whatever the pair and the reader, such a message is never encrypted. -/
theorem C95_encrypt_large_never (hw : 10 ≤ w) (c : BlockCipher) (m : Bytes) (wd : World) (out : Bytes)
    (hm : m.length < 2 ^ (w - 1)) (hl : 2 ^ (w - 1) ≤ m.length + (16 - m.length % 16)) : (c.encryptW w E m wd).1 ≠ .ok out := by
  unfold BlockCipher.encryptW Act.bind Act.lift
  have hno : ∀ k iv b, encodeW w E m k iv ≠ .ok b := by
    intro k iv b
    unfold encodeW
    rw [padMessageW_eq hw m hm, if_neg (by omega)]
    cases aesNewCipher k <;> exact fun h => nomatch h
  dsimp only
  intro h
  split at h
  · split at h
    · split at h
      · split at h
        · rename_i heq
          exact hno _ _ _ (Prod.mk.inj heq).1
        · exact nomatch h
        · exact nomatch h
      · exact nomatch h
      · exact nomatch h
    · exact nomatch h
    · exact nomatch h
  · exact nomatch h
  · exact nomatch h

/-- Two machines with `int`s of different widths: what one encrypts, the other decrypts; what one signs, everyone accepts. -/
theorem C95_cross (w w' : ℕ) (hw : 10 ≤ w) (hw' : 10 ≤ w') (kA kB : PrivateKey) (pA pB : PublicKey)
    (hA : derivePublicKeyW w E (some kA) = .ok pA) (hB : derivePublicKeyW w' E (some kB) = .ok pB) (seed seed' : Option ℕ) (m : Bytes)
    (wd : World) (hf : ErrorFree (wd (seed.getD 0))) (hl : 48 ≤ (content (wd (seed.getD 0))).length)
    (hm : m.length + 64 < 2 ^ (w - 1)) (hm' : m.length + 64 < 2 ^ (w' - 1)) :
    (∃ out, ((newBlockCipher ⟨some kA, pA⟩ ⟨none, pB⟩ seed).encryptW w E m wd).1 = .ok out ∧
      (newBlockCipher ⟨none, pA⟩ ⟨some kB, pB⟩ seed').decryptW w' E out = .ok m) ∧
    (∀ sig, signW w E ⟨some kA, pA⟩ m = .ok sig → verify E pA m sig = .ok true ∧ signW w' E ⟨some kA, pA⟩ m = .ok sig) := by
  rw [derivePublicKeyW_eq E hw] at hA
  rw [derivePublicKeyW_eq E hw'] at hB
  constructor
  · obtain ⟨out, h1, h2, h3⟩ := C25_roundtrip E kA kB pA pB hA hB none none seed seed' m wd hf hl
    refine ⟨out, ?_, ?_⟩
    · rw [C95_encrypt E hw _ _ _ (by omega)]; exact h1
    · rw [C95_decrypt E hw' _ _ (by omega)]; exact h3
  · intro sig hs
    rw [signW_eq E hw] at hs
    exact ⟨C18_sign_verify E kA pA m sig hA hs, by rw [signW_eq E hw']; exact hs⟩

/-- The hypotheses: two machines of 32 and 64 bits. -/
example (sig : Signature) (wd : World) (hwd : wd 0 = [⟨List.replicate 48 7, none⟩])
    (h : signW 32 E ⟨some (newPrivateKey [1]), ⟨publicKeyOf E [1]⟩⟩ [3] = .ok sig) :
    verify E ⟨publicKeyOf E [1]⟩ [3] sig = .ok true := by
  have hA : derivePublicKeyW 32 E (some (newPrivateKey [1])) = .ok ⟨publicKeyOf E [1]⟩ := by
    rw [(C95_keys E (by norm_num) (some (newPrivateKey [1])) none 0 wd).1]; exact derive_spec E _
  have hB : derivePublicKeyW 64 E (some (newPrivateKey [2])) = .ok ⟨publicKeyOf E [2]⟩ := by
    rw [(C95_keys E (by norm_num) (some (newPrivateKey [2])) none 0 wd).1]; exact derive_spec E _
  refine ((C95_cross E 32 64 (by norm_num) (by norm_num) (newPrivateKey [1]) (newPrivateKey [2]) _ _ hA hB none none [3] wd ?_ ?_
    (by norm_num) (by norm_num)).2 sig h).1
  · show ErrorFree (wd 0)
    rw [hwd]; simp [ErrorFree]
  · show 48 ≤ (content (wd 0)).length
    rw [hwd]; simp [content]

/-- The hypotheses of `C95_encrypt_large`: an `int` of 10 bits and a message of 500 bytes (32 bits and 2^31 - 10 bytes are no different). -/
example (wd : World) (hwd : wd 0 = [⟨List.replicate 48 7, none⟩]) :
    ((newBlockCipher ⟨some (newPrivateKey [1]), ⟨publicKeyOf E [1]⟩⟩ ⟨none, ⟨publicKeyOf E [2]⟩⟩ none).encryptW 10 E
      (List.replicate 500 5) wd).1 = .panic := by
  refine C95_encrypt_large E (by norm_num) _ (newPrivateKey [1]) (secretScalar E [2] • B) _ wd (by rw [List.length_replicate]; norm_num)
    (by rw [List.length_replicate]; norm_num) rfl rfl (encodePoint_length _) (decodes_encodePoint _) ?_ ?_
  · show ErrorFree (wd 0)
    rw [hwd]; simp [ErrorFree]
  · show 48 ≤ (content (wd 0)).length
    rw [hwd]; simp [content]

end Ed

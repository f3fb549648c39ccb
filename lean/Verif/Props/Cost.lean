import Verif.Proofs.CostExact
import Verif.Props.Cipher
import Verif.Props.Dsa

/-!
# C94: the work of a call

`Step` names the recorded operations, `price w` is what a sequence of them costs when one step `s` costs `w s`.  The theorems hold for
every `w`: a count of multiplications is the case where `.mul` costs 1 and everything else nothing.
-/

set_option autoImplicit false

namespace Ed
open Finset Cost

variable (E : Env)

/-- The functions that record their steps return what the functions of the rest of the model return. -/
theorem C94_same_results :
    (∀ key, (derivePublicKeyC E key).out = derivePublicKey E key) ∧
    (∀ kp m, (signC E kp m).out = sign E kp m) ∧
    (∀ pub m sig, (verifyC E pub m sig).out = verify E pub m sig) ∧
    (∀ len priv pub salt, (getSharedKeyC E len priv pub salt).out = getSharedKey E len priv pub salt) ∧
    (∀ (c : BlockCipher) b, (c.decryptC E b).out = c.decrypt E b) ∧
    (∀ (c : BlockCipher) m s, (c.encryptC E m s).out = (c.encrypt E m s).1) :=
  ⟨derivePublicKeyC_out E, signC_out E, verifyC_out E, getSharedKeyC_out E, decryptC_out E, encryptC_out E⟩

/-- Deriving a public key always takes the same operations: their number and kinds are known, and private keys of one length give one
sequence. -/
theorem C94_derive (k : PrivateKey) :
    (∀ k' : PrivateKey, k'.raw.length = k.raw.length → (derivePublicKeyC E (some k')).steps = (derivePublicKeyC E (some k)).steps) ∧
    ∀ w, price w (derivePublicKeyC E (some k)).steps =
      w (.sha512 [k.raw.length]) + 264 * w .add + 204 * w .sub + 64 * w .neg + 476 * w .mul + 271 * w .sq + 4 * w .sqd + 2 * w .enc := by
  refine ⟨fun k' h => by rw [derive_steps, derive_steps, h], fun w => ?_⟩
  rw [derive_steps, price_cons, price_append, price_sScalar, price_sEncode]
  ring

/-- Signing takes the same operations for all private keys of one length, public keys of one length and messages of one length, also when
`Sign` refuses with "not canonical"; their number and kinds are known. -/
theorem C94_sign (k : PrivateKey) (pub : PublicKey) (m : Bytes) :
    (∀ (k' : PrivateKey) (pub' : PublicKey) (m' : Bytes), k'.raw.length = k.raw.length → pub'.raw.length = pub.raw.length → m'.length = m.length →
      (signC E ⟨some k', pub'⟩ m').steps = (signC E ⟨some k, pub⟩ m).steps) ∧
    ∀ w, price w (signC E ⟨some k, pub⟩ m).steps =
      2 * w (.sha512 [k.raw.length]) + w (.sha512 [32, m.length]) + w (.sha512 [32, pub.raw.length, m.length]) + 2 * w .modQ + w .mulAddModQ +
      264 * w .add + 204 * w .sub + 64 * w .neg + 476 * w .mul + 271 * w .sq + 4 * w .sqd + 2 * w .enc := by
  refine ⟨fun k' pub' m' h1 h2 h3 => by rw [sign_steps, sign_steps, h1, h2, h3], fun w => ?_⟩
  rw [sign_steps]
  simp only [price_append, price_cons, price_nil, price_sScalar, price_sEncode]
  ring

/-- Key agreement with one public key takes the same operations for all private keys of one length and all salts. -/
theorem C94_shared (len len' : ℕ) (k k' : PrivateKey) (pub : PublicKey) (salt salt' s s' : Bytes) (hk : k'.raw.length = k.raw.length)
    (h : getSharedKey E len (some k) pub salt = .ok s) (h' : getSharedKey E len' (some k') pub salt' = .ok s') :
    (getSharedKeyC E len' (some k') pub salt').steps = (getSharedKeyC E len (some k) pub salt).steps := by
  rw [shared_takes E len k pub salt s (by rw [getSharedKeyC_out, h]), shared_takes E len' k' pub salt' s' (by rw [getSharedKeyC_out, h']), hk]

/-- No input makes key agreement take more than this. -/
theorem C94_shared_bound (len n : ℕ) (priv : Option PrivateKey) (hn : ∀ k, priv = some k → k.raw.length = n) (pub : PublicKey) (salt : Bytes)
    (w : Step → ℕ) : price w (getSharedKeyC E len priv pub salt).steps ≤
      w (.sha512 [n]) + w (.sha256 32) + 3082 * w .add + 2510 * w .sub + 65 * w .neg + 9456 * w .mul + 66831 * w .sq + 4 * w .sqd + 5 * w .enc +
      2 * w .dec := by
  rw [← price_sShared]
  exact shared_within E len n priv hn pub salt w

/-- No input makes `Verify` take more than this: one hash of R, public key and message, and a constant. -/
theorem C94_verify_bound (pub : PublicKey) (m : Bytes) (sig : Signature) (w : Step → ℕ) : price w (verifyC E pub m sig).steps ≤
      w (.sha512 [sig.R.length, pub.raw.length, m.length]) + w .modQ + 1018 * w .add + 1154 * w .sub + w .neg + 1811 * w .mul + 3355 * w .sq +
      256 * w .sqd + 5 * w .enc + 2 * w .dec := by
  rw [← price_sVerify]
  exact verify_within E pub m sig w

/-- What `Verify` takes exactly, for a public key that decodes and an S that passes the filter: one hash, one reduction, the decoding and the
table of the key (`i` and `j` depend on the key), for each round from the highest non-zero digit of h or S down one doubling, for each non-zero
digit one addition, and one encoding. -/
theorem C94_verify (pub : PublicKey) (m : Bytes) (sig : Signature) (A : Pt) (hl : pub.raw.length = 32 ∨ pub.raw.length = 64)
    (hA : Decodes (pub.raw.take 32) A) (hS : sig.S.length = 32) (hc : LowBitsOk (leVal sig.S)) (hz : pub.raw ≠ List.replicate 32 0) :
    ∃ (d e : ℕ → ℤ) (t i j : ℕ), IsNaf5 d ∧ ∑ n ∈ range 256, d n * 2 ^ n = challenge E sig.R pub.raw m ∧
      IsNaf5 e ∧ ∑ n ∈ range 256, e n * 2 ^ n = nafVal (leVal sig.S) ∧
      t ≤ 256 ∧ (∀ n, t ≤ n → n < 256 → d n = 0 ∧ e n = 0) ∧ (t = 0 ∨ d (t - 1) ≠ 0 ∨ e (t - 1) ≠ 0) ∧ i ≤ 1 ∧ j ≤ 1 ∧
      ∀ w, price w (verifyC E pub m sig).steps =
        w (.sha512 [sig.R.length, pub.raw.length, m.length]) + w .modQ +
        (2 * w .dec + w .add + 2 * w .sub + 19 * w .mul + 256 * w .sq + 2 * w .enc + i * (w .add + w .mul + w .enc) + j * w .neg) +
        (88 * w .add + 72 * w .sub + 280 * w .mul + 2072 * w .sq) +
        t * (2 * w .add + 3 * w .sub + 3 * w .mul + 3 * w .sq + w .sqd) +
        (((range 256).filter fun n => d n ≠ 0).card + ((range 256).filter fun n => e n ≠ 0).card) * (4 * w .add + 3 * w .sub + 7 * w .mul) +
        (15 * w .mul + 259 * w .sq + 2 * w .enc) := by
  obtain ⟨i, hi, j, hj, h⟩ := verify_costs E (m := m) hl hA (by omega : 32 ≤ sig.S.length) hc hz
  have hh : modQ (hashesSha3_512 E [sig.R, pub.raw, m]) = leBytes 32 (challenge E sig.R pub.raw m) := by
    rw [hashes_flatten]
    simp only [List.flatten_cons, List.flatten_nil, List.append_nil, ← List.append_assoc]
    exact modQ_hash (Hash_length E _)
  rw [hh] at h
  have hhv : leVal (leBytes 32 (challenge E sig.R pub.raw m)) = challenge E sig.R pub.raw m := leVal_leBytes_modL _
  obtain ⟨r1, r2, r3⟩ := rounds_spec (slide (leBytes 32 (challenge E sig.R pub.raw m))) (slide sig.S) 256
  have hnz : ∀ a : Bytes, GE.nz (slide a) 256 = ((range 256).filter fun n => (slide a n).toInt ≠ 0).card := by
    intro a
    have hf : ∀ n, (range n).filter (fun j => slide a j ≠ 0) = (range n).filter (fun j => (slide a j).toInt ≠ 0) :=
      fun n => Finset.filter_congr fun j _ => GE.int8_ne_zero _
    unfold GE.nz
    rw [hf]
  have hz0 : ∀ x : Int8, x = 0 → x.toInt = 0 := fun x hx => by rw [hx]; rfl
  refine ⟨fun n => (slide (leBytes 32 (challenge E sig.R pub.raw m)) n).toInt, fun n => (slide sig.S n).toInt,
    GE.rounds (slide (leBytes 32 (challenge E sig.R pub.raw m))) (slide sig.S) 256, i, j, slide_isNaf5 _, ?_, slide_isNaf5 _, slide_naf32 hS, r1,
    fun n h1 h2 => ⟨hz0 _ (r2 n h1 h2).1, hz0 _ (r2 n h1 h2).2⟩, ?_, hi, hj, fun w => ?_⟩
  · have := GE.slide_val (leBytes 32 (challenge E sig.R pub.raw m)) (by rw [hhv]; exact modL_lt255 _)
    rw [hhv] at this
    exact this
  · rcases r3 with r3 | r3 | r3
    · exact Or.inl r3
    · exact Or.inr (Or.inl ((GE.int8_ne_zero _).1 r3))
    · exact Or.inr (Or.inr ((GE.int8_ne_zero _).1 r3))
  · rw [h w, hnz, hnz, price_sDouble, price_sEncode]
    dsimp only
    generalize ((range 256).filter fun n => (slide (leBytes 32 (challenge E sig.R pub.raw m)) n).toInt ≠ 0).card = x,
      ((range 256).filter fun n => (slide sig.S n).toInt ≠ 0).card = y, GE.rounds _ _ 256 = t
    unfold sDbl sToP2 sToP3 sPrecAdd
    simp only [price_append, price_cons, price_nil]
    ring

/-- An S that does not pass the filter, and the zero public key, are refused without any of these operations. -/
theorem C94_verify_early (pub : PublicKey) (m : Bytes) (sig : Signature) (h : ¬ LowBitsOk (leVal sig.S) ∨ pub.raw = List.replicate 32 0) :
    (verifyC E pub m sig).steps = [] := by
  unfold verifyC
  rw [isCanonical_eq, isEqualConstantTime_eq]
  by_cases hc : LowBitsOk (leVal sig.S)
  · rw [if_neg (by simp [hc]), if_pos (by rw [h.resolve_left (not_not.2 hc)]; exact beq_self_eq_true _)]
    rfl
  · rw [if_pos (by simp [hc])]
    rfl

/-- What a key agreement that returns takes exactly; `i` and `j` depend on the public key only. -/
theorem C94_shared_price (pub : PublicKey) : ∃ i ≤ 1, ∃ j ≤ 1, ∀ (len : ℕ) (k : PrivateKey) (salt s : Bytes),
    getSharedKey E len (some k) pub salt = .ok s → ∀ w, price w (getSharedKeyC E len (some k) pub salt).steps =
      w (.sha512 [k.raw.length]) + w (.sha256 32) + (3081 + i) * w .add + 2510 * w .sub + (64 + j) * w .neg + (9455 + i) * w .mul + 66831 * w .sq +
      4 * w .sqd + (4 + i) * w .enc + 2 * w .dec := by
  by_cases h : ∃ g, GC.decode pub.raw = .ok g
  · obtain ⟨g, hg⟩ := h
    obtain ⟨i, hi, j, hj, hd⟩ := GC.decode_shape pub.raw g (by rw [GC.decodeC_out, hg])
    refine ⟨i, hi, j, hj, fun len k salt s hs w => ?_⟩
    rw [shared_takes E len k pub salt s (by rw [getSharedKeyC_out, hs])]
    simp only [price_append, hd, price_cons, price_nil, price_sSingle, price_sScalar, price_sEncode]
    ring
  · refine ⟨0, Nat.zero_le _, 0, Nat.zero_le _, fun len k salt s hs => ?_⟩
    unfold getSharedKey at hs
    obtain ⟨a, ha, hs⟩ := bind_eq_ok hs
    obtain ⟨g, hg, hs⟩ := bind_eq_ok hs
    exact absurd ⟨g, (decoded_repr ha hg).1 ▸ hg⟩ h

/-- `Decrypt` takes the same operations for all inputs of one length of whole blocks, whatever the key and the plaintext, and whether the padding
is accepted or not. -/
theorem C94_decrypt (c c' : BlockCipher) (k k' : PrivateKey) (q : Pt) (hk : c.recipient.priv = some k) (hk' : c'.recipient.priv = some k')
    (hl : k'.raw.length = k.raw.length) (hp : c.sender.pub = c'.sender.pub) (hpl : c.sender.pub.raw.length = 32) (hq : Decodes c.sender.pub.raw q)
    (hc : c.keyLength = 32) (hc' : c'.keyLength = 32) (b b' : Bytes) (hb : 64 ≤ b.length) (h16 : b.length % 16 = 0) (hb' : b'.length = b.length) :
    (c'.decryptC E b').steps = (c.decryptC E b).steps := by
  have h1 := getSharedKey_ok E (k := k) (salt := b.take 32) hpl hq (by rw [List.length_take]; omega)
  have h2 := getSharedKey_ok E (k := k') (salt := b'.take 32) hpl hq (by rw [List.length_take]; omega)
  rw [← hc] at h1
  rw [hp, ← hc'] at h2
  rw [decrypt_steps E c b k hk _ hc hb h16 h1, decrypt_steps E c' b' k' hk' _ hc' (by omega) (by omega) h2, hl, hp, hb']

/-- No input makes `Decrypt` take more than a key agreement and one AES block for each 16 bytes after the first 48. -/
theorem C94_decrypt_bound (c : BlockCipher) (b : Bytes) (n : ℕ) (hn : ∀ k, c.recipient.priv = some k → k.raw.length = n) (w : Step → ℕ) :
    price w (c.decryptC E b).steps ≤
      w (.sha512 [n]) + w (.sha256 32) + 3082 * w .add + 2510 * w .sub + 65 * w .neg + 9456 * w .mul + 66831 * w .sq + 4 * w .sqd + 5 * w .enc +
      2 * w .dec + (b.length / 16 - 3) * w .aes := by
  rw [← price_sShared, ← price_replicate, ← price_append]
  exact decrypt_within E c b n hn w

/-- Encrypting to one public key takes the same operations for all private keys of one length, random bytes, and messages with the same number of
blocks. -/
theorem C94_encrypt (c c' : BlockCipher) (k k' : PrivateKey) (hk : c.sender.priv = some k) (hk' : c'.sender.priv = some k')
    (hl : k'.raw.length = k.raw.length) (hp : c'.recipient.pub = c.recipient.pub) (m m' : Bytes) (hm : m'.length / 16 = m.length / 16)
    (s s' : World) (r r' : Bytes) (h : (c.encrypt E m s).1 = .ok r) (h' : (c'.encrypt E m' s').1 = .ok r') :
    (c'.encryptC E m' s').steps = (c.encryptC E m s).steps := by
  rw [encrypt_takes E c m s k hk r (by rw [encryptC_out, h]), encrypt_takes E c' m' s' k' hk' r' (by rw [encryptC_out, h']), hl, hp, hm]

/-- No input makes `Encrypt` take more than a key agreement and one AES block for each block of the padded message. -/
theorem C94_encrypt_bound (c : BlockCipher) (m : Bytes) (s : World) (n : ℕ) (hn : ∀ k, c.sender.priv = some k → k.raw.length = n) (w : Step → ℕ) :
    price w (c.encryptC E m s).steps ≤
      w (.sha512 [n]) + w (.sha256 32) + 3082 * w .add + 2510 * w .sub + 65 * w .neg + 9456 * w .mul + 66831 * w .sq + 4 * w .sqd + 5 * w .enc +
      2 * w .dec + (m.length / 16 + 1) * w .aes := by
  rw [← price_sShared, ← price_replicate, ← price_append]
  exact encrypt_within E c m s n hn w

/-! ## Concrete cases -/

/-- The number of multiplications of one derivation. -/
example (k : PrivateKey) : price (fun s => if s = .mul then 1 else 0) (derivePublicKeyC E (some k)).steps = 476 := by
  rw [(C94_derive E k).2]; simp

/-- Two different keys, one sequence of operations. -/
example : (signC E ⟨some (newPrivateKey (List.replicate 32 1)), ⟨List.replicate 32 9⟩⟩ [1, 2]).steps =
    (signC E ⟨some (newPrivateKey (List.replicate 32 2)), ⟨List.replicate 32 8⟩⟩ [3, 4]).steps := by
  refine (C94_sign E (newPrivateKey (List.replicate 32 2)) ⟨List.replicate 32 8⟩ [3, 4]).1 _ _ _ ?_ ?_ ?_ <;> simp [newPrivateKey]

/-- Two key agreements that return. -/
example (sk : Bytes) : (getSharedKeyC E 32 (some (newPrivateKey [1])) ⟨publicKeyOf E sk⟩ (List.replicate 32 5)).steps =
    (getSharedKeyC E 32 (some (newPrivateKey [2])) ⟨publicKeyOf E sk⟩ (List.replicate 32 6)).steps :=
  C94_shared E 32 32 (newPrivateKey [2]) (newPrivateKey [1]) _ _ _ _ _ rfl (getSharedKey_derived E (newPrivateKey [2]) sk _ (by simp)) (getSharedKey_derived E (newPrivateKey [1]) sk _ (by simp))

/-- Two inputs of 64 bytes, whatever they decrypt to. -/
example (sk : Bytes) (b b' : Bytes) (hb : b.length = 64) (hb' : b'.length = 64) (pub : PublicKey) (hp : pub = ⟨publicKeyOf E sk⟩) :
    (BlockCipher.decryptC E ⟨⟨none, pub⟩, ⟨some (newPrivateKey [1]), pub⟩, 32, 0⟩ b').steps =
    (BlockCipher.decryptC E ⟨⟨none, pub⟩, ⟨some (newPrivateKey [2]), pub⟩, 32, 0⟩ b).steps := by
  have h1 : pub.raw.length = 32 := by rw [hp]; exact publicKeyOf_length E _
  have h2 : Decodes pub.raw (secretScalar E sk • B) := by rw [hp]; exact decodes_encodePoint _
  exact C94_decrypt E ⟨⟨none, pub⟩, ⟨some (newPrivateKey [2]), pub⟩, 32, 0⟩ ⟨⟨none, pub⟩, ⟨some (newPrivateKey [1]), pub⟩, 32, 0⟩ (newPrivateKey [2])
    (newPrivateKey [1]) _ rfl rfl rfl rfl h1 h2 rfl rfl b b' (by omega) (by omega) (by omega)

/-- A signature with S = 1 and a derived key: all conditions of `C94_verify` hold. -/
example (sk m R : Bytes) : ∃ d e t i j, IsNaf5 d ∧ IsNaf5 e ∧ ∀ w, price w (verifyC E ⟨publicKeyOf E sk⟩ m ⟨R, leBytes 32 1⟩).steps =
    w (.sha512 [R.length, (publicKeyOf E sk).length, m.length]) + w .modQ +
        (2 * w .dec + w .add + 2 * w .sub + 19 * w .mul + 256 * w .sq + 2 * w .enc + i * (w .add + w .mul + w .enc) + j * w .neg) +
        (88 * w .add + 72 * w .sub + 280 * w .mul + 2072 * w .sq) +
        t * (2 * w .add + 3 * w .sub + 3 * w .mul + 3 * w .sq + w .sqd) +
        (((range 256).filter fun n => d n ≠ 0).card + ((range 256).filter fun n => e n ≠ 0).card) * (4 * w .add + 3 * w .sub + 7 * w .mul) +
        (15 * w .mul + 259 * w .sq + 2 * w .enc) := by
  have h1 : leVal (leBytes 32 1) = 1 := leVal_leBytes_of_lt (by norm_num)
  obtain ⟨d, e, t, i, j, a1, -, a2, -, -, -, -, -, -, a3⟩ := C94_verify E ⟨publicKeyOf E sk⟩ m ⟨R, leBytes 32 1⟩ (secretScalar E sk • B)
    (Or.inl (publicKeyOf_length E sk)) (by rw [List.take_of_length_le (by rw [publicKeyOf_length])]; exact decodes_encodePoint _)
    (leBytes_length _ _) (by rw [h1, LowBitsOk, L_eq]; decide) (publicKeyOf_ne_zeros E sk)
  exact ⟨d, e, t, i, j, a1, a2, a3⟩

/-- An accepted signature falls under the bound. -/
example (k : PrivateKey) (m : Bytes) : price (fun s => if s = .mul then 1 else 0) (verifyC E ⟨publicKeyOf E k.raw⟩ m
    ⟨sigR E k.raw m, leBytes 32 (sigS E k.raw (publicKeyOf E k.raw) m)⟩).steps ≤ 1811 := by
  refine le_trans (C94_verify_bound E _ _ _ _) ?_
  simp

/-- Two encryptions that succeed, with different keys, messages and random bytes. -/
example (sk : Bytes) (w w' : World) (hf : ErrorFree (w 0)) (hf' : ErrorFree (w' 0)) (h : 48 ≤ (content (w 0)).length)
    (h' : 48 ≤ (content (w' 0)).length) (pub : PublicKey) (hp : pub = ⟨publicKeyOf E sk⟩) (c c' : BlockCipher)
    (hc : c = ⟨⟨some (newPrivateKey [2]), pub⟩, ⟨none, pub⟩, 32, 0⟩) (hc' : c' = ⟨⟨some (newPrivateKey [1]), pub⟩, ⟨none, pub⟩, 32, 0⟩) :
    (c'.encryptC E [1, 2, 3] w').steps = (c.encryptC E [5] w).steps := by
  have h1 : pub.raw.length = 32 := by rw [hp]; exact publicKeyOf_length E _
  have h2 : Decodes pub.raw (secretScalar E sk • B) := by rw [hp]; exact decodes_encodePoint _
  generalize secretScalar E sk • B = q at h2
  have e1 : c.recipient.pub = pub := by rw [hc]
  have e2 : c'.recipient.pub = pub := by rw [hc']
  have e3 : c.seed = 0 := by rw [hc]
  have e4 : c'.seed = 0 := by rw [hc']
  have k1 : c.sender.priv = some (newPrivateKey [2]) := by rw [hc]
  have k2 : c'.sender.priv = some (newPrivateKey [1]) := by rw [hc']
  obtain ⟨r, hr, -⟩ := C28_encrypt E c (newPrivateKey [2]) q [5] w k1 (by rw [hc]) (by rw [e1]; exact h1) (by rw [e1]; exact h2)
    (by rw [e3]; exact hf) (by rw [e3]; exact h)
  obtain ⟨r', hr', -⟩ := C28_encrypt E c' (newPrivateKey [1]) q [1, 2, 3] w' k2 (by rw [hc']) (by rw [e2]; exact h1) (by rw [e2]; exact h2)
    (by rw [e4]; exact hf') (by rw [e4]; exact h')
  exact C94_encrypt E c c' _ _ k1 k2 rfl (by rw [e1, e2]) [5] [1, 2, 3] rfl w w' r r' hr hr'

end Ed

import Verif.Proofs.Dsa
import Verif.Spec.Toy
import Verif.Props.Group

/-!
# Properties C18-C23, C29, C30, C37, C42, C43: keys and signatures
-/

set_option exponentiation.threshold 600

set_option autoImplicit false

namespace Ed

variable (E : Env)

/-! ## C43: hash inputs are concatenated -/

/-- `HashesSha3_512(x1, ..., xn)` is the hash of the concatenation. -/
theorem C43_concat (l : List Bytes) : hashesSha3_512 E l = hashesSha3_512 E [l.flatten] := by
  rw [hashes_flatten, hashes_flatten]; simp

/-- The result does not depend on how the bytes are split into arguments. -/
theorem C43_split_irrelevant (l m : List Bytes) (h : l.flatten = m.flatten) :
    hashesSha3_512 E l = hashesSha3_512 E m := by
  rw [hashes_flatten, hashes_flatten, h]

example : hashesSha3_512 E [[1, 2], [], [3]] = hashesSha3_512 E [[1], [2, 3]] := C43_split_irrelevant E _ _ rfl

/-- Every hash has its documented length, for every input, and is the digest of exactly the bytes given: feeding the
underlying `hash.Hash` the same bytes in any number of pieces gives the same digest. -/
theorem C43_lengths (O : OtherHashes) (b : Bytes) (l : List Bytes) :
    (hashesSha3_512 E l).length = 64 ∧ (hashesSha3_256 E b).length = 32 ∧ (hashesSha_256 O b).length = 32 ∧
    (hashesKeccak_256 O b).length = 32 ∧ (hashesRipemd160 O b).length = 20 :=
  ⟨E.sha512_length _, E.sha256_length _, O.sha2_length _, O.keccak_length _, O.ripemd_length _⟩

theorem C43_pieces (O : OtherHashes) (l : List Bytes) :
    hashesSha3_256 E l.flatten = E.sha256.sum (l.foldl E.sha256.write E.sha256.init) ∧
    hashesSha_256 O l.flatten = O.sha2.sum (l.foldl O.sha2.write O.sha2.init) ∧
    hashesKeccak_256 O l.flatten = O.keccak.sum (l.foldl O.keccak.write O.keccak.init) ∧
    hashesRipemd160 O l.flatten = O.ripemd.sum (l.foldl O.ripemd.write O.ripemd.init) := by
  have h : ∀ H : Hasher, H.write H.init l.flatten = l.foldl H.write H.init := by
    intro H
    generalize H.init = s
    induction l generalizing s with
    | nil => exact H.write_nil s
    | cons a l ih => rw [List.flatten_cons, ← H.write_append, ih, List.foldl_cons]
  exact ⟨by rw [hashesSha3_256, h], by rw [hashesSha_256, h], by rw [hashesKeccak_256, h], by rw [hashesRipemd160, h]⟩

/-! ## C42: clamping -/

/-- `PrepareForScalarMultiply` gives 32 bytes encoding a multiple of 8 in [2^254, 2^255): the first half of
the key hash with bits 0, 1, 2, 255 cleared and bit 254 set. -/
theorem C42_clamped (k : PrivateKey) :
    ∃ a, prepareForScalarMultiply E (some k) = .ok a ∧ a.length = 32 ∧ 8 ∣ leVal a ∧
      2 ^ 254 ≤ leVal a ∧ leVal a < 2 ^ 255 ∧
      ∀ i, 3 ≤ i → i < 254 → (leVal a).testBit i = (leVal ((Hash E k.raw).take 32)).testBit i := by
  obtain ⟨a, a1, a2, a3⟩ := prepare_spec E k
  obtain ⟨b1, b2, b3⟩ := secretScalar_bounds E k.raw
  refine ⟨a, a1, a2, a3 ▸ b3, a3 ▸ b1, a3 ▸ b2, fun i h1 h2 => ?_⟩
  rw [a3, secretScalar]
  generalize leVal ((Hash E k.raw).take 32) = n
  have e1 : 2 ^ 254 + 8 * (n / 8 % 2 ^ 251) = (2 ^ 251 + n / 8 % 2 ^ 251) * 2 ^ 3 := by ring
  obtain ⟨j, rfl⟩ : ∃ j, i = j + 3 := ⟨i - 3, by omega⟩
  rw [e1, Nat.testBit_mul_two_pow]
  simp only [Nat.le_add_left, decide_true, Bool.true_and, Nat.add_sub_cancel]
  rw [Nat.testBit_two_pow_add_gt (by omega), Nat.testBit_mod_two_pow]
  simp only [show j < 251 by omega, decide_true, Bool.true_and]
  rw [show (8 : ℕ) = 2 ^ 3 by norm_num, Nat.testBit_div_two_pow]

/-- It depends on the key bytes only through their hash. -/
theorem C42_only_hash (k k' : PrivateKey) (h : Hash E k.raw = Hash E k'.raw) :
    prepareForScalarMultiply E (some k) = prepareForScalarMultiply E (some k') := by
  unfold prepareForScalarMultiply
  simp only [Out.deref, Out.ok_bind, hashes_flatten, List.flatten_cons, List.flatten_nil, List.append_nil, h]

/-- A nil key panics. -/
theorem C42_nil : prepareForScalarMultiply E none = .panic := rfl

/-! ## C29: derived public keys -/

/-- A point with y = 0 has order 4, so it is not a multiple of the base point. -/
theorem y_ne_zero_of_order {q : Pt} (h : L • q = 0) (h0 : q ≠ 0) : q.y ≠ 0 := by
  intro hy
  have hx : q.x ^ 2 = -1 := by
    have := q.on; unfold OnCurve at this; rw [hy] at this
    linear_combination -this
  have h4 : (4 : ℕ) • q = 0 := by
    have e2 : (q + q).x = 0 := by rw [Pt.add_x, hy]; simp
    have e3 : (q + q).y = -1 := by
      rw [Pt.add_y, hy]; simp; linear_combination hx
    have : (4 : ℕ) • q = (q + q) + (q + q) := by rw [← two_nsmul, ← two_nsmul, ← mul_nsmul]
    rw [this]
    apply Pt.ext
    · rw [Pt.add_x, e2]; simp
    · rw [Pt.add_y, e2, e3]; simp
  have h1 : addOrderOf q ∣ L := addOrderOf_dvd_of_nsmul_eq_zero h
  have h2 : addOrderOf q ∣ 4 := addOrderOf_dvd_of_nsmul_eq_zero h4
  have hc : Nat.Coprime L 4 := by
    rw [Nat.Prime.coprime_iff_not_dvd L_prime]
    intro h8; have := Nat.le_of_dvd (by norm_num) h8
    have := L_gt; omega
  have : addOrderOf q = 1 := Nat.eq_one_of_dvd_coprimes hc h1 h2
  exact h0 (AddMonoid.addOrderOf_eq_one_iff.mp this)

theorem scalar_smul_ne_zero (sk : Bytes) : secretScalar E sk • B ≠ 0 := by
  intro h
  have := addOrderOf_dvd_of_nsmul_eq_zero h
  rw [addOrderOf_B] at this
  exact secretScalar_mod E sk this

theorem L_smul_smul_B (n : ℕ) : L • (n • B) = 0 := by
  rw [← mul_nsmul, Nat.mul_comm, mul_nsmul, L_smul_B, smul_zero]

theorem publicKeyOf_ne_zeros (sk : Bytes) : publicKeyOf E sk ≠ List.replicate 32 0 := by
  intro h
  have hv := encodePoint_val (secretScalar E sk • B)
  have hy := y_ne_zero_of_order (L_smul_smul_B _) (scalar_smul_ne_zero E sk)
  unfold publicKeyOf at h
  rw [h, leVal_replicate_zero] at hv
  apply hy
  have : (secretScalar E sk • B).y.val = 0 := by omega
  exact (ZMod.val_eq_zero _).mp this

/-- `DerivePublicKey` returns the 32-byte encoding of `a*B` for every private key (of any length), where `a` is the
clamped hash; this point has exact order L, and the bytes are not the all-zero string refused by `Verify`. -/
theorem C29_derived (k : PrivateKey) : ∃ pk q, derivePublicKey E (some k) = .ok pk ∧ pk.raw.length = 32 ∧
    pk.raw = encodePoint q ∧ Decodes pk.raw q ∧ q = secretScalar E k.raw • B ∧ addOrderOf q = L ∧
    pk.raw ≠ List.replicate 32 0 := by
  refine ⟨_, secretScalar E k.raw • B, derive_spec E k, publicKeyOf_length E _, rfl, decodes_encodePoint _, rfl, ?_,
    publicKeyOf_ne_zeros E _⟩
  have h1 : addOrderOf (secretScalar E k.raw • B) ∣ L := addOrderOf_dvd_of_nsmul_eq_zero (L_smul_smul_B _)
  rcases (Nat.dvd_prime L_prime).mp h1 with h | h
  · exact absurd (AddMonoid.addOrderOf_eq_one_iff.mp h) (scalar_smul_ne_zero E _)
  · exact h

/-- In particular it is not a point of small order. -/
theorem C29_not_small_order (k : PrivateKey) {pk : PublicKey} {q : Pt} (h : derivePublicKey E (some k) = .ok pk)
    (hq : Decodes pk.raw q) : (8 : ℕ) • q ≠ 0 := by
  obtain ⟨pk', q', h1, _, _, h4, _, h6, _⟩ := C29_derived E k
  rw [h1] at h; cases h
  rw [GC.decodes_unique hq h4]
  intro h8
  have := addOrderOf_dvd_of_nsmul_eq_zero h8
  rw [h6] at this
  have := Nat.le_of_dvd (by norm_num) this
  have := L_gt; omega

/-- Without a private key it panics. -/
theorem C29_nil : derivePublicKey E none = .panic := rfl

/-! ## C30: key pairs -/

/-- With a nil public key the pair holds the given private and the derived public key. -/
theorem C30_derive (k : PrivateKey) : newKeyPair E (some k) none = .ok ⟨some k, ⟨publicKeyOf E k.raw⟩⟩ := by
  unfold newKeyPair; dsimp only; rw [derive_spec, Out.bind_ok]

/-- With a public key `NewKeyPair` succeeds iff it has 32 bytes, and then keeps both keys. -/
theorem C30_given (priv : Option PrivateKey) (p : PublicKey) (kp : KeyPair) :
    newKeyPair E priv (some p) = .ok kp ↔ p.raw.length = 32 ∧ kp = ⟨priv, p⟩ := by
  unfold newKeyPair isKeyCompressed
  by_cases h : p.raw.length = 32
  · simp [h, eq_comm]
  · simp [h, Ne.symm h]

/-- Otherwise it returns an error. -/
theorem C30_given_error (priv : Option PrivateKey) (p : PublicKey) (h : p.raw.length ≠ 32) :
    ∃ e, newKeyPair E priv (some p) = .err e := by
  unfold newKeyPair isKeyCompressed
  simp [Ne.symm h]

/-- Both cases: 32 bytes that are no point, and 31 bytes. -/
example (k : PrivateKey) : newKeyPair E (some k) (some ⟨7 :: List.replicate 31 0⟩) = .ok ⟨some k, ⟨7 :: List.replicate 31 0⟩⟩ ∧
    ∃ e, newKeyPair E (some k) (some ⟨List.replicate 31 1⟩) = .err e :=
  ⟨(C30_given E _ _ _).mpr ⟨by simp, rfl⟩, C30_given_error E _ _ (by simp)⟩

/-- Nothing checks that the two keys belong together: any private key is paired with any 32 bytes,
also with bytes that are not a point. -/
theorem C30_no_consistency_check (priv : Option PrivateKey) (b : Bytes) (h : b.length = 32) :
    newKeyPair E priv (some ⟨b⟩) = .ok ⟨priv, ⟨b⟩⟩ := (C30_given E priv ⟨b⟩ _).mpr ⟨h, rfl⟩

/-- Without any key it panics. -/
theorem C30_nil_nil : newKeyPair E none none = .panic := rfl

/-! ## C19: Sign -/

/-- The outcome of `Sign` for a key pair with a private key. -/
theorem C19_sign (k : PrivateKey) (pub : PublicKey) (m : Bytes) :
    sign E ⟨some k, pub⟩ m =
      if LowBitsOk (sigS E k.raw pub.raw m) then
        .ok ⟨encodePoint (nonce E k.raw m • B), leBytes 32 (sigS E k.raw pub.raw m)⟩
      else .err "Generated signature is not canonical" := sign_spec E k pub m

/-- Without private key an error is returned. -/
theorem C19_nokey (pub : PublicKey) (m : Bytes) : ∃ e, sign E ⟨none, pub⟩ m = .err e := ⟨_, rfl⟩

/-- `Sign` never panics. -/
theorem C19_never_panics (kp : KeyPair) (m : Bytes) : sign E kp m ≠ .panic := by
  obtain ⟨priv, pub⟩ := kp
  cases priv with
  | none => rw [sign_nokey]; exact fun h => nomatch h
  | some k => rw [sign_spec]; split <;> exact fun h => nomatch h

/-- Every signature has a 32-byte R and a 32-byte S below the group order, S not 0. -/
theorem C19_well_formed (kp : KeyPair) (m : Bytes) (sig : Signature) (h : sign E kp m = .ok sig) :
    sig.R.length = 32 ∧ sig.S.length = 32 ∧ 0 < leVal sig.S ∧ leVal sig.S < L := by
  obtain ⟨priv, pub⟩ := kp
  cases priv with
  | none => rw [sign_nokey] at h; cases h
  | some k =>
    rw [sign_spec] at h
    split at h
    · rename_i hl
      cases h
      have hv : leVal (leBytes 32 (sigS E k.raw pub.raw m)) = sigS E k.raw pub.raw m := leVal_leBytes_modL _
      refine ⟨encodePoint_length _, leBytes_length _ _, ?_, ?_⟩
      · dsimp only; rw [hv]
        have := hl.1
        by_contra hc
        have h0 : sigS E k.raw pub.raw m = 0 := by omega
        rw [h0] at this; exact this rfl
      · dsimp only; rw [hv]; exact Nat.mod_lt _ L_pos
    · cases h

/-- A concrete key and message for which `Sign` succeeds. -/
theorem toy_sign_ok : LowBitsOk (sigS Env.toy (List.replicate 32 7) (publicKeyOf Env.toy (List.replicate 32 7)) [1, 2, 3]) := by
  have hs : secretScalar Env.toy (List.replicate 32 7) = 2 ^ 254 + 32 := by decide +kernel
  have hn : nonce Env.toy (List.replicate 32 7) [1, 2, 3] = 35 := by
    have : nonce Env.toy (List.replicate 32 7) [1, 2, 3] = 35 % L := by
      unfold nonce; congr 1
    rw [this, Nat.mod_eq_of_lt (by have := L_gt; omega)]
  have hc : challenge Env.toy (sigR Env.toy (List.replicate 32 7) [1, 2, 3]) (publicKeyOf Env.toy (List.replicate 32 7)) [1, 2, 3] = 67 := by
    have hl : (sigR Env.toy (List.replicate 32 7) [1, 2, 3] ++ publicKeyOf Env.toy (List.replicate 32 7) ++ [1, 2, 3]).length = 67 := by
      simp only [List.length_append, publicKeyOf_length, sigR, encodePoint_length]; rfl
    have : challenge Env.toy (sigR Env.toy (List.replicate 32 7) [1, 2, 3]) (publicKeyOf Env.toy (List.replicate 32 7)) [1, 2, 3] = 67 % L := by
      have hh : ∀ b : Bytes, Hash Env.toy b = leBytes 64 b.length := fun b => rfl
      unfold challenge
      rw [hh, hl]; congr 1
    rw [this, Nat.mod_eq_of_lt (by have := L_gt; omega)]
  unfold sigS
  rw [hs, hn, hc, L_eq]
  unfold LowBitsOk
  rw [L_eq]
  decide +kernel

example : ∃ sig, sign Env.toy ⟨some (newPrivateKey (List.replicate 32 7)), ⟨publicKeyOf Env.toy (List.replicate 32 7)⟩⟩ [1, 2, 3] = .ok sig := by
  rw [sign_spec]
  exact ⟨_, if_pos toy_sign_ok⟩

/-! ## C20: Verify -/

/-- For malformed public keys (wrong length, or not the encoding of a point) `Verify` returns false. -/
theorem C20_malformed_key (pub : PublicKey) (m : Bytes) (sig : Signature)
    (h : ¬ ((pub.raw.length = 32 ∨ pub.raw.length = 64) ∧ ∃ A, Decodes (pub.raw.take 32) A)) :
    verify E pub m sig = .ok false := by
  have he : ∃ e, verifyEquation E pub m sig = .err e := by
    by_cases hl : pub.raw.length = 32 ∨ pub.raw.length = 64
    · rcases GC.decode_cases hl with hq | ⟨hd, _⟩
      · exact absurd ⟨hl, hq⟩ h
      · exact verifyEquation_nodecode E hd
    · exact verifyEquation_badlen E hl
  obtain ⟨e, he⟩ := he
  unfold verify
  rw [he]
  split
  · rfl
  · split <;> rfl

theorem verify_eq {pub : PublicKey} {m : Bytes} {sig : Signature} {A : Pt}
    (hl : pub.raw.length = 32 ∨ pub.raw.length = 64) (hq : Decodes (pub.raw.take 32) A) (hS : 32 ≤ sig.S.length) :
    verify E pub m sig = .ok (decide (LowBitsOk (leVal sig.S) ∧ pub.raw ≠ List.replicate 32 0 ∧
      sig.R = encodePoint (slideVal sig.S • B - challenge E sig.R pub.raw m • A))) := by
  unfold verify
  rw [verifyEquation_spec E hl hq hS, isCanonical_eq, isEqualConstantTime_eq]
  by_cases h1 : LowBitsOk (leVal sig.S)
  · by_cases h2 : pub.raw = List.replicate 32 0
    · rw [if_neg (by simp [h1]), if_pos (by rw [h2]; exact beq_self_eq_true _)]
      simp [h2]
    · rw [if_neg (by simp [h1]), if_neg (by simpa using h2)]
      simp only [Out.orFalse, h1, h2, true_and, ne_eq, not_false_eq_true]
  · rw [if_pos (by simp [h1])]
    simp [h1]

/-- `Verify` terminates with true or false for every key, message and signature with an S of at least 32 bytes. -/
theorem C20_total (pub : PublicKey) (m : Bytes) (sig : Signature) (hS : 32 ≤ sig.S.length) :
    ∃ b, verify E pub m sig = .ok b := by
  by_cases h : (pub.raw.length = 32 ∨ pub.raw.length = 64) ∧ ∃ A, Decodes (pub.raw.take 32) A
  · obtain ⟨hl, A, hA⟩ := h
    exact ⟨_, verify_eq E hl hA hS⟩
  · exact ⟨_, C20_malformed_key E pub m sig h⟩

theorem slideVal_of_lt {S : Bytes} (h : leVal S < 2 ^ 255) : slideVal S = (leVal S : ℤ) := GE.slide_val S h

/-- For S < 2^255: `Verify` accepts iff S passes the low-bits filter, the public key is not 32 zero bytes, it has 32
(or 64) bytes whose first 32 decode to a point A, and R is the encoding of S*B - H(R,A,M)*A. -/
theorem C20_accepts_iff (pub : PublicKey) (m : Bytes) (sig : Signature) (hl : 32 ≤ sig.S.length) (hS : leVal sig.S < 2 ^ 255) :
    verify E pub m sig = .ok true ↔
      LowBitsOk (leVal sig.S) ∧ pub.raw ≠ List.replicate 32 0 ∧ (pub.raw.length = 32 ∨ pub.raw.length = 64) ∧
      ∃ A, Decodes (pub.raw.take 32) A ∧ sig.R = encodePoint (leVal sig.S • B - challenge E sig.R pub.raw m • A) := by
  by_cases h : (pub.raw.length = 32 ∨ pub.raw.length = 64) ∧ ∃ A, Decodes (pub.raw.take 32) A
  · obtain ⟨hlen, A, hA⟩ := h
    rw [verify_eq E hlen hA hl, slideVal_of_lt hS, natCast_zsmul]
    simp only [Out.ok.injEq, decide_eq_true_eq]
    constructor
    · rintro ⟨a, b, c⟩; exact ⟨a, b, hlen, A, hA, c⟩
    · rintro ⟨a, b, _, A', hA', c⟩
      rw [GC.decodes_unique hA' hA] at c
      exact ⟨a, b, c⟩
  · rw [C20_malformed_key E pub m sig h]
    constructor
    · intro h; cases h
    · rintro ⟨_, _, hlen, A, hA, _⟩; exact absurd ⟨hlen, A, hA⟩ h

/-- A signature whose S is shorter than 32 bytes (the struct fields are exported) makes `Verify` panic instead of
returning false, whenever the key is usable and the low bits pass. -/
theorem C20_short_S_panics (pub : PublicKey) (m : Bytes) (sig : Signature) (hS : sig.S.length < 32)
    (hl : pub.raw.length = 32 ∨ pub.raw.length = 64) {A : Pt} (hA : Decodes (pub.raw.take 32) A)
    (h0 : pub.raw ≠ List.replicate 32 0) (hc : LowBitsOk (leVal sig.S)) : verify E pub m sig = .panic := by
  unfold verify
  rw [verifyEquation_short E hl hA hS, isCanonical_eq, isEqualConstantTime_eq, if_neg (by simp [hc]), if_neg (by simpa using h0)]
  rfl

theorem low_one : LowBitsOk 1 := by unfold LowBitsOk; rw [L_eq]; decide +kernel

example : verify E ⟨encodePoint B⟩ [] ⟨[], [1]⟩ = .panic := by
  refine C20_short_S_panics E _ _ _ (by decide) (Or.inl (encodePoint_length B)) (A := B) ?_ ?_ ?_
  · rw [List.take_of_length_le (by rw [encodePoint_length])]; exact decodes_encodePoint B
  · intro h
    have hv := encodePoint_val B
    dsimp only at h
    rw [h, leVal_replicate_zero] at hv
    exact y_ne_zero_of_order L_smul_B B_ne_zero ((ZMod.val_eq_zero _).mp (by omega))
  · exact low_one

/-! ## C18: signatures verify -/

theorem verify_derived {sk m R : Bytes} {S : Bytes} (hl : S.length = 32) (hS : leVal S < 2 ^ 255) :
    verify E ⟨publicKeyOf E sk⟩ m ⟨R, S⟩ = .ok true ↔ LowBitsOk (leVal S) ∧
      R = encodePoint (leVal S • B - (challenge E R (publicKeyOf E sk) m * secretScalar E sk) • B) := by
  rw [C20_accepts_iff E _ _ _ (by dsimp only; omega) hS]
  have ht : (publicKeyOf E sk).take 32 = publicKeyOf E sk := List.take_of_length_le (by rw [publicKeyOf_length])
  have hd : Decodes (publicKeyOf E sk) (secretScalar E sk • B) := decodes_encodePoint _
  dsimp only
  constructor
  · rintro ⟨a, _, _, A, hA, c⟩
    rw [ht] at hA
    rw [GC.decodes_unique hA hd, ← mul_nsmul, Nat.mul_comm] at c
    exact ⟨a, c⟩
  · rintro ⟨a, c⟩
    refine ⟨a, publicKeyOf_ne_zeros E sk, Or.inl (publicKeyOf_length E sk), _, by rw [ht]; exact hd, ?_⟩
    rw [← mul_nsmul, Nat.mul_comm]
    exact c

theorem sigS_equation (sk A m : Bytes) :
    sigS E sk A m • B - (challenge E (sigR E sk m) A m * secretScalar E sk) • B = nonce E sk m • B := by
  rw [sigS, smul_B_mod, add_nsmul, add_sub_cancel_right]

/-- Whatever `Sign` returns with the derived public key is accepted by `Verify` under this key. -/
theorem C18_sign_verify (k : PrivateKey) (pk : PublicKey) (m : Bytes) (sig : Signature)
    (hpk : derivePublicKey E (some k) = .ok pk) (h : sign E ⟨some k, pk⟩ m = .ok sig) :
    verify E pk m sig = .ok true := by
  rw [derive_spec] at hpk; cases hpk
  rw [sign_spec] at h
  split at h
  · rename_i hl
    cases h
    have hv : leVal (leBytes 32 (sigS E k.raw (publicKeyOf E k.raw) m)) = sigS E k.raw (publicKeyOf E k.raw) m :=
      leVal_leBytes_modL _
    rw [verify_derived E (leBytes_length _ _) (by rw [hv]; exact modL_lt255 _), hv]
    refine ⟨hl, ?_⟩
    rw [sigS_equation]; rfl
  · cases h

/-- The same through the constructors: a pair made by `NewKeyPair(priv, nil)`. -/
theorem C18_keypair (k : PrivateKey) (kp : KeyPair) (m : Bytes) (sig : Signature)
    (hk : newKeyPair E (some k) none = .ok kp) (h : sign E kp m = .ok sig) : verify E kp.pub m sig = .ok true := by
  rw [C30_derive] at hk; cases hk
  exact C18_sign_verify E k _ m sig (derive_spec E k) h

example : ∃ sig, sign Env.toy ⟨some (newPrivateKey (List.replicate 32 7)), ⟨publicKeyOf Env.toy (List.replicate 32 7)⟩⟩ [1, 2, 3] = .ok sig ∧
    verify Env.toy ⟨publicKeyOf Env.toy (List.replicate 32 7)⟩ [1, 2, 3] sig = .ok true := by
  have h : sign Env.toy ⟨some (newPrivateKey (List.replicate 32 7)), ⟨publicKeyOf Env.toy (List.replicate 32 7)⟩⟩ [1, 2, 3] = _ :=
    (sign_spec Env.toy (newPrivateKey (List.replicate 32 7)) ⟨publicKeyOf Env.toy (List.replicate 32 7)⟩ [1, 2, 3]).trans
      (if_pos toy_sign_ok)
  exact ⟨_, h, C18_sign_verify Env.toy (newPrivateKey (List.replicate 32 7)) _ _ _ (derive_spec _ _) h⟩

/-- Every S of 32 bytes: `Verify` decides the equation with a scalar s that depends on S only. It is S if S has a 256-digit width-5 expansion,
in particular below 2^255, and S - 2^256 otherwise. -/
theorem C20_accepts_iff_any (S : Bytes) (hl : S.length = 32) (pub : PublicKey) (m R : Bytes) :
    verify E pub m ⟨R, S⟩ = .ok true ↔
      LowBitsOk (leVal S) ∧ pub.raw ≠ List.replicate 32 0 ∧ (pub.raw.length = 32 ∨ pub.raw.length = 64) ∧
      ∃ A, Decodes (pub.raw.take 32) A ∧ R = encodePoint (nafVal (leVal S) • B - challenge E R pub.raw m • A) := by
  rw [← slideVal_naf32 hl]
  constructor
  · intro h
    by_cases hk : (pub.raw.length = 32 ∨ pub.raw.length = 64) ∧ ∃ A, Decodes (pub.raw.take 32) A
    · obtain ⟨hlen, A, hA⟩ := hk
      rw [verify_eq E hlen hA (by simp [hl])] at h
      simp only [Out.ok.injEq, decide_eq_true_eq] at h
      exact ⟨h.1, h.2.1, hlen, A, hA, h.2.2⟩
    · rw [C20_malformed_key E pub m _ hk] at h
      simp at h
  · rintro ⟨h1, h2, h3, A, hA, h4⟩
    rw [verify_eq E h3 hA (by simp [hl])]
    simp only [Out.ok.injEq, decide_eq_true_eq]
    exact ⟨h1, h2, h4⟩

/-- The largest S stands for -1: it is accepted iff R is the encoding of -B - H(R,A,M)*A. -/
theorem C20_S_ones (pub : PublicKey) (m R : Bytes) :
    verify E pub m ⟨R, leBytes 32 (2 ^ 256 - 1)⟩ = .ok true ↔
      pub.raw ≠ List.replicate 32 0 ∧ (pub.raw.length = 32 ∨ pub.raw.length = 64) ∧
      ∃ A, Decodes (pub.raw.take 32) A ∧ R = encodePoint (-B - challenge E R pub.raw m • A) := by
  rw [C20_accepts_iff_any E _ (leBytes_length _ _), leVal_leBytes_of_lt (by norm_num), nafVal_of_not _ (by
      rw [show ((2 ^ 256 - 1 : ℕ) : ℤ) = 2 ^ 256 - 1 by norm_num]; exact not_naf5_ones)]
  have e : ((2 ^ 256 - 1 : ℕ) : ℤ) - 2 ^ 256 = -1 := by norm_num
  have hl : LowBitsOk (2 ^ 256 - 1) := by unfold LowBitsOk; rw [L_eq]; decide +kernel
  rw [e, neg_one_zsmul]
  exact ⟨fun h => h.2, fun h => ⟨hl, h⟩⟩

/-! ## C21: malleability -/

/-- If (R, S) is accepted and S + L still passes the filter and is below 2^255 then (R, S + L) is accepted as well. -/
theorem C21_add_order (pub : PublicKey) (m R S : Bytes) (hl : S.length = 32) (h : verify E pub m ⟨R, S⟩ = .ok true)
    (hS : leVal S + L < 2 ^ 255) (hc : LowBitsOk (leVal S + L)) :
    verify E pub m ⟨R, leBytes 32 (leVal S + L)⟩ = .ok true := by
  have hv : leVal (leBytes 32 (leVal S + L)) = leVal S + L :=
    leVal_leBytes_of_lt (lt_trans hS (by norm_num))
  rw [C20_accepts_iff E _ _ _ (by dsimp only; omega) (by dsimp only; omega)] at h
  rw [C20_accepts_iff E _ _ _ (by simp [leBytes_length]) (by dsimp only; omega)]
  dsimp only at *
  obtain ⟨_, a, b, A, hA, c⟩ := h
  refine ⟨by rw [hv]; exact hc, a, b, A, hA, ?_⟩
  rw [hv, add_nsmul, L_smul_B, add_zero]
  exact c

theorem L_mod64 : L % 2 ^ 64 = 6346243789798364141 := by rw [L_eq]; decide +kernel

/-- For every signature made by `Sign` there is a different one for the same message, with the same R and an S that
is not reduced, which `Verify` accepts: signatures are not strongly unforgeable. -/
theorem C21_malleable (k : PrivateKey) (pk : PublicKey) (m : Bytes) (sig : Signature)
    (hpk : derivePublicKey E (some k) = .ok pk) (h : sign E ⟨some k, pk⟩ m = .ok sig) :
    ∃ S', S' ≠ sig.S ∧ S'.length = 32 ∧ L ≤ leVal S' ∧ leVal S' % L = leVal sig.S ∧
      verify E pk m ⟨sig.R, S'⟩ = .ok true := by
  have hv := C18_sign_verify E k pk m sig hpk h
  obtain ⟨w1, w2, w3, w4⟩ := C19_well_formed E _ _ _ h
  obtain ⟨R, S⟩ := sig
  dsimp only at *
  have hlow : LowBitsOk (leVal S) := by
    rw [C20_accepts_iff E _ _ _ (by dsimp only; omega) (by dsimp only; have := L_lt; omega)] at hv
    exact hv.1
  have h2 := L_lt
  have h64 := L_mod64
  -- the general step
  have key : ∀ t, t ≤ 3 → 0 < t → LowBitsOk (leVal S + t * L) → 
      ∃ S', S' ≠ S ∧ S'.length = 32 ∧ L ≤ leVal S' ∧ leVal S' % L = leVal S ∧ verify E pk m ⟨R, S'⟩ = .ok true := by
    intro t ht ht0 hc
    have hmul : L ≤ t * L := Nat.le_mul_of_pos_left _ ht0
    have hmul' : t * L ≤ 3 * L := Nat.mul_le_mul_right _ ht
    have hlt : leVal S + t * L < 2 ^ 255 := by
      have : 4 * L < 2 ^ 255 := by rw [L_eq]; norm_num
      omega
    have hv' : leVal (leBytes 32 (leVal S + t * L)) = leVal S + t * L := leVal_leBytes_of_lt (lt_trans hlt (by norm_num))
    refine ⟨leBytes 32 (leVal S + t * L), ?_, leBytes_length _ _, by omega, ?_, ?_⟩
    · intro he; rw [he] at hv'; omega
    · rw [hv', Nat.add_mul_mod_self_right, Nat.mod_eq_of_lt w4]
    · rw [C20_accepts_iff E _ _ _ (by dsimp only; omega) (by dsimp only; omega)] at hv
      rw [C20_accepts_iff E _ _ _ (by simp [leBytes_length]) (by dsimp only; omega)]
      dsimp only at *
      obtain ⟨_, a, b, A, hA, c⟩ := hv
      refine ⟨by rw [hv']; exact hc, a, b, A, hA, ?_⟩
      rw [hv', add_nsmul, Nat.mul_comm, mul_nsmul, L_smul_B, smul_zero, add_zero]
      exact c
  obtain ⟨l1, l2⟩ := hlow
  rw [h64] at l2
  by_cases h1 : (leVal S + L) % 2 ^ 64 = 0
  · refine key 3 (by omega) (by omega) ⟨?_, ?_⟩ <;> omega
  · refine key 1 (by omega) (by omega) ⟨?_, ?_⟩ <;> omega

/-! ## C22: MakeSignatureCanonical -/

theorem copy64_32 {s : Bytes} (h : s.length ≤ 64) : (copy64 s).length = 64 ∧ leVal (copy64 s) = leVal s := by
  unfold copy64
  rw [List.take_of_length_le h]
  refine ⟨by simp; omega, ?_⟩
  rw [leVal_append, leVal_replicate_zero]; simp

/-- On a signature with 32-byte R (and S of at most 64 bytes) it keeps R and replaces S by S mod L. -/
theorem C22_canonicalizes (sig : Signature) (hR : sig.R.length = 32) (hS : sig.S.length ≤ 64) :
    makeSignatureCanonical sig = .ok ⟨sig.R, leBytes 32 (leVal sig.S % L)⟩ := by
  obtain ⟨c1, c2⟩ := copy64_32 hS
  unfold makeSignatureCanonical
  rw [newEncoded_64 c1, Out.bind_ok, modQ_hash c1, c2]
  unfold newSignature
  rw [if_neg (by simp [hR, leBytes_length])]

/-- A signature with an R of another length is refused with an error. -/
theorem C22_bad_R (sig : Signature) (hR : sig.R.length ≠ 32) : ∃ e, makeSignatureCanonical sig = .err e := by
  have c1 : (copy64 sig.S).length = 64 := by unfold copy64; simp; omega
  unfold makeSignatureCanonical
  rw [newEncoded_64 c1, Out.bind_ok]
  unfold newSignature
  rw [if_pos (Or.inl hR)]
  exact ⟨_, rfl⟩

/-- It is idempotent. -/
theorem C22_idempotent (sig sig' : Signature) (h : makeSignatureCanonical sig = .ok sig') :
    makeSignatureCanonical sig' = .ok sig' := by
  by_cases hR : sig.R.length = 32
  · have c1 : (copy64 sig.S).length = 64 := by unfold copy64; simp; omega
    have : ∃ n, sig' = ⟨sig.R, leBytes 32 (n % L)⟩ := by
      unfold makeSignatureCanonical at h
      rw [newEncoded_64 c1, Out.bind_ok, modQ_hash c1] at h
      unfold newSignature at h
      rw [if_neg (by simp [hR, leBytes_length])] at h
      injection h with h
      exact ⟨_, h.symm⟩
    obtain ⟨n, rfl⟩ := this
    rw [C22_canonicalizes ⟨sig.R, leBytes 32 (n % L)⟩ hR (by simp [leBytes_length])]
    dsimp only
    rw [leVal_leBytes_modL, Nat.mod_mod]
  · obtain ⟨e, he⟩ := C22_bad_R sig hR
    rw [he] at h; cases h

/-- It is the identity exactly on the signatures with S < L. -/
theorem C22_identity_iff (sig : Signature) (hR : sig.R.length = 32) (hS : sig.S.length = 32) :
    makeSignatureCanonical sig = .ok sig ↔ leVal sig.S < L := by
  rw [C22_canonicalizes sig hR (by omega)]
  obtain ⟨R, S⟩ := sig
  dsimp only at *
  rw [Out.ok.injEq, Signature.mk.injEq]
  constructor
  · rintro ⟨_, h⟩; rw [← h, leVal_leBytes_modL]; exact Nat.mod_lt _ L_pos
  · intro h
    refine ⟨rfl, ?_⟩
    rw [Nat.mod_eq_of_lt h]
    have := leBytes_leVal S; rwa [hS] at this

/-- In particular on the signatures made by `Sign`. -/
theorem C22_identity_on_signed (kp : KeyPair) (m : Bytes) (sig : Signature) (h : sign E kp m = .ok sig) :
    makeSignatureCanonical sig = .ok sig := by
  obtain ⟨w1, w2, w3, w4⟩ := C19_well_formed E _ _ _ h
  exact (C22_identity_iff sig w1 w2).mpr w4

/-- For S < 2^255 it does not change what `Verify` decides, provided the filter lets both through. -/
theorem C22_preserves_verify (pub : PublicKey) (m : Bytes) (sig sig' : Signature) (hl : sig.S.length = 32)
    (hS : leVal sig.S < 2 ^ 255) (hc : LowBitsOk (leVal sig.S)) (hc' : LowBitsOk (leVal sig.S % L))
    (h : makeSignatureCanonical sig = .ok sig') : verify E pub m sig' = verify E pub m sig := by
  by_cases hR : sig.R.length = 32
  · rw [C22_canonicalizes sig hR (by omega)] at h
    injection h with h
    subst h
    obtain ⟨b1, e1⟩ := C20_total E pub m sig (by omega)
    obtain ⟨b2, e2⟩ := C20_total E pub m ⟨sig.R, leBytes 32 (leVal sig.S % L)⟩ (by simp [leBytes_length])
    have hv := leVal_leBytes_modL (leVal sig.S)
    have i1 := C20_accepts_iff E pub m sig (by omega) hS
    have i2 := C20_accepts_iff E pub m ⟨sig.R, leBytes 32 (leVal sig.S % L)⟩ (by simp [leBytes_length])
      (by dsimp only; rw [hv]; exact modL_lt255 _)
    dsimp only at i2
    rw [hv, smul_B_mod] at i2
    have : verify E pub m ⟨sig.R, leBytes 32 (leVal sig.S % L)⟩ = .ok true ↔ verify E pub m sig = .ok true := by
      rw [i1, i2]
      simp only [hc, hc', true_and]
    rw [e1, e2] at this ⊢
    refine congrArg Out.ok ?_
    rw [Out.ok.injEq, Out.ok.injEq] at this
    exact Bool.eq_iff_iff.mpr this
  · obtain ⟨e, he⟩ := C22_bad_R sig hR
    rw [he] at h; cases h

/-! ## C37: the neutral element as public key -/

/-- The encoding of the neutral element (0, 1): the byte 1 and 31 zero bytes. -/
theorem encode_zero : encodePoint 0 = leBytes 32 1 := by
  apply leVal_inj (by rw [encodePoint_length, leBytes_length])
  rw [encodePoint_val, leVal_leBytes_of_lt (by norm_num)]
  have h1 : ((0 : Pt).y).val = 1 := by
    have := val_natCast_F (n := 1) (by norm_num)
    simpa using this
  have h2 : ((0 : Pt).x).val = 0 := by simp
  rw [h1, h2]; norm_num

theorem decodes_one : Decodes (leBytes 32 1) 0 := encode_zero ▸ decodes_encodePoint 0

/-- Under the public key 01 00 ... 00 every (S*B, S) with S < 2^255 passing the filter verifies for every message. -/
theorem verify_neutral (m : Bytes) (n : ℕ) (hn : n < 2 ^ 255) (hc : LowBitsOk n) :
    verify E ⟨leBytes 32 1⟩ m ⟨encodePoint (n • B), leBytes 32 n⟩ = .ok true := by
  have hv : leVal (leBytes 32 n) = n := leVal_leBytes_of_lt (lt_trans hn (by norm_num))
  rw [C20_accepts_iff E _ _ _ (by simp [leBytes_length]) (by dsimp only; rw [hv]; exact hn)]
  dsimp only
  rw [hv]
  refine ⟨hc, ?_, Or.inl (leBytes_length _ _), 0, ?_, ?_⟩
  · intro h
    have := congrArg leVal h
    rw [leVal_leBytes_of_lt (by norm_num), leVal_replicate_zero] at this
    exact absurd this (by norm_num)
  · rw [List.take_of_length_le (by rw [leBytes_length])]; exact decodes_one
  · simp

theorem low_L1 : LowBitsOk (1 + L) := by unfold LowBitsOk; rw [L_eq]; decide +kernel

/-- The hypotheses of `C21_add_order` are met: under the key 01 00 ... 00, (B, 1) verifies, and so does (B, 1 + L). -/
example (m : Bytes) : verify E ⟨leBytes 32 1⟩ m ⟨encodePoint ((1 : ℕ) • B), leBytes 32 (1 + L)⟩ = .ok true := by
  have hv : leVal (leBytes 32 1) = 1 := leVal_leBytes_of_lt (by norm_num)
  have h := C21_add_order E ⟨leBytes 32 1⟩ m (encodePoint ((1 : ℕ) • B)) (leBytes 32 1) (leBytes_length _ _)
    (verify_neutral E m 1 (by norm_num) low_one) (by rw [hv, L_eq]; norm_num) (by rw [hv]; exact low_L1)
  rw [hv] at h
  exact h

/-- Those of `C22_preserves_verify` as well: (B, 1 + L) is not canonical, and its canonical form is (B, 1). -/
example (m : Bytes) : ∃ sig', makeSignatureCanonical ⟨encodePoint ((1 : ℕ) • B), leBytes 32 (1 + L)⟩ = .ok sig' ∧
    leVal sig'.S = 1 ∧ verify E ⟨leBytes 32 1⟩ m sig' = .ok true ∧
    verify E ⟨leBytes 32 1⟩ m sig' = verify E ⟨leBytes 32 1⟩ m ⟨encodePoint ((1 : ℕ) • B), leBytes 32 (1 + L)⟩ := by
  have hlt : 1 + L < 2 ^ 255 := by rw [L_eq]; norm_num
  have hv : leVal (leBytes 32 (1 + L)) = 1 + L := leVal_leBytes_of_lt (lt_trans hlt (by norm_num))
  have hm : (1 + L) % L = 1 := by rw [Nat.add_mod_right, Nat.mod_eq_of_lt (lt_trans (by norm_num) L_gt)]
  have h := C22_canonicalizes ⟨encodePoint ((1 : ℕ) • B), leBytes 32 (1 + L)⟩ (encodePoint_length _) (by simp [leBytes_length])
  dsimp only at h
  rw [hv, hm] at h
  have h3 := C22_preserves_verify E ⟨leBytes 32 1⟩ m _ _ (leBytes_length _ _) (by dsimp only; rw [hv]; exact hlt)
    (by dsimp only; rw [hv]; exact low_L1) (by dsimp only; rw [hv, hm]; exact low_one) h
  exact ⟨_, h, leVal_leBytes_of_lt (by norm_num), verify_neutral E m 1 (by norm_num) low_one, h3⟩

/-- There are a public key accepted by `NewKeyPair` and a signature which `Verify` accepts for every message,
whatever the hash function. -/
theorem C37_one_signature_for_all_messages : ∃ (pub : PublicKey) (sig : Signature),
    sig.R.length = 32 ∧ sig.S.length = 32 ∧ leVal sig.S < L ∧
    ∀ (E : Env), (newKeyPair E none (some pub) = .ok ⟨none, pub⟩) ∧ ∀ m, verify E pub m sig = .ok true := by
  refine ⟨⟨leBytes 32 1⟩, ⟨encodePoint (1 • B), leBytes 32 1⟩, encodePoint_length _, leBytes_length _ _, ?_, fun E => ⟨?_, fun m => ?_⟩⟩
  · dsimp only; rw [leVal_leBytes_of_lt (by norm_num)]; have := L_gt; omega
  · exact C30_no_consistency_check E none _ (leBytes_length _ _)
  · exact verify_neutral E m 1 (by norm_num) low_one

/-- Without the proviso of `C22_preserves_verify` the claim fails: there is a signature which `Verify` accepts and whose
canonical form it refuses. -/
theorem C22_canonical_form_refused : ∃ (pub : PublicKey) (sig sig' : Signature), sig.S.length = 32 ∧ leVal sig.S < 2 ^ 255 ∧
    makeSignatureCanonical sig = .ok sig' ∧
    ∀ (E : Env) (m : Bytes), verify E pub m sig = .ok true ∧ verify E pub m sig' = .ok false := by
  have hlt : 2 ^ 64 + 2 * L < 2 ^ 255 := by rw [L_eq]; norm_num
  have hv : leVal (leBytes 32 (2 ^ 64 + 2 * L)) = 2 ^ 64 + 2 * L := leVal_leBytes_of_lt (lt_trans hlt (by norm_num))
  have hmod : (2 ^ 64 + 2 * L) % L = 2 ^ 64 := by
    rw [Nat.add_mul_mod_self_right, Nat.mod_eq_of_lt]
    exact lt_trans (by norm_num) L_gt
  refine ⟨⟨leBytes 32 1⟩, ⟨encodePoint ((2 ^ 64 + 2 * L) • B), leBytes 32 (2 ^ 64 + 2 * L)⟩, _, leBytes_length _ _,
    by dsimp only; rw [hv]; exact hlt, C22_canonicalizes _ (encodePoint_length _) (by simp [leBytes_length]), fun E m => ⟨?_, ?_⟩⟩
  · refine verify_neutral E m _ hlt ?_
    unfold LowBitsOk; rw [L_eq]; decide +kernel
  · unfold verify
    rw [isCanonical_eq]
    dsimp only
    rw [hv, hmod, leVal_leBytes_of_lt (by norm_num), if_pos (by decide +kernel)]

/-! ## C23: IsCanonicalSignature -/

/-- What `IsCanonicalSignature` decides: the low 64 bits of S are neither 0 nor those of L. -/
theorem C23_decides_low_bits (sig : Signature) :
    isCanonicalSignature sig = true ↔ leVal sig.S % 2 ^ 64 ≠ 0 ∧ leVal sig.S % 2 ^ 64 ≠ L % 2 ^ 64 := isCanonical_iff sig

/-- The intended meaning, 0 < S < L, fails in both directions: S = L + 1 is accepted, S = 2^64 is refused. -/
theorem C23_not_the_range_check :
    (∃ sig : Signature, sig.R.length = 32 ∧ sig.S.length = 32 ∧ ¬ leVal sig.S < L ∧ isCanonicalSignature sig = true) ∧
    (∃ sig : Signature, sig.R.length = 32 ∧ sig.S.length = 32 ∧ 0 < leVal sig.S ∧ leVal sig.S < L ∧ isCanonicalSignature sig = false) := by
  constructor
  · have hv : leVal (leBytes 32 (L + 1)) = L + 1 := leVal_leBytes_of_lt (by rw [L_eq]; norm_num)
    refine ⟨⟨leBytes 32 0, leBytes 32 (L + 1)⟩, leBytes_length _ _, leBytes_length _ _, by dsimp only; omega, ?_⟩
    rw [isCanonical_iff]; dsimp only; rw [hv]
    unfold LowBitsOk; rw [L_eq]; decide +kernel
  · have hv : leVal (leBytes 32 (2 ^ 64)) = 2 ^ 64 := leVal_leBytes_of_lt (by norm_num)
    refine ⟨⟨leBytes 32 0, leBytes 32 (2 ^ 64)⟩, leBytes_length _ _, leBytes_length _ _, by dsimp only; omega, ?_, ?_⟩
    · dsimp only; rw [hv]; exact lt_trans (by norm_num) L_gt
    · rw [isCanonical_eq]; dsimp only; rw [hv]
      decide +kernel

/-- The two values it is meant to exclude are refused: S = 0 and S = L. -/
theorem C23_zero_and_order_refused (R : Bytes) :
    isCanonicalSignature ⟨R, leBytes 32 0⟩ = false ∧ isCanonicalSignature ⟨R, leBytes 32 L⟩ = false := by
  have hv : leVal (leBytes 32 L) = L := leVal_leBytes_of_lt (by rw [L_eq]; norm_num)
  constructor
  · rw [isCanonical_eq]; dsimp only; rw [leVal_leBytes_of_lt (by norm_num)]; decide +kernel
  · rw [isCanonical_eq]; dsimp only; rw [hv]; simp [LowBitsOk]

/-- The signatures of `Sign` are canonical in the strict sense, 0 < S < L. -/
theorem C23_signed_in_range (kp : KeyPair) (m : Bytes) (sig : Signature) (h : sign E kp m = .ok sig) :
    0 < leVal sig.S ∧ leVal sig.S < L ∧ isCanonicalSignature sig = true := by
  obtain ⟨_, _, w3, w4⟩ := C19_well_formed E _ _ _ h
  refine ⟨w3, w4, ?_⟩
  obtain ⟨priv, pub⟩ := kp
  cases priv with
  | none => rw [sign_nokey] at h; cases h
  | some k =>
    rw [sign_spec] at h
    split at h
    · rename_i hl
      cases h
      rw [isCanonical_iff]; dsimp only
      rw [show leVal (leBytes 32 (sigS E k.raw pub.raw m)) = sigS E k.raw pub.raw m from leVal_leBytes_modL _]
      exact hl
    · cases h

end Ed

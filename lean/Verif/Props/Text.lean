import Verif.Proofs.Hex
import Verif.Proofs.Dsa

/-!
# Properties C31-C33, C35: text and big-integer constructors of keys and signatures
-/

set_option autoImplicit false

namespace Ed

/-! ## C31: hex -/

/-- `NewPrivateKeyfromHexString` accepts exactly the texts of 64 or 63 hex digits (of either case, also mixed) and returns the key of 32
bytes with that big-endian value. -/
theorem C31_private_accepts (s : Bytes) (k : PrivateKey) :
    newPrivateKeyFromHexString s = .ok k ↔
      (s.length = 63 ∨ s.length = 64) ∧ k.raw.length = 32 ∧ HexOf s (beVal k.raw) ∧ k.value = beVal k.raw := by
  unfold newPrivateKeyFromHexString
  rcases hexDecodeStringOdd_total s with ⟨r, hr⟩ | ⟨e, he⟩
  · rw [hr, Out.ok_bind]
    obtain ⟨h1, h2⟩ := (hexDecodeStringOdd_iff s r).mp hr
    by_cases hl : r.length = 32
    · rw [if_neg (by omega), Out.ok.injEq]
      constructor
      · rintro rfl; exact ⟨by omega, hl, h2, rfl⟩
      · rintro ⟨_, k1, k2, k3⟩
        have := beVal_inj (by omega) (h2.unique k2)
        cases k; dsimp only at *; subst this; rw [k3]; rfl
    · rw [if_pos hl]
      constructor
      · intro h; cases h
      · rintro ⟨h, _⟩; omega
  · rw [he]
    constructor
    · intro h; cases h
    · rintro ⟨h, k1, k2, k3⟩
      have := (hexDecodeStringOdd_iff s k.raw).mpr ⟨by omega, k2⟩
      rw [he] at this; cases this

/-- Every other text gives an error; there is no panic. -/
theorem C31_private_total (s : Bytes) :
    (∃ k, newPrivateKeyFromHexString s = .ok k) ∨ ∃ e, newPrivateKeyFromHexString s = .err e := by
  unfold newPrivateKeyFromHexString
  rcases hexDecodeStringOdd_total s with ⟨r, hr⟩ | ⟨e, he⟩
  · rw [hr, Out.ok_bind]; split
    · exact .inr ⟨_, rfl⟩
    · exact .inl ⟨_, rfl⟩
  · rw [he]; exact .inr ⟨_, rfl⟩

/-- The same for public keys. -/
theorem C31_public_accepts (s : Bytes) (k : PublicKey) :
    newPublicKeyFromHex s = .ok k ↔ (s.length = 63 ∨ s.length = 64) ∧ k.raw.length = 32 ∧ HexOf s (beVal k.raw) := by
  unfold newPublicKeyFromHex
  rcases hexDecodeStringOdd_total s with ⟨r, hr⟩ | ⟨e, he⟩
  · rw [hr, Out.ok_bind]
    obtain ⟨h1, h2⟩ := (hexDecodeStringOdd_iff s r).mp hr
    by_cases hl : r.length = 32
    · rw [if_neg (by omega), Out.ok.injEq]
      constructor
      · rintro rfl; exact ⟨by omega, hl, h2⟩
      · rintro ⟨_, k1, k2⟩
        have := beVal_inj (by omega) (h2.unique k2)
        cases k; dsimp only at *; subst this; rfl
    · rw [if_pos hl]
      constructor
      · intro h; cases h
      · rintro ⟨h, _⟩; omega
  · rw [he]
    constructor
    · intro h; cases h
    · rintro ⟨h, k1, k2⟩
      have := (hexDecodeStringOdd_iff s k.raw).mpr ⟨by omega, k2⟩
      rw [he] at this; cases this

theorem C31_public_total (s : Bytes) : (∃ k, newPublicKeyFromHex s = .ok k) ∨ ∃ e, newPublicKeyFromHex s = .err e := by
  unfold newPublicKeyFromHex
  rcases hexDecodeStringOdd_total s with ⟨r, hr⟩ | ⟨e, he⟩
  · rw [hr, Out.ok_bind]; split
    · exact .inr ⟨_, rfl⟩
    · exact .inl ⟨_, rfl⟩
  · rw [he]; exact .inr ⟨_, rfl⟩

theorem hexOf_lt {s : Bytes} {v : ℕ} (h : HexOf s v) : v < 16 ^ s.length := by
  obtain ⟨ds, hd, rfl⟩ := h
  induction hd with
  | nil => simp [digitsNum]
  | @cons c d s ds h1 hd ih =>
    have hlen := hd.length_eq
    rw [digitsNum_cons, List.length_cons, ← hlen, pow_succ]
    have := digitChar_lt h1
    have h2 : 16 ^ s.length * d ≤ 16 ^ s.length * 15 := Nat.mul_le_mul_left _ (by omega)
    omega

theorem parse_bytes {s : Bytes} {v : ℕ} (hs : s.length = 63 ∨ s.length = 64) (hx : HexOf s v) :
    ∃ raw : Bytes, raw.length = 32 ∧ beVal raw = v := by
  have hv : v < 256 ^ 32 := by
    refine lt_of_lt_of_le (hexOf_lt hx) ?_
    rcases hs with h | h <;> rw [h] <;> norm_num
  exact ⟨(leBytes 32 v).reverse, by rw [List.length_reverse, leBytes_length],
    by rw [beVal, List.reverse_reverse, leVal_leBytes_of_lt hv]⟩

/-- Every text of 63 or 64 hex digits is accepted, whatever its value. -/
theorem C31_private_complete (s : Bytes) (v : ℕ) (hs : s.length = 63 ∨ s.length = 64) (hx : HexOf s v) :
    ∃ k, newPrivateKeyFromHexString s = .ok k ∧ beVal k.raw = v := by
  obtain ⟨raw, h1, h2⟩ := parse_bytes hs hx
  exact ⟨newPrivateKey raw, (C31_private_accepts s _).2 ⟨hs, h1, by rw [← h2] at hx; exact hx, rfl⟩, h2⟩

theorem C31_public_complete (s : Bytes) (v : ℕ) (hs : s.length = 63 ∨ s.length = 64) (hx : HexOf s v) :
    ∃ k, newPublicKeyFromHex s = .ok k ∧ beVal k.raw = v := by
  obtain ⟨raw, h1, h2⟩ := parse_bytes hs hx
  exact ⟨newPublicKey raw, (C31_public_accepts s _).2 ⟨hs, h1, by rw [← h2] at hx; exact hx⟩, h2⟩

/-- Private keys print as lower case text with two digits for each byte, and (32 bytes) parse back to the same key. -/
theorem C31_private_print (raw : Bytes) :
    (newPrivateKey raw).string.length = 2 * raw.length ∧ LowerHexOf (newPrivateKey raw).string (beVal raw) ∧
    (raw.length = 32 → newPrivateKeyFromHexString (newPrivateKey raw).string = .ok (newPrivateKey raw)) := by
  obtain ⟨ds, h1, h2, h3, _⟩ := hexEncode_spec raw
  have hx : LowerHexOf (newPrivateKey raw).string (beVal raw) := ⟨ds, h3, h2⟩
  have hl : (newPrivateKey raw).string.length = 2 * raw.length := hexEncode_length raw
  exact ⟨hl, hx, fun h => (C31_private_accepts _ _).mpr ⟨by omega, h, hx.hex, rfl⟩⟩

/-- Public keys print in upper case and parse back to the same key. -/
theorem C31_public_print (raw : Bytes) :
    (newPublicKey raw).string.length = 2 * raw.length ∧ UpperHexOf (newPublicKey raw).string (beVal raw) ∧
    (raw.length = 32 → newPublicKeyFromHex (newPublicKey raw).string = .ok (newPublicKey raw)) := by
  obtain ⟨ds, h1, h2, _, h4⟩ := hexEncode_spec raw
  have hx : UpperHexOf (newPublicKey raw).string (beVal raw) := ⟨ds, h4, h2⟩
  have hl : (newPublicKey raw).string.length = 2 * raw.length := by
    show (toUpper (hexEncode raw)).length = _
    rw [toUpper, List.length_map, hexEncode_length]
  exact ⟨hl, hx, fun h => (C31_public_accepts _ _).mpr ⟨by omega, h, hx.hex⟩⟩

/-- `hex` of a public key: the lower case form, which differs from `String` exactly by the case. -/
theorem C31_public_hex (raw : Bytes) :
    (newPublicKey raw).hex.length = 2 * raw.length ∧ LowerHexOf (newPublicKey raw).hex (beVal raw) ∧
    (raw.length = 32 → newPublicKeyFromHex (newPublicKey raw).hex = .ok (newPublicKey raw)) := by
  obtain ⟨ds, h1, h2, h3, _⟩ := hexEncode_spec raw
  have hx : LowerHexOf (newPublicKey raw).hex (beVal raw) := ⟨ds, h3, h2⟩
  have hl : (newPublicKey raw).hex.length = 2 * raw.length := hexEncode_length raw
  exact ⟨hl, hx, fun h => (C31_public_accepts _ _).mpr ⟨by omega, h, hx.hex⟩⟩

/-- Two 32-byte keys with the same printed form are equal. -/
theorem C31_print_injective (a b : Bytes) (ha : a.length = 32) (hb : b.length = 32)
    (h : (newPublicKey a).string = (newPublicKey b).string) : a = b := by
  have h1 := (C31_public_print a).2.2 ha
  have h2 := (C31_public_print b).2.2 hb
  rw [h, h2] at h1
  injection h1 with h1
  exact (PublicKey.mk.inj h1).symm

example : ∃ k, newPrivateKeyFromHexString (List.replicate 62 65 ++ [102]) = .ok k ∧ k.raw = 10 :: List.replicate 30 0xAA ++ [0xAF] := by
  refine ⟨newPrivateKey _, ?_, rfl⟩
  unfold newPrivateKeyFromHexString
  have : hexDecodeStringOdd (List.replicate 62 65 ++ [102]) = .ok (10 :: List.replicate 30 0xAA ++ [0xAF]) := by decide +kernel
  rw [this, Out.ok_bind]; rfl

example : ∃ e, newPublicKeyFromHex (List.replicate 60 65 ++ [88, 88, 88, 88]) = .err e := ⟨"encoding/hex: invalid byte", by decide +kernel⟩

/-! ## C32: private keys from integers -/

/-- Going from a raw key to its integer and back gives the same key iff the raw key has no leading zero byte. -/
theorem C32_roundtrip_iff (raw : Bytes) :
    newPrivateKeyFromBigInt (some (newPrivateKey raw).value) = .ok (newPrivateKey raw) ↔ raw.head? ≠ some 0 := by
  unfold newPrivateKeyFromBigInt newPrivateKey
  simp only [Out.deref, Out.ok_bind, Int.natAbs_natCast, Out.ok.injEq, PrivateKey.mk.injEq, true_and]
  exact bigBytes_beVal raw

/-- In general: it succeeds for every integer (a nil pointer panics), the raw key is the shortest big-endian form of the absolute value, while
the stored value keeps the sign. -/
theorem C32_value (v : ℤ) : ∃ k, newPrivateKeyFromBigInt (some v) = .ok k ∧ k.value = v ∧ beVal k.raw = v.natAbs ∧ k.raw.head? ≠ some 0 := by
  refine ⟨_, rfl, rfl, beVal_bigBytes _, ?_⟩
  rw [← bigBytes_beVal, beVal_bigBytes]

theorem C32_nil_panics : newPrivateKeyFromBigInt none = .panic := rfl

/-- So a key with leading zero bytes comes back shorter, for instance the 32 bytes 00 ... 00 01 as the single byte 01; and v and -v give the
same raw key. -/
theorem C32_shortened : ∃ raw : Bytes, raw.length = 32 ∧ ∃ k, newPrivateKeyFromBigInt (some (newPrivateKey raw).value) = .ok k ∧
    k.raw.length = 1 := by
  refine ⟨List.replicate 31 0 ++ [1], by simp, _, rfl, ?_⟩
  show (bigBytes ((newPrivateKey (List.replicate 31 0 ++ [1])).value.natAbs)).length = 1
  have : (newPrivateKey (List.replicate 31 0 ++ [1])).value = 1 := by decide +kernel
  rw [this]
  show (bigBytes 1).length = 1
  rw [bigBytes_pos (by norm_num)]
  simp [bigBytes_zero]

theorem C32_sign_lost (v : ℤ) : ∃ k k', newPrivateKeyFromBigInt (some v) = .ok k ∧ newPrivateKeyFromBigInt (some (-v)) = .ok k' ∧ k.raw = k'.raw :=
  ⟨_, _, rfl, rfl, by simp⟩

/-! ## C33: signature serialisation -/

/-- `NewSignatureFromBytes` succeeds iff the input has exactly 64 bytes, and then `Bytes()` of the result is the input. -/
theorem C33_parse (b : Bytes) (sig : Signature) :
    newSignatureFromBytes b = .ok sig ↔ b.length = 64 ∧ sig.R.length = 32 ∧ sig.S.length = 32 ∧ sig.bytes = b := by
  unfold newSignatureFromBytes newSignature Signature.bytes
  by_cases h : b.length < 64
  · rw [if_pos h]
    constructor
    · intro h; cases h
    · rintro ⟨h, _⟩; omega
  · rw [if_neg h]
    by_cases h2 : b.length = 64
    · rw [if_neg (by rw [List.length_take, List.length_drop]; omega), Out.ok.injEq]
      constructor
      · rintro rfl
        refine ⟨h2, ?_, ?_, List.take_append_drop _ _⟩
        · rw [List.length_take]; omega
        · rw [List.length_drop]; omega
      · rintro ⟨_, h3, h4, rfl⟩
        cases sig; dsimp only at *
        rw [List.take_append_of_le_length (by omega), List.take_of_length_le (by omega), List.drop_append_of_le_length (by omega),
          List.drop_eq_nil_of_le (by omega), List.nil_append]
    · rw [if_pos (by rw [List.length_take, List.length_drop]; omega)]
      constructor
      · intro h; cases h
      · rintro ⟨h, _⟩; omega

/-- All other inputs give an error. -/
theorem C33_parse_total (b : Bytes) (h : b.length ≠ 64) : ∃ e, newSignatureFromBytes b = .err e := by
  unfold newSignatureFromBytes newSignature
  split
  · exact ⟨_, rfl⟩
  · rw [if_pos (by rw [List.length_take, List.length_drop]; omega)]; exact ⟨_, rfl⟩

/-- The bytes of a signature made by `NewSignature` parse back to it. -/
theorem C33_roundtrip (r s : Bytes) (sig : Signature) (h : newSignature r s = .ok sig) :
    sig = ⟨r, s⟩ ∧ newSignatureFromBytes sig.bytes = .ok sig := by
  unfold newSignature at h
  split at h
  · cases h
  · injection h with h
    subst h
    refine ⟨rfl, (C33_parse _ _).mpr ⟨?_, by dsimp only; omega, by dsimp only; omega, rfl⟩⟩
    simp only [Signature.bytes, List.length_append]; omega

/-- `NewSignature` accepts exactly two parts of 32 bytes. -/
theorem C33_new (r s : Bytes) (sig : Signature) : newSignature r s = .ok sig ↔ r.length = 32 ∧ s.length = 32 ∧ sig = ⟨r, s⟩ := by
  unfold newSignature
  by_cases h : r.length ≠ 32 ∨ s.length ≠ 32
  · rw [if_pos h]
    constructor
    · intro h; cases h
    · rintro ⟨h1, h2, _⟩; omega
  · rw [if_neg h, Out.ok.injEq]
    constructor
    · rintro rfl; exact ⟨by omega, by omega, rfl⟩
    · rintro ⟨_, _, rfl⟩; rfl

/-- `String()` is the lower case hex form: for 64-byte signatures 128 digits, from which `GetR` and `GetS` can be read. -/
theorem C33_string (sig : Signature) : sig.string.length = 2 * sig.bytes.length ∧ LowerHexOf sig.string (beVal sig.bytes) := by
  obtain ⟨ds, h1, h2, h3, _⟩ := hexEncode_spec sig.bytes
  exact ⟨hexEncode_length _, ds, h3, h2⟩

/-- `GetR`/`GetS` are the little-endian values and determine the signature. -/
theorem C33_values (a b : Signature) (ha : a.R.length = 32 ∧ a.S.length = 32) (hb : b.R.length = 32 ∧ b.S.length = 32) :
    (a.getR = b.getR ∧ a.getS = b.getS) ↔ a = b := by
  constructor
  · rintro ⟨h1, h2⟩
    have e1 := leVal_inj (by omega) h1
    have e2 := leVal_inj (by omega) h2
    cases a; cases b; dsimp only at *; rw [e1, e2]
  · rintro rfl; exact ⟨rfl, rfl⟩

example : ∃ sig, newSignatureFromBytes (List.replicate 32 1 ++ List.replicate 32 2) = .ok sig ∧ sig.S = List.replicate 32 2 := by
  refine ⟨⟨List.replicate 32 1, List.replicate 32 2⟩, (C33_parse _ _).mpr ⟨?_, ?_, ?_, rfl⟩, rfl⟩ <;> rfl

/-! ## C35: signatures from integers -/

/-- For natural numbers below 2^256 `NewSignatureFromBigInt` succeeds iff the low 64 bits of both are at most 2^31-1; it then gives the
signature with these values. -/
theorem C35_fits (U : Utils) (r s : ℕ) (hr : r < 2 ^ 256) (hs : s < 2 ^ 256) (sig : Signature) :
    newSignatureFromBigInt U (some r) (some s) = .ok sig ↔
      r % 2 ^ 64 < 2 ^ 31 ∧ s % 2 ^ 64 < 2 ^ 31 ∧ sig.R.length = 32 ∧ sig.S.length = 32 ∧ sig.getR = r ∧ sig.getS = s := by
  have e256 : (256 : ℕ) ^ 32 = 2 ^ 256 := by norm_num
  have hu : ∀ n : ℕ, bigUint64 (n : ℤ) = n % 2 ^ 64 := fun n => by simp [bigUint64]
  unfold newSignatureFromBigInt
  dsimp only
  rw [hu, hu]
  by_cases h : r % 2 ^ 64 > 2 ^ 31 - 1 ∨ s % 2 ^ 64 > 2 ^ 31 - 1
  · rw [if_pos h]
    constructor
    · intro h; cases h
    · rintro ⟨h1, h2, _⟩; omega
  · rw [if_neg h, U.fits r 32 (by omega), Out.ok_bind, U.fits s 32 (by omega), Out.ok_bind, C33_new]
    constructor
    · rintro ⟨_, _, rfl⟩
      refine ⟨by omega, by omega, leBytes_length _ _, leBytes_length _ _, leVal_leBytes_of_lt (by omega), leVal_leBytes_of_lt (by omega)⟩
    · rintro ⟨_, _, h3, h4, h5, h6⟩
      refine ⟨leBytes_length _ _, leBytes_length _ _, ?_⟩
      cases sig; dsimp only [Signature.getR, Signature.getS] at *
      rw [← h5, ← h6]
      rename_i R S
      have e1 := leBytes_leVal R
      have e2 := leBytes_leVal S
      rw [h3] at e1; rw [h4] at e2
      rw [e1, e2]

/-- Nil parameters give an error. -/
theorem C35_nil (U : Utils) (r s : Option ℤ) (h : r = none ∨ s = none) : ∃ e, newSignatureFromBigInt U r s = .err e := by
  rcases h with rfl | rfl
  · exact ⟨_, rfl⟩
  · cases r <;> exact ⟨_, rfl⟩

/-- The check refuses legitimate values: in particular the R of every signature, and every S, with low 64 bits of 2^31 or more. -/
theorem C35_refuses (U : Utils) (r s : ℤ) (h : 2 ^ 31 ≤ r.natAbs % 2 ^ 64 ∨ 2 ^ 31 ≤ s.natAbs % 2 ^ 64) :
    ∃ e, newSignatureFromBigInt U (some r) (some s) = .err e := by
  unfold newSignatureFromBigInt
  dsimp only
  rw [if_pos (by unfold bigUint64; omega)]
  exact ⟨_, rfl⟩

/-- Small and large values that pass, and a value between them that does not. -/
theorem C35_not_a_range (U : Utils) :
    (∃ sig, newSignatureFromBigInt U (some 5) (some 7) = .ok sig) ∧
    (∃ e, newSignatureFromBigInt U (some (2 ^ 40)) (some 7) = .err e) ∧
    (∃ sig, newSignatureFromBigInt U (some (2 ^ 200)) (some 7) = .ok sig) := by
  refine ⟨?_, C35_refuses U _ _ (.inl (by norm_num)), ?_⟩
  · exact ⟨⟨leBytes 32 5, leBytes 32 7⟩, (C35_fits U 5 7 (by norm_num) (by norm_num) _).mpr ⟨by norm_num, by norm_num, leBytes_length _ _, leBytes_length _ _,
      leVal_leBytes_of_lt (by norm_num), leVal_leBytes_of_lt (by norm_num)⟩⟩
  · exact ⟨⟨leBytes 32 (2 ^ 200), leBytes 32 7⟩, (C35_fits U (2 ^ 200) 7 (by norm_num) (by norm_num) _).mpr ⟨by norm_num, by norm_num, leBytes_length _ _, leBytes_length _ _,
      leVal_leBytes_of_lt (by norm_num), leVal_leBytes_of_lt (by norm_num)⟩⟩

/-- A concrete `Utils`: the contract can be met. -/
def Utils.toy : Utils where
  bigIntToByteArray := fun v n => .ok (leBytes n v.toNat)
  fits := fun _ _ _ => rfl

end Ed

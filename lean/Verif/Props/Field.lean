import Verif.Proofs.FieldDec

/-!
# Properties C01-C07: the field arithmetic

Specification vocabulary (Spec/FieldRep.lean, Spec/Bytes.lean): `FE.val` is the integer represented by the
ten limbs, `Loose`/`Reduced` are the documented limb bounds, `leBytes`/`leVal` are little-endian strings.
Congruences are modulo p = 2^255 - 19.
-/

set_option autoImplicit false

namespace Ed
open FE

theorem zmod_iff {x y : ℤ} : (x : F) = (y : F) ↔ x ≡ y [ZMOD 2 ^ 255 - 19] := by
  rw [eq_comm, F_intCast_eq_iff, Int.modEq_iff_dvd]

/-- A limb vector with large limbs, used for the non-vacuity examples: each even limb 2^26, each odd
limb -2^25. -/
def sampleFE : FE := FE.ofInts (2^26) (-2^25) (2^26) (-2^25) (2^26) (-2^25) (2^26) (-2^25) (2^26) (-2^25)

theorem sampleFE_loose : Loose sampleFE := by
  unfold Loose Bd; decide

/-- **C01.** `multiply` is exact modulo p and its result respects the documented bounds. -/
theorem C01_multiply (f g : FE) (hf : Loose f) (hg : Loose g) :
    Reduced (multiply f g) ∧ (multiply f g).val ≡ f.val * g.val [ZMOD 2 ^ 255 - 19] := by
  obtain ⟨h1, h2⟩ := multiply_spec hf hg
  refine ⟨h1, zmod_iff.1 ?_⟩
  push_cast; exact h2

example : Loose sampleFE ∧ (multiply sampleFE sampleFE).val ≡ sampleFE.val * sampleFE.val [ZMOD 2 ^ 255 - 19] :=
  ⟨sampleFE_loose, (C01_multiply _ _ sampleFE_loose sampleFE_loose).2⟩

/-- **C02.** `square` and `squareAndDouble`. -/
theorem C02_square (f : FE) (hf : Loose f) :
    (Reduced (square f) ∧ (square f).val ≡ f.val ^ 2 [ZMOD 2 ^ 255 - 19]) ∧
    (Reduced (squareAndDouble f) ∧ (squareAndDouble f).val ≡ 2 * f.val ^ 2 [ZMOD 2 ^ 255 - 19]) := by
  obtain ⟨h1, h2⟩ := square_spec hf
  obtain ⟨h3, h4⟩ := squareAndDouble_spec hf
  refine ⟨⟨h1, zmod_iff.1 ?_⟩, h3, zmod_iff.1 ?_⟩
  · push_cast; rw [pow_two]; exact h2
  · push_cast; rw [pow_two]; exact h4

example : Loose sampleFE := sampleFE_loose

/-- **C03.** `add`, `subtract` and `negate` are exact already as integers, and the limb bounds add up. -/
theorem C03_add_sub_neg (f g : FE) (e o e' o' : ℤ) (hf : Bd e o f) (hg : Bd e' o' g)
    (he : e + e' < 2 ^ 63) (ho : o + o' < 2 ^ 63) :
    (Bd (e + e') (o + o') (add f g) ∧ (add f g).val = f.val + g.val) ∧
    (Bd (e + e') (o + o') (subtract f g) ∧ (subtract f g).val = f.val - g.val) ∧
    (Bd e o (negate f) ∧ (negate f).val = -f.val) := by
  refine ⟨add_val hf hg he ho, subtract_val hf hg he ho, negate_val hf ?_ ?_⟩
  · have := (abs_nonneg _).trans hg.1; omega
  · have := (abs_nonneg _).trans hg.2.1; omega

/-- C03 with the bounds of the documentation comments: inputs bounded by 1.1*2^25 / 1.1*2^24, results
by 1.1*2^26 / 1.1*2^25, hence usable by `multiply`. -/
theorem C03_documented (f g : FE) (hf : Bd 36909875 18454937 f) (hg : Bd 36909875 18454937 g) :
    Bd 73819750 36909874 (add f g) ∧ Bd 73819750 36909874 (subtract f g) ∧
    Loose (add f g) ∧ Loose (subtract f g) := by
  have h := C03_add_sub_neg f g _ _ _ _ hf hg (by norm_num) (by norm_num)
  exact ⟨h.1.1, h.2.1.1, Bd.mono h.1.1 (by norm_num) (by norm_num), Bd.mono h.2.1.1 (by norm_num) (by norm_num)⟩

example : Bd 36909875 18454937 (FE.ofInts 36909875 (-18454937) 5 6 7 8 9 10 11 12) := by
  unfold Bd; decide

/-- **C04.** `Encode` is the little-endian encoding of the representative in [0, p). -/
theorem C04_encode (f : FE) (hf : Loose f) :
    ∃ n : ℕ, n < 2 ^ 255 - 19 ∧ (n : ℤ) ≡ f.val [ZMOD 2 ^ 255 - 19] ∧ f.encode = leBytes 32 n := by
  refine ⟨f.toF.val, ?_, ?_, encode_spec hf.encodable⟩
  · have := ZMod.val_lt f.toF
    have e : P = 2 ^ 255 - 19 := P_eq
    omega
  · rw [toF_val_cast]
    exact Int.mod_modEq _ _

/-- C04, consequence: equal encodings iff equal modulo p. -/
theorem C04_encode_eq_iff (f g : FE) (hf : Loose f) (hg : Loose g) :
    f.encode = g.encode ↔ f.val ≡ g.val [ZMOD 2 ^ 255 - 19] := by
  rw [encode_spec hf.encodable, encode_spec hg.encodable, leBytes32_val_inj]
  exact zmod_iff

/-- Two different limb vectors of the same field element: 2^255 - 19 and 0. -/
example : Loose (FE.ofInts (2^26 - 19) (2^25 - 1) (2^26 - 1) (2^25 - 1) (2^26 - 1) (2^25 - 1) (2^26 - 1)
    (2^25 - 1) (2^26 - 1) (2^25 - 1)) ∧ (FE.ofInts (2^26 - 19) (2^25 - 1) (2^26 - 1) (2^25 - 1) (2^26 - 1)
    (2^25 - 1) (2^26 - 1) (2^25 - 1) (2^26 - 1) (2^25 - 1)).val = 2 ^ 255 - 19 := by
  unfold Loose Bd val; decide

/-- **C05.** `Decode` reads the low 255 bits; its limbs are small. -/
theorem C05_decode (b : Bytes) (hb : b.length = 32) :
    Reduced (decode b) ∧ (decode b).val ≡ ((leVal b % 2 ^ 255 : ℕ) : ℤ) [ZMOD 2 ^ 255 - 19] := by
  obtain ⟨h1, h2⟩ := decode_spec b
  refine ⟨h1, zmod_iff.1 ?_⟩
  rw [List.take_of_length_le (by omega)] at h2
  rw [Int.cast_natCast]; exact h2

/-- C05: `Decode` after `Encode`. -/
theorem C05_decode_encode (f : FE) (hf : Loose f) :
    (decode f.encode).val ≡ f.val [ZMOD 2 ^ 255 - 19] := by
  obtain ⟨n, hn, h1, h2⟩ := C04_encode f hf
  have h3 := C05_decode f.encode (by rw [h2]; simp)
  rw [h2] at *
  refine h3.2.trans ?_
  rw [leVal_leBytes_of_lt (by norm_num; omega), Nat.mod_eq_of_lt (by omega)]
  exact h1

/-- C05: `Encode` after `Decode` reduces; it is the identity exactly on canonical strings. -/
theorem C05_encode_decode (b : Bytes) (hb : b.length = 32) :
    (decode b).encode = leBytes 32 (leVal b % 2 ^ 255 % (2 ^ 255 - 19)) ∧
    ((decode b).encode = b ↔ leVal b < 2 ^ 255 - 19) := by
  obtain ⟨h1, h2⟩ := decode_spec b
  rw [List.take_of_length_le (by omega)] at h2
  have e : (decode b).encode = leBytes 32 (leVal b % 2 ^ 255 % (2 ^ 255 - 19)) := by
    rw [encode_spec h1.encodable, h2, ZMod.val_natCast, P_eq]
  refine ⟨e, ?_⟩
  rw [e]
  clear e h2 h1
  generalize hv : leVal b = v
  constructor
  · intro h
    have h' := congrArg leVal h
    have hm : v % 2 ^ 255 % (2 ^ 255 - 19) < 2 ^ 255 - 19 := Nat.mod_lt _ (by norm_num)
    rw [leVal_leBytes_of_lt (hm.trans (by norm_num)), hv] at h'
    rwa [h'] at hm
  · intro h
    rw [Nat.mod_eq_of_lt (by omega : v < 2 ^ 255), Nat.mod_eq_of_lt h]
    have := leBytes_leVal b
    rwa [hb, hv] at this

/-- A non-canonical string (p + 1 with bit 255 set) is reduced to 1. -/
example : (decode (leBytes 32 (2 ^ 255 + (2 ^ 255 - 19) + 1))).encode = leBytes 32 1 := by
  rw [(C05_encode_decode _ (leBytes_length _ _)).1, leVal_leBytes_of_lt (by norm_num)]
  norm_num

/-- **C06.** `invert` and the power ladder. -/
theorem C06_invert (f : FE) (hf : Loose f) :
    Reduced (invert f) ∧
    (¬ f.val ≡ 0 [ZMOD 2 ^ 255 - 19] → f.val * (invert f).val ≡ 1 [ZMOD 2 ^ 255 - 19]) ∧
    (f.val ≡ 0 [ZMOD 2 ^ 255 - 19] → (invert f).val ≡ 0 [ZMOD 2 ^ 255 - 19]) := by
  obtain ⟨h1, h2⟩ := invert_spec hf
  refine ⟨h1, ?_, ?_⟩
  · intro h
    rw [← zmod_iff] at h ⊢
    have h2' : ((invert f).val : F) = ((f.val : ℤ) : F)⁻¹ := h2
    push_cast at h ⊢
    rw [h2']
    exact mul_inv_cancel₀ h
  · intro h
    rw [← zmod_iff] at h ⊢
    have h2' : ((invert f).val : F) = ((f.val : ℤ) : F)⁻¹ := h2
    rw [h2', h]; simp

theorem isPow_modEq {f g : FE} (n : ℕ) (h : IsPow f.toF n g) :
    Reduced g ∧ g.val ≡ f.val ^ n [ZMOD 2 ^ 255 - 19] := by
  refine ⟨h.1, zmod_iff.1 ?_⟩
  rw [Int.cast_pow]
  exact h.2

/-- C06, the ladder: x^(2^252 - 4). -/
theorem C06_pow (f : FE) (hf : Loose f) :
    Reduced (pow2to252sub4 f) ∧ (pow2to252sub4 f).val ≡ f.val ^ (2 ^ 252 - 4) [ZMOD 2 ^ 255 - 19] :=
  isPow_modEq _ (pow2to252sub4_isPow hf)

example : Loose sampleFE ∧ ¬ sampleFE.val ≡ 0 [ZMOD 2 ^ 255 - 19] := by
  refine ⟨sampleFE_loose, ?_⟩
  unfold Int.ModEq sampleFE val; decide +kernel

/-- **C07.** The predicates. -/
theorem C07_predicates (f g : FE) (hf : Loose f) (hg : Loose g) :
    (f.isNonZero = true ↔ ¬ f.val ≡ 0 [ZMOD 2 ^ 255 - 19]) ∧
    (f.isNegative = true ↔ f.val % (2 ^ 255 - 19) % 2 = 1) ∧
    (f.equals g = true ↔ f.val ≡ g.val [ZMOD 2 ^ 255 - 19]) := by
  refine ⟨?_, ?_, ?_⟩
  · rw [isNonZero_spec hf.encodable, ← zmod_iff, ne_eq]; simp [toF]
  · rw [isNegative_spec hf.encodable, ← toF_val_cast]; omega
  · rw [equals_spec hf.encodable hg.encodable, ← zmod_iff]; rfl

example : ∃ f g : FE, Loose f ∧ Loose g ∧ f ≠ g ∧ f.val ≡ g.val [ZMOD 2 ^ 255 - 19] :=
  ⟨FE.ofInts (2^26) 0 0 0 0 0 0 0 0 0, FE.ofInts 0 1 0 0 0 0 0 0 0 0, by unfold Loose Bd; decide,
    by unfold Loose Bd; decide, by decide, by unfold Int.ModEq val; decide⟩

end Ed

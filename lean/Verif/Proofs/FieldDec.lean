import Verif.Proofs.Compare
import Verif.Proofs.FieldEnc

/-!
# Decoding of field elements, predicates
-/

namespace Ed
namespace FE

/-- Input ranges of the carry chain of `Decode`. -/
def decB : Bnds := [(0, 2 ^ 32), (0, 2 ^ 30), (0, 2 ^ 29), (0, 2 ^ 27), (0, 2 ^ 26),
  (0, 2 ^ 32), (0, 2 ^ 31), (0, 2 ^ 29), (0, 2 ^ 28), (0, 2 ^ 25)]

theorem decodeCarries_check :
    checkRun pos10 (2 ^ 255 - 19) decodeCarries (10, decB) 10 redB = true := by decide +kernel

theorem decodeLoad_spec (b : Bytes) :
    InB (decodeLoad b).limbs decB ∧ (decodeLoad b).val = ((leVal (b.take 32) % 2 ^ 255 : ℕ) : ℤ) := by
  have hb := fun i => byteN_lt b i
  have l0 := fourBytes_spec b 0
  have l5 := fourBytes_spec b 16
  have t1 := threeBytes_spec b 4
  have t2 := threeBytes_spec b 7
  have t3 := threeBytes_spec b 10
  have t4 := threeBytes_spec b 13
  have t6 := threeBytes_spec b 20
  have t7 := threeBytes_spec b 23
  have t8 := threeBytes_spec b 26
  have t9 := (toInt_and_mask 23 _ (by norm_num) 0x7FFFFF rfl (threeBytes_spec b 29)).2
  simp only [Nat.reduceAdd, Nat.zero_add] at *
  rw [leVal_take32]
  generalize hB : byteN b = B at *
  have h0 := hb 0; have h1 := hb 1; have h2 := hb 2; have h3 := hb 3; have h4 := hb 4; have h5 := hb 5
  have h6 := hb 6; have h7 := hb 7; have h8 := hb 8; have h9 := hb 9; have h10 := hb 10; have h11 := hb 11
  have h12 := hb 12; have h13 := hb 13; have h14 := hb 14; have h15 := hb 15; have h16 := hb 16; have h17 := hb 17
  have h18 := hb 18; have h19 := hb 19; have h20 := hb 20; have h21 := hb 21; have h22 := hb 22; have h23 := hb 23
  have h24 := hb 24; have h25 := hb 25; have h26 := hb 26; have h27 := hb 27; have h28 := hb 28; have h29 := hb 29
  have h30 := hb 30; have h31 := hb 31
  have l1 := shl_nat (k := 6) t1 (by omega)
  have l2 := shl_nat (k := 5) t2 (by omega)
  have l3 := shl_nat (k := 3) t3 (by omega)
  have l4 := shl_nat (k := 2) t4 (by omega)
  have l6 := shl_nat (k := 7) t6 (by omega)
  have l7 := shl_nat (k := 5) t7 (by omega)
  have l8 := shl_nat (k := 4) t8 (by omega)
  have l9 := shl_nat (k := 2) t9 (by omega)
  clear hb hB t1 t2 t3 t4 t6 t7 t8 t9
  constructor
  · simp only [decB, InB_cons, InB_nil, and_true, limbs, decodeLoad, l0, l1, l2, l3, l4, l5, l6, l7, l8, l9]
    refine ⟨?_, ?_, ?_, ?_, ?_, ?_, ?_, ?_, ?_, ?_⟩ <;> (clear l0 l1 l2 l3 l4 l5 l6 l7 l8 l9; omega)
  · simp only [val, decodeLoad, l0, l1, l2, l3, l4, l5, l6, l7, l8, l9]
    clear l0 l1 l2 l3 l4 l5 l6 l7 l8 l9
    omega

/-- `Decode` returns the residue of the little-endian value without bit 255, with small limbs. -/
theorem decode_spec (b : Bytes) :
    Reduced (decode b) ∧ (decode b).toF = ((leVal (b.take 32) % 2 ^ 255 : ℕ) : F) := by
  obtain ⟨h1, h2⟩ := decodeLoad_spec b
  obtain ⟨h3, h4⟩ := carries_spec decodeCarries_check h1
  refine ⟨h3, ?_⟩
  have e : decode b = ofLimbs (run decodeCarries (decodeLoad b).limbs) := rfl
  rw [e, h4, toF, h2, Int.cast_natCast]

theorem F_val_lt (x : F) : x.val < 2 ^ 255 := by
  have := ZMod.val_lt x
  have h : P < 2 ^ 255 := by rw [P_eq]; norm_num
  omega

theorem leBytes32_val_inj {x y : F} : leBytes 32 x.val = leBytes 32 y.val ↔ x = y := by
  constructor
  · intro h
    have := congrArg leVal h
    rw [leVal_leBytes_of_lt (by have := F_val_lt x; omega), leVal_leBytes_of_lt (by have := F_val_lt y; omega)] at this
    exact ZMod.val_injective _ this
  · rintro rfl; rfl

theorem zeroShort_eq : zeroShort = leBytes 32 (0 : F).val := by
  rw [ZMod.val_zero]; decide

theorem isNonZero_spec {f : FE} (hf : Encodable f) : f.isNonZero = true ↔ f.toF ≠ 0 := by
  unfold isNonZero; rw [isEqualConstantTime_eq]
  rw [encode_spec hf, zeroShort_eq, Bool.not_eq_true', beq_eq_false_iff_ne, ne_eq, leBytes32_val_inj]

theorem isNegative_spec {f : FE} (hf : Encodable f) : f.isNegative = true ↔ f.toF.val % 2 = 1 := by
  unfold isNegative encIsNegative
  rw [encode_spec hf, leBytes32]
  generalize f.toF.val = n
  simp only [List.getD_cons_zero, bne_iff_ne, ne_eq, pow_zero, Nat.div_one]
  rw [← UInt8.toNat_inj, UInt8.toNat_and]
  simp only [UInt8.toNat_ofNat', UInt8.reduceToNat, Nat.and_one_is_mod]
  omega

theorem equals_spec {f g : FE} (hf : Encodable f) (hg : Encodable g) :
    f.equals g = true ↔ f.toF = g.toF := by
  unfold equals; rw [isEqualConstantTime_eq]
  rw [encode_spec hf, encode_spec hg]
  simp [leBytes32_val_inj]

end FE
end Ed

import Verif.Proofs.Keys
import Verif.Proofs.Naf

/-!
# Signing and verifying
-/

set_option exponentiation.threshold 600

namespace Ed

variable (E : Env)

theorem groupOrder_eq : groupOrder = L := by rw [L_eq]; rfl

theorem isCanonical_iff (sig : Signature) : isCanonicalSignature sig = true ↔ LowBitsOk (leVal sig.S) := by
  unfold isCanonicalSignature LowBitsOk bigUint64 Signature.getS
  rw [groupOrder_eq]
  simp only [Int.natAbs_natCast, gt_iff_lt, Bool.and_eq_true, bne_iff_ne, ne_eq, decide_eq_true_eq]
  constructor
  · rintro ⟨a, b⟩; exact ⟨by omega, a⟩
  · rintro ⟨a, b⟩; exact ⟨b, by omega⟩

theorem isCanonical_eq (sig : Signature) : isCanonicalSignature sig = decide (LowBitsOk (leVal sig.S)) := by
  rw [Bool.eq_iff_iff, isCanonical_iff, decide_eq_true_eq]

theorem modQ_hash {h : Bytes} (hl : h.length = 64) : modQ h = leBytes 32 (leVal h % L) := by
  rw [modQ_spec]
  have := leVal_lt h
  rw [hl, show (256 : ℕ) ^ 64 = 2 ^ 512 by norm_num] at this
  rw [Nat.mod_eq_of_lt this]

theorem L_pos : 0 < L := by have := L_gt; omega

theorem leVal_leBytes_modL (n : ℕ) : leVal (leBytes 32 (n % L)) = n % L := by
  apply leVal_leBytes_of_lt
  have := Nat.mod_lt n L_pos
  have := L_lt
  rw [show (256 : ℕ) ^ 32 = 2 ^ 256 by norm_num]
  omega

theorem newEncoded_64 {h : Bytes} (hl : h.length = 64) : newEncodedFieldElement h = .ok h := by
  unfold newEncodedFieldElement; rw [if_pos (Or.inr hl)]

theorem modL_lt255 (n : ℕ) : n % L < 2 ^ 255 := by
  have := Nat.mod_lt n L_pos
  have := L_lt
  omega

/-- What `Sign` computes. -/
theorem sign_spec (k : PrivateKey) (pub : PublicKey) (m : Bytes) :
    sign E ⟨some k, pub⟩ m =
      if LowBitsOk (sigS E k.raw pub.raw m) then
        .ok ⟨sigR E k.raw m, leBytes 32 (sigS E k.raw pub.raw m)⟩
      else .err "Generated signature is not canonical" := by
  obtain ⟨a, a1, a2, a3⟩ := prepare_spec E k
  obtain ⟨g, g1, g2, g3, g4, g5⟩ := basePoint_spec
  have hr : modQ (Hash E ((Hash E k.raw).drop 32 ++ m)) = leBytes 32 (nonce E k.raw m) := modQ_hash (Hash_length E _)
  have hrv : leVal (leBytes 32 (nonce E k.raw m)) = nonce E k.raw m := leVal_leBytes_modL _
  obtain ⟨h, h1, h2, h3⟩ := GE.scalarMultiply_spec g4 (leBytes 32 (nonce E k.raw m)) (by rw [hrv]; exact modL_lt255 _)
  rw [hrv] at h3
  have henc : h.encode = .ok (sigR E k.raw m) := GC.encode_repr (Or.inr (Or.inl h2)) h3
  have hh : modQ (Hash E (sigR E k.raw m ++ pub.raw ++ m)) = leBytes 32 (challenge E (sigR E k.raw m) pub.raw m) :=
    modQ_hash (Hash_length E _)
  have hhv : leVal (leBytes 32 (challenge E (sigR E k.raw m) pub.raw m)) = challenge E (sigR E k.raw m) pub.raw m :=
    leVal_leBytes_modL _
  have hS : multiplyAndAddModQ (leBytes 32 (challenge E (sigR E k.raw m) pub.raw m)) a (leBytes 32 (nonce E k.raw m)) =
      leBytes 32 (sigS E k.raw pub.raw m) := by
    rw [multiplyAndAddModQ_spec, hhv, hrv, a3]
    have b1 : challenge E (sigR E k.raw m) pub.raw m < 2 ^ 255 := modL_lt255 _
    have b2 : nonce E k.raw m < 2 ^ 255 := modL_lt255 _
    have b3 := (secretScalar_bounds E k.raw).2.1
    rw [Nat.mod_eq_of_lt (lt_trans b1 (by norm_num)), Nat.mod_eq_of_lt (lt_trans b2 (by norm_num)),
      Nat.mod_eq_of_lt (lt_trans b3 (by norm_num)), Nat.add_comm]
    rfl
  have hSv : leVal (leBytes 32 (sigS E k.raw pub.raw m)) = sigS E k.raw pub.raw m := leVal_leBytes_modL _
  unfold sign
  generalize basePoint = bp at g1 ⊢
  simp only [KeyPair.hasPrivateKey, Option.isSome_some, Bool.not_true, Bool.false_eq_true, if_false, Out.deref,
    Out.bind_ok, hashes_flatten, List.flatten_cons, List.flatten_nil, List.append_nil,
    newEncoded_64 (Hash_length E _), hr, g1, h1, henc, a1]
  rw [← List.append_assoc, hh, hS]
  have hlR : (sigR E k.raw m).length = 32 := encodePoint_length _
  simp only [newSignature, hlR, leBytes_length, ne_eq, not_true_eq_false, or_self, if_false, Out.bind_ok, isCanonical_eq, hSv]
  by_cases hc : LowBitsOk (sigS E k.raw pub.raw m) <;> simp [hc]

theorem sign_nokey (pub : PublicKey) (m : Bytes) : sign E ⟨none, pub⟩ m = .err "cannot sign without private key" := rfl

/-- The value of the recoding of `S` used by `Verify`; equal to `S` below 2^255. -/
noncomputable def slideVal (S : Bytes) : ℤ := ∑ j ∈ Finset.range 256, (slide S j).toInt * 2 ^ j

theorem slideVal_naf (S : Bytes) : slideVal S = nafVal (leVal S % 2 ^ 256) := slide_naf S

theorem slideVal_naf32 {S : Bytes} (h : S.length = 32) : slideVal S = nafVal (leVal S) := slide_naf32 h

theorem checkSlide_ok {a : Bytes} (h : 32 ≤ a.length) : checkSlide a = .ok () := by
  unfold checkSlide; rw [if_neg (by omega)]

theorem verifyEquation_badlen {pub : PublicKey} {m : Bytes} {sig : Signature}
    (h : ¬ (pub.raw.length = 32 ∨ pub.raw.length = 64)) : ∃ e, verifyEquation E pub m sig = .err e := by
  unfold verifyEquation
  simp only [hashes_flatten, newEncoded_64 (Hash_length E _), Out.bind_ok, GC.decode_badlen h]
  exact ⟨_, rfl⟩

theorem verifyEquation_nodecode {pub : PublicKey} {m : Bytes} {sig : Signature}
    (h : ∃ e, GC.decode pub.raw = .err e) : ∃ e, verifyEquation E pub m sig = .err e := by
  obtain ⟨e, h⟩ := h
  unfold verifyEquation
  simp only [hashes_flatten, newEncoded_64 (Hash_length E _), Out.bind_ok, h]
  exact ⟨_, rfl⟩

theorem verifyEquation_short {pub : PublicKey} {m : Bytes} {sig : Signature} {q : Pt}
    (hl : pub.raw.length = 32 ∨ pub.raw.length = 64) (hq : Decodes (pub.raw.take 32) q) (hS : sig.S.length < 32) :
    verifyEquation E pub m sig = .panic := by
  obtain ⟨g, g1, g2, g3, _, g5⟩ := basePoint_spec
  obtain ⟨A, A1, A2, A3, _⟩ := GC.decode_ok hl hq
  obtain ⟨A', B1, B2, B3, B4⟩ := GE.precomputeDouble_spec (g := GE.ofGC A) A2 A3 rfl
  unfold verifyEquation
  generalize basePoint = bp at g1 ⊢
  simp only [hashes_flatten, newEncoded_64 (Hash_length E _), Out.bind_ok, A1, B1, g1]
  rw [checkSlide_ok (by simp [modQ_spec, leBytes_length]), Out.bind_ok]
  unfold checkSlide
  rw [if_pos hS]; rfl

theorem verifyEquation_spec {pub : PublicKey} {m : Bytes} {sig : Signature} {q : Pt}
    (hl : pub.raw.length = 32 ∨ pub.raw.length = 64) (hq : Decodes (pub.raw.take 32) q) (hS : 32 ≤ sig.S.length) :
    verifyEquation E pub m sig =
      .ok (decide (sig.R = encodePoint (slideVal sig.S • B - challenge E sig.R pub.raw m • q))) := by
  obtain ⟨g, g1, g2, g3, _, g5⟩ := basePoint_spec
  obtain ⟨A, A1, A2, A3, _⟩ := GC.decode_ok hl hq
  obtain ⟨A', B1, B2, B3, B4⟩ := GE.precomputeDouble_spec (g := GE.ofGC A) A2 A3 rfl
  have hh : modQ (Hash E (sig.R ++ pub.raw ++ m)) = leBytes 32 (challenge E sig.R pub.raw m) := modQ_hash (Hash_length E _)
  have hhv : leVal (leBytes 32 (challenge E sig.R pub.raw m)) = challenge E sig.R pub.raw m := leVal_leBytes_modL _
  obtain ⟨h, h1, h2, h3⟩ := GE.doubleScalar_digits g5 B4 (leBytes 32 (challenge E sig.R pub.raw m)) sig.S
  have hv := GE.slide_val (leBytes 32 (challenge E sig.R pub.raw m)) (by rw [hhv]; exact modL_lt255 _)
  rw [hv, hhv, natCast_zsmul] at h3
  have henc := GC.encode_repr (Or.inl h2) h3
  unfold verifyEquation
  generalize basePoint = bp at g1 ⊢
  simp only [hashes_flatten, newEncoded_64 (Hash_length E _), Out.bind_ok, A1, B1, g1,
    List.flatten_cons, List.flatten_nil, List.append_nil]
  rw [← List.append_assoc, hh, checkSlide_ok (by simp [leBytes_length]), Out.bind_ok, checkSlide_ok hS, Out.bind_ok, h1,
    Out.bind_ok, henc, Out.bind_ok, isEqualConstantTime_eq]
  refine congrArg Out.ok ?_
  rw [Bool.eq_iff_iff, beq_iff_eq, decide_eq_true_eq]
  exact eq_comm

end Ed

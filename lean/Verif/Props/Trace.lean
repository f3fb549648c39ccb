import Verif.Proofs.Trace
import Verif.Props.Dsa

/-!
# Property C60: the conditional move and the lookup are not constant-time

`Traced` results carry the outcomes of the tests in the body of `cmov` (Model/Trace); `readScalar` and `keyFromNonce` (Spec/Trace) are
what an observer who sees only these outcomes computes.
-/

set_option autoImplicit false

namespace Ed
open Traced

/-- The traced functions compute what the functions of the other model compute, for all arguments. -/
theorem C60_same_results (E : Env) (g : GE) (a : Bytes) (k : Option PrivateKey) (kp : KeyPair) (m salt : Bytes) (kl : ℕ) (pub : PublicKey) :
    (g.scalarMultiplyT a).out = g.scalarMultiply a ∧ (derivePublicKeyT E k).out = derivePublicKey E k ∧
    (signT E kp m).out = sign E kp m ∧ (getSharedKeyT E kl k pub salt).out = getSharedKey E kl k pub salt :=
  ⟨GE.scalarMultiplyT_out g a, derivePublicKeyT_out E k, signT_out E kp m, getSharedKeyT_out E kl k pub salt⟩

/-- The documentation of `Select` promises "no secret branching".  For every element with its table and every scalar below 2^255, the
scalar can be read off from the tests. -/
theorem C60_scalar (g : GE) (q : Pt) (ht : g.SingleTable q) (a : Bytes) (ha : leVal a < 2 ^ 255) :
    readScalar (g.scalarMultiplyT a).tests = leVal a := by
  have := GE.scalarMultiplyT_read ht a ha []
  rwa [List.append_nil] at this

/-- In particular two scalars are never indistinguishable. -/
theorem C60_not_secret (g : GE) (q : Pt) (ht : g.SingleTable q) (a b : Bytes) (ha : leVal a < 2 ^ 255) (hb : leVal b < 2 ^ 255)
    (h : (g.scalarMultiplyT a).tests = (g.scalarMultiplyT b).tests) : leVal a = leVal b := by
  have e := C60_scalar g q ht a ha
  rw [h, C60_scalar g q ht b hb] at e
  exact_mod_cast e.symm

/-- `DerivePublicKey` gives the private scalar to the observer. -/
theorem C60_derive (E : Env) (k : PrivateKey) : readScalar (derivePublicKeyT E (some k)).tests = secretScalar E k.raw := by
  obtain ⟨a, a1, a2, a3⟩ := prepare_spec E k
  obtain ⟨g, g1, g2, g3, g4, g5⟩ := basePoint_spec
  have hb := (secretScalar_bounds E k.raw).2.1
  obtain ⟨h, h1, h2, h3⟩ := GE.scalarMultiply_spec g4 a (by rw [a3]; exact hb)
  rw [derivePublicKeyT_tests a1 g1 h1, C60_scalar g B g4 a (by rw [a3]; exact hb), a3]

/-- So does `GetSharedKey` (hence `Encrypt` and `Decrypt`), for every public key that decodes. -/
theorem C60_shared_key (E : Env) (kl : ℕ) (k : PrivateKey) (pub : PublicKey) (salt : Bytes) (q : Pt) (hl : pub.raw.length = 32)
    (hq : Decodes pub.raw q) : readScalar (getSharedKeyT E kl (some k) pub salt).tests = secretScalar E k.raw := by
  obtain ⟨A, A1, A2, A3, _⟩ := GC.decode_ok (Or.inl hl) (by rw [List.take_of_length_le (by omega)]; exact hq)
  obtain ⟨A', B1, B2, B3, B4⟩ := GE.precomputeSingle_spec (g := GE.ofGC A) A2 A3 rfl
  obtain ⟨a, a1, a2, a3⟩ := prepare_spec E k
  have hb := (secretScalar_bounds E k.raw).2.1
  obtain ⟨h, h1, h2, h3⟩ := GE.scalarMultiply_spec B4 a (by rw [a3]; exact hb)
  have hn : newEncodedGroupElement pub.raw = .ok pub.raw := by
    unfold newEncodedGroupElement; rw [if_neg (by omega)]
  unfold getSharedKeyT
  rw [lift_bind_tests hn, lift_bind_tests A1, lift_bind_tests B1,
    lift_bind_tests a1, bind_tests ((GE.scalarMultiplyT_out _ _).trans h1), ← a3]
  show readScalar ((A'.scalarMultiplyT a).tests ++ []) = _
  rw [GE.scalarMultiplyT_read B4 a (by rw [a3]; exact hb)]

/-- `Sign` gives the nonce to the observer ... -/
theorem C60_nonce (E : Env) (k : PrivateKey) (pub : PublicKey) (m : Bytes) :
    readScalar (signT E ⟨some k, pub⟩ m).tests = nonce E k.raw m := by
  obtain ⟨g, g1, g2, g3, g4, g5⟩ := basePoint_spec
  have hr : modQ (Hash E ((Hash E k.raw).drop 32 ++ m)) = leBytes 32 (nonce E k.raw m) := modQ_hash (Hash_length E _)
  have hrv : leVal (leBytes 32 (nonce E k.raw m)) = nonce E k.raw m := leVal_leBytes_modL _
  have hlt : leVal (leBytes 32 (nonce E k.raw m)) < 2 ^ 255 := by rw [hrv]; exact modL_lt255 _
  obtain ⟨h, h1, -, -⟩ := GE.scalarMultiply_spec g4 (leBytes 32 (nonce E k.raw m)) hlt
  have key := C60_scalar g B g4 (leBytes 32 (nonce E k.raw m)) hlt
  rw [hrv] at key
  have hn : newEncodedFieldElement (hashesSha3_512 E [(hashesSha3_512 E [k.raw]).drop 32, m]) =
      .ok (Hash E ((Hash E k.raw).drop 32 ++ m)) := by
    simp only [hashes_flatten, List.flatten_cons, List.flatten_nil, List.append_nil]
    exact newEncoded_64 (Hash_length E _)
  rw [← hr] at h1 key
  rw [signT_tests hn g1 h1, key]

/-- ... and with the signature, the message and the public key, which are public, the private scalar modulo the group order. -/
theorem C60_sign (E : Env) (k : PrivateKey) (pub : PublicKey) (m : Bytes) (s : Signature) (h : (signT E ⟨some k, pub⟩ m).out = .ok s)
    (hc : challenge E s.R pub.raw m ≠ 0) :
    keyFromNonce (readScalar (signT E ⟨some k, pub⟩ m).tests) (challenge E s.R pub.raw m) (leVal s.S) = secretScalar E k.raw % L ∧
    encodePoint (keyFromNonce (readScalar (signT E ⟨some k, pub⟩ m).tests) (challenge E s.R pub.raw m) (leVal s.S) • B) =
      publicKeyOf E k.raw := by
  rw [C60_nonce]
  rw [signT_out, sign_spec] at h
  split at h
  · have e1 : s = ⟨sigR E k.raw m, leBytes 32 (sigS E k.raw pub.raw m)⟩ := by injection h with h; exact h.symm
    have v1 : leVal s.S = sigS E k.raw pub.raw m := by rw [e1]; exact leVal_leBytes_modL _
    have r1 : s.R = sigR E k.raw m := by rw [e1]
    have key : keyFromNonce (nonce E k.raw m) (challenge E s.R pub.raw m) (leVal s.S) = secretScalar E k.raw % L := by
      have : Fact L.Prime := ⟨L_prime⟩
      rw [v1, r1]
      rw [r1] at hc
      have hlt : challenge E (sigR E k.raw m) pub.raw m < L := Nat.mod_lt _ L_prime.pos
      have hne : (challenge E (sigR E k.raw m) pub.raw m : ZMod L) ≠ 0 := by
        intro e
        rw [ZMod.natCast_eq_zero_iff] at e
        exact hc (Nat.eq_zero_of_dvd_of_lt e hlt)
      unfold keyFromNonce sigS
      rw [ZMod.natCast_mod]
      push_cast
      rw [add_sub_cancel_left, mul_comm (challenge E (sigR E k.raw m) pub.raw m : ZMod L), mul_assoc, mul_inv_cancel₀ hne, mul_one,
        ZMod.val_natCast]
    refine ⟨key, ?_⟩
    unfold publicKeyOf
    rw [← smul_B_mod (secretScalar E k.raw)]
    exact congrArg (fun n : ℕ => encodePoint (n • B)) key
  · cases h

example : ∃ g : GE, g.SingleTable B := by
  obtain ⟨g, g1, g2, g3, g4, g5⟩ := basePoint_spec
  exact ⟨g, g4⟩

example : ∃ s, (signT Env.toy ⟨some (newPrivateKey (List.replicate 32 7)), ⟨publicKeyOf Env.toy (List.replicate 32 7)⟩⟩ [1, 2, 3]).out = .ok s := by
  rw [signT_out, sign_spec]
  exact ⟨_, if_pos toy_sign_ok⟩

end Ed

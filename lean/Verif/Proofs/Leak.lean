import Verif.Proofs.Dsa
import Verif.Proofs.PApi
import Verif.Proofs.Solo
import Verif.Proofs.PMemory
import Verif.Spec.Leak

/-!
# Two responses to one commitment; signing while the message changes
-/

set_option autoImplicit false

namespace Ed

theorem recover_spec (r a c1 c2 : ℕ) (h : c1 % L ≠ c2 % L) :
    recover c1 c2 ((r + c1 * a) % L) ((r + c2 * a) % L) < L ∧
    recover c1 c2 ((r + c1 * a) % L) ((r + c2 * a) % L) = a % L := by
  haveI : Fact L.Prime := ⟨L_prime⟩
  have hne : ((c1 : ZMod L) - c2) ≠ 0 := by
    rw [sub_ne_zero]
    intro e
    exact h ((ZMod.natCast_eq_natCast_iff' _ _ _).1 e)
  have e : recover c1 c2 ((r + c1 * a) % L) ((r + c2 * a) % L) = a % L := by
    unfold recover
    rw [ZMod.natCast_mod, ZMod.natCast_mod]
    push_cast
    have : ((r : ZMod L) + c1 * a - (r + c2 * a)) * ((c1 : ZMod L) - c2)⁻¹ = a := by
      have : ((r : ZMod L) + c1 * a - (r + c2 * a)) = a * (c1 - c2) := by ring
      rw [this, mul_assoc, mul_inv_cancel₀ hne, mul_one]
    rw [this, ZMod.val_natCast]
  exact ⟨by rw [e]; exact Nat.mod_lt _ L_prime.pos, e⟩

theorem recover_key {E : Env} {sk : Bytes} {r c1 c2 : ℕ} (h : c1 % L ≠ c2 % L) :
    recover c1 c2 ((r + c1 * secretScalar E sk) % L) ((r + c2 * secretScalar E sk) % L) • B = secretScalar E sk • B := by
  rw [(recover_spec r (secretScalar E sk) c1 c2 h).2, smul_B_mod]

namespace PG
open Prog

attribute [local irreducible] PG.doubleScalarMultiplyVariableTime PG.scalarMultiply multiplyAndAddModQ newSignature isCanonicalSignature

variable {E : Env} {g : Nat} {h : PHeap}

/-- The part of `Sign` up to the second reading of the message: the nonce, the commitment and the public key. -/
def signStart (E : Env) (bp k pub mess : Addr) : Prog (Bytes × Bytes × Bytes) :=
  (loadBytes k).bind fun raw => (loadBytes mess).bind fun m =>
  (lift (newEncodedFieldElement (hashesSha3_512 E [(hashesSha3_512 E [raw]).drop 32, m]))).bind fun r =>
  (basePoint bp).bind fun b => (scalarMultiply b (modQ r)).bind fun R => (encode R).bind fun encodedR =>
  (loadBytes pub).bind fun pubRaw => .ret (.ok (modQ r, encodedR, pubRaw))

/-- The rest. -/
def signEnd (E : Env) (k mess : Addr) (x : Bytes × Bytes × Bytes) : Prog Signature :=
  (loadBytes mess).bind fun m =>
  (lift (newEncodedFieldElement (hashesSha3_512 E [x.2.1, x.2.2, m]))).bind fun h =>
  (prepareForScalarMultiply E (some k)).bind fun a =>
  (lift (newSignature x.2.1 (multiplyAndAddModQ (modQ h) a x.1))).bind fun signature =>
  if !isCanonicalSignature signature then lift (.err "Generated signature is not canonical") else .ret (.ok signature)

theorem sign_parts (E : Env) (bp k pub mess : Addr) : sign E bp (some k) pub mess = (signStart E bp k pub mess).bind (signEnd E k mess) := by
  unfold sign signStart signEnd
  rw [if_neg (by simp)]
  simp only [Prog.bind_eq, bind_bind]
  rfl

theorem signStart_refV {bp k pub mess : Addr} {sk A m : Bytes} (hb : IsBase g h bp) (hk : ShowsB g h k sk) (hp : ShowsB g h pub A)
    (hm : ShowsB g h mess m) :
    RefV g h (signStart E bp k pub mess) (.ok (leBytes 32 (nonce E sk m), sigR E sk m, A)) := by
  have hr : modQ (Hash E ((Hash E sk).drop 32 ++ m)) = leBytes 32 (nonce E sk m) := modQ_hash (Hash_length E _)
  have hrv : leVal (leBytes 32 (nonce E sk m)) = nonce E sk m := leVal_leBytes_modL _
  unfold signStart
  refine loadBytes_bind hk ?_
  refine loadBytes_bind hm ?_
  simp only [hashes_flatten, List.flatten_cons, List.flatten_nil, List.append_nil]
  refine liftOk (newEncoded_64 (Hash_length E _)) ?_
  rw [hr]
  obtain ⟨v, g1, g2, g3, g4, g5⟩ := basePoint_spec
  obtain ⟨x, x1, x2, x3⟩ := GE.scalarMultiply_spec g4 (leBytes 32 (nonce E sk m)) (by rw [hrv]; exact modL_lt255 _)
  rw [hrv] at x3
  have henc : x.encode = .ok (sigR E sk m) := GC.encode_repr (Or.inr (Or.inl x2)) x3
  have key := wp_basePoint (fv := fun v => v.scalarMultiply (leBytes 32 (nonce E sk m)) >>= fun R => R.encode >>= fun e =>
      .ok (leBytes 32 (nonce E sk m), e, A)) hb (f := fun b => (scalarMultiply b (leBytes 32 (nonce E sk m))).bind fun R =>
      (encode R).bind fun encodedR => (loadBytes pub).bind fun pubRaw => .ret (.ok (leBytes 32 (nonce E sk m), encodedR, pubRaw)))
    fun b v h2 f2 k2 => by
      refine Ref.bindV (scalarMultiply_ref k2 _) fun R x h3 f3 k3 => ?_
      refine RefV.bind (encode_ref k3) fun encR h4 f4 => ?_
      exact loadBytes_bind (hp.grow ((f2.comp f3).comp f4)) (RefV.ok _)
  rw [g1, Out.ok_bind, x1, Out.ok_bind, henc, Out.ok_bind] at key
  exact key

theorem signEnd_refV {k mess : Addr} {sk A m m' : Bytes} (hk : ShowsB g h k sk) (hm : ShowsB g h mess m') :
    RefV g h (signEnd E k mess (leBytes 32 (nonce E sk m), sigR E sk m, A))
      (if LowBitsOk (tornS E sk A m m') then .ok ⟨sigR E sk m, leBytes 32 (tornS E sk A m m')⟩
        else .err "Generated signature is not canonical") := by
  have hrv : leVal (leBytes 32 (nonce E sk m)) = nonce E sk m := leVal_leBytes_modL _
  obtain ⟨a, a1, a2, a3⟩ := prepare_spec E (newPrivateKey sk)
  have a3 : leVal a = secretScalar E sk := a3
  have hh : modQ (Hash E (sigR E sk m ++ A ++ m')) = leBytes 32 (challenge E (sigR E sk m) A m') :=
    modQ_hash (Hash_length E _)
  have hhv : leVal (leBytes 32 (challenge E (sigR E sk m) A m')) = challenge E (sigR E sk m) A m' :=
    leVal_leBytes_modL _
  have hS : multiplyAndAddModQ (leBytes 32 (challenge E (sigR E sk m) A m')) a (leBytes 32 (nonce E sk m)) =
      leBytes 32 (tornS E sk A m m') := by
    rw [multiplyAndAddModQ_spec, hhv, hrv, a3]
    have b1 : challenge E (sigR E sk m) A m' < 2 ^ 255 := modL_lt255 _
    have b2 : nonce E sk m < 2 ^ 255 := modL_lt255 _
    have b3 := (secretScalar_bounds E sk).2.1
    rw [Nat.mod_eq_of_lt (lt_trans b1 (by norm_num)), Nat.mod_eq_of_lt (lt_trans b2 (by norm_num)),
      Nat.mod_eq_of_lt (lt_trans b3 (by norm_num)), Nat.add_comm]
    rfl
  have hSv : leVal (leBytes 32 (tornS E sk A m m')) = tornS E sk A m m' := leVal_leBytes_modL _
  have hlR : (sigR E sk m).length = 32 := encodePoint_length _
  have hsig : newSignature (sigR E sk m) (leBytes 32 (tornS E sk A m m')) = .ok ⟨sigR E sk m, leBytes 32 (tornS E sk A m m')⟩ := by
    unfold newSignature
    rw [if_neg (by rw [hlR, leBytes_length]; simp)]
  have hc : isCanonicalSignature ⟨sigR E sk m, leBytes 32 (tornS E sk A m m')⟩ = decide (LowBitsOk (tornS E sk A m m')) := by
    rw [isCanonical_eq, hSv]
  clear hSv hrv hhv
  generalize leBytes 32 (nonce E sk m) = N at *
  generalize leBytes 32 (challenge E (sigR E sk m) A m') = C at *
  generalize leBytes 32 (tornS E sk A m m') = T at *
  generalize tornS E sk A m m' = t at *
  unfold signEnd
  refine loadBytes_bind hm ?_
  simp only [hashes_flatten, List.flatten_cons, List.flatten_nil, List.append_nil]
  refine liftOk (newEncoded_64 (Hash_length E _)) ?_
  rw [← List.append_assoc, hh]
  have key := RefV.bind (prepare_refV (a := some k) (k := some (newPrivateKey sk)) E hk)
    (f := fun a => (lift (newSignature (sigR E sk m) (multiplyAndAddModQ C a N))).bind fun signature =>
        if !isCanonicalSignature signature then lift (.err "Generated signature is not canonical") else .ret (.ok signature))
    (fv := fun a => newSignature (sigR E sk m) (multiplyAndAddModQ C a N) >>= fun signature =>
        if !isCanonicalSignature signature then .err "Generated signature is not canonical" else .ok signature)
    fun a h1 f1 => by
      refine RefV.bind (RefV.lift _) fun sg h7 f7 => ?_
      split
      · exact RefV.lift _
      · exact RefV.ok _
  rw [a1, Out.ok_bind, hS, hsig, Out.ok_bind, hc] at key
  by_cases hl : LowBitsOk t
  · rw [if_pos hl]; rw [decide_eq_true hl] at key; exact key
  · rw [if_neg hl]; rw [decide_eq_false hl] at key; exact key

end PG
end Ed

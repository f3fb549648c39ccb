import Verif.Proofs.Leak
import Verif.Props.Dsa

/-!
# Ways in which `Sign` gives the private key away (C58, C59)

`recover` is what an observer computes from two challenges and two responses (Spec/Leak).  A number `x` with `x • B` = the public point signs
exactly like the private key: only `x` modulo `L` enters a response.
-/

set_option autoImplicit false

namespace Ed
open Prog PG

/-! ## C58: key pairs whose public key does not belong to the private key -/

/-- C58: `NewKeyPair` accepts a private key with any 32 bytes as its public key.  Signing the same message with two such pairs gives two
signatures with the same R; whenever the two challenges differ, they reveal the private scalar modulo `L`, hence a number that has the genuine
public key. -/
theorem C58_two_public_keys (E : Env) (k : PrivateKey) (A1 A2 : PublicKey) (m : Bytes) (s1 s2 : Signature)
    (h1 : sign E ⟨some k, A1⟩ m = .ok s1) (h2 : sign E ⟨some k, A2⟩ m = .ok s2)
    (hc : challenge E s1.R A1.raw m ≠ challenge E s1.R A2.raw m) :
    s1.R = s2.R ∧
    recover (challenge E s1.R A1.raw m) (challenge E s1.R A2.raw m) (leVal s1.S) (leVal s2.S) = secretScalar E k.raw % L ∧
    encodePoint (recover (challenge E s1.R A1.raw m) (challenge E s1.R A2.raw m) (leVal s1.S) (leVal s2.S) • B) = publicKeyOf E k.raw := by
  rw [sign_spec] at h1 h2
  split at h1
  · split at h2
    · have e1 : s1 = ⟨sigR E k.raw m, leBytes 32 (sigS E k.raw A1.raw m)⟩ := by injection h1 with h; exact h.symm
      have e2 : s2 = ⟨sigR E k.raw m, leBytes 32 (sigS E k.raw A2.raw m)⟩ := by injection h2 with h; exact h.symm
      have v1 : leVal s1.S = sigS E k.raw A1.raw m := by rw [e1]; exact leVal_leBytes_modL _
      have v2 : leVal s2.S = sigS E k.raw A2.raw m := by rw [e2]; exact leVal_leBytes_modL _
      have r1 : s1.R = sigR E k.raw m := by rw [e1]
      have r2 : s2.R = sigR E k.raw m := by rw [e2]
      rw [r1] at hc ⊢
      rw [v1, v2]
      have hm : ∀ A, challenge E (sigR E k.raw m) A m % L = challenge E (sigR E k.raw m) A m := fun A =>
        Nat.mod_eq_of_lt (Nat.mod_lt _ L_prime.pos)
      have hc' : challenge E (sigR E k.raw m) A1.raw m % L ≠ challenge E (sigR E k.raw m) A2.raw m % L := by rw [hm, hm]; exact hc
      have key := (recover_spec (nonce E k.raw m) (secretScalar E k.raw) _ _ hc').2
      refine ⟨r2.symm, key, ?_⟩
      unfold publicKeyOf
      rw [← smul_B_mod (secretScalar E k.raw)]
      exact congrArg (fun n : ℕ => encodePoint (n • B)) key
    · cases h2
  · cases h1

/-- The key pairs of `C58_two_public_keys` can be made. -/
theorem C58_pairs_accepted (E : Env) (k : PrivateKey) (A : PublicKey) (hA : A.raw.length = 32) :
    newKeyPair E (some k) (some A) = .ok ⟨some k, A⟩ := C30_no_consistency_check E (some k) A.raw hA

/-! ## C59: the message changes while it is signed -/

/-- Goroutine 0 signs the message at `mess`; goroutine 1 writes `m'` to this array, for example to prepare the next message. -/
def signAndWrite (E : Env) (bp k pub mess : Addr) (m' : Bytes) : Nat → Prog (Option Signature)
  | 0 => (PG.sign E bp (some k) pub mess).bind fun s => .ret (.ok (some s))
  | _ => (PG.update mess fun _ => .bytes m').bind fun _ => .ret (.ok none)

section
variable (E : Env) {h0 : PHeap} {bp k pub mess : Addr} (hb : IsBase 0 h0 bp) {sk A m : Bytes}
  (hk : k.region = 0 ∧ h0.get k = some (.bytes sk)) (hp : pub.region = 0 ∧ h0.get pub = some (.bytes A))
  (hm : mess.region = 0 ∧ h0.get mess = some (.bytes m)) (hne : k ≠ mess) (m' : Bytes) (w : World)
include hb hk hp hm hne

/-- C59: there is a schedule in which `Sign` returns the commitment of the old message with the response for the new one, without an
error (unless the response is one of those that `Sign` always refuses). -/
theorem C59_torn : ∃ sched, ((Pool.start h0 w (signAndWrite E bp k pub mess m')).run sched).thread 0 =
    .ret (if LowBitsOk (tornS E sk A m m') then .ok (some ⟨sigR E sk m, leBytes 32 (tornS E sk A m m')⟩)
      else .err "Generated signature is not canonical") := by
  have own : ∀ {a : Addr}, a.region = 0 → Own 1 a := fun h => .inr h
  have s1 := wl_of_wp (signStart_refV (E := E) (g := 1) hb.of_zero (mess := mess) (m := m) ⟨own hk.1, hk.2⟩ ⟨own hp.1, hp.2⟩ ⟨own hm.1, hm.2⟩)
  have e0 : (Pool.start h0 w (signAndWrite E bp k pub mess m')).thread 0 =
      (signStart E bp k pub mess).bind fun x => (signEnd E k mess x).bind fun s => .ret (.ok (some s)) := by
    show (PG.sign E bp (some k) pub mess).bind _ = _
    rw [sign_parts, bind_bind]
  obtain ⟨n1, r1, ⟨f1, rfl⟩, t1, o1⟩ := Pool.solo _ _ 0 _ _ e0 s1
  generalize hp1 : (Pool.start h0 w (signAndWrite E bp k pub mess m')).run (List.replicate n1 0) = p1 at f1 t1 o1
  have hk1 : p1.st.heap.get k = some (.bytes sk) := f1.grow hk.2
  have hm1 : p1.st.heap.get mess = some (.bytes m) := f1.grow hm.2
  have e1 : p1.thread 1 = (PG.update mess fun _ => .bytes m').bind fun _ => .ret (.ok none) := o1 1 (by decide)
  have s2 : wl 2 p1.st.heap (PG.update mess fun _ => .bytes m') fun _ h' =>
      h'.get k = some (.bytes sk) ∧ h'.get mess = some (.bytes m') := by
    have := wl_update (g := 2) (f := fun u => .ret (.ok u)) (u := fun _ => .bytes m')
      (Q := fun _ h' => h'.get k = some (.bytes sk) ∧ h'.get mess = some (.bytes m')) hm1
      fun h' k1 k2 => ⟨(k1 k hne).trans hk1, k2⟩
    rwa [bind_ret] at this
  obtain ⟨n2, r2, ⟨k2, m2⟩, -, o2⟩ := Pool.solo _ _ 1 _ _ e1 s2
  generalize hp2 : p1.run (List.replicate n2 1) = p2 at k2 m2 o2
  have e2 : p2.thread 0 = (signEnd E k mess (leBytes 32 (nonce E sk m), sigR E sk m, A)).bind fun s => .ret (.ok (some s)) := by
    rw [o2 0 (by decide), t1]; rfl
  obtain ⟨n3, r3, ⟨-, hr3⟩, t3, -⟩ := Pool.solo _ _ 0 _ _ e2
    (wl_of_wp (signEnd_refV (E := E) (g := 1) (m := m) (A := A) ⟨own hk.1, k2⟩ ⟨own hm.1, m2⟩))
  refine ⟨List.replicate n1 0 ++ (List.replicate n2 1 ++ List.replicate n3 0), ?_⟩
  rw [Pool.run_append, hp1, Pool.run_append, hp2, t3, hr3]
  split <;> rfl

end

/-- C59: such a signature together with the genuine signature of the old message reveals the private scalar, whenever the two challenges
differ. -/
theorem C59_leak (E : Env) (k : PrivateKey) (A : PublicKey) (m m' : Bytes) (s s' : Signature) (h : sign E ⟨some k, A⟩ m = .ok s)
    (h' : s' = ⟨sigR E k.raw m, leBytes 32 (tornS E k.raw A.raw m m')⟩)
    (hc : challenge E s.R A.raw m ≠ challenge E s.R A.raw m') :
    s.R = s'.R ∧
    recover (challenge E s.R A.raw m) (challenge E s.R A.raw m') (leVal s.S) (leVal s'.S) = secretScalar E k.raw % L ∧
    encodePoint (recover (challenge E s.R A.raw m) (challenge E s.R A.raw m') (leVal s.S) (leVal s'.S) • B) = publicKeyOf E k.raw := by
  rw [sign_spec] at h
  split at h
  · have e1 : s = ⟨sigR E k.raw m, leBytes 32 (sigS E k.raw A.raw m)⟩ := by injection h with h; exact h.symm
    have v1 : leVal s.S = sigS E k.raw A.raw m := by rw [e1]; exact leVal_leBytes_modL _
    have v2 : leVal s'.S = tornS E k.raw A.raw m m' := by rw [h']; exact leVal_leBytes_modL _
    have r1 : s.R = sigR E k.raw m := by rw [e1]
    have r2 : s'.R = sigR E k.raw m := by rw [h']
    rw [r1] at hc ⊢
    rw [v1, v2]
    have hm : ∀ m', challenge E (sigR E k.raw m) A.raw m' % L = challenge E (sigR E k.raw m) A.raw m' := fun A =>
      Nat.mod_eq_of_lt (Nat.mod_lt _ L_prime.pos)
    have hc' : challenge E (sigR E k.raw m) A.raw m % L ≠ challenge E (sigR E k.raw m) A.raw m' % L := by rw [hm, hm]; exact hc
    have key := (recover_spec (nonce E k.raw m) (secretScalar E k.raw) _ _ hc').2
    refine ⟨r2.symm, key, ?_⟩
    unfold publicKeyOf
    rw [← smul_B_mod (secretScalar E k.raw)]
    exact congrArg (fun n : ℕ => encodePoint (n • B)) key
  · cases h

/-- C59: with the message left alone it is the genuine signature. -/
theorem C59_untorn (E : Env) (k : PrivateKey) (A : PublicKey) (m : Bytes) (s : Signature) (h : sign E ⟨some k, A⟩ m = .ok s) :
    s = ⟨sigR E k.raw m, leBytes 32 (tornS E k.raw A.raw m m)⟩ := by
  rw [sign_spec] at h
  split at h
  · injection h with h; exact h.symm
  · cases h

/-! ## Non-vacuity -/

/-- A hash for the examples: 5 plus the bytes 40 and 64 of the input. -/
def pickHasher : Hasher where
  σ := Bytes
  init := []
  write := fun s b => s ++ b
  sum := fun s => leBytes 64 (5 + (s.getD 40 0).toNat + (s.getD 64 0).toNat)
  write_append := fun s a b => List.append_assoc s a b
  write_nil := fun s => List.append_nil s

/-- An environment with this hash. -/
def Env.pick : Env := { Env.toy with sha512 := pickHasher, sha512_length := fun _ => leBytes_length _ _ }

theorem pick_hash (b : Bytes) : Hash Env.pick b = leBytes 64 (5 + (b.getD 40 0).toNat + (b.getD 64 0).toNat) := rfl

theorem pick_scalar (sk : Bytes) (h : sk.length = 32) : secretScalar Env.pick sk = 2 ^ 254 := by
  have hh : Hash Env.pick sk = leBytes 64 5 := by
    rw [pick_hash, List.getD_eq_getElem?_getD, List.getD_eq_getElem?_getD, List.getElem?_eq_none (by omega), List.getElem?_eq_none (by omega)]
    rfl
  unfold secretScalar
  rw [hh]
  decide +kernel

theorem pick_nonce (sk m : Bytes) (hm : m.length < 8) : nonce Env.pick sk m = 5 := by
  have hl : ((Hash Env.pick sk).drop 32 ++ m).length = 32 + m.length := by
    rw [List.length_append, List.length_drop, Hash_length]
  have hh : Hash Env.pick ((Hash Env.pick sk).drop 32 ++ m) = leBytes 64 5 := by
    rw [pick_hash, List.getD_eq_getElem?_getD, List.getD_eq_getElem?_getD, List.getElem?_eq_none (by omega), List.getElem?_eq_none (by omega)]
    rfl
  unfold nonce
  rw [hh, leVal_leBytes_of_lt (by norm_num), Nat.mod_eq_of_lt (by have := L_gt; omega)]

theorem pick_challenge (R A m : Bytes) (hR : R.length = 32) (a x : UInt8) (hA : A = List.replicate 32 a) (hm : m = [x]) :
    challenge Env.pick R A m = 5 + a.toNat + x.toNat := by
  have e1 : (R ++ A ++ m)[40]? = some a := by
    rw [List.getElem?_append_left (by rw [List.length_append, hR, hA, List.length_replicate]; omega), List.getElem?_append_right (by omega), hR, hA,
      List.getElem?_replicate, if_pos (by omega)]
  have e2 : (R ++ A ++ m)[64]? = some x := by
    have : (R ++ A).length = 64 := by rw [List.length_append, hR, hA, List.length_replicate]
    rw [List.getElem?_append_right (by omega), this, hm]; rfl
  have hh : Hash Env.pick (R ++ A ++ m) = leBytes 64 (5 + a.toNat + x.toNat) := by
    rw [pick_hash, List.getD_eq_getElem?_getD, List.getD_eq_getElem?_getD, e1, e2]
    rfl
  have ha := a.toNat_lt
  have hx := x.toNat_lt
  unfold challenge
  rw [hh, leVal_leBytes_of_lt (by omega), Nat.mod_eq_of_lt (by have := L_gt; omega)]

/-- Two signatures of one message under two public keys, with different challenges. -/
example : ∃ (k : PrivateKey) (A1 A2 : PublicKey) (m : Bytes) (s1 s2 : Signature), A1.raw.length = 32 ∧ A2.raw.length = 32 ∧
    sign Env.pick ⟨some k, A1⟩ m = .ok s1 ∧ sign Env.pick ⟨some k, A2⟩ m = .ok s2 ∧
    challenge Env.pick s1.R A1.raw m ≠ challenge Env.pick s1.R A2.raw m := by
  have hR : (sigR Env.pick (List.replicate 32 7) [3]).length = 32 := encodePoint_length _
  have c1 := pick_challenge _ (List.replicate 32 1) [3] hR 1 3 rfl rfl
  have c2 := pick_challenge _ (List.replicate 32 2) [3] hR 2 3 rfl rfl
  have l : ∀ a : UInt8, a = 1 ∨ a = 2 → LowBitsOk (sigS Env.pick (List.replicate 32 7) (List.replicate 32 a) [3]) := by
    intro a ha
    unfold sigS
    rw [pick_challenge _ (List.replicate 32 a) [3] hR a 3 rfl rfl, pick_scalar _ (by decide), pick_nonce _ _ (by decide), L_eq]
    unfold LowBitsOk
    rw [L_eq]
    rcases ha with rfl | rfl <;> decide +kernel
  refine ⟨newPrivateKey (List.replicate 32 7), ⟨List.replicate 32 1⟩, ⟨List.replicate 32 2⟩, [3], _, _, rfl, rfl,
    (sign_spec ..).trans (if_pos (l 1 (.inl rfl))), (sign_spec ..).trans (if_pos (l 2 (.inr rfl))), ?_⟩
  show challenge Env.pick (sigR Env.pick (List.replicate 32 7) [3]) _ _ ≠ challenge Env.pick (sigR Env.pick (List.replicate 32 7) [3]) _ _
  rw [c1, c2]; decide

/-- A memory for `C59_torn`, in which both the genuine and the torn signature are made and have different challenges. -/
example : ∃ h0 bp k pub mess sk A m m', IsBase 0 h0 bp ∧ (k.region = 0 ∧ h0.get k = some (.bytes sk)) ∧
    (pub.region = 0 ∧ h0.get pub = some (.bytes A)) ∧ (mess.region = 0 ∧ h0.get mess = some (.bytes m)) ∧ k ≠ mess ∧
    LowBitsOk (sigS Env.pick sk A m) ∧ LowBitsOk (tornS Env.pick sk A m m') ∧
    challenge Env.pick (sigR Env.pick sk m) A m ≠ challenge Env.pick (sigR Env.pick sk m) A m' := by
  obtain ⟨h, bp, hb⟩ := exists_base
  have hR : (sigR Env.pick (List.replicate 32 7) [3]).length = 32 := encodePoint_length _
  have f1 := Fr.push 0 h (.bytes (List.replicate 32 7))
  have f2 := Fr.push 0 (h.push 0 (.bytes (List.replicate 32 7))) (.bytes (List.replicate 32 1))
  have f3 := Fr.push 0 ((h.push 0 (.bytes (List.replicate 32 7))).push 0 (.bytes (List.replicate 32 1))) (.bytes [3])
  have g1 := PHeap.get_push_fresh h 0 (.bytes (List.replicate 32 7))
  have g2 := PHeap.get_push_fresh (h.push 0 (.bytes (List.replicate 32 7))) 0 (.bytes (List.replicate 32 1))
  have g3 := PHeap.get_push_fresh ((h.push 0 (.bytes (List.replicate 32 7))).push 0 (.bytes (List.replicate 32 1))) 0 (.bytes [3])
  have l : ∀ a : UInt8, a = 3 ∨ a = 4 → LowBitsOk (tornS Env.pick (List.replicate 32 7) (List.replicate 32 1) [3] [a]) := by
    intro a ha
    unfold tornS
    rw [pick_challenge _ (List.replicate 32 1) [a] hR 1 a rfl rfl, pick_scalar _ (by decide), pick_nonce _ _ (by decide), L_eq]
    unfold LowBitsOk
    rw [L_eq]
    rcases ha with rfl | rfl <;> decide +kernel
  refine ⟨_, bp, h.fresh 0, _, _, List.replicate 32 7, List.replicate 32 1, [3], [4], ((hb.grow f1).grow f2).grow f3,
    ⟨rfl, f3.grow (f2.grow g1)⟩, ⟨rfl, f3.grow g2⟩, ⟨rfl, g3⟩, PHeap.fresh_ne (f2.grow g1), l 3 (.inl rfl), l 4 (.inr rfl), ?_⟩
  rw [pick_challenge _ (List.replicate 32 1) [3] hR 1 3 rfl rfl, pick_challenge _ (List.replicate 32 1) [4] hR 1 4 rfl rfl]
  decide

end Ed

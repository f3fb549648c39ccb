import Verif.Proofs.Interfere
import Verif.Props.Leak

/-!
# Arguments that other goroutines change during a call (C70, C71)

`(Pool.start h0 w t).bytes sched n a` is what the array `a` holds after the first `n` actions of the schedule `sched`.  A call
passes over its arguments byte by byte, and `Seen` says what one pass can give when the array changes meanwhile.  The theorems name the
times between the passes, in their order; nothing else of the other goroutines enters a result.
-/

set_option autoImplicit false

namespace Ed
open Prog PG

/-! ## C70 -/

section
variable (E : Env) {h0 : PHeap} {bp : Addr} (hb : IsBase 0 h0 bp) (w : World) (t : Nat → Prog Res) (i : Nat) (sched : List Nat) (r : Out Res)
  (hr : ((Pool.start h0 w t).run sched).thread i = .ret r)
include hb hr

/-- C70: `Sign` reads the private key and the message twice and the public key once.  The commitment and the nonce come from the first
readings, the challenge from the readings of the public key and the message after it, the secret scalar from the last reading of the key. -/
theorem C70_sign (k pub mess : Addr) (ht : t i = Call.prog E bp (.sign ⟨some k, pub⟩ mess)) (hf : Foreign h0 i [k, pub, mess])
    (hi : (Pool.start h0 w t).Interference i [k, pub, mess] sched) :
    let c := (Pool.start h0 w t).bytes sched
    ∃ n1 n2 n3 n4 n5 sk m A m' sk', Seen c k 0 n1 sk ∧ Seen c mess n1 n2 m ∧ Seen c pub n2 n3 A ∧ Seen c mess n3 n4 m' ∧ Seen c k n4 n5 sk' ∧
      n5 ≤ sched.length ∧
      r = if LowBitsOk (mixedS E sk m A m' sk') then .ok (.sig ⟨sigR E sk m, leBytes 32 (mixedS E sk m A m' sk')⟩)
        else .err "Generated signature is not canonical" := by
  intro c
  revert r
  refine Pool.observed hf hi ?_
  rw [ht]
  refine wpO_bind (wpO_mono (sign_obs hb.of_zero (by simp) (by simp) (by simp)) ?_)
  rintro r n' h' ⟨n1, n2, n3, n4, n5, sk, m, A, m', sk', a1, a2, a3, a4, a5, a6, rfl⟩
  by_cases hl : LowBitsOk (mixedS E sk m A m' sk')
  · rw [if_pos hl]
    refine ⟨n1, n2, n3, n4, n5, sk, m, A, m', sk', a1, a2, a3, a4, a5, a6, ?_⟩
    rw [if_pos hl]
  · rw [if_neg hl]
    refine ⟨n1, n2, n3, n4, n5, sk, m, A, m', sk', a1, a2, a3, a4, a5, a6, ?_⟩
    rw [if_neg hl]

/-- C70: `Verify` (with a public key that no other goroutine changes) reads S and R twice and the message once, and tests each condition on one reading. -/
theorem C70_verify (kp : PPair) (mess sR sS : Addr) (ht : t i = Call.prog E bp (.verify kp mess sR sS))
    (hf : Foreign h0 i [kp.pub, mess, sR, sS]) (hi : (Pool.start h0 w t).Interference i [kp.pub, mess, sR, sS] sched)
    (ca : (Pool.start h0 w t).LeftAlone i kp.pub sched) (lp : (bytesAt h0 kp.pub).length = 32) (ls : (bytesAt h0 sS).length = 32) :
    let c := (Pool.start h0 w t).bytes sched
    ∃ n1 n2 n3 n4 n5 S1 R2 m3 S4 R5 s b, Seen c sS 0 n1 S1 ∧ Seen c sR n1 n2 R2 ∧ Seen c mess n2 n3 m3 ∧ Seen c sS n3 n4 S4 ∧
      Seen c sR n4 n5 R5 ∧ n5 ≤ sched.length ∧ SignedVal S4 s ∧ r = .ok (.bool b) ∧ (b = true ↔ MixedAccepts E (bytesAt h0 kp.pub) S1 R2 m3 s R5) := by
  intro c
  have cp := Pool.stays_call (fixed := [kp.pub]) ht hf hi (by simpa using ca) (verify_obs hb.of_zero (by simp) (by simp) (by simp) (by simp)
    (Pool.told_fixed (by simp) _) lp (by rw [Pool.told_zero]; exact ls)) kp.pub (by simp)
  revert r
  refine Pool.observed hf hi ?_
  rw [ht]
  refine wpO_bind (wpO_mono (verify_obs hb.of_zero (by simp) (by simp) (by simp) (by simp) cp lp ls) ?_)
  rintro r n' h' ⟨n1, n2, n3, n4, n5, S1, R2, m3, S4, R5, s, b, a1, a2, a3, a4, a5, a6, hs, rfl, hb⟩
  exact ⟨n1, n2, n3, n4, n5, S1, R2, m3, S4, R5, s, b, a1, a2, a3, a4, a5, a6, hs, rfl, hb⟩

omit hb in
/-- C70: `MakeSignatureCanonical` reads each half once. -/
theorem C70_canonical (sR sS : Addr) (ht : t i = Call.prog E bp (.canonical sR sS)) (hf : Foreign h0 i [sR, sS])
    (hi : (Pool.start h0 w t).Interference i [sR, sS] sched) :
    let c := (Pool.start h0 w t).bytes sched
    ∃ n1 n2 S R, Seen c sS 0 n1 S ∧ Seen c sR n1 n2 R ∧ n2 ≤ sched.length ∧
      r = (makeSignatureCanonical ⟨R, S⟩ >>= fun s => .ok (.sig s)) := by
  intro c
  revert r
  refine Pool.observed hf hi ?_
  rw [ht]
  refine wpO_bind (wpO_mono (canonical_obs (by simp) (by simp)) ?_)
  rintro r n' h' ⟨n1, n2, S, R, a1, a2, a3, rfl⟩
  cases hc : Ed.makeSignatureCanonical ⟨R, S⟩ with
  | ok s => exact ⟨n1, n2, S, R, a1, a2, a3, by rw [hc]; rfl⟩
  | err s => exact ⟨n1, n2, S, R, a1, a2, a3, by rw [hc]; rfl⟩
  | panic => exact ⟨n1, n2, S, R, a1, a2, a3, by rw [hc]; rfl⟩

/-- C70: `DerivePublicKey` gives the public key of the bytes of one pass over the private key. -/
theorem C70_derive (k : Addr) (ht : t i = Call.prog E bp (.derive (some k))) (hf : Foreign h0 i [k])
    (hi : (Pool.start h0 w t).Interference i [k] sched) :
    ∃ n1 sk, Seen ((Pool.start h0 w t).bytes sched) k 0 n1 sk ∧ n1 ≤ sched.length ∧ r = .ok (.bytes (publicKeyOf E sk)) := by
  revert r
  refine Pool.observed hf hi ?_
  rw [ht]
  refine wpO_bind (wpO_mono (derive_obs hb.of_zero (List.mem_singleton.2 rfl)) fun r n' h' hx => ?_)
  obtain ⟨n1, sk, a1, a2, hx⟩ := hx
  have fin : ∀ x : Bytes, x = publicKeyOf E sk → ∃ n1 sk, Seen ((Pool.start h0 w t).bytes sched) k 0 n1 sk ∧ n1 ≤ sched.length ∧
      (.ok (.bytes x) : Out Res) = .ok (.bytes (publicKeyOf E sk)) := fun x h => ⟨n1, sk, a1, a2, by rw [h]⟩
  rw [hx]
  generalize publicKeyOf E sk = pk at fin
  exact fin pk rfl

omit hb in
/-- C70: `GetSharedKey` (with a public key that no other goroutine changes) reads the private key, then the salt, once each. -/
theorem C70_shared_key (len : Nat) (k pub salt : Addr) (ht : t i = Call.prog E bp (.sharedKey len (some k) pub salt))
    (hf : Foreign h0 i [k, pub, salt]) (hi : (Pool.start h0 w t).Interference i [k, pub, salt] sched)
    (ca : (Pool.start h0 w t).LeftAlone i pub sched) :
    let c := (Pool.start h0 w t).bytes sched
    ∃ n1 n2 sk s, Seen c k 0 n1 sk ∧ Seen c salt n1 n2 s ∧ n2 ≤ sched.length ∧
      r = (getSharedKey E len (some (newPrivateKey sk)) (newPublicKey (bytesAt h0 pub)) s >>= fun b => .ok (.bytes b)) := by
  intro c
  have cp := Pool.stays_call (fixed := [pub]) ht hf hi (by simpa using ca) (getSharedKey_obs (by simp) (by simp)
    (Pool.told_fixed (by simp) _) (SaltReading.load (by simp))) pub (by simp)
  revert r
  refine Pool.observed hf hi ?_
  rw [ht]
  unfold Call.prog
  simp only [Prog.bind_eq]
  refine wpO_bind (wpO_mono (getSharedKey_obs (by simp) (by simp) cp (SaltReading.load (by simp))) ?_)
  rintro r n' h' ⟨n1, sk, s, a1, a2, -, a4, rfl⟩
  have fin : ∀ x : Out Res, x = (Ed.getSharedKey E len (some (newPrivateKey sk)) (newPublicKey (bytesAt h0 pub)) s >>= fun b => .ok (.bytes b)) → _ :=
    fun x hx => (⟨n1, n', sk, s, a1, a2, a4, hx⟩ : ∃ n1 n2 sk s, Seen c k 0 n1 sk ∧ Seen c salt n1 n2 s ∧ n2 ≤ sched.length ∧
      x = (getSharedKey E len (some (newPrivateKey sk)) (newPublicKey (bytesAt h0 pub)) s >>= fun b => .ok (.bytes b)))
  generalize Ed.getSharedKey E len (some (newPrivateKey sk)) (newPublicKey (bytesAt h0 pub)) s = v at fin ⊢
  cases v <;> exact fin _ rfl

omit hb in
/-- C70: `Decrypt` (with a public key that no other goroutine changes) reads the private key, then the salt, the initialization vector and the data. -/
theorem C70_decrypt (snd rcp : PPair) (len seed : Nat) (k input : Addr) (hk : rcp.priv = some k)
    (ht : t i = Call.prog E bp (.decrypt snd rcp len seed input))
    (hf : Foreign h0 i [k, snd.pub, input]) (hi : (Pool.start h0 w t).Interference i [k, snd.pub, input] sched)
    (ca : (Pool.start h0 w t).LeftAlone i snd.pub sched) :
    let c := (Pool.start h0 w t).bytes sched
    ∃ n0 n1 n2 n3 n4 i0 sk i2 i3 i4, Seen c input 0 n0 i0 ∧ Seen c k n0 n1 sk ∧ Seen c input n1 n2 i2 ∧ Seen c input n2 n3 i3 ∧
      Seen c input n3 n4 i4 ∧ n4 ≤ sched.length ∧
      r = (mixedDecrypt E len (newPrivateKey sk) (newPublicKey (bytesAt h0 snd.pub)) i0 i2 i3 i4 >>= fun b => .ok (.bytes b)) := by
  intro c
  have cp := Pool.stays_call (fixed := [snd.pub]) (q := PG.decrypt E len (some k) snd.pub input) (u := .bytes) (by rw [ht, ← hk]; rfl) hf hi (by simpa using ca)
    (decrypt_obs (by simp) (by simp) (by simp) (Pool.told_fixed (by simp) _)) snd.pub (by simp)
  revert r
  refine Pool.observed hf hi ?_
  rw [ht]
  unfold Call.prog
  simp only [Prog.bind_eq]
  rw [hk]
  refine wpO_bind (wpO_mono (decrypt_obs (by simp) (by simp) (by simp) cp) ?_)
  rintro r n' h' ⟨n0, n1, n2, n3, n4, i0, sk, i2, i3, i4, a0, a1, a2, a3, a4, a5, rfl⟩
  have fin : ∀ x : Out Res, x = (mixedDecrypt E len (newPrivateKey sk) (newPublicKey (bytesAt h0 snd.pub)) i0 i2 i3 i4 >>= fun b => .ok (.bytes b)) → _ :=
    fun x hx => (⟨n0, n1, n2, n3, n4, i0, sk, i2, i3, i4, a0, a1, a2, a3, a4, a5, hx⟩ :
      ∃ n0 n1 n2 n3 n4 i0 sk i2 i3 i4, Seen c input 0 n0 i0 ∧ Seen c k n0 n1 sk ∧ Seen c input n1 n2 i2 ∧ Seen c input n2 n3 i3 ∧
      Seen c input n3 n4 i4 ∧ n4 ≤ sched.length ∧
      x = (mixedDecrypt E len (newPrivateKey sk) (newPublicKey (bytesAt h0 snd.pub)) i0 i2 i3 i4 >>= fun b => .ok (.bytes b)))
  generalize mixedDecrypt E len (newPrivateKey sk) (newPublicKey (bytesAt h0 snd.pub)) i0 i2 i3 i4 = v at fin ⊢
  cases v <;> exact fin _ rfl

omit hb in
/-- C70: `Encrypt` (with a public key that no other goroutine changes) reads the private key and the plaintext once each; a ciphertext is that of these
readings with some salt and some IV. -/
theorem C70_encrypt (snd rcp : PPair) (len seed : Nat) (k input : Addr) (hk : snd.priv = some k)
    (ht : t i = Call.prog E bp (.encrypt snd rcp len seed input))
    (hf : Foreign h0 i [k, rcp.pub, input]) (hi : (Pool.start h0 w t).Interference i [k, rcp.pub, input] sched)
    (ca : (Pool.start h0 w t).LeftAlone i rcp.pub sched) (b : Bytes) (hok : r = .ok (.bytes b)) :
    let c := (Pool.start h0 w t).bytes sched
    ∃ n1 n2 sk m salt iv, Seen c k 0 n1 sk ∧ Seen c input n1 n2 m ∧ n2 ≤ sched.length ∧ salt.length = len ∧ iv.length = 16 ∧
      encryptWith E len (newPrivateKey sk) (newPublicKey (bytesAt h0 rcp.pub)) salt iv m = .ok b := by
  intro c
  have cp := Pool.stays_call (fixed := [rcp.pub]) (q := PG.encrypt E seed len (some k) rcp.pub input) (u := .bytes) (by rw [ht, ← hk]; rfl) hf hi (by simpa using ca)
    (encrypt_obs (by simp) (by simp) (by simp) (Pool.told_fixed (by simp) _) (Nat.zero_le _)) rcp.pub (by simp)
  revert r
  refine Pool.observed hf hi ?_
  rw [ht]
  unfold Call.prog
  simp only [Prog.bind_eq]
  rw [hk]
  refine wpO_bind (wpO_mono (encrypt_obs (by simp) (by simp) (by simp) cp (Nat.zero_le _)) ?_)
  rintro r n' h' ⟨n1, n2, sk, m, a1, a2, a3, ⟨e, rfl⟩ | ⟨salt, iv, l1, l2, he⟩⟩
  · exact fun h => by cases h
  · cases r with
    | err m => exact fun h => by cases h
    | panic => exact fun h => by cases h
    | ok x =>
      intro h
      have h : x = b := by injection h with h; injection h
      subst h
      exact ⟨n1, n2, sk, m, salt, iv, a1, a2, a3, l1, l2, he.symm⟩

/-- C70: when the keys stay and the message is replaced once, by other goroutines, `Sign` returns the signature of the old message, that of the
new one, or a torn one as in C59, for messages whose bytes are those of the old and the new one: the nonce comes from `x`, the challenge
from `y`, and `x` is the old message or `y` the new one. -/
theorem C70_sign_once (k pub mess : Addr) (ht : t i = Call.prog E bp (.sign ⟨some k, pub⟩ mess)) (hf : Foreign h0 i [k, pub, mess])
    (hi : (Pool.start h0 w t).Interference i [k, pub, mess] sched) (m m' : Bytes) (n0 : Nat)
    (ka : (Pool.start h0 w t).LeftAlone i k sched) (pa : (Pool.start h0 w t).LeftAlone i pub sched)
    (cm : ∀ n, n ≤ sched.length → (Pool.start h0 w t).bytes sched n mess = if n < n0 then m else m') :
    let sk := bytesAt h0 k
    let A := bytesAt h0 pub
    ∃ x y, (x = m ∨ y = m') ∧ Mixture m m' x ∧ Mixture m m' y ∧
      r = if LowBitsOk (tornS E sk A x y) then .ok (.sig ⟨sigR E sk x, leBytes 32 (tornS E sk A x y)⟩)
        else .err "Generated signature is not canonical" := by
  intro sk A
  have cc := Pool.stays_call (fixed := [k, pub]) ht hf hi (by simp [ka, pa]) (sign_obs hb.of_zero (by simp) (by simp) (by simp))
  have ck := cc k (by simp)
  have cp := cc pub (by simp)
  obtain ⟨n1, n2, n3, n4, n5, sk1, x, A', y, sk2, a1, a2, a3, a4, a5, a6, hx⟩ := C70_sign E hb w t i sched r hr k pub mess ht hf hi
  have l4 : n4 ≤ sched.length := a5.le.trans a6
  have l3 : n3 ≤ sched.length := a4.le.trans l4
  have l2 : n2 ≤ sched.length := a3.le.trans l3
  have l1 : n1 ≤ sched.length := a2.le.trans l2
  rw [a1.eq l1 ck, a3.eq l3 cp, a5.eq a6 ck, mixedS_torn] at hx
  refine ⟨x, y, ?_, a2.mixture l2 cm, a4.mixture l4 cm, hx⟩
  by_cases h2 : n2 < n0
  · exact .inl (a2.eq_on fun t _ ht => by rw [cm t (ht.trans l2), if_pos (lt_of_le_of_lt ht h2)])
  · have := a3.le
    exact .inr (a4.eq_on fun t h1 ht => by rw [cm t (ht.trans l4), if_neg (by omega)])

/-- C70: when none of the arrays changes, it is the outcome of `Sign` in a program without concurrency. -/
theorem C70_sign_stable (k pub mess : Addr) (ht : t i = Call.prog E bp (.sign ⟨some k, pub⟩ mess)) (hf : Foreign h0 i [k, pub, mess])
    (hi : (Pool.start h0 w t).Interference i [k, pub, mess] sched) (ca : ∀ a ∈ [k, pub, mess], (Pool.start h0 w t).LeftAlone i a sched) :
    r = (sign E ⟨some (newPrivateKey (bytesAt h0 k)), newPublicKey (bytesAt h0 pub)⟩ (bytesAt h0 mess) >>= fun s => .ok (.sig s)) := by
  have cm := Pool.stays_call (fixed := [k, pub, mess]) ht hf hi (fun a ha => ⟨ha, ca a ha⟩)
    (sign_obs hb.of_zero (by simp) (by simp) (by simp)) mess (by simp)
  obtain ⟨x, y, -, h1, h2, hx⟩ := C70_sign_once E hb w t i sched r hr k pub mess ht hf hi (bytesAt h0 mess) (bytesAt h0 mess) 0
    (ca k (by simp)) (ca pub (by simp)) (fun n hn => by rw [cm n hn, ite_self])
  have e : x = bytesAt h0 mess ∧ y = bytesAt h0 mess := ⟨h1.self, h2.self⟩
  rw [e.1, e.2] at hx
  rw [hx, sign_spec]
  show (if LowBitsOk (sigS E (bytesAt h0 k) (bytesAt h0 pub) (bytesAt h0 mess)) then _ else _) =
    ((if LowBitsOk (sigS E (bytesAt h0 k) (bytesAt h0 pub) (bytesAt h0 mess)) then _ else _) >>= _)
  split <;> rfl

end

/-- C70: goroutines that write bytes into the argument arrays, and nothing else into memory they did not allocate, are covered: under every
schedule they do no more than `Interference` permits. -/
theorem C70_writers (h0 : PHeap) (w : World) (t : Nat → Prog Res) (i : Nat) (args : List Addr) (hf : Foreign h0 i args)
    (hw : ∀ j, j ≠ i → (t j).Writer args) (sched : List Nat) : (Pool.start h0 w t).Interference i args sched :=
  Pool.writers_interference (fun a ha => ⟨(hf a ha).1, (hf a ha).2.1⟩) hw sched

/-- C70: a call ends, whenever it gets enough actions: under a schedule in which goroutine `i` comes up again and again, it returns after
finitely many actions. -/
theorem C70_ends {α : Type} (p : Pool α) (i : Nat) (sched : Nat → Nat) (fair : ∀ n, ∃ k, n ≤ k ∧ sched k = i) :
    ∃ n r, ∀ k, n ≤ k → (p.run ((List.range k).map sched)).thread i = .ret r := Pool.ends p i sched fair

/-! ## C71: a pair that is valid at no moment is accepted -/

/-- Goroutine 0 verifies the signature at `sR`, `sS`; goroutine 1 writes `R1` to the first half. -/
def verifyAndWrite (E : Env) (bp pub mess sR sS : Addr) (R1 : Bytes) : Nat → Prog (Option Bool)
  | 0 => (PG.verify E bp pub mess sR sS).bind fun b => .ret (.ok (some b))
  | _ => (PG.update sR fun _ => .bytes R1).bind fun _ => .ret (.ok none)

/-- C71: for every public key, every message, every commitment `R0` and every response `S` that passes the test of canonical form, one write
to the array of R during the call makes `Verify` return true.  What is written is computed from public data (`nafVal (leVal S)`, the
number that S stands for in the equation, is `leVal S` when that is below 2^255). -/
theorem C71_accepts (E : Env) {h0 : PHeap} {bp pub mess sR sS : Addr} (hb : IsBase 0 h0 bp) {A m R0 S : Bytes} {q : Pt}
    (hp : pub.region = 0 ∧ h0.get pub = some (.bytes A)) (hm : mess.region = 0 ∧ h0.get mess = some (.bytes m))
    (hr : sR.region = 0 ∧ h0.get sR = some (.bytes R0)) (hs : sS.region = 0 ∧ h0.get sS = some (.bytes S))
    (lA : A.length = 32) (hq : Decodes A q) (hz : A ≠ List.replicate 32 0) (lS : S.length = 32) (hS : LowBitsOk (leVal S)) (w : World) :
    ∃ sched, ((Pool.start h0 w (verifyAndWrite E bp pub mess sR sS (encodePoint (nafVal (leVal S) • B - challenge E R0 A m • q)))).run sched).thread 0 =
      .ret (.ok (some true)) := by
  have own : ∀ {a : Addr}, a.region = 0 → Own 1 a := fun h => .inr h
  have s1 := wl_of_wp (verifyStart_refV (E := E) (g := 1) hb.of_zero ⟨own hp.1, hp.2⟩ ⟨own hm.1, hm.2⟩ ⟨own hr.1, hr.2⟩ ⟨own hs.1, hs.2⟩
    lA hq hz lS hS)
  generalize encodePoint (nafVal (leVal S) • B - challenge E R0 A m • q) = R1 at s1
  have e0 : (Pool.start h0 w (verifyAndWrite E bp pub mess sR sS R1)).thread 0 =
      (verifyStart E bp pub mess sR sS).bind fun x => (verifyEnd sR x).bind fun b => .ret (.ok (some b)) := by
    show (PG.verify E bp pub mess sR sS).bind _ = _
    rw [verify_parts, bind_bind]
  obtain ⟨n1, r1, ⟨f1, rfl⟩, t1, o1⟩ := Pool.solo _ _ 0 _ _ e0 s1
  generalize hp1 : (Pool.start h0 w (verifyAndWrite E bp pub mess sR sS R1)).run (List.replicate n1 0) = p1 at f1 t1 o1
  have hr1 : p1.st.heap.get sR = some (.bytes R0) := f1.grow hr.2
  have e1 : p1.thread 1 = (PG.update sR fun _ => .bytes R1).bind fun _ => .ret (.ok none) := o1 1 (by decide)
  have s2 : wl 2 p1.st.heap (PG.update sR fun _ => .bytes R1) fun _ h' => h'.get sR = some (.bytes R1) := by
    have := wl_update (g := 2) (f := fun u => .ret (.ok u)) (u := fun _ => .bytes R1)
      (Q := fun _ h' => h'.get sR = some (.bytes R1)) hr1 fun h' k1 k2 => k2
    rwa [bind_ret] at this
  obtain ⟨n2, r2, k2, -, o2⟩ := Pool.solo _ _ 1 _ _ e1 s2
  generalize hp2 : p1.run (List.replicate n2 1) = p2 at k2 o2
  have e2 : p2.thread 0 = (verifyEnd sR (some R1)).bind fun s => .ret (.ok (some s)) := by
    rw [o2 0 (by decide), t1]; rfl
  obtain ⟨n3, r3, ⟨-, hr3⟩, t3, -⟩ := Pool.solo _ _ 0 _ _ e2 (wl_of_wp (verifyEnd_refV (g := 1) (e := R1) ⟨own hr.1, k2⟩))
  refine ⟨List.replicate n1 0 ++ (List.replicate n2 1 ++ List.replicate n3 0), ?_⟩
  rw [Pool.run_append, hp1, Pool.run_append, hp2, t3, hr3, isEqualConstantTime_eq, beq_self_eq_true]
  rfl

/-- C71: neither of the two pairs need be a signature: alone, `Verify` rejects (R0, S) whenever the write changes R at all, and (R1, S)
whenever the two challenges act differently on the public point. -/
theorem C71_neither (E : Env) (A m R0 S : Bytes) (q : Pt) (lA : A.length = 32) (hq : Decodes A q) (lS : S.length = 32) :
    let R1 := encodePoint (nafVal (leVal S) • B - challenge E R0 A m • q)
    (R1 ≠ R0 → verify E ⟨A⟩ m ⟨R0, S⟩ ≠ .ok true) ∧
    (challenge E R0 A m • q ≠ challenge E R1 A m • q → verify E ⟨A⟩ m ⟨R1, S⟩ ≠ .ok true) := by
  intro R1
  have ht : A.take 32 = A := List.take_of_length_le (by rw [lA])
  refine ⟨fun hne h => ?_, fun hne h => ?_⟩
  · rw [C20_accepts_iff_any E S lS] at h
    obtain ⟨-, -, -, A', hA, e⟩ := h
    rw [ht] at hA
    rw [GC.decodes_unique hA hq] at e
    exact hne e.symm
  · rw [C20_accepts_iff_any E S lS] at h
    obtain ⟨-, -, -, A', hA, e⟩ := h
    rw [ht] at hA
    rw [GC.decodes_unique hA hq] at e
    exact hne (sub_right_injective (encodePoint_inj e))

/-! ## Non-vacuity -/

/-- A hash for the examples: 5 when the first 32 bytes are all 255, otherwise 6. -/
def firstHasher : Hasher where
  σ := Bytes
  init := []
  write := fun s b => s ++ b
  sum := fun s => leBytes 64 (if s.take 32 = List.replicate 32 255 then 5 else 6)
  write_append := fun s a b => List.append_assoc s a b
  write_nil := fun s => List.append_nil s

/-- An environment with this hash. -/
def Env.first : Env := { Env.toy with sha512 := firstHasher, sha512_length := fun _ => leBytes_length _ _ }

theorem first_hash (b : Bytes) : Hash Env.first b = leBytes 64 (if b.take 32 = List.replicate 32 255 then 5 else 6) := rfl

theorem first_challenge (R A m : Bytes) (hR : R.length = 32) :
    challenge Env.first R A m = if R = List.replicate 32 255 then 5 else 6 := by
  unfold challenge
  have ht : (R ++ A ++ m).take 32 = R := by
    rw [List.append_assoc, List.take_append_of_le_length (by rw [hR]), List.take_of_length_le (by rw [hR])]
  rw [first_hash, ht, leVal_leBytes_of_lt (by split <;> norm_num), Nat.mod_eq_of_lt (by have := L_gt; split <;> omega)]

theorem encodePoint_ne_ones (q : Pt) : encodePoint q ≠ List.replicate 32 255 := by
  intro h
  have := encodePoint_val q
  have hv := congrArg leVal h
  have e : leVal (List.replicate 32 255) = 2 ^ 256 - 1 := by decide +kernel
  have hlt : q.y.val < P := ZMod.val_lt q.y
  have hP := P_eq
  rw [e] at hv
  omega

/-- All hypotheses of C71 hold in one case: the pair is rejected before and after the write, and accepted during it. -/
example : ∃ h0 bp pub mess sR sS A m R0 S q, IsBase 0 h0 bp ∧ (pub.region = 0 ∧ h0.get pub = some (.bytes A)) ∧
    (mess.region = 0 ∧ h0.get mess = some (.bytes m)) ∧ (sR.region = 0 ∧ h0.get sR = some (.bytes R0)) ∧
    (sS.region = 0 ∧ h0.get sS = some (.bytes S)) ∧ A.length = 32 ∧ Decodes A q ∧ A ≠ List.replicate 32 0 ∧ S.length = 32 ∧
    LowBitsOk (leVal S) ∧
    encodePoint (nafVal (leVal S) • B - challenge Env.first R0 A m • q) ≠ R0 ∧
    challenge Env.first R0 A m • q ≠ challenge Env.first (encodePoint (nafVal (leVal S) • B - challenge Env.first R0 A m • q)) A m • q := by
  obtain ⟨h, bp, hb⟩ := exists_base
  obtain ⟨h1, pub, ⟨p1, b1, q1⟩, v1, f1⟩ := exists_bytes h (encodePoint B)
  obtain ⟨h2, mess, ⟨p2, b2, q2⟩, v2, f2⟩ := exists_bytes h1 [3]
  obtain ⟨h3, sR, ⟨p3, b3, q3⟩, v3, f3⟩ := exists_bytes h2 (List.replicate 32 255)
  obtain ⟨h4, sS, ⟨p4, b4, q4⟩, v4, f4⟩ := exists_bytes h3 (leBytes 32 1)
  have u : ∀ {h : PHeap} {a : Addr} {b c : Bytes}, h.get a = some (.bytes b) → bytesAt h a = c → b = c := fun e e' => by
    unfold bytesAt at e'; rw [e] at e'; exact e'
  have hv : leVal (leBytes 32 1) = 1 := leVal_leBytes_of_lt (by norm_num)
  rw [u q1 v1] at q1
  rw [u q2 v2] at q2
  rw [u q3 v3] at q3
  rw [u q4 v4] at q4
  refine ⟨h4, bp, pub, mess, sR, sS, _, _, _, _, B, (((hb.grow f1).grow f2).grow f3).grow f4, ⟨p1, f4.grow (f3.grow (f2.grow q1))⟩,
    ⟨p2, f4.grow (f3.grow q2)⟩, ⟨p3, f4.grow q3⟩, ⟨p4, q4⟩, encodePoint_length _, decodes_encodePoint _, ?_, leBytes_length _ _,
    by rw [hv]; exact low_one, encodePoint_ne_ones _, ?_⟩
  · intro hz
    have hv := encodePoint_val B
    have hy := y_ne_zero_of_order L_smul_B B_ne_zero
    rw [hz, leVal_replicate_zero] at hv
    exact hy ((ZMod.val_eq_zero _).1 (by omega))
  · rw [first_challenge _ _ _ (List.length_replicate ..), first_challenge _ _ _ (encodePoint_length _), if_pos rfl,
      if_neg (encodePoint_ne_ones _), Ne, smul_B_eq_iff]
    have := L_gt
    rw [Nat.mod_eq_of_lt (by omega), Nat.mod_eq_of_lt (by omega)]
    decide

/-- A goroutine that increments all bytes of an array. -/
def incrementer (a : Addr) : Prog Res :=
  .access a (fun | .bytes b => .bytes (b.map (· + 1)) | v => v) fun _ => .ret (.ok (.bool true))

/-- A memory with given arrays, a goroutine that runs a given call, and another that changes the array `j`; all that C70 assumes holds. -/
theorem exists_changing (bs : List Bytes) (j : ℕ) (x : UInt8) (b : Bytes) (hj : bs[j]? = some (x :: b)) (p : Addr → Prog Res) :
    ∃ h0 bp w t sched r, IsBase 0 h0 bp ∧ t 0 = p bp ∧ (∀ args, (∀ a ∈ args, ∃ n < bs.length, a = ⟨2, n⟩) → ⟨2, j⟩ ∈ args → Foreign h0 0 args ∧
      (Pool.start h0 w t).Interference 0 args sched) ∧ ((Pool.start h0 w t).run sched).thread 0 = .ret r ∧
    (∀ n b, bs[n]? = some b → bytesAt h0 ⟨2, n⟩ = b) ∧ (∀ n, n ≠ j → (Pool.start h0 w t).LeftAlone 0 ⟨2, n⟩ sched) ∧
    ∃ n ≤ sched.length, (Pool.start h0 w t).bytes sched n ⟨2, j⟩ ≠ (Pool.start h0 w t).bytes sched 0 ⟨2, j⟩ := by
  obtain ⟨v, hv, -⟩ := getBasePoint_spec
  obtain ⟨h, bp, h1, f⟩ := exists_shows (fun g => if g = 2 then bs.map .bytes else []) v
  have e : h 2 = bs.map .bytes := f.other 2 (by decide)
  have hget : ∀ i, h.get ⟨2, i⟩ = (bs[i]?).map .bytes := fun i => by
    rw [← List.getElem?_map, ← e]; rfl
  let t : Nat → Prog Res := fun i => if i = 0 then p bp else incrementer ⟨2, j⟩
  obtain ⟨n, r, hn⟩ := C70_ends (Pool.start h (fun _ => []) t) 0 (fun k => if k = 0 then 1 else 0) fun n => ⟨n + 1, by omega, rfl⟩
  have e1 : ((List.range (n + 1)).map fun k => if k = 0 then 1 else 0).take 1 = [1] := by
    rw [List.range_succ_eq_map]; rfl
  have hj' : h.get ⟨2, j⟩ = some (.bytes (x :: b)) := by rw [hget, hj]; rfl
  have hs : ((Pool.start h (fun _ => []) t).run [1]).st.heap = h.set ⟨2, j⟩ (.bytes ((x :: b).map (· + 1))) := by
    show ((incrementer ⟨2, j⟩).step 2 ⟨h, fun _ => []⟩).1.heap = _
    unfold incrementer
    simp only [Prog.step, hj']
  refine ⟨h, bp, fun _ => [], t, _, r, ⟨v, hv, h1⟩, rfl, fun args ha hja => ?_, hn (n + 1) (by omega), fun n b hb => ?_, ?_, 1, by simp, ?_⟩
  · have hF : Foreign h 0 args := by
      intro a h'
      obtain ⟨n, hn, rfl⟩ := ha a h'
      exact ⟨by simp, by simp, bs[n], by rw [hget, List.getElem?_eq_getElem hn]; rfl⟩
    refine ⟨hF, C70_writers _ _ _ _ _ hF ?_ _⟩
    intro i hi
    show (if i = 0 then _ else incrementer ⟨2, j⟩ : Prog Res).Writer _
    rw [if_neg hi]
    exact ⟨.inr ⟨hja, fun b => ⟨_, rfl, by simp⟩⟩, fun _ => trivial⟩
  · unfold bytesAt; rw [hget, hb]; rfl
  · intro i hi k k' hk hk'
    have k0 : k = 0 := by
      by_contra hc
      rw [List.getElem?_map] at hk
      obtain ⟨y, hy, hy'⟩ := Option.map_eq_some_iff.1 hk
      obtain ⟨hl, hy⟩ := List.getElem?_eq_some_iff.1 hy
      rw [List.getElem_range] at hy
      rw [if_neg (by omega)] at hy'
      exact hk' hy'.symm
    subst k0
    unfold Pool.bytes Pool.at_
    rw [e1, hs]
    show bytesAt _ _ = bytesAt h _
    unfold bytesAt
    rw [PHeap.get_set_ne fun e' => hi (congrArg Addr.idx e').symm]
  · unfold Pool.bytes Pool.at_
    rw [e1, hs]
    show _ ≠ bytesAt h _
    unfold bytesAt
    rw [PHeap.get_set_self hj', hj']
    intro h'
    have h' : x + 1 = x := by
      have := congrArg (fun l : Bytes => l.head?) h'
      simp at this
    exact absurd h' (by simp)

/-- All hypotheses of `C70_sign` and `C70_verify` hold, whatever the arrays contain, in cases in which the message changes; ... -/
example (E : Env) (sk A m R S : Bytes) (x : UInt8) (lA : A.length = 32) (lS : S.length = 32) :
    (∃ h0 bp k pub mess w t sched r, IsBase 0 h0 bp ∧ t 0 = Call.prog E bp (.sign ⟨some k, pub⟩ mess) ∧ Foreign h0 0 [k, pub, mess] ∧
      (Pool.start h0 w t).Interference 0 [k, pub, mess] sched ∧ ((Pool.start h0 w t).run sched).thread 0 = .ret r ∧
      bytesAt h0 k = sk ∧ bytesAt h0 pub = A ∧ bytesAt h0 mess = x :: m ∧
      (Pool.start h0 w t).LeftAlone 0 k sched ∧ (Pool.start h0 w t).LeftAlone 0 pub sched ∧
      ∃ n ≤ sched.length, (Pool.start h0 w t).bytes sched n mess ≠ (Pool.start h0 w t).bytes sched 0 mess) ∧
    ∃ h0 bp kp mess sR sS w t sched r, IsBase 0 h0 bp ∧ t 0 = Call.prog E bp (.verify kp mess sR sS) ∧ Foreign h0 0 [kp.pub, mess, sR, sS] ∧
      (Pool.start h0 w t).Interference 0 [kp.pub, mess, sR, sS] sched ∧ ((Pool.start h0 w t).run sched).thread 0 = .ret r ∧
      (Pool.start h0 w t).LeftAlone 0 kp.pub sched ∧ (bytesAt h0 kp.pub).length = 32 ∧ (bytesAt h0 sS).length = 32 ∧
      bytesAt h0 mess = x :: m ∧ bytesAt h0 sR = R ∧
      ∃ n ≤ sched.length, (Pool.start h0 w t).bytes sched n mess ≠ (Pool.start h0 w t).bytes sched 0 mess := by
  refine ⟨?_, ?_⟩
  · obtain ⟨h0, bp, w, t, sched, r, a1, a2, a3, a4, a5, a6, a7⟩ := exists_changing [sk, A, x :: m] 2 x m rfl
      fun bp => Call.prog E bp (.sign ⟨some ⟨2, 0⟩, ⟨2, 1⟩⟩ ⟨2, 2⟩)
    obtain ⟨f, i⟩ := a3 [⟨2, 0⟩, ⟨2, 1⟩, ⟨2, 2⟩] (by simp) (by simp)
    exact ⟨h0, bp, _, _, _, w, t, sched, r, a1, a2, f, i, a4, a5 0 sk rfl, a5 1 A rfl, a5 2 _ rfl, a6 0 (by decide), a6 1 (by decide), a7⟩
  · obtain ⟨h0, bp, w, t, sched, r, a1, a2, a3, a4, a5, a6, a7⟩ := exists_changing [A, x :: m, R, S] 1 x m rfl
      fun bp => Call.prog E bp (.verify ⟨none, ⟨2, 0⟩⟩ ⟨2, 1⟩ ⟨2, 2⟩ ⟨2, 3⟩)
    obtain ⟨f, i⟩ := a3 [⟨2, 0⟩, ⟨2, 1⟩, ⟨2, 2⟩, ⟨2, 3⟩] (by simp) (by simp)
    exact ⟨h0, bp, ⟨none, ⟨2, 0⟩⟩, _, _, _, w, t, sched, r, a1, a2, f, i, a4, a6 0 (by decide), by rw [a5 0 A rfl]; exact lA,
      by rw [a5 3 S rfl]; exact lS, a5 1 _ rfl, a5 2 _ rfl, a7⟩

/-- ... and those of `C70_shared_key`, `C70_decrypt` and `C70_encrypt`, in cases in which the private key changes. -/
example (E : Env) (sk A c : Bytes) (x : UInt8) :
    (∃ h0 bp k pub salt w t sched r, t 0 = Call.prog E bp (.sharedKey 32 (some k) pub salt) ∧ Foreign h0 0 [k, pub, salt] ∧
      (Pool.start h0 w t).Interference 0 [k, pub, salt] sched ∧ ((Pool.start h0 w t).run sched).thread 0 = .ret r ∧
      bytesAt h0 k = x :: sk ∧ bytesAt h0 pub = A ∧ bytesAt h0 salt = c ∧ (Pool.start h0 w t).LeftAlone 0 pub sched ∧
      ∃ n ≤ sched.length, (Pool.start h0 w t).bytes sched n k ≠ (Pool.start h0 w t).bytes sched 0 k) ∧
    (∃ h0 bp snd rcp k input w t sched r, rcp.priv = some k ∧ t 0 = Call.prog E bp (.decrypt snd rcp 32 0 input) ∧
      Foreign h0 0 [k, snd.pub, input] ∧ (Pool.start h0 w t).Interference 0 [k, snd.pub, input] sched ∧
      ((Pool.start h0 w t).run sched).thread 0 = .ret r ∧ bytesAt h0 k = x :: sk ∧ bytesAt h0 snd.pub = A ∧ bytesAt h0 input = c ∧
      (Pool.start h0 w t).LeftAlone 0 snd.pub sched ∧
      ∃ n ≤ sched.length, (Pool.start h0 w t).bytes sched n k ≠ (Pool.start h0 w t).bytes sched 0 k) ∧
    ∃ h0 bp snd rcp k input w t sched r, snd.priv = some k ∧ t 0 = Call.prog E bp (.encrypt snd rcp 32 0 input) ∧
      Foreign h0 0 [k, rcp.pub, input] ∧ (Pool.start h0 w t).Interference 0 [k, rcp.pub, input] sched ∧
      ((Pool.start h0 w t).run sched).thread 0 = .ret r ∧ bytesAt h0 k = x :: sk ∧ bytesAt h0 rcp.pub = A ∧ bytesAt h0 input = c ∧
      (Pool.start h0 w t).LeftAlone 0 rcp.pub sched ∧
      ∃ n ≤ sched.length, (Pool.start h0 w t).bytes sched n k ≠ (Pool.start h0 w t).bytes sched 0 k := by
  refine ⟨?_, ?_, ?_⟩
  · obtain ⟨h0, bp, w, t, sched, r, -, a2, a3, a4, a5, a6, a7⟩ := exists_changing [x :: sk, A, c] 0 x sk rfl
      fun bp => Call.prog E bp (.sharedKey 32 (some ⟨2, 0⟩) ⟨2, 1⟩ ⟨2, 2⟩)
    obtain ⟨f, i⟩ := a3 [⟨2, 0⟩, ⟨2, 1⟩, ⟨2, 2⟩] (by simp) (by simp)
    exact ⟨h0, bp, _, _, _, w, t, sched, r, a2, f, i, a4, a5 0 _ rfl, a5 1 A rfl, a5 2 _ rfl, a6 1 (by decide), a7⟩
  · obtain ⟨h0, bp, w, t, sched, r, -, a2, a3, a4, a5, a6, a7⟩ := exists_changing [x :: sk, A, c] 0 x sk rfl
      fun bp => Call.prog E bp (.decrypt ⟨none, ⟨2, 1⟩⟩ ⟨some ⟨2, 0⟩, ⟨2, 1⟩⟩ 32 0 ⟨2, 2⟩)
    obtain ⟨f, i⟩ := a3 [⟨2, 0⟩, ⟨2, 1⟩, ⟨2, 2⟩] (by simp) (by simp)
    exact ⟨h0, bp, _, _, _, _, w, t, sched, r, rfl, a2, f, i, a4, a5 0 _ rfl, a5 1 A rfl, a5 2 _ rfl, a6 1 (by decide), a7⟩
  · obtain ⟨h0, bp, w, t, sched, r, -, a2, a3, a4, a5, a6, a7⟩ := exists_changing [x :: sk, A, c] 0 x sk rfl
      fun bp => Call.prog E bp (.encrypt ⟨some ⟨2, 0⟩, ⟨2, 1⟩⟩ ⟨none, ⟨2, 1⟩⟩ 32 0 ⟨2, 2⟩)
    obtain ⟨f, i⟩ := a3 [⟨2, 0⟩, ⟨2, 1⟩, ⟨2, 2⟩] (by simp) (by simp)
    exact ⟨h0, bp, _, _, _, _, w, t, sched, r, rfl, a2, f, i, a4, a5 0 _ rfl, a5 1 A rfl, a5 2 _ rfl, a6 1 (by decide), a7⟩

end Ed

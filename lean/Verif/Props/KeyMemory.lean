import Verif.Model.KeyHeap
import Verif.Props.Memory
import Verif.Props.Binding

/-!
# Properties C68, C69: mismatched key pairs; keys that share the memory of the caller
-/

set_option autoImplicit false

namespace Ed

variable (E : Env)

/-! ## C68 -/

/-- A signature made with a private key and any public key that is a point is accepted under this public key iff the challenge
multiplies the genuine and the given public point to the same point. -/
theorem C68_accepted_iff (k : PrivateKey) (pub : PublicKey) (q : Pt) (hl : pub.raw.length = 32) (hq : Decodes pub.raw q)
    (hz : pub.raw ≠ List.replicate 32 0) (m : Bytes) (s : Signature) (h : sign E ⟨some k, pub⟩ m = .ok s) :
    verify E pub m s = .ok true ↔ challenge E s.R pub.raw m • q = challenge E s.R pub.raw m • secretScalar E k.raw • B := by
  rw [sign_spec] at h
  split at h
  · rename_i hlow
    have e : s = ⟨sigR E k.raw m, leBytes 32 (sigS E k.raw pub.raw m)⟩ := (Out.ok.inj h).symm
    have hv : leVal s.S = sigS E k.raw pub.raw m := by rw [e]; exact leVal_leBytes_modL _
    have hR : s.R = sigR E k.raw m := by rw [e]
    have hSl : s.S.length = 32 := by rw [e]; exact leBytes_length _ _
    rw [C20_accepts_iff E pub m s (by omega) (by rw [hv]; exact modL_lt255 _), hv, hR]
    have key : sigS E k.raw pub.raw m • B = nonce E k.raw m • B + challenge E (sigR E k.raw m) pub.raw m • secretScalar E k.raw • B := by
      unfold sigS
      rw [smul_B_mod, add_smul, mul_smul]
    constructor
    · rintro ⟨-, -, -, A, hA, he⟩
      rw [List.take_of_length_le (by omega)] at hA
      rw [GC.decodes_unique hA hq] at he
      have he := encodePoint_inj he
      rw [key, eq_sub_iff_add_eq] at he
      exact add_left_cancel he
    · intro hc
      refine ⟨hlow, hz, .inl hl, q, by rw [List.take_of_length_le (by omega)]; exact hq, ?_⟩
      rw [key, hc, add_sub_cancel_right]
      rfl
  · cases h

/-- With the public key of another private key: iff the challenge is zero or the private scalars agree modulo the group order. -/
theorem C68_other_key (k k' : PrivateKey) (pub : PublicKey) (hk : derivePublicKey E (some k') = .ok pub) (m : Bytes) (s : Signature)
    (h : sign E ⟨some k, pub⟩ m = .ok s) :
    verify E pub m s = .ok true ↔ challenge E s.R pub.raw m = 0 ∨ secretScalar E k.raw % L = secretScalar E k'.raw % L := by
  obtain ⟨pk, q, p1, p2, p3, p4, p5, p6, p7⟩ := C29_derived E k'
  have hk := Out.ok.inj (p1.symm.trans hk)
  subst hk
  rw [C68_accepted_iff E k pk q p2 p4 p7 m s h, p5, ← mul_smul, ← mul_smul, smul_B_eq_iff]
  have hlt : challenge E s.R pk.raw m < L := Nat.mod_lt _ L_prime.pos
  generalize challenge E s.R pk.raw m = c at *
  have : Fact L.Prime := ⟨L_prime⟩
  have e : ∀ x y : ℕ, x % L = y % L ↔ (x : ZMod L) = y := fun x y => (ZMod.natCast_eq_natCast_iff' x y L).symm
  rw [e, e]
  push_cast
  rw [mul_eq_mul_left_iff, ZMod.natCast_eq_zero_iff]
  constructor
  · rintro (h1 | h1)
    · exact .inr h1.symm
    · exact .inl (Nat.eq_zero_of_dvd_of_lt h1 hlt)
  · rintro (h1 | h1)
    · exact .inr (by rw [h1]; exact dvd_zero _)
    · exact .inl h1.symm

/-! ## C69 -/

/-- What another slice shows after a write. -/
theorem Slice.read_write_other {h : Heap} {s t : Slice} {i : ℕ} {b : Bytes} (hd : t.arr ≠ s.arr) : t.read (h.write s i b) = t.read h := by
  unfold Heap.write Slice.read
  rw [getD_set_ne (Ne.symm hd)]

theorem CallerWrites.other {h h' : Heap} {s : Slice} (hw : CallerWrites h h' s) (t : Slice) (hd : t.arr ≠ s.arr) : t.read h' = t.read h := by
  induction hw with
  | refl => rfl
  | write _ i b _ ih => rw [Slice.read_write_other hd, ih hd]

/-- A slice shows what has been written over all of it. -/
theorem Slice.read_write_all {h : Heap} {s : Slice} (hv : s.Valid h) {b : Bytes} (hb : b.length = s.len) : s.read (h.write s 0 b) = b := by
  obtain ⟨h1, h2, h3⟩ := hv
  apply List.ext_getElem?
  intro k
  rw [Slice.read_getElem?]
  unfold Heap.write
  rw [getD_set_self h1, writeAt_getElem? _ _ _ (by omega)]
  by_cases hk : k < s.len
  · rw [if_pos hk, if_pos (by omega)]; congr 1; omega
  · rw [if_neg hk, List.getElem?_eq_none (by omega)]

theorem allocKey_ok {α : Type} {h h1 : Heap} {x : Out Bytes} {f : Slice → α} {k : α} (hk : allocKey h x f = (h1, .ok k)) :
    ∃ b, x = .ok b ∧ h1 = (h.alloc b).1 ∧ k = f (h.alloc b).2 := by
  unfold allocKey at hk
  cases x with
  | ok b => dsimp only at hk; injection hk with e1 e2; exact ⟨b, rfl, e1.symm, (Out.ok.inj e2).symm⟩
  | err e => dsimp only at hk; injection hk with e1 e2; cases e2
  | panic => dsimp only at hk; injection hk with e1 e2; cases e2

theorem newKeyPairH_aux (h : Heap) (raw : Slice) (f : Option PrivateKey → Out PublicKey) (pk : Bytes) (hf : f (some (hpriv h raw)) = .ok ⟨pk⟩) :
    allocKey h (f (Option.map (hpriv h) (some (newPrivateKeyH raw))) >>= fun p => .ok p.raw) (fun p => HKeyPair.mk (some (newPrivateKeyH raw)) p) =
    ((h.alloc pk).1, .ok ⟨some raw, (h.alloc pk).2⟩) := by
  rw [Option.map_some, newPrivateKeyH, hf]
  rfl

theorem derive_raw (k : PrivateKey) (b : Bytes) (h : k.raw = b) : derivePublicKey E (some k) = .ok ⟨publicKeyOf E b⟩ := by
  rw [← h]; exact derive_spec E k

theorem newKeyPairH_derive (h : Heap) (raw : Slice) : newKeyPairH E h (some (newPrivateKeyH raw)) none =
    ((h.alloc (publicKeyOf E (raw.read h))).1, .ok ⟨some raw, (h.alloc (publicKeyOf E (raw.read h))).2⟩) :=
  newKeyPairH_aux h raw (derivePublicKey E) _ (derive_raw E (hpriv h raw) (raw.read h) rfl)

/-- A key pair made from a byte slice signs with the bytes that are in the slice at the time of `Sign`, but with the public key of the bytes that
were there when the pair was made. -/
theorem C69_follows (h h1 h2 : Heap) (raw : Slice) (kp : HKeyPair) (hv : raw.Valid h)
    (hk : newKeyPairH E h (some (newPrivateKeyH raw)) none = (h1, .ok kp)) (hw : CallerWrites h1 h2 raw) (mess : Bytes) :
    sign E (kp.val h2) mess = sign E ⟨some (newPrivateKey (raw.read h2)), ⟨publicKeyOf E (raw.read h)⟩⟩ mess := by
  rw [newKeyPairH_derive] at hk
  injection hk with e1 e2
  have e2 := Out.ok.inj e2
  subst e1; subst e2
  have hval : (HKeyPair.mk (some raw) (h.alloc (publicKeyOf E (raw.read h))).2).val h2 =
      ⟨some (newPrivateKey (raw.read h2)), ⟨publicKeyOf E (raw.read h)⟩⟩ := by
    unfold HKeyPair.val hpub
    dsimp only
    have : (h.alloc (publicKeyOf E (raw.read h))).2.read h2 = publicKeyOf E (raw.read h) := by
      have hne : (h.alloc (publicKeyOf E (raw.read h))).2.arr ≠ raw.arr := by
        show h.length ≠ raw.arr
        have := hv.1
        omega
      rw [hw.other _ hne]
      exact (Heap.alloc_valid h _).2
    rw [this]
    rfl
  rw [hval]

/-- So whoever wipes the buffer of the private key after making the pair destroys the pair: `Sign` goes on without error for the wiped key, and
what it returns is accepted under the public key of the pair only if the challenge is zero or the wiped key has the same scalar. -/
theorem C69_wiped (h h1 : Heap) (raw : Slice) (kp : HKeyPair) (hv : raw.Valid h)
    (hk : newKeyPairH E h (some (newPrivateKeyH raw)) none = (h1, .ok kp)) (b : Bytes) (hb : b.length = raw.len) (mess : Bytes) (s : Signature)
    (hs : sign E (kp.val (h1.write raw 0 b)) mess = .ok s) :
    (kp.val (h1.write raw 0 b)).pub.raw = publicKeyOf E (raw.read h) ∧ sign E ⟨some (newPrivateKey b), ⟨publicKeyOf E (raw.read h)⟩⟩ mess = .ok s ∧
    (verify E (kp.val (h1.write raw 0 b)).pub mess s = .ok true ↔
      challenge E s.R (publicKeyOf E (raw.read h)) mess = 0 ∨ secretScalar E b % L = secretScalar E (raw.read h) % L) := by
  have hw : CallerWrites h1 (h1.write raw 0 b) raw := .write (.refl _) 0 b (by omega)
  have hf := C69_follows E h h1 _ raw kp hv hk hw mess
  rw [newKeyPairH_derive] at hk
  injection hk with e1 e2
  have e2 := Out.ok.inj e2
  have hv1 : raw.Valid h1 := by rw [← e1]; exact Slice.valid_new hv _
  rw [Slice.read_write_all hv1 hb] at hf
  have hp : (kp.val (h1.write raw 0 b)).pub.raw = publicKeyOf E (raw.read h) := by
    rw [← e2]
    show (h.alloc (publicKeyOf E (raw.read h))).2.read (h1.write raw 0 b) = _
    rw [Slice.read_write_other (by show h.length ≠ raw.arr; have := hv.1; omega), ← e1]
    exact (Heap.alloc_valid h _).2
  have hpub : (kp.val (h1.write raw 0 b)).pub = ⟨publicKeyOf E (raw.read h)⟩ := by rw [← hp]
  rw [hf] at hs
  refine ⟨hp, hs, ?_⟩
  rw [hpub]
  exact C68_other_key E (newPrivateKey b) (newPrivateKey (raw.read h)) ⟨publicKeyOf E (raw.read h)⟩ (derive_spec E _) mess s hs

/-- A public key made from a byte slice likewise: `Verify` uses the bytes of the moment. -/
theorem C69_public_follows (h : Heap) (raw : Slice) (hv : raw.Valid h) (b : Bytes) (hb : b.length = raw.len) (mess : Bytes) (sig : Signature) :
    verify E (hpub (h.write raw 0 b) (newPublicKeyH raw)) mess sig = verify E ⟨b⟩ mess sig := by
  unfold hpub newPublicKeyH
  rw [Slice.read_write_all hv hb]

/-- A pair of given keys reads the arrays of both keys each time, whatever they hold by then; at the start it is the pair of the values. -/
theorem C69_given (h h1 h2 : Heap) (priv : Option Slice) (pub : Slice) (kp : HKeyPair)
    (hk : newKeyPairH E h (priv.map newPrivateKeyH) (some (newPublicKeyH pub)) = (h1, .ok kp)) :
    h1 = h ∧ kp.val h2 = ⟨priv.map fun k => newPrivateKey (k.read h2), ⟨pub.read h2⟩⟩ ∧
    newKeyPair E (priv.map fun k => newPrivateKey (k.read h)) (some ⟨pub.read h⟩) = .ok (kp.val h) := by
  unfold newKeyPairH at hk
  dsimp only at hk
  split at hk
  · injection hk with e1 e2; cases e2
  · rename_i hc
    injection hk with e1 e2
    have e2 := Out.ok.inj e2
    subst e1; subst e2
    have hv : ∀ h2, (HKeyPair.mk (priv.map newPrivateKeyH) (newPublicKeyH pub)).val h2 =
        ⟨priv.map fun k => newPrivateKey (k.read h2), ⟨pub.read h2⟩⟩ := fun h2 => by
      unfold HKeyPair.val
      cases priv <;> rfl
    refine ⟨rfl, hv h2, ?_⟩
    rw [hv]
    exact if_neg hc

/-- Keys made from hexadecimal text have memory of their own: no writing through a slice that existed before changes them. -/
theorem C69_hex_own (h h1 h2 : Heap) (text : Bytes) (k : Slice) (hk : newPrivateKeyFromHexStringH h text = (h1, .ok k)) (raw : Slice)
    (hv : raw.Valid h) (hw : CallerWrites h1 h2 raw) :
    newPrivateKeyFromHexString text = .ok (hpriv h2 k) := by
  obtain ⟨b, hb, rfl, rfl⟩ := allocKey_ok hk
  cases hx : newPrivateKeyFromHexString text with
  | err e => rw [hx] at hb; cases hb
  | panic => rw [hx] at hb; cases hb
  | ok p =>
    have hp : newPrivateKey p.raw = p := by
      unfold newPrivateKeyFromHexString at hx
      cases hr : hexDecodeStringOdd text with
      | err e => rw [hr] at hx; cases hx
      | panic => rw [hr] at hx; cases hx
      | ok r =>
      rw [hr, Out.bind_ok] at hx
      split at hx
      · cases hx
      · have := Out.ok.inj hx
        rw [← this]; rfl
    rw [hx, Out.bind_ok] at hb
    have hb := Out.ok.inj hb
    congr 1
    unfold hpriv newPrivateKeyH
    rw [hw.other _ (by show h.length ≠ raw.arr; have := hv.1; omega), (Heap.alloc_valid h _).2, ← hb, hp]

theorem C69_hex_own_public (h h1 h2 : Heap) (text : Bytes) (k : Slice) (hk : newPublicKeyFromHexH h text = (h1, .ok k)) (raw : Slice)
    (hv : raw.Valid h) (hw : CallerWrites h1 h2 raw) :
    newPublicKeyFromHex text = .ok (hpub h2 k) := by
  obtain ⟨b, hb, rfl, rfl⟩ := allocKey_ok hk
  cases hx : newPublicKeyFromHex text with
  | err e => rw [hx] at hb; cases hb
  | panic => rw [hx] at hb; cases hb
  | ok p =>
    rw [hx, Out.bind_ok] at hb
    have hb := Out.ok.inj hb
    unfold hpub newPublicKeyH
    rw [hw.other _ (by show h.length ≠ raw.arr; have := hv.1; omega), (Heap.alloc_valid h _).2, ← hb]

/-! ## Cases -/

/-- A hash for the case: 8 times the first byte for inputs of 32 bytes, and 5 for others. -/
def wipeHasher : Hasher where
  σ := Bytes
  init := []
  write := fun s b => s ++ b
  sum := fun s => if s.length = 32 then leBytes 64 (8 * (s.getD 0 0).toNat) else leBytes 64 5
  write_append := fun s a b => List.append_assoc s a b
  write_nil := fun s => List.append_nil s

/-- An environment with this hash. -/
def Env.wipe : Env := { Env.toy with
  sha512 := wipeHasher
  sha512_length := fun s => by show (ite _ _ _ : Bytes).length = 64; split <;> exact leBytes_length _ _ }

theorem wipe_long (b : Bytes) (h : b.length ≠ 32) : Hash Env.wipe b = leBytes 64 5 := by
  show (if b.length = 32 then _ else _) = _
  rw [if_neg h]

theorem wipe_scalar (x : UInt8) (hx : x = 0 ∨ x = 7) : secretScalar Env.wipe (List.replicate 32 x) = 2 ^ 254 + 8 * x.toNat := by
  have : Hash Env.wipe (List.replicate 32 x) = leBytes 64 (8 * x.toNat) := by
    show (if (List.replicate 32 x).length = 32 then leBytes 64 (8 * ((List.replicate 32 x).getD 0 0).toNat) else leBytes 64 5) = _
    rw [if_pos (by rw [List.length_replicate])]
    rfl
  unfold secretScalar
  rw [this]
  rcases hx with rfl | rfl <;> decide +kernel

/-- A buffer with a private key, the pair made from it, and its wiping with zeros: `Sign` returns a signature, and `Verify` rejects it under the
public key of the pair. -/
example : ∃ (h h1 : Heap) (raw : Slice) (kp : HKeyPair) (s : Signature), raw.Valid h ∧
    newKeyPairH Env.wipe h (some (newPrivateKeyH raw)) none = (h1, .ok kp) ∧
    sign Env.wipe (kp.val (h1.write raw 0 (List.replicate 32 0))) [1] = .ok s ∧
    ¬ verify Env.wipe (kp.val (h1.write raw 0 (List.replicate 32 0))).pub [1] s = .ok true := by
  let h : Heap := [List.replicate 32 7]
  let raw : Slice := ⟨0, 0, 32, 32⟩
  have hv : raw.Valid h := ⟨by decide, by decide, by decide⟩
  have hr : raw.read h = List.replicate 32 7 := by decide
  obtain ⟨h1, kp, hk⟩ : ∃ h1 kp, newKeyPairH Env.wipe h (some (newPrivateKeyH raw)) none = (h1, .ok kp) := by
    exact ⟨_, _, newKeyPairH_derive Env.wipe h raw⟩
  have hf := C69_follows Env.wipe h h1 (h1.write raw 0 (List.replicate 32 0)) raw kp hv hk
    (.write (.refl _) 0 (List.replicate 32 0) (by decide)) [1]
  have hv1 : raw.Valid h1 := by
    rw [newKeyPairH_derive] at hk
    injection hk with e1 _
    rw [← e1]; exact Slice.valid_new hv _
  rw [Slice.read_write_all hv1 (by decide), hr] at hf
  have hRl : (sigR Env.wipe (List.replicate 32 0) [1]).length = 32 := encodePoint_length _
  have hpl : (publicKeyOf Env.wipe (List.replicate 32 7)).length = 32 := publicKeyOf_length _ _
  have five : ∀ b : Bytes, b.length ≠ 32 → leVal (Hash Env.wipe b) % L = 5 := by
    intro b hb
    rw [wipe_long b hb, leVal_leBytes_of_lt (by norm_num), Nat.mod_eq_of_lt (by have := L_gt; omega)]
  have hc : challenge Env.wipe (sigR Env.wipe (List.replicate 32 0) [1]) (publicKeyOf Env.wipe (List.replicate 32 7)) [1] = 5 :=
    five _ (by simp only [List.length_append]; omega)
  have hn : nonce Env.wipe (List.replicate 32 0) [1] = 5 :=
    five _ (by rw [List.length_append, List.length_drop, Hash_length, List.length_singleton]; omega)
  have hlow : LowBitsOk (sigS Env.wipe (List.replicate 32 0) (publicKeyOf Env.wipe (List.replicate 32 7)) [1]) := by
    unfold sigS
    rw [hc, hn, wipe_scalar 0 (.inl rfl), L_eq]
    unfold LowBitsOk
    rw [L_eq]
    decide +kernel
  have hs := (sign_spec Env.wipe (newPrivateKey (List.replicate 32 0)) ⟨publicKeyOf Env.wipe (List.replicate 32 7)⟩ [1]).trans (if_pos hlow)
  have hs' := hf.trans hs
  refine ⟨h, h1, raw, kp, _, hv, hk, hs', ?_⟩
  rw [(C69_wiped Env.wipe h h1 raw kp hv hk (List.replicate 32 0) (by decide) [1] _ hs').2.2, hr, wipe_scalar 0 (.inl rfl), wipe_scalar 7 (.inr rfl)]
  rintro (h0 | h0)
  · exact absurd (hc.symm.trans h0) (by decide)
  · rw [L_eq] at h0
    revert h0
    decide +kernel

/-- Given keys of 32 bytes make a pair (`C69_given`). -/
example : ∃ (h h1 : Heap) (k p : Slice) (kp : HKeyPair),
    newKeyPairH E h ((some k).map newPrivateKeyH) (some (newPublicKeyH p)) = (h1, .ok kp) ∧ k.read h ≠ p.read h :=
  ⟨[List.replicate 32 1, List.replicate 32 2], _, ⟨0, 0, 32, 32⟩, ⟨1, 0, 32, 32⟩, _, rfl, by decide⟩

end Ed

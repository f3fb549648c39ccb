import Verif.Proofs.Leak
import Verif.Props.Leak
import Verif.Props.Dsa

/-!
# Properties C61-C63: what a signature is bound to

The hash is arbitrary; the theorems say which equations between hash values an accepted signature forces.
-/

set_option autoImplicit false

namespace Ed

variable (E : Env)

theorem accepted_S {S : Bytes} (hl : S.length = 32) : ∃ s : ℤ, ∀ (pub : PublicKey) (m R : Bytes), verify E pub m ⟨R, S⟩ = .ok true →
    ∃ A, Decodes (pub.raw.take 32) A ∧ R = encodePoint (s • B - challenge E R pub.raw m • A) := by
  have h := C20_accepts_iff_any E S hl
  exact ⟨_, fun pub m R hv => ((h pub m R).1 hv).2.2.2⟩

/-! ## C61: message binding -/

/-- One signature accepted for two messages under one public key: the difference of the two challenges is a multiple of the order of
the public point. -/
theorem C61_messages (pub : PublicKey) (A : Pt) (hA : Decodes (pub.raw.take 32) A) (m m' R S : Bytes) (hl : S.length = 32)
    (h : verify E pub m ⟨R, S⟩ = .ok true) (h' : verify E pub m' ⟨R, S⟩ = .ok true) :
    challenge E R pub.raw m ≡ challenge E R pub.raw m' [MOD addOrderOf A] := by
  obtain ⟨s, hs⟩ := accepted_S E hl
  obtain ⟨A1, d1, e1⟩ := hs pub m R h
  obtain ⟨A2, d2, e2⟩ := hs pub m' R h'
  rw [GC.decodes_unique d1 hA] at e1
  rw [GC.decodes_unique d2 hA] at e2
  have e := encodePoint_inj (e1.symm.trans e2)
  exact nsmul_eq_nsmul_iff_modEq.1 (sub_right_injective e)

/-- For a public key derived from a private key the two challenges are equal: a signature for two messages is a collision of the hash
modulo the group order. -/
theorem C61_collision (k : PrivateKey) (pub : PublicKey) (hk : derivePublicKey E (some k) = .ok pub) (m m' R S : Bytes)
    (hl : S.length = 32) (h : verify E pub m ⟨R, S⟩ = .ok true) (h' : verify E pub m' ⟨R, S⟩ = .ok true) :
    leVal (Hash E (R ++ pub.raw ++ m)) % L = leVal (Hash E (R ++ pub.raw ++ m')) % L := by
  obtain ⟨pk, q, p1, p2, p3, p4, p5, p6, p7⟩ := C29_derived E k
  have hk := Out.ok.inj (p1.symm.trans hk)
  subst hk
  have key := C61_messages E pk q (by rw [List.take_of_length_le (by omega)]; exact p4) m m' R S hl h h'
  rw [p6] at key
  have h1 : challenge E R pk.raw m < L := Nat.mod_lt _ L_prime.pos
  have h2 : challenge E R pk.raw m' < L := Nat.mod_lt _ L_prime.pos
  have e := Nat.ModEq.eq_of_lt_of_lt key h1 h2
  exact e

/-! ## C62: the accepted forms of a signature -/

/-- Given an accepted signature, another one with the same R is accepted for the same message and key iff its S is congruent modulo the
group order and passes the filter (S below 2^255). -/
theorem C62_forms (pub : PublicKey) (m R S S' : Bytes) (hl : S.length = 32) (hl' : S'.length = 32) (hS : leVal S < 2 ^ 255)
    (hS' : leVal S' < 2 ^ 255) (h : verify E pub m ⟨R, S⟩ = .ok true) :
    verify E pub m ⟨R, S'⟩ = .ok true ↔ LowBitsOk (leVal S') ∧ leVal S' % L = leVal S % L := by
  rw [C20_accepts_iff E _ _ _ (by dsimp only; omega) (by dsimp only; omega)] at h ⊢
  dsimp only at *
  obtain ⟨h1, h2, h3, A, h4, h5⟩ := h
  constructor
  · rintro ⟨a, -, -, A', hA', e⟩
    refine ⟨a, ?_⟩
    rw [GC.decodes_unique hA' h4] at e
    exact (smul_B_eq_iff _ _).1 (sub_left_injective (encodePoint_inj (e.symm.trans h5)))
  · rintro ⟨a, e⟩
    refine ⟨a, h2, h3, A, h4, ?_⟩
    rw [(smul_B_eq_iff _ _).2 e]
    exact h5

theorem zsmul_B_eq_iff (m n : ℤ) : m • B = n • B ↔ m ≡ n [ZMOD L] := by
  rw [← addOrderOf_B]
  exact zsmul_eq_zsmul_iff_modEq

/-- The same for every S and S' of 32 bytes, with the numbers they stand for in the equation (`nafVal`). -/
theorem C62_forms_any (pub : PublicKey) (m R S S' : Bytes) (hl : S.length = 32) (hl' : S'.length = 32)
    (h : verify E pub m ⟨R, S⟩ = .ok true) :
    verify E pub m ⟨R, S'⟩ = .ok true ↔ LowBitsOk (leVal S') ∧ nafVal (leVal S') ≡ nafVal (leVal S) [ZMOD L] := by
  rw [C20_accepts_iff_any E S hl] at h
  rw [C20_accepts_iff_any E S' hl']
  obtain ⟨h1, h2, h3, A, h4, h5⟩ := h
  constructor
  · rintro ⟨a, -, -, A', hA', e⟩
    refine ⟨a, ?_⟩
    rw [GC.decodes_unique hA' h4] at e
    exact (zsmul_B_eq_iff _ _).1 (sub_left_injective (encodePoint_inj (e.symm.trans h5)))
  · rintro ⟨a, e⟩
    refine ⟨a, h2, h3, A, h4, ?_⟩
    rw [(zsmul_B_eq_iff _ _).2 e]
    exact h5

theorem L_not_dvd_two_pow : ¬ ((L : ℤ) ∣ 2 ^ 256) := by
  intro h
  have h' : L ∣ 2 ^ 256 := by exact_mod_cast h
  have := L_prime.dvd_of_dvd_pow h'
  have h2 := Nat.le_of_dvd (by norm_num) this
  have := L_gt
  omega

/-- What `MakeSignatureCanonical` does to an accepted signature, for every S of 32 bytes: if the reduced S passes the filter, the result is accepted
exactly if S has a 256-digit width-5 expansion, that is, if S counts as the number it encodes (always below 2^255; for the others both happen). -/
theorem C22_preserves_iff (pub : PublicKey) (m : Bytes) (sig sig' : Signature) (hl : sig.S.length = 32)
    (h : verify E pub m sig = .ok true) (hc : LowBitsOk (leVal sig.S % L)) (hm : makeSignatureCanonical sig = .ok sig') :
    verify E pub m sig' = .ok true ↔ Naf5 (leVal sig.S) := by
  have hR : sig.R.length = 32 := by
    by_contra hne
    obtain ⟨e, he⟩ := C22_bad_R sig hne
    rw [he] at hm
    exact nomatch hm
  have hm := (C22_canonicalizes sig hR (by omega)).symm.trans hm
  have hm := Out.ok.inj hm
  subst hm
  have hlt : leVal sig.S % L < L := Nat.mod_lt _ L_prime.pos
  have h255 : leVal sig.S % L < 2 ^ 255 := by have := L_lt; omega
  have hv : leVal (leBytes 32 (leVal sig.S % L)) = leVal sig.S % L := leVal_leBytes_modL _
  rw [show sig = ⟨sig.R, sig.S⟩ from rfl] at h
  rw [C62_forms_any E pub m sig.R sig.S (leBytes 32 (leVal sig.S % L)) hl (leBytes_length _ _) h, hv, nafVal_small h255]
  have e1 : ((leVal sig.S % L : ℕ) : ℤ) ≡ (leVal sig.S : ℤ) [ZMOD L] := by
    rw [Int.natCast_mod]; exact Int.mod_modEq _ _
  constructor
  · rintro ⟨-, e⟩
    by_contra hn
    rw [nafVal_of_not _ hn] at e
    have := (e1.symm.trans e).symm.dvd
    rw [sub_sub_cancel] at this
    exact L_not_dvd_two_pow this
  · intro hn
    rw [nafVal_of _ hn]
    exact ⟨hc, e1⟩

/-- So it can turn an accepted signature into one that is refused although the filter lets both through: for the key 01 00 … 00, S = 2^256 - 1 and
R = -B, with every hash and every message. -/
theorem C22_large_refused : ∃ (pub : PublicKey) (sig sig' : Signature), sig.S.length = 32 ∧ makeSignatureCanonical sig = .ok sig' ∧
    isCanonicalSignature sig = true ∧ isCanonicalSignature sig' = true ∧
    ∀ (E : Env) (m : Bytes), verify E pub m sig = .ok true ∧ verify E pub m sig' = .ok false := by
  have hv : leVal (leBytes 32 (2 ^ 256 - 1)) = 2 ^ 256 - 1 := leVal_leBytes_of_lt (by norm_num)
  have hcanon := C22_canonicalizes ⟨encodePoint (-B), leBytes 32 (2 ^ 256 - 1)⟩ (encodePoint_length _)
    (by simp [leBytes_length])
  have l1 : LowBitsOk (2 ^ 256 - 1) := by unfold LowBitsOk; rw [L_eq]; decide +kernel
  have l2 : LowBitsOk ((2 ^ 256 - 1) % L) := by unfold LowBitsOk; rw [L_eq]; decide +kernel
  dsimp only at hcanon
  rw [hv] at hcanon
  refine ⟨⟨leBytes 32 1⟩, _, _, leBytes_length _ _, hcanon, ?_, ?_, fun E m => ?_⟩
  · rw [C23_decides_low_bits, hv]; exact l1
  · rw [C23_decides_low_bits, leVal_leBytes_modL]; exact l2
  · have h1 : verify E ⟨leBytes 32 1⟩ m ⟨encodePoint (-B), leBytes 32 (2 ^ 256 - 1)⟩ = .ok true := by
      rw [C20_S_ones]
      refine ⟨?_, Or.inl (leBytes_length _ _), 0, ?_, by simp⟩
      · intro h
        have := congrArg leVal h
        rw [leVal_leBytes_of_lt (by norm_num), leVal_replicate_zero] at this
        exact absurd this (by norm_num)
      · rw [List.take_of_length_le (by rw [leBytes_length])]; exact decodes_one
    refine ⟨h1, ?_⟩
    have key := C22_preserves_iff E _ m _ _ (leBytes_length _ _) h1 (by dsimp only; rw [hv]; exact l2) hcanon
    obtain ⟨b, hb⟩ := C20_total E ⟨leBytes 32 1⟩ m ⟨encodePoint (-B), leBytes 32 ((2 ^ 256 - 1) % L)⟩ (by simp [leBytes_length])
    rw [hb]
    cases b with
    | false => rfl
    | true =>
      refine absurd (key.1 hb) ?_
      dsimp only
      rw [hv, show ((2 ^ 256 - 1 : ℕ) : ℤ) = 2 ^ 256 - 1 by norm_num]
      exact not_naf5_ones

/-- The other case of `C22_preserves_iff`: S = 1 + L under the same key. -/
example (m : Bytes) : ∃ sig : Signature, sig.S.length = 32 ∧ L ≤ leVal sig.S ∧ verify E ⟨leBytes 32 1⟩ m sig = .ok true ∧
    LowBitsOk (leVal sig.S % L) ∧ Naf5 (leVal sig.S) := by
  have hlt : 1 + L < 2 ^ 255 := by have := L_lt; omega
  have hv : leVal (leBytes 32 (1 + L)) = 1 + L := leVal_leBytes_of_lt (lt_trans hlt (by norm_num))
  refine ⟨⟨_, leBytes 32 (1 + L)⟩, leBytes_length _ _, by dsimp only; omega, verify_neutral E m (1 + L) hlt low_L1, ?_, ?_⟩
  · dsimp only
    rw [hv, Nat.add_mod_right, Nat.mod_eq_of_lt L_prime.one_lt]
    exact low_one
  · dsimp only
    rw [hv]
    have := nafVal_small hlt
    by_contra hn
    rw [nafVal_of_not _ hn] at this
    omega

/-- At most one of the accepted forms is reduced. -/
theorem C62_reduced_unique (pub : PublicKey) (m R S S' : Bytes) (hl : S.length = 32) (hl' : S'.length = 32) (hS : leVal S < L)
    (hS' : leVal S' < L) (h : verify E pub m ⟨R, S⟩ = .ok true) (h' : verify E pub m ⟨R, S'⟩ = .ok true) : S = S' := by
  have h2 := L_lt
  have e := ((C62_forms E pub m R S S' hl hl' (by omega) (by omega) h).1 h').2
  rw [Nat.mod_eq_of_lt hS, Nat.mod_eq_of_lt hS'] at e
  exact leVal_inj (by omega) e.symm

/-- An accepted R is the canonical encoding of a point: no other byte string for the same point is accepted. -/
theorem C62_R_canonical (pub : PublicKey) (m R S : Bytes) (hl : S.length = 32) (h : verify E pub m ⟨R, S⟩ = .ok true) :
    ∃ q : Pt, R = encodePoint q := by
  obtain ⟨s, hs⟩ := accepted_S E hl
  obtain ⟨A, -, e⟩ := hs pub m R h
  exact ⟨_, e⟩

/-! ## C63: two accepted signatures with one commitment give the key -/

theorem recover_eq {c c' a : ℕ} {s s' : ℤ} (h1 : c < L) (h2 : c' < L) (hc : c ≠ c')
    (e : s • B - c • a • B = s' • B - c' • a • B) :
    recover c c' (s % L).toNat (s' % L).toNat = a % L := by
  have hcong : (s + c' * a : ℤ) • B = (s' + c * a : ℤ) • B := by
    rw [sub_eq_sub_iff_add_eq_add] at e
    rw [add_smul, add_smul, mul_smul, mul_smul, natCast_zsmul, natCast_zsmul, natCast_zsmul]
    exact e
  rw [zsmul_B_eq_iff] at hcong
  have : Fact L.Prime := ⟨L_prime⟩
  have hz : ((s : ℤ) + c' * a : ZMod L) = (s' : ℤ) + c * a := by
    have := (ZMod.intCast_eq_intCast_iff _ _ L).2 hcong
    push_cast at this
    exact this
  have hv : ∀ t : ℤ, (((t % L).toNat : ℕ) : ZMod L) = (t : ZMod L) := by
    intro t
    have p : (0 : ℤ) ≤ t % L := Int.emod_nonneg _ (by have := L_prime.pos; omega)
    have := congrArg (Int.cast (R := ZMod L)) (Int.toNat_of_nonneg p)
    rw [Int.cast_natCast] at this
    rw [this, ZMod.intCast_mod]
  have hne : ((c : ZMod L) - c') ≠ 0 := by
    rw [sub_ne_zero]
    intro e
    have := (ZMod.natCast_eq_natCast_iff' _ _ _).1 e
    rw [Nat.mod_eq_of_lt h1, Nat.mod_eq_of_lt h2] at this
    exact hc this
  unfold recover
  rw [hv, hv]
  have hd : ((s : ZMod L) - s') = a * (c - c') := by linear_combination hz
  rw [hd, mul_assoc, mul_inv_cancel₀ hne, mul_one, ZMod.val_natCast]

/-- Whoever can produce two signatures with the same R, accepted under a derived public key, with different challenges, knows the private
scalar: it is `recover` of the two challenges and responses. -/
theorem C63_extract (k : PrivateKey) (pub : PublicKey) (hk : derivePublicKey E (some k) = .ok pub) (m m' R S S' : Bytes)
    (hl : S.length = 32) (hl' : S'.length = 32) (hS : leVal S < 2 ^ 255) (hS' : leVal S' < 2 ^ 255)
    (h : verify E pub m ⟨R, S⟩ = .ok true) (h' : verify E pub m' ⟨R, S'⟩ = .ok true)
    (hc : challenge E R pub.raw m ≠ challenge E R pub.raw m') :
    recover (challenge E R pub.raw m) (challenge E R pub.raw m') (leVal S) (leVal S') = secretScalar E k.raw % L := by
  obtain ⟨pk, q, p1, p2, p3, p4, p5, p6, p7⟩ := C29_derived E k
  have hk := Out.ok.inj (p1.symm.trans hk)
  subst hk
  rw [C20_accepts_iff E _ _ _ (by dsimp only; omega) (by dsimp only; omega)] at h h'
  dsimp only at *
  obtain ⟨-, -, -, A1, a1, e1⟩ := h
  obtain ⟨-, -, -, A2, a2, e2⟩ := h'
  rw [List.take_of_length_le (by omega)] at a1 a2
  rw [GC.decodes_unique a1 p4, p5] at e1
  rw [GC.decodes_unique a2 p4, p5] at e2
  have e := encodePoint_inj (e1.symm.trans e2)
  have hlt : ∀ m, challenge E R pk.raw m < L := fun m => Nat.mod_lt _ L_prime.pos
  have h1 := hlt m
  have h2 := hlt m'
  generalize challenge E R pk.raw m = c at *
  generalize challenge E R pk.raw m' = c' at *
  generalize secretScalar E k.raw = a at *
  -- the common nonce
  have hcong : (leVal S + c' * a) • B = (leVal S' + c * a) • B := by
    rw [add_smul, add_smul, mul_smul, mul_smul]
    rw [sub_eq_sub_iff_add_eq_add] at e
    exact e
  rw [smul_B_eq_iff] at hcong
  have hz : ((leVal S : ℕ) + c' * a : ZMod L) = (leVal S' : ℕ) + c * a := by
    have := (ZMod.natCast_eq_natCast_iff' _ _ _).2 hcong
    push_cast at this
    exact this
  have : Fact L.Prime := ⟨L_prime⟩
  have hne : ((c : ZMod L) - c') ≠ 0 := by
    rw [sub_ne_zero]
    intro e
    have := (ZMod.natCast_eq_natCast_iff' _ _ _).1 e
    rw [Nat.mod_eq_of_lt h1, Nat.mod_eq_of_lt h2] at this
    exact hc this
  unfold recover
  have hd : ((leVal S : ℕ) - (leVal S' : ℕ) : ZMod L) = a * (c - c') := by linear_combination hz
  rw [hd, mul_assoc, mul_inv_cancel₀ hne, mul_one, ZMod.val_natCast]

/-- The same for every S and S' of 32 bytes: the responses are the numbers they stand for in the equation, modulo the group order. -/
theorem C63_extract_any (k : PrivateKey) (pub : PublicKey) (hk : derivePublicKey E (some k) = .ok pub) (m m' R S S' : Bytes)
    (hl : S.length = 32) (hl' : S'.length = 32)
    (h : verify E pub m ⟨R, S⟩ = .ok true) (h' : verify E pub m' ⟨R, S'⟩ = .ok true)
    (hc : challenge E R pub.raw m ≠ challenge E R pub.raw m') :
    recover (challenge E R pub.raw m) (challenge E R pub.raw m') (nafVal (leVal S) % L).toNat (nafVal (leVal S') % L).toNat =
      secretScalar E k.raw % L := by
  obtain ⟨pk, q, p1, p2, p3, p4, p5, p6, p7⟩ := C29_derived E k
  have hk := Out.ok.inj (p1.symm.trans hk)
  subst hk
  rw [C20_accepts_iff_any E _ hl] at h
  rw [C20_accepts_iff_any E _ hl'] at h'
  obtain ⟨-, -, -, A1, a1, e1⟩ := h
  obtain ⟨-, -, -, A2, a2, e2⟩ := h'
  rw [List.take_of_length_le (by omega)] at a1 a2
  rw [GC.decodes_unique a1 p4, p5] at e1
  rw [GC.decodes_unique a2 p4, p5] at e2
  have e := encodePoint_inj (e1.symm.trans e2)
  have hlt : ∀ m, challenge E R pk.raw m < L := fun m => Nat.mod_lt _ L_prime.pos
  exact recover_eq (hlt m) (hlt m') hc e

/-! ## Cases -/

/-- The hypotheses of C61, C62: an accepted signature under a derived public key. -/
example : ∃ (k : PrivateKey) (pub : PublicKey) (sig : Signature), derivePublicKey Env.toy (some k) = .ok pub ∧ sig.S.length = 32 ∧
    leVal sig.S < 2 ^ 255 ∧ verify Env.toy pub [1, 2, 3] sig = .ok true := by
  have h : sign Env.toy ⟨some (newPrivateKey (List.replicate 32 7)), ⟨publicKeyOf Env.toy (List.replicate 32 7)⟩⟩ [1, 2, 3] = _ :=
    (sign_spec Env.toy (newPrivateKey (List.replicate 32 7)) ⟨publicKeyOf Env.toy (List.replicate 32 7)⟩ [1, 2, 3]).trans
      (if_pos toy_sign_ok)
  have hv := C18_sign_verify Env.toy (newPrivateKey (List.replicate 32 7)) _ _ _ (derive_spec _ _) h
  obtain ⟨w1, w2, w3, w4⟩ := C19_well_formed Env.toy _ _ _ h
  exact ⟨_, _, _, derive_spec Env.toy (newPrivateKey (List.replicate 32 7)), w2, by have := L_lt; omega, hv⟩

/-- A hash for the next case: 5 plus byte 64 of the input. -/
def pick64Hasher : Hasher where
  σ := Bytes
  init := []
  write := fun s b => s ++ b
  sum := fun s => leBytes 64 (5 + (s.getD 64 0).toNat)
  write_append := fun s a b => List.append_assoc s a b
  write_nil := fun s => List.append_nil s

/-- An environment with this hash. -/
def Env.pick64 : Env := { Env.toy with sha512 := pick64Hasher, sha512_length := fun _ => leBytes_length _ _ }

theorem pick64_short (b : Bytes) (h : b.length ≤ 64) : Hash Env.pick64 b = leBytes 64 5 := by
  show leBytes 64 (5 + (b.getD 64 0).toNat) = _
  rw [List.getD_eq_getElem?_getD, List.getElem?_eq_none (by omega)]
  rfl

theorem pick64_scalar (sk : Bytes) (h : sk.length = 32) : secretScalar Env.pick64 sk = 2 ^ 254 := by
  unfold secretScalar
  rw [pick64_short sk (by omega)]
  decide +kernel

theorem pick64_nonce (sk : Bytes) (x : UInt8) : nonce Env.pick64 sk [x] = 5 := by
  unfold nonce
  rw [pick64_short _ (by rw [List.length_append, List.length_drop, Hash_length, List.length_singleton]; omega), leVal_leBytes_of_lt (by norm_num),
    Nat.mod_eq_of_lt (by have := L_gt; omega)]

theorem pick64_challenge (R A : Bytes) (x : UInt8) (hR : R.length = 32) (hA : A.length = 32) : challenge Env.pick64 R A [x] = 5 + x.toNat := by
  have hl : (R ++ A).length = 64 := by rw [List.length_append, hR, hA]
  have e : (R ++ A ++ [x])[64]? = some x := by
    rw [List.getElem?_append_right (by omega), hl]; rfl
  have hh : Hash Env.pick64 (R ++ A ++ [x]) = leBytes 64 (5 + x.toNat) := by
    show leBytes 64 (5 + ((R ++ A ++ [x]).getD 64 0).toNat) = _
    rw [List.getD_eq_getElem?_getD, e]
    rfl
  have hx := x.toNat_lt
  unfold challenge
  rw [hh, leVal_leBytes_of_lt (by omega), Nat.mod_eq_of_lt (by have := L_gt; omega)]

/-- The hypothesis of C42_only_hash: different keys with one hash. -/
example : newPrivateKey [1] ≠ newPrivateKey [2] ∧ Hash Env.pick64 (newPrivateKey [1]).raw = Hash Env.pick64 (newPrivateKey [2]).raw :=
  ⟨fun h => absurd (congrArg PrivateKey.raw h) (by decide), (pick64_short [1] (by decide)).trans (pick64_short [2] (by decide)).symm⟩

/-- The hypotheses of C63: two messages with one commitment. -/
example : ∃ (k : PrivateKey) (pub : PublicKey) (m m' R S S' : Bytes), derivePublicKey Env.pick64 (some k) = .ok pub ∧ S.length = 32 ∧
    S'.length = 32 ∧ leVal S < 2 ^ 255 ∧ leVal S' < 2 ^ 255 ∧ verify Env.pick64 pub m ⟨R, S⟩ = .ok true ∧
    verify Env.pick64 pub m' ⟨R, S'⟩ = .ok true ∧ challenge Env.pick64 R pub.raw m ≠ challenge Env.pick64 R pub.raw m' := by
  have hp : (publicKeyOf Env.pick64 (List.replicate 32 7)).length = 32 := publicKeyOf_length _ _
  have hR : ∀ x : UInt8, (sigR Env.pick64 (List.replicate 32 7) [x]).length = 32 := fun x => encodePoint_length _
  have key : ∀ x : UInt8, x = 3 ∨ x = 4 → sign Env.pick64 ⟨some (newPrivateKey (List.replicate 32 7)),
      ⟨publicKeyOf Env.pick64 (List.replicate 32 7)⟩⟩ [x] = .ok ⟨sigR Env.pick64 (List.replicate 32 7) [x],
        leBytes 32 (sigS Env.pick64 (List.replicate 32 7) (publicKeyOf Env.pick64 (List.replicate 32 7)) [x])⟩ := by
    intro x hx
    refine (sign_spec ..).trans (if_pos ?_)
    show LowBitsOk (sigS Env.pick64 (List.replicate 32 7) (publicKeyOf Env.pick64 (List.replicate 32 7)) [x])
    unfold sigS
    rw [pick64_challenge _ _ x (hR x) hp, pick64_scalar _ (by decide), pick64_nonce, L_eq]
    unfold LowBitsOk
    rw [L_eq]
    rcases hx with rfl | rfl <;> decide +kernel
  have v := fun x hx => C18_sign_verify Env.pick64 (newPrivateKey (List.replicate 32 7)) _ _ _ (derive_spec _ _) (key x hx)
  have eR : sigR Env.pick64 (List.replicate 32 7) [4] = sigR Env.pick64 (List.replicate 32 7) [3] := by
    unfold sigR
    rw [pick64_nonce, pick64_nonce]
  have v3 := v 3 (.inl rfl)
  have v4 := v 4 (.inr rfl)
  rw [eR] at v4
  have hlt : ∀ x, leVal (leBytes 32 (sigS Env.pick64 (List.replicate 32 7) (publicKeyOf Env.pick64 (List.replicate 32 7)) [x])) < 2 ^ 255 := by
    intro x
    exact (leVal_leBytes_modL _).trans_lt (modL_lt255 _)
  refine ⟨_, _, _, _, _, _, _, derive_spec Env.pick64 (newPrivateKey (List.replicate 32 7)), leBytes_length _ _, leBytes_length _ _, hlt 3, hlt 4, v3, v4, ?_⟩
  show challenge Env.pick64 _ (publicKeyOf Env.pick64 (List.replicate 32 7)) _ ≠ challenge Env.pick64 _ (publicKeyOf Env.pick64 (List.replicate 32 7)) _
  rw [pick64_challenge _ _ 3 (hR 3) hp, pick64_challenge _ _ 4 (hR 3) hp]
  decide

end Ed

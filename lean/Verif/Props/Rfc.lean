import Verif.Spec.Rfc8032
import Verif.Props.Order

/-!
# C93: compared with RFC 8032
-/

set_option autoImplicit false

namespace Ed

variable (E : Env)

theorem Rfc.encode_eq (q : Pt) : Rfc.encode q = encodePoint q := by
  unfold Rfc.encode encodePoint
  rw [Nat.add_comm, Nat.mul_comm]

theorem Rfc.decodes_iff (b : Bytes) (q : Pt) : Rfc.Decodes b q ↔ b = encodePoint q := by
  constructor
  · rintro ⟨h1, h2, h3⟩
    rw [← leBytes_leVal b, h1]
    unfold encodePoint
    rw [h2, h3, Nat.mod_add_div]
  · rintro rfl
    have hy := FE.F_val_lt q.y
    refine ⟨encodePoint_length q, ?_, ?_⟩
    · rw [encodePoint_val, Nat.add_mul_mod_self_left, Nat.mod_eq_of_lt hy]
    · rw [encodePoint_val, Nat.add_mul_div_left _ _ (by norm_num), Nat.div_eq_of_lt hy, Nat.zero_add]

theorem Rfc.decodes_decodes {b : Bytes} {q : Pt} (h : Rfc.Decodes b q) : Ed.Decodes b q := by
  rw [Rfc.decodes_iff] at h; rw [h]; exact decodes_encodePoint q

theorem Rfc.scalar_eq (sk : Bytes) : Rfc.scalar (Hash E) sk = secretScalar E sk := by
  unfold Rfc.scalar secretScalar
  generalize leVal ((Hash E sk).take 32) = n
  dsimp only
  have e1 : n - n % 8 = 8 * (n / 8) := by omega
  rw [e1, show (2 : ℕ) ^ 255 = 8 * 2 ^ 252 by norm_num, Nat.mul_mod_mul_left]
  generalize n / 8 = u
  have e2 : u % 2 ^ 251 = u % 2 ^ 252 % 2 ^ 251 := by rw [Nat.mod_mod_of_dvd _ (by norm_num)]
  rw [e2]
  have hv : u % 2 ^ 252 < 2 ^ 252 := Nat.mod_lt _ (by norm_num)
  generalize u % 2 ^ 252 = v at hv
  rw [Nat.testBit_eq_decide_div_mod_eq]
  by_cases c : v < 2 ^ 251
  · rw [Nat.mod_eq_of_lt c, Nat.div_eq_of_lt (by omega), if_neg (by simp)]
    omega
  · have : 8 * v / 2 ^ 254 = 1 := by omega
    rw [this, if_pos (by simp)]
    omega

theorem Rfc.publicKey_eq (sk : Bytes) : Rfc.publicKey (Hash E) sk = publicKeyOf E sk := by
  unfold Rfc.publicKey publicKeyOf
  rw [Rfc.encode_eq, Rfc.scalar_eq]

theorem Rfc.sign_eq (sk m : Bytes) :
    Rfc.sign (Hash E) sk m = sigR E sk m ++ leBytes 32 (sigS E sk (publicKeyOf E sk) m) := by
  unfold Rfc.sign
  dsimp only
  rw [Rfc.encode_eq, Rfc.publicKey_eq, Rfc.scalar_eq]
  have hR : encodePoint (leVal (Hash E ((Hash E sk).drop 32 ++ m)) • B) = sigR E sk m := by
    unfold sigR nonce; rw [smul_B_mod]
  rw [hR]
  unfold sigS nonce challenge
  congr 2
  rw [Nat.add_mod, Nat.mul_mod]
  conv_rhs => rw [Nat.add_mod, Nat.mul_mod]
  simp only [Nat.mod_mod]

/-- **C93.** `DerivePublicKey` is the public key of RFC 8032 with SHA3-512 as hash function. -/
theorem C93_public_key (k : PrivateKey) : derivePublicKey E (some k) = .ok ⟨Rfc.publicKey (Hash E) k.raw⟩ := by
  rw [derive_spec, Rfc.publicKey_eq]

/-- C93: `Sign` with the derived public key returns the signature of RFC 8032, or refuses if the low 64 bits of its S do not pass the
filter. -/
theorem C93_sign (k : PrivateKey) (pk : PublicKey) (hk : derivePublicKey E (some k) = .ok pk) (m : Bytes) :
    let s := Rfc.sign (Hash E) k.raw m
    s.length = 64 ∧ sign E ⟨some k, pk⟩ m =
      if LowBitsOk (leVal (s.drop 32)) then .ok ⟨s.take 32, s.drop 32⟩ else .err "Generated signature is not canonical" := by
  have hk' := Out.ok.inj ((derive_spec E k).symm.trans hk)
  subst hk'
  intro s
  have hs : s = sigR E k.raw m ++ leBytes 32 (sigS E k.raw (publicKeyOf E k.raw) m) := Rfc.sign_eq E k.raw m
  have lR : (sigR E k.raw m).length = 32 := encodePoint_length _
  have t : s.take 32 = sigR E k.raw m := by rw [hs, ← lR, List.take_left]
  have d : s.drop 32 = leBytes 32 (sigS E k.raw (publicKeyOf E k.raw) m) := by rw [hs, ← lR, List.drop_left]
  refine ⟨by rw [hs, List.length_append, lR, leBytes_length], ?_⟩
  have v : leVal (leBytes 32 (sigS E k.raw (publicKeyOf E k.raw) m)) = sigS E k.raw (publicKeyOf E k.raw) m := leVal_leBytes_modL _
  rw [t, d, v, C19_sign]; rfl

/-- C93: given a signature that `Verify` accepts, RFC 8032 (without cofactor) accepts it iff S is reduced, the public key is canonically
encoded, and reducing the challenge modulo L does no harm to the public point. -/
theorem C93_accepted (pub : PublicKey) (m R S : Bytes) (hl : S.length = 32) (hp : pub.raw.length = 32)
    (h : verify E pub m ⟨R, S⟩ = .ok true) :
    Rfc.Accepts (Hash E) 1 pub.raw m R S ↔
      leVal S < L ∧ ∃ q, Rfc.Decodes pub.raw q ∧
        leVal (Hash E (R ++ pub.raw ++ m)) • q = (leVal (Hash E (R ++ pub.raw ++ m)) % L) • q := by
  rw [C20_accepts_iff_any E S hl] at h
  obtain ⟨h1, h2, h3, A, h4, h5⟩ := h
  rw [List.take_of_length_le (by omega)] at h4
  have hLt := L_lt
  constructor
  · rintro ⟨-, s1, a, r, ha, hr, e⟩
    refine ⟨s1, a, ha, ?_⟩
    have := GC.decodes_unique h4 (Rfc.decodes_decodes ha)
    subst this
    rw [Rfc.decodes_iff] at hr
    rw [nafVal_small (by omega), natCast_zsmul] at h5
    have e2 := encodePoint_inj (h5.symm.trans hr)
    rw [one_smul, one_smul, one_smul] at e
    rw [e] at e2
    have e3 : leVal (Hash E (R ++ pub.raw ++ m)) • A = challenge E R pub.raw m • A := by
      have := congrArg (fun x => x - r + challenge E R pub.raw m • A) e2
      simp only [sub_self, zero_add] at this
      rw [← this]; abel
    exact e3
  · rintro ⟨s1, a, ha, e⟩
    have := GC.decodes_unique h4 (Rfc.decodes_decodes ha)
    subst this
    rw [nafVal_small (by omega), natCast_zsmul] at h5
    refine ⟨hl, s1, A, _, ha, (Rfc.decodes_iff _ _).2 h5, ?_⟩
    rw [one_smul, one_smul, one_smul, e]
    exact (sub_add_cancel _ _).symm

/-- C93: given a signature that RFC 8032 (without cofactor) accepts, `Verify` accepts it iff the low 64 bits of S pass the filter, the public key
is not all zero, and reducing the challenge modulo L does no harm to the public point. -/
theorem C93_valid (pub : PublicKey) (m R S : Bytes) (h : Rfc.Accepts (Hash E) 1 pub.raw m R S) :
    verify E pub m ⟨R, S⟩ = .ok true ↔
      LowBitsOk (leVal S) ∧ pub.raw ≠ List.replicate 32 0 ∧ ∃ q, Rfc.Decodes pub.raw q ∧
        leVal (Hash E (R ++ pub.raw ++ m)) • q = (leVal (Hash E (R ++ pub.raw ++ m)) % L) • q := by
  have h' := h
  obtain ⟨hl, s1, a, r, ha, hr, e⟩ := h
  have hp := ha.1
  have hLt := L_lt
  constructor
  · intro hv
    have k := ((C93_accepted E pub m R S hl hp hv).1 h').2
    rw [C20_accepts_iff_any E S hl] at hv
    exact ⟨hv.1, hv.2.1, k⟩
  · rintro ⟨l1, l2, q, hq, e2⟩
    rw [C20_accepts_iff_any E S hl]
    refine ⟨l1, l2, Or.inl hp, q, by rw [List.take_of_length_le (by omega)]; exact Rfc.decodes_decodes hq, ?_⟩
    have := GC.decodes_unique (Rfc.decodes_decodes hq) (Rfc.decodes_decodes ha)
    subst this
    rw [Rfc.decodes_iff] at hr
    rw [nafVal_small (by omega), natCast_zsmul]
    rw [one_smul, one_smul, one_smul, e2] at e
    rw [e]
    unfold challenge
    rw [add_sub_cancel_right]; exact hr

/-- C93: for a public key in the subgroup of the base point, in particular a derived one, and a reduced S, `Verify` is RFC 8032 (without
cofactor) together with the filter. -/
theorem C93_subgroup (pub : PublicKey) (q : Pt) (hq : Rfc.Decodes pub.raw q) (hL : L • q = 0) (m R S : Bytes) (hl : S.length = 32)
    (hS : leVal S < L) :
    verify E pub m ⟨R, S⟩ = .ok true ↔ Rfc.Accepts (Hash E) 1 pub.raw m R S ∧ LowBitsOk (leVal S) := by
  have hm : ∀ n : ℕ, n • q = (n % L) • q := by
    intro n
    conv_lhs => rw [← Nat.mod_add_div n L, add_smul, Nat.mul_comm, mul_smul, hL, smul_zero, add_zero]
  have hz : pub.raw ≠ List.replicate 32 0 := by
    intro e
    have hd := Rfc.decodes_decodes hq
    have h4 : (8 : ℕ) • q = 0 := by
      obtain ⟨q', h1, h2⟩ := (C73_strings pub.raw hq.1).2 (by rw [e, leVal_replicate_zero]; simp)
      rw [← GC.decodes_unique h1 hd]; exact h2
    have h0 : q = 0 := by
      have hc : Nat.Coprime 8 L := by
        rw [Nat.coprime_comm, Nat.Prime.coprime_iff_not_dvd L_prime]
        intro d
        have := Nat.le_of_dvd (by norm_num) d
        have := L_gt
        omega
      have := AddMonoid.addOrderOf_eq_one_iff.1 (Nat.eq_one_of_dvd_coprimes hc (addOrderOf_dvd_of_nsmul_eq_zero h4) (addOrderOf_dvd_of_nsmul_eq_zero hL))
      exact this
    have hy := hq.2.1
    rw [h0, e, leVal_replicate_zero] at hy
    exact absurd hy (by
      show ((0 : Pt).y).val ≠ _
      have : (0 : Pt).y = 1 := rfl
      rw [this]
      have : Fact (1 < P) := ⟨by rw [P_eq]; norm_num⟩
      rw [ZMod.val_one]; norm_num)
  constructor
  · intro h
    refine ⟨(C93_accepted E pub m R S hl hq.1 h).2 ⟨hS, q, hq, hm _⟩, ?_⟩
    rw [C20_accepts_iff_any E S hl] at h
    exact h.1
  · rintro ⟨h, h2⟩
    exact (C93_valid E pub m R S h).2 ⟨h2, hz, q, hq, hm _⟩

/-- C93: a signature made by RFC 8032 is accepted iff the low 64 bits of its S pass the filter. -/
theorem C93_interop (k : PrivateKey) (pk : PublicKey) (hk : derivePublicKey E (some k) = .ok pk) (m : Bytes) :
    let s := Rfc.sign (Hash E) k.raw m
    verify E pk m ⟨s.take 32, s.drop 32⟩ = .ok true ↔ LowBitsOk (leVal (s.drop 32)) := by
  obtain ⟨h1, h2⟩ := C93_sign E k pk hk m
  intro s
  constructor
  · intro h
    have h1 : s.length = 64 := h1
    rw [C20_accepts_iff_any E _ (by rw [List.length_drop, h1])] at h
    exact h.1
  · intro h
    rw [if_pos h] at h2
    exact C18_sign_verify E k pk m _ hk h2

/-- C93: what `Verify` accepts with a reduced S and a canonically encoded public key, RFC 8032 accepts with the cofactor. -/
theorem C93_cofactored (pub : PublicKey) (m R S : Bytes) (hl : S.length = 32) (hS : leVal S < L) (q : Pt) (hq : Rfc.Decodes pub.raw q)
    (h : verify E pub m ⟨R, S⟩ = .ok true) : Rfc.Accepts (Hash E) 8 pub.raw m R S := by
  rw [C20_accepts_iff_any E S hl] at h
  obtain ⟨h1, h2, h3, A, h4, h5⟩ := h
  have hLt := L_lt
  have hp := hq.1
  rw [List.take_of_length_le (by omega)] at h4
  have := GC.decodes_unique h4 (Rfc.decodes_decodes hq)
  subst this
  rw [nafVal_small (by omega), natCast_zsmul] at h5
  refine ⟨hl, hS, A, _, hq, (Rfc.decodes_iff _ _).2 h5, ?_⟩
  have hc : (8 * L) • A = 0 := by rw [← card_Pt]; exact card_nsmul_eq_zero'
  have e : (8 : ℕ) • leVal (Hash E (R ++ pub.raw ++ m)) • A = (8 : ℕ) • challenge E R pub.raw m • A := by
    unfold challenge
    generalize leVal (Hash E (R ++ pub.raw ++ m)) = n
    conv_lhs => rw [← Nat.mod_add_div n L, add_smul, Nat.mul_comm L, mul_smul, smul_add, smul_comm 8 (n / L), ← mul_smul 8 L A, hc, smul_zero, add_zero]
  rw [e, ← smul_add, sub_add_cancel]

/-- C93: every signature made by `Sign` has a second S that `Verify` accepts and RFC 8032 refuses, with and without the cofactor. -/
theorem C93_beyond (k : PrivateKey) (pk : PublicKey) (m : Bytes) (sig : Signature) (hpk : derivePublicKey E (some k) = .ok pk)
    (h : sign E ⟨some k, pk⟩ m = .ok sig) :
    ∃ S', S'.length = 32 ∧ verify E pk m ⟨sig.R, S'⟩ = .ok true ∧ ∀ c, ¬ Rfc.Accepts (Hash E) c pk.raw m sig.R S' := by
  obtain ⟨S', -, h2, h3, -, h5⟩ := C21_malleable E k pk m sig hpk h
  exact ⟨S', h2, h5, fun c hc => absurd hc.2.1 (by omega)⟩

/-- C93: and there is a signature that RFC 8032 accepts for every message and every hash, with and without the cofactor, and `Verify`
refuses. -/
theorem C93_below : ∃ (pub : PublicKey) (R S : Bytes), ∀ (E : Env) (m : Bytes),
    (∀ c, Rfc.Accepts (Hash E) c pub.raw m R S) ∧ verify E pub m ⟨R, S⟩ = .ok false := by
  have hlt : 2 ^ 64 < L := lt_trans (by norm_num) L_gt
  have hv : leVal (leBytes 32 (2 ^ 64)) = 2 ^ 64 := leVal_leBytes_of_lt (by norm_num)
  refine ⟨⟨encodePoint 0⟩, encodePoint (2 ^ 64 • B), leBytes 32 (2 ^ 64), fun E m => ⟨fun c => ?_, ?_⟩⟩
  · refine ⟨leBytes_length _ _, by rw [hv]; exact hlt, 0, _, (Rfc.decodes_iff _ _).2 rfl, (Rfc.decodes_iff _ _).2 rfl, ?_⟩
    rw [hv, smul_zero, smul_zero, add_zero]
  · obtain ⟨b, hb⟩ := C20_total E ⟨encodePoint 0⟩ m ⟨encodePoint (2 ^ 64 • B), leBytes 32 (2 ^ 64)⟩ (by rw [leBytes_length])
    rw [hb]
    cases b with
    | false => rfl
    | true =>
      rw [C20_accepts_iff_any E _ (leBytes_length _ _), hv] at hb
      exact absurd hb.1 (by unfold LowBitsOk; decide +kernel)

/-- The hypotheses of C93_sign, C93_beyond, C93_accepted and C93_subgroup are met together: a derived key that signs. -/
example : ∃ (k : PrivateKey) (pk : PublicKey) (sig : Signature) (q : Pt), derivePublicKey Env.toy (some k) = .ok pk ∧
    sign Env.toy ⟨some k, pk⟩ [1, 2, 3] = .ok sig ∧ verify Env.toy pk [1, 2, 3] sig = .ok true ∧ Rfc.Decodes pk.raw q ∧ L • q = 0 ∧
    sig.S.length = 32 ∧ leVal sig.S < L ∧ Rfc.Accepts (Hash Env.toy) 1 pk.raw [1, 2, 3] sig.R sig.S := by
  have hok := toy_sign_ok
  obtain ⟨k, hk⟩ : ∃ k : PrivateKey, k.raw = List.replicate 32 7 := ⟨newPrivateKey _, rfl⟩
  rw [← hk] at hok
  obtain ⟨pk, q, h1, h2, h3, h4, h5, h6, h7⟩ := C29_derived Env.toy k
  have h8 := C19_sign Env.toy k pk [1, 2, 3]
  have e := Out.ok.inj ((derive_spec Env.toy k).symm.trans h1)
  rw [if_pos (by rw [← e]; exact hok)] at h8
  have hv := C18_sign_verify Env.toy _ pk _ _ h1 h8
  have hq : Rfc.Decodes pk.raw q := (Rfc.decodes_iff _ _).2 h3
  have hL : L • q = 0 := by rw [← h6]; exact addOrderOf_nsmul_eq_zero q
  obtain ⟨w1, w2, w3, w4⟩ := C19_well_formed Env.toy _ _ _ h8
  exact ⟨_, pk, _, q, h1, h8, hv, hq, hL, w2, w4, ((C93_subgroup Env.toy pk q hq hL _ _ _ w2 w4).1 hv).1⟩

end Ed

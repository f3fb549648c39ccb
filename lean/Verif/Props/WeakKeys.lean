import Verif.Props.Binding
import Verif.Props.Order

/-!
# Properties C84, C85: public keys that nobody chose as keys

C84: signatures under public keys of small order.  C85: one signature under two public keys.
-/

set_option autoImplicit false

namespace Ed

variable (E : Env)

/-! ## C84: public keys of small order -/

/-- Whoever knows only the public key, of whatever order n, makes signatures for it: choose S and a number t; the pair is accepted for exactly
the messages whose challenge is t modulo n.  For a key of order dividing 8 that is at least every eighth value. -/
theorem C84_guess (pub : PublicKey) (A : Pt) (hp : pub.raw.length = 32 ∨ pub.raw.length = 64) (hA : Decodes (pub.raw.take 32) A)
    (h0 : pub.raw ≠ List.replicate 32 0) (m S : Bytes) (hl : S.length = 32) (hc : LowBitsOk (leVal S)) (t : ℕ) :
    verify E pub m ⟨encodePoint (nafVal (leVal S) • B - t • A), S⟩ = .ok true ↔
      challenge E (encodePoint (nafVal (leVal S) • B - t • A)) pub.raw m ≡ t [MOD addOrderOf A] := by
  rw [C20_accepts_iff_any E S hl]
  constructor
  · rintro ⟨_, _, _, A', d', e⟩
    rw [GC.decodes_unique d' hA] at e
    exact (nsmul_eq_nsmul_iff_modEq.1 (sub_right_injective (encodePoint_inj e))).symm
  · intro h
    exact ⟨hc, h0, hp, A, hA, by rw [nsmul_eq_nsmul_iff_modEq.2 h]⟩

/-- The all-zero key, of order 4, is the only one of these that `Verify` refuses. -/
theorem C84_zero_key (m : Bytes) (sig : Signature) : verify E ⟨List.replicate 32 0⟩ m sig = .ok false := by
  unfold verify
  split
  · rfl
  · rw [if_pos ((isEqualConstantTime_iff _ _).2 rfl)]

/-- The public keys for which some signature is accepted for every message and every hash: exactly those that denote the neutral element. -/
theorem C84_universal (pub : PublicKey) (hp : pub.raw.length = 32) :
    (∃ sig : Signature, sig.S.length = 32 ∧ ∀ (E : Env) (m : Bytes), verify E pub m sig = .ok true) ↔
      Decodes pub.raw 0 := by
  constructor
  · rintro ⟨⟨R, S⟩, hl, h⟩
    have h1 := h Env.toy []
    have h2 := h Env.toy [0]
    rw [C20_accepts_iff_any _ S hl] at h1
    obtain ⟨_, _, _, A, hA, _⟩ := h1
    have hm := C61_messages Env.toy pub A hA [] [0] R S hl (h Env.toy []) h2
    have hR : R.length = 32 := by
      obtain ⟨q, hq⟩ := C62_R_canonical Env.toy pub [] R S hl (h Env.toy [])
      rw [hq]; exact encodePoint_length q
    have e : ∀ m : Bytes, m.length < 2 → challenge Env.toy R pub.raw m = 64 + m.length := by
      intro m hm
      unfold challenge
      show leVal (leBytes 64 (R ++ pub.raw ++ m).length) % L = _
      rw [List.length_append, List.length_append, hR, hp, leVal_leBytes_of_lt (lt_trans (by omega : 32 + 32 + m.length < 100) (by norm_num)),
        Nat.mod_eq_of_lt (by have := L_gt; omega)]
    rw [e [] (by decide), e [0] (by decide)] at hm
    have h1 : (1 : ℕ) • A = 0 := by
      have := nsmul_eq_nsmul_iff_modEq.2 hm
      have h2 : (64 : ℕ) • A = (65 : ℕ) • A := this
      rw [show (65 : ℕ) = 64 + 1 from rfl, add_smul] at h2
      exact left_eq_add.1 h2
    rw [one_smul] at h1
    rw [h1, List.take_of_length_le (by omega)] at hA
    exact hA
  · intro hA
    have h1 : leVal (leBytes 32 1) = 1 := leVal_leBytes_of_lt (by norm_num)
    refine ⟨⟨encodePoint (nafVal (leVal (leBytes 32 1)) • B - 0 • (0 : Pt)), leBytes 32 1⟩, leBytes_length _ _, fun E m => ?_⟩
    refine (C84_guess E pub 0 (Or.inl hp) (by rw [List.take_of_length_le (by omega)]; exact hA) ?_ m (leBytes 32 1) (leBytes_length _ _)
      (by rw [h1]; exact low_one) 0).2 ?_
    · intro hz
      have := hA.1
      rw [hz, leVal_replicate_zero] at this
      exact absurd this (by simp)
    · rw [addOrderOf_zero]; exact Nat.modEq_one

/-- There are four such strings. -/
theorem C84_neutral_strings (raw : Bytes) (hl : raw.length = 32) :
    Decodes raw 0 ↔ leVal raw ∈ [1, 1 + 2 ^ 255, 2 ^ 255 - 18, 2 ^ 255 - 18 + 2 ^ 255] := by
  have hlt : leVal raw < 2 ^ 256 := by have := leVal_lt raw; rw [hl] at this; exact this.trans_le (by norm_num)
  have hx : (0 : Pt).x = 0 := rfl
  have hy : (0 : Pt).y = 1 := rfl
  unfold Decodes
  rw [hx, hy]
  have key : (1 : F) = ((leVal raw % 2 ^ 255 : ℕ) : F) ↔ leVal raw % 2 ^ 255 = 1 ∨ leVal raw % 2 ^ 255 = 2 ^ 255 - 18 := by
    have h255 : leVal raw % 2 ^ 255 < 2 ^ 255 := Nat.mod_lt _ (by norm_num)
    generalize leVal raw % 2 ^ 255 = v at h255 ⊢
    rw [show (1 : F) = ((1 : ℕ) : F) from Nat.cast_one.symm, F_natCast_eq]
    constructor
    · intro h
      have : v % (2 ^ 255 - 19) = 1 := by rw [← h]; norm_num
      rcases Nat.lt_or_ge v (2 ^ 255 - 19) with h1 | h1
      · rw [Nat.mod_eq_of_lt h1] at this; exact Or.inl this
      · rw [Nat.mod_eq_sub_mod h1, Nat.mod_eq_of_lt (by omega)] at this; exact Or.inr (by omega)
    · rintro (h | h) <;> rw [h]
      norm_num
  rw [key]
  simp only [true_or, and_true, List.mem_cons, List.not_mem_nil, or_false]
  generalize leVal raw = v at hlt ⊢
  omega

/-- The hypotheses of C84_guess for a key of order 8: S = 1 and every t. -/
example : ∃ (pub : PublicKey) (A : Pt) (S : Bytes), pub.raw.length = 32 ∧ Decodes (pub.raw.take 32) A ∧ addOrderOf A = 8 ∧
    pub.raw ≠ List.replicate 32 0 ∧ S.length = 32 ∧ LowBitsOk (leVal S) := by
  have h1 : leVal (leBytes 32 1) = 1 := leVal_leBytes_of_lt (by norm_num)
  have hd : Decodes (encodePoint T) T := decodes_encodePoint T
  have h8 := addOrderOf_T
  have hn : encodePoint T ≠ List.replicate 32 0 := by
    intro hz
    have hy : T.y = 0 := by
      have := hd.1
      rw [hz, leVal_replicate_zero] at this
      rw [this]; simp
    have := T1.2
    rw [one_smul, hy, ← Nat.cast_zero, F_natCast_eq] at this
    exact absurd this (by unfold TyN; norm_num)
  refine ⟨⟨encodePoint T⟩, T, leBytes 32 1, encodePoint_length T, ?_, h8, hn, leBytes_length _ _, by rw [h1]; exact low_one⟩
  show Decodes ((encodePoint T).take 32) T
  rw [List.take_of_length_le (by rw [encodePoint_length])]
  exact hd

/-! ## C85: one signature under two public keys -/

/-- A signature accepted for m under one key and for m' under another one: c A = c' A' for the challenges and the points. -/
theorem C85_points (pub pub' : PublicKey) (A A' : Pt) (hA : Decodes (pub.raw.take 32) A) (hA' : Decodes (pub'.raw.take 32) A') (m m' R S : Bytes)
    (hl : S.length = 32) (h : verify E pub m ⟨R, S⟩ = .ok true) (h' : verify E pub' m' ⟨R, S⟩ = .ok true) :
    challenge E R pub.raw m • A = challenge E R pub'.raw m' • A' := by
  obtain ⟨s, hs⟩ := accepted_S E hl
  obtain ⟨A1, d1, e1⟩ := hs pub m R h
  obtain ⟨A2, d2, e2⟩ := hs pub' m' R h'
  rw [GC.decodes_unique d1 hA] at e1
  rw [GC.decodes_unique d2 hA'] at e2
  exact sub_right_injective (encodePoint_inj (e1.symm.trans e2))

/-- For derived keys: given a signature accepted under the first, it is accepted under the second (for the same or another message) exactly if the
products of challenge and private scalar agree modulo the group order.  The challenge contains the public key, so this is again a coincidence
of hashes. -/
theorem C85_derived (k k' : PrivateKey) (pub pub' : PublicKey) (hk : derivePublicKey E (some k) = .ok pub)
    (hk' : derivePublicKey E (some k') = .ok pub') (m m' R S : Bytes) (hl : S.length = 32) (h : verify E pub m ⟨R, S⟩ = .ok true) :
    verify E pub' m' ⟨R, S⟩ = .ok true ↔
      leVal (Hash E (R ++ pub.raw ++ m)) * secretScalar E k.raw % L = leVal (Hash E (R ++ pub'.raw ++ m')) * secretScalar E k'.raw % L := by
  obtain ⟨pk, q, p1, p2, p3, p4, p5, p6, p7⟩ := C29_derived E k
  have e := Out.ok.inj (p1.symm.trans hk)
  subst e
  obtain ⟨pk', q', p1', p2', p3', p4', p5', p6', p7'⟩ := C29_derived E k'
  have e := Out.ok.inj (p1'.symm.trans hk')
  subst e
  have hd : Decodes (pk.raw.take 32) q := by rw [List.take_of_length_le (by omega)]; exact p4
  have hd' : Decodes (pk'.raw.take 32) q' := by rw [List.take_of_length_le (by omega)]; exact p4'
  have key : challenge E R pk.raw m • q = challenge E R pk'.raw m' • q' ↔
      leVal (Hash E (R ++ pk.raw ++ m)) * secretScalar E k.raw % L = leVal (Hash E (R ++ pk'.raw ++ m')) * secretScalar E k'.raw % L := by
    rw [p5, p5', ← mul_smul, ← mul_smul, smul_B_eq_iff]
    unfold challenge
    rw [Nat.mod_mul_mod, Nat.mod_mul_mod]
  rw [← key]
  constructor
  · exact fun h' => C85_points E pk pk' q q' hd hd' m m' R S hl h h'
  · intro hh
    have hs := C20_accepts_iff_any E S hl
    obtain ⟨h1, h2, h3, A, hA, hR⟩ := (hs pk m R).1 h
    rw [GC.decodes_unique hA hd] at hR
    exact (hs pk' m' R).2 ⟨h1, p7', Or.inl p2', q', hd', by rw [← hh]; exact hR⟩

/-- The hypotheses of C85: an accepted signature under a derived public key; every second private key has a public key. -/
example : ∃ (k k' : PrivateKey) (pub pub' : PublicKey) (sig : Signature), derivePublicKey Env.toy (some k) = .ok pub ∧
    derivePublicKey Env.toy (some k') = .ok pub' ∧ k ≠ k' ∧ sig.S.length = 32 ∧ verify Env.toy pub [1, 2, 3] sig = .ok true := by
  have h : sign Env.toy ⟨some (newPrivateKey (List.replicate 32 7)), ⟨publicKeyOf Env.toy (List.replicate 32 7)⟩⟩ [1, 2, 3] = _ :=
    (sign_spec Env.toy (newPrivateKey (List.replicate 32 7)) ⟨publicKeyOf Env.toy (List.replicate 32 7)⟩ [1, 2, 3]).trans
      (if_pos toy_sign_ok)
  have hv := C18_sign_verify Env.toy (newPrivateKey (List.replicate 32 7)) _ _ _ (derive_spec _ _) h
  obtain ⟨w1, w2, w3, w4⟩ := C19_well_formed Env.toy _ _ _ h
  exact ⟨_, _, _, _, _, derive_spec Env.toy (newPrivateKey (List.replicate 32 7)), derive_spec Env.toy (newPrivateKey [9]),
    fun e => by
      have h3 : (newPrivateKey (List.replicate 32 7)).raw = (newPrivateKey [9]).raw := congrArg PrivateKey.raw e
      have h4 := congrArg List.length h3
      exact absurd h4 (by decide), w2, hv⟩

end Ed

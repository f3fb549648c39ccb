import Verif.Props.Resend
import Verif.Props.Order

/-!
# Property C107: how many signatures are accepted
-/

set_option autoImplicit false

namespace Ed

open Finset

/-- The 32 bytes of an accepted R that belong to a multiple of the base point. -/
def Key.Multiple (R : Key) : Prop := ∃ r : ℕ, R.bytes = encodePoint (r • B)

theorem Key.val_bytes (x : Key) : leVal x.bytes = Fin.val x := leVal_leBytes_of_lt (lt_of_lt_of_eq (Fin.isLt x) (by decide +kernel))

theorem prob_card {α : Type} [Fintype α] (p : α → Prop) (K : ℕ) (h : {x | p x}.ncard = K) : prob p = K / Fintype.card α := by
  classical
  unfold prob
  rw [← h, Set.ncard_eq_toFinset_card']
  congr 1
  refine congrArg Nat.cast (congrArg card ?_)
  ext x
  rw [mem_filter, Set.mem_toFinset]
  exact ⟨fun h => h.2, fun h => ⟨mem_univ _, h⟩⟩

theorem prob_card_le {α : Type} [Fintype α] (p : α → Prop) (K : ℕ) (h : {x | p x}.ncard ≤ K) : prob p ≤ K / Fintype.card α := by
  rw [prob_card p _ rfl]
  exact div_le_div_of_nonneg_right (Nat.cast_le.2 h) (Nat.cast_nonneg _)

theorem card_Key_real : (Fintype.card Key : ℝ) = 2 ^ 256 := by rw [card_Key, Nat.cast_pow, Nat.cast_ofNat]

theorem multiples : {R : Key | R.Multiple}.ncard = L := by
  have e : {R : Key | R.Multiple} = (fun r : ℕ => Key.of (encodePoint (r • B))) '' (range L : Finset ℕ) := by
    ext R
    constructor
    · rintro ⟨r, hr⟩
      refine ⟨r % L, ?_, ?_⟩
      · rw [coe_range, Set.mem_Iio]
        exact Nat.mod_lt _ L_prime.pos
      · dsimp only
        rw [(smul_B_eq_iff (r % L) r).2 (Nat.mod_mod _ _), ← hr, Key.of_bytes]
    · rintro ⟨r, -, rfl⟩
      exact ⟨r, Key.bytes_of (encodePoint_length _)⟩
  rw [e, Set.InjOn.ncard_image, Set.ncard_coe_finset, card_range]
  intro r hr s hs h
  rw [coe_range, Set.mem_Iio] at hr hs
  dsimp only at h
  have h1 := congrArg Key.bytes h
  rw [Key.bytes_of (encodePoint_length _), Key.bytes_of (encodePoint_length _)] at h1
  have h2 := (smul_B_eq_iff _ _).1 (encodePoint_inj h1)
  rwa [Nat.mod_eq_of_lt hr, Nat.mod_eq_of_lt hs] at h2

theorem points : {R : Key | ∃ q, R.bytes = encodePoint q}.ncard = 8 * L := by
  have e : {R : Key | ∃ q, R.bytes = encodePoint q} = Set.range fun q : Pt => Key.of (encodePoint q) := by
    ext R
    constructor
    · rintro ⟨q, hq⟩
      exact ⟨q, by dsimp only; rw [← hq, Key.of_bytes]⟩
    · rintro ⟨q, rfl⟩
      exact ⟨q, Key.bytes_of (encodePoint_length _)⟩
  have hi : Function.Injective fun q : Pt => Key.of (encodePoint q) := by
    intro q r h
    have h1 := congrArg Key.bytes h
    dsimp only at h1
    rw [Key.bytes_of (encodePoint_length _), Key.bytes_of (encodePoint_length _)] at h1
    exact encodePoint_inj h1
  rw [e, ← Set.image_univ, Set.ncard_image_of_injective _ hi, Set.ncard_univ, card_Pt]

/-- For one R at most 24 of the S are accepted. -/
theorem few_S (E : Env) (pub : PublicKey) (m R : Bytes) : (prob fun S : Key => verify E pub m ⟨R, S.bytes⟩ = .ok true) ≤ 24 / 2 ^ 256 := by
  have h := prob_card_le (fun S : Key => verify E pub m ⟨R, S.bytes⟩ = .ok true) 24 ?_
  · rw [card_Key_real] at h
    exact h
  · have hf : {S : Bytes | S.length = 32 ∧ verify E pub m ⟨R, S⟩ = .ok true}.Finite := by
      refine Set.Finite.subset (Set.finite_range Key.bytes) ?_
      rintro S ⟨hl, -⟩
      exact ⟨Key.of S, Key.bytes_of hl⟩
    refine le_trans ?_ (C62_at_most_24 E pub m R)
    refine Set.ncard_le_ncard_of_injOn Key.bytes ?_ (fun a _ b _ h => Key.bytes_inj h) hf
    intro S hS
    exact ⟨Key.bytes_length _, hS⟩

/-- Of seven numbers that differ by multiples of `L` at most two are stopped by the filter. -/
theorem five_pass (s : ℕ) : 5 ≤ ((range 7).filter fun i => LowBitsOk (s + i * L)).card := by
  have hL : L % 2 ^ 64 = 6346243789798364141 := by rw [L_eq]; decide +kernel
  have key : ∀ v, ((range 7).filter fun i => (s + i * L) % 2 ^ 64 = v).card ≤ 1 := by
    intro v
    rw [card_le_one]
    intro a ha b hb
    rw [mem_filter, mem_range] at ha hb
    have h1 : s + a * L ≡ s + b * L [MOD 2 ^ 64] := ha.2.trans hb.2.symm
    have h2 : a * L ≡ b * L [MOD 2 ^ 64] := Nat.ModEq.add_left_cancel' s h1
    have hc : Nat.gcd (2 ^ 64) L = 1 := by
      rw [Nat.gcd_rec, hL]
      decide +kernel
    have h3 : a ≡ b [MOD 2 ^ 64] := Nat.ModEq.cancel_right_of_coprime hc h2
    unfold Nat.ModEq at h3
    rw [Nat.mod_eq_of_lt (by omega), Nat.mod_eq_of_lt (by omega)] at h3
    exact h3
  have h1 := key 0
  have h2 := key (L % 2 ^ 64)
  have h3 : ((range 7).filter fun i => ¬ LowBitsOk (s + i * L)).card ≤ 2 := by
    refine (card_le_card (t := ((range 7).filter fun i => (s + i * L) % 2 ^ 64 = 0) ∪ (range 7).filter fun i => (s + i * L) % 2 ^ 64 = L % 2 ^ 64) ?_).trans
      ((card_union_le _ _).trans (by omega))
    intro i hi
    rw [mem_filter] at hi
    rw [mem_union, mem_filter, mem_filter]
    by_contra hn
    exact hi.2 ⟨fun h => hn (.inl ⟨hi.1, h⟩), fun h => hn (.inr ⟨hi.1, h⟩)⟩
  have h4 := card_filter_add_card_filter_not (s := range 7) (fun i => LowBitsOk (s + i * L))
  rw [card_range] at h4
  omega

section

variable (E : Env) (k : PrivateKey) (pub : PublicKey) (hk : derivePublicKey E (some k) = .ok pub) (m : Bytes)

include hk

/-- An accepted R belongs to a multiple of the base point. -/
theorem accepted_multiple (R S : Key) (h : verify E pub m ⟨R.bytes, S.bytes⟩ = .ok true) : R.Multiple := by
  obtain ⟨pk, q, p1, p2, p3, p4, p5, p6, p7⟩ := C29_derived E k
  have e := Out.ok.inj (p1.symm.trans hk)
  subst e
  obtain ⟨-, -, -, A, hA, hR⟩ := (C20_accepts_iff_any E S.bytes (Key.bytes_length _) pk m R.bytes).1 h
  rw [List.take_of_length_le (by omega)] at hA
  rw [GC.decodes_unique hA p4, p5, ← natCast_zsmul, ← natCast_zsmul, smul_smul, ← sub_smul] at hR
  refine ⟨((nafVal (leVal S.bytes) - (challenge E R.bytes pk.raw m : ℤ) * (secretScalar E k.raw : ℤ)) % L).toNat, ?_⟩
  refine hR.trans (congrArg encodePoint ?_)
  have hL0 : (0 : ℤ) < L := by exact_mod_cast L_prime.pos
  rw [← natCast_zsmul, Int.toNat_of_nonneg (Int.emod_nonneg _ hL0.ne'), zsmul_B_eq_iff]
  exact (Int.mod_modEq _ _).symm

/-- For every multiple of the base point at least five of the S are accepted. -/
theorem five_S (R : Key) (hR : R.Multiple) : 5 / 2 ^ 256 ≤ prob fun S : Key => verify E pub m ⟨R.bytes, S.bytes⟩ = .ok true := by
  obtain ⟨pk, q, p1, p2, p3, p4, p5, p6, p7⟩ := C29_derived E k
  have e := Out.ok.inj (p1.symm.trans hk)
  subst e
  obtain ⟨r, hr⟩ := hR
  have hLlt : 7 * L < 2 ^ 255 := by rw [L_eq]; decide +kernel
  have hLp := L_prime.pos
  obtain ⟨s, hs⟩ : ∃ s, s = (r + challenge E R.bytes pk.raw m * secretScalar E k.raw) % L := ⟨_, rfl⟩
  have hsL : s < L := by rw [hs]; exact Nat.mod_lt _ hLp
  have hlt : ∀ i ∈ (range 7).filter fun i => LowBitsOk (s + i * L), s + i * L < 2 ^ 255 := by
    intro i hi
    rw [mem_filter, mem_range] at hi
    have : i * L ≤ 6 * L := Nat.mul_le_mul_right _ (by omega)
    omega
  let f : ℕ → Key := fun i => Key.of (leBytes 32 (s + i * L))
  have hf : ∀ i ∈ (range 7).filter fun i => LowBitsOk (s + i * L), leVal (f i).bytes = s + i * L := by
    intro i hi
    have := hlt i hi
    dsimp only [f]
    rw [Key.bytes_of (leBytes_length _ _)]
    exact leVal_leBytes_of_lt (lt_trans this (by decide +kernel))
  have hn : 5 ≤ {S : Key | verify E pk m ⟨R.bytes, S.bytes⟩ = .ok true}.ncard := by
    refine (five_pass s).trans ?_
    rw [← Set.ncard_coe_finset]
    refine Set.ncard_le_ncard_of_injOn f ?_ ?_ (Set.toFinite _)
    · intro i hi
      have hi' := mem_coe.1 hi
      have hv := hf i hi'
      have hb := hlt i hi'
      rw [Set.mem_ofPred_eq, C20_accepts_iff E _ _ _ (by dsimp only; rw [Key.bytes_length]) (by dsimp only; rw [hv]; exact hb)]
      dsimp only
      rw [hv]
      refine ⟨(mem_filter.1 hi').2, p7, .inl p2, q, by rw [List.take_of_length_le (by omega)]; exact p4, ?_⟩
      rw [hr] at hs
      rw [hr, p5, smul_smul]
      refine congrArg encodePoint ?_
      rw [eq_sub_iff_add_eq, ← add_smul, smul_B_eq_iff, Nat.add_mul_mod_self_right, hs, Nat.mod_mod]
    · intro i hi j hj h
      have h1 := congrArg (fun x : Key => leVal x.bytes) h
      rw [hf i (mem_coe.1 hi), hf j (mem_coe.1 hj)] at h1
      exact Nat.eq_of_mul_eq_mul_right hLp (Nat.add_left_cancel h1)
  rw [prob_card _ _ rfl, card_Key_real]
  exact div_le_div_of_nonneg_right (by exact_mod_cast hn) (pow_nonneg two_pos.le _)

/-- C107: for a derived public key and any message, a signature of 64 random bytes is accepted with a probability of at most 24 L / 2^512. -/
theorem C107_at_most : (prob fun x : Key × Key => verify E pub m ⟨x.1.bytes, x.2.bytes⟩ = .ok true) ≤ 24 * L / 2 ^ 512 := by
  have h0 : (0 : ℝ) ≤ 24 / 2 ^ 256 := div_nonneg (by norm_num) (pow_nonneg two_pos.le _)
  rw [prob_eq_avg, avg_prod]
  have h : ∀ R : Key, (avg fun S : Key => ind (verify E pub m ⟨R.bytes, S.bytes⟩ = .ok true)) ≤ 24 / 2 ^ 256 * ind R.Multiple := by
    intro R
    by_cases hR : R.Multiple
    · rw [ind_true hR, mul_one, ← prob_eq_avg]
      exact few_S E pub m R.bytes
    · rw [ind_false hR, mul_zero, avg_congr fun S => ind_false fun hv => hR (accepted_multiple E k pub hk m R S hv)]
      exact avg_const_le le_rfl
  refine (avg_mono h).trans (le_of_eq ?_)
  rw [avg_mul_left, ← prob_eq_avg, prob_card _ _ multiples, card_Key_real]
  have e : (2 : ℝ) ^ 512 = 2 ^ 256 * 2 ^ 256 := pow_add (2 : ℝ) 256 256
  rw [e]
  generalize (2 : ℝ) ^ 256 = x
  rw [div_mul_div_comm]

/-- C107: and with a probability of at least 5 L / 2^512. -/
theorem C107_at_least : 5 * L / 2 ^ 512 ≤ prob fun x : Key × Key => verify E pub m ⟨x.1.bytes, x.2.bytes⟩ = .ok true := by
  rw [prob_eq_avg, avg_prod]
  have h : ∀ R : Key, 5 / 2 ^ 256 * ind R.Multiple ≤ avg fun S : Key => ind (verify E pub m ⟨R.bytes, S.bytes⟩ = .ok true) := by
    intro R
    by_cases hR : R.Multiple
    · rw [ind_true hR, mul_one, ← prob_eq_avg]
      exact five_S E k pub hk m R hR
    · rw [ind_false hR, mul_zero]
      exact avg_nonneg fun _ => ind_nonneg _
  refine le_trans (le_of_eq ?_) (avg_mono h)
  rw [avg_mul_left, ← prob_eq_avg, prob_card _ _ multiples, card_Key_real]
  have e : (2 : ℝ) ^ 512 = 2 ^ 256 * 2 ^ 256 := pow_add (2 : ℝ) 256 256
  rw [e]
  generalize (2 : ℝ) ^ 256 = x
  rw [div_mul_div_comm]

/-- C107: for every R at least five S are accepted if it is the encoding of a multiple of the base point, and none otherwise. -/
theorem C107_which (R : Key) : (R.Multiple → 5 ≤ {S : Key | verify E pub m ⟨R.bytes, S.bytes⟩ = .ok true}.ncard) ∧
    (¬ R.Multiple → ∀ S : Key, verify E pub m ⟨R.bytes, S.bytes⟩ ≠ .ok true) := by
  refine ⟨fun hR => ?_, fun hR S h => hR (accepted_multiple E k pub hk m R S h)⟩
  have h := five_S E k pub hk m R hR
  rw [prob_card _ _ rfl, card_Key_real, div_le_div_iff_of_pos_right (pow_pos two_pos _)] at h
  exact_mod_cast h

end

/-- C107: for any public key at all the probability is at most 24 * 8 L / 2^512, which is less than 1 / 2^252. -/
theorem C107_any_key (E : Env) (pub : PublicKey) (m : Bytes) :
    (prob fun x : Key × Key => verify E pub m ⟨x.1.bytes, x.2.bytes⟩ = .ok true) ≤ 24 * (8 * L) / 2 ^ 512 ∧ (24 * (8 * L) / 2 ^ 512 : ℝ) < 1 / 2 ^ 252 := by
  constructor
  · rw [prob_eq_avg, avg_prod]
    have h : ∀ R : Key, (avg fun S : Key => ind (verify E pub m ⟨R.bytes, S.bytes⟩ = .ok true)) ≤ 24 / 2 ^ 256 * ind (∃ q, R.bytes = encodePoint q) := by
      intro R
      by_cases hR : ∃ q, R.bytes = encodePoint q
      · rw [ind_true hR, mul_one, ← prob_eq_avg]
        exact few_S E pub m R.bytes
      · rw [ind_false hR, mul_zero, avg_congr fun S => ind_false fun hv => hR (C62_R_canonical E pub m R.bytes S.bytes (Key.bytes_length _) hv)]
        exact avg_const_le le_rfl
    refine (avg_mono h).trans (le_of_eq ?_)
    rw [avg_mul_left, ← prob_eq_avg, prob_card _ _ points, card_Key_real]
    have e : (2 : ℝ) ^ 512 = 2 ^ 256 * 2 ^ 256 := pow_add (2 : ℝ) 256 256
    rw [e]
    generalize (2 : ℝ) ^ 256 = x
    rw [div_mul_div_comm, Nat.cast_mul, Nat.cast_ofNat]
  · have h1 : (L : ℝ) < 2 ^ 252 + 2 ^ 250 := by
      have : L < 2 ^ 252 + 2 ^ 250 := by rw [L_eq]; decide +kernel
      have h := (Nat.cast_lt (α := ℝ)).2 this
      rwa [Nat.cast_add, Nat.cast_pow, Nat.cast_pow, Nat.cast_ofNat] at h
    have e : (2 : ℝ) ^ 512 = 2 ^ 252 * (2 ^ 10 * 2 ^ 250) := by rw [← pow_add, ← pow_add]
    have e2 : (2 : ℝ) ^ 252 = 2 ^ 2 * 2 ^ 250 := by rw [← pow_add]
    have h0 : (0 : ℝ) < 2 ^ 252 := pow_pos two_pos _
    have h0' : (0 : ℝ) < 2 ^ 250 := pow_pos two_pos _
    rw [e2] at h1
    rw [e]
    generalize (2 : ℝ) ^ 252 = x at *
    generalize (2 : ℝ) ^ 250 = y at *
    rw [div_lt_div_iff₀ (by positivity) h0]
    have hxy : 0 < x * y := mul_pos h0 h0'
    generalize (L : ℝ) = l at *
    clear e e2
    have h2 : l * x < (2 ^ 2 * y + y) * x := mul_lt_mul_of_pos_right h1 h0
    linarith

/-- The hypotheses of C107: every private key has a derived public key; there are multiples of the base point and 32 bytes that are none. -/
example (E : Env) : (∃ pub, derivePublicKey E (some (newPrivateKey [7])) = .ok pub) ∧ (∃ R : Key, R.Multiple) ∧ ∃ R : Key, ¬ R.Multiple := by
  refine ⟨⟨_, derive_spec E _⟩, ⟨Key.of (encodePoint (3 • B)), 3, Key.bytes_of (encodePoint_length _)⟩, ?_⟩
  by_contra hn
  push Not at hn
  have h : {R : Key | R.Multiple} = Set.univ := Set.eq_univ_of_forall hn
  have h1 := multiples
  rw [h, Set.ncard_univ, Nat.card_eq_fintype_card, card_Key] at h1
  have h2 := L_lt
  have h3 : (2 : ℕ) ^ 253 < 2 ^ 256 := by decide +kernel
  omega

end Ed

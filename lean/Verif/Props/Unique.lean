import Verif.Props.Attack
import Verif.Props.Eavesdrop

/-!
# Property C103: public keys and commitments do not repeat, if SHA3-512 is like a random function
-/

set_option autoImplicit false

namespace Ed

open Finset

/-! ## Union bounds -/

section
variable {α : Type} [Fintype α]

theorem prob_exists_lt (p : ℕ → α → Prop) (c : ℝ) : ∀ n : ℕ, (∀ i < n, prob (p i) ≤ c) → (prob fun x => ∃ i < n, p i x) ≤ n * c
  | 0, _ => by
    rw [prob_eq_avg]
    refine le_of_eq ?_
    have : ∀ x : α, ind (∃ i < 0, p i x) = 0 := fun x => ind_false (by rintro ⟨i, hi, -⟩; omega)
    rw [avg_congr this]
    unfold avg
    simp
  | n + 1, h => by
    have ih := prob_exists_lt p c n fun i hi => h i (by omega)
    have hn := h n (by omega)
    rw [prob_eq_avg] at ih hn ⊢
    have : ∀ x : α, ind (∃ i < n + 1, p i x) ≤ ind (∃ i < n, p i x) + ind (p n x) := by
      intro x
      by_cases h1 : p n x
      · rw [ind_true h1]
        have := ind_le_one (∃ i < n + 1, p i x)
        have := ind_nonneg (∃ i < n, p i x)
        linarith
      · rw [ind_false h1, add_zero]
        refine ind_mono ?_
        rintro ⟨i, hi, hp⟩
        refine ⟨i, ?_, hp⟩
        rcases Nat.lt_succ_iff_lt_or_eq.1 hi with h2 | h2
        · exact h2
        · subst h2; exact absurd hp h1
    refine (avg_mono this).trans ?_
    rw [avg_add]
    push_cast
    linarith

theorem prob_exists_pair (p : ℕ → ℕ → α → Prop) (c : ℝ) : ∀ n : ℕ, (∀ i j, i < j → j < n → prob (p i j) ≤ c) →
    (prob fun x => ∃ i j, i < j ∧ j < n ∧ p i j x) ≤ n * (n - 1) / 2 * c
  | 0, _ => by
    rw [prob_eq_avg]
    refine le_of_eq ?_
    have : ∀ x : α, ind (∃ i j, i < j ∧ j < 0 ∧ p i j x) = 0 := fun x => ind_false (by rintro ⟨i, j, _, hj, -⟩; omega)
    rw [avg_congr this]
    unfold avg
    simp
  | n + 1, h => by
    have ih := prob_exists_pair p c n fun i j hi hj => h i j hi (by omega)
    have hn := prob_exists_lt (fun i => p i n) c n fun i hi => h i n hi (by omega)
    rw [prob_eq_avg] at ih hn ⊢
    have : ∀ x : α, ind (∃ i j, i < j ∧ j < n + 1 ∧ p i j x) ≤ ind (∃ i j, i < j ∧ j < n ∧ p i j x) + ind (∃ i < n, p i n x) := by
      intro x
      by_cases h1 : ∃ i < n, p i n x
      · rw [ind_true h1]
        have := ind_le_one (∃ i j, i < j ∧ j < n + 1 ∧ p i j x)
        have := ind_nonneg (∃ i j, i < j ∧ j < n ∧ p i j x)
        linarith
      · rw [ind_false h1, add_zero]
        refine ind_mono ?_
        rintro ⟨i, j, hi, hj, hp⟩
        refine ⟨i, j, hi, ?_, hp⟩
        rcases Nat.lt_succ_iff_lt_or_eq.1 hj with h2 | h2
        · exact h2
        · subst h2; exact absurd ⟨i, hi, hp⟩ h1
    refine (avg_mono this).trans ?_
    rw [avg_add]
    have e : ((n + 1 : ℕ) : ℝ) * ((n + 1 : ℕ) - 1) / 2 * c = n * (n - 1) / 2 * c + n * c := by push_cast; ring
    rw [e]
    linarith

end

/-! ## Independent entries -/

section
variable {I D : Type} [Fintype I] [DecidableEq I] [Fintype D] [Nonempty D]

theorem avg_one (i : I) (F : D → ℝ) : (avg fun g : I → D => F (g i)) = avg F := by
  rw [avg_entry i fun d _ => F d]
  exact avg_congr fun d => avg_const (F d)

theorem avg_two {i j : I} (h : i ≠ j) (F : D → D → ℝ) : (avg fun g : I → D => F (g i) (g j)) = avg fun d => avg fun d' => F d d' := by
  rw [avg_entry i fun d g => F d (g j)]
  refine avg_congr fun d => ?_
  rw [← avg_one j (F d)]
  refine avg_congr fun g => ?_
  rw [Function.update_of_ne h.symm]

/-- An entry meets a value that does not depend on it no more often than a random entry meets a fixed value. -/
theorem avg_meets (i : I) (φ : D → ℕ) (T : (I → D) → ℕ) (hT : ∀ g d, T (Function.update g i d) = T g) (c : ℝ)
    (hc : ∀ t, (avg fun d : D => ind (φ d = t)) ≤ c) : (avg fun g : I → D => ind (φ (g i) = T g)) ≤ c := by
  have c0 : 0 ≤ c := le_trans (avg_nonneg fun _ => ind_nonneg _) (hc 0)
  rw [avg_entry i fun d g => ind (φ d = T g)]
  have : ∀ d, (avg fun g : I → D => ind (φ d = T (Function.update g i d))) = avg fun g : I → D => ind (φ d = T g) :=
    fun d => avg_congr fun g => by rw [hT]
  rw [avg_congr this, avg_comm]
  exact (avg_mono fun g => hc (T g)).trans (avg_const_le c0)

end

/-! ## Counting digests -/

theorem count_middle {a m b t : ℕ} (ha : 0 < a) (ht : t < m) : ((range (a * m * b)).filter fun n => n / a % m = t).card = a * b := by
  have hm : 0 < m := by omega
  rw [show a * b = ((range a) ×ˢ (range b)).card by rw [card_product, card_range, card_range]]
  refine card_nbij' (fun n => (n % a, n / (a * m))) (fun x => x.1 + a * (t + m * x.2)) ?_ ?_ ?_ ?_
  · intro n hn
    rw [mem_coe, mem_filter, mem_range] at hn
    rw [mem_coe, mem_product, mem_range, mem_range]
    exact ⟨Nat.mod_lt _ ha, Nat.div_lt_of_lt_mul hn.1⟩
  · rintro ⟨x, y⟩ hx
    rw [mem_coe, mem_product, mem_range, mem_range] at hx
    dsimp only at hx
    rw [mem_coe, mem_filter, mem_range]
    dsimp only
    rw [Nat.add_mul_div_left _ _ ha, Nat.div_eq_of_lt hx.1, Nat.zero_add, Nat.add_mul_mod_self_left, Nat.mod_eq_of_lt ht]
    refine ⟨?_, rfl⟩
    have h1 : t + m * y + 1 ≤ m * b := by nlinarith
    have h2 : a * (t + m * y + 1) ≤ a * (m * b) := Nat.mul_le_mul_left a h1
    rw [Nat.mul_assoc]
    rw [Nat.mul_add, Nat.mul_one] at h2
    omega
  · intro n hn
    rw [mem_coe, mem_filter, mem_range] at hn
    dsimp only
    rw [← Nat.div_div_eq_div_mul, ← hn.2, Nat.mod_add_div, Nat.mod_add_div]
  · rintro ⟨x, y⟩ hx
    rw [mem_coe, mem_product, mem_range, mem_range] at hx
    dsimp only at hx ⊢
    rw [Nat.add_mul_mod_self_left, Nat.mod_eq_of_lt hx.1, ← Nat.div_div_eq_div_mul, Nat.add_mul_div_left _ _ ha, Nat.div_eq_of_lt hx.1, Nat.zero_add,
      Nat.add_mul_div_left _ _ hm, Nat.div_eq_of_lt ht, Nat.zero_add]

/-- The free bits of the scalar. -/
theorem scalarOf_eq (d : Digest) : scalarOf d = 2 ^ 254 + 8 * (d.val / 8 % 2 ^ 251) := by
  unfold scalarOf
  rw [← leVal_take, Digest.leVal_bytes]
  have : ∀ v : ℕ, v % 256 ^ 32 / 8 % 2 ^ 251 = v / 8 % 2 ^ 251 := by
    intro v
    have e : (256 : ℕ) ^ 32 = 8 * 2 ^ 253 := by decide +kernel
    rw [e, Nat.mod_mul_right_div_self]
    exact Nat.mod_mod_of_dvd _ (Nat.pow_dvd_pow 2 (by norm_num))
  rw [this]

theorem scalar_class (e : Digest) [DecidablePred fun d : Digest => scalarOf d = scalarOf e] :
    (univ.filter fun d : Digest => scalarOf d = scalarOf e).card = 8 * 2 ^ 258 := by
  have ht : e.val / 8 % 2 ^ 251 < 2 ^ 251 := Nat.mod_lt _ (by positivity)
  rw [← count_middle (b := 2 ^ 258) (show 0 < 8 by norm_num) ht]
  have e3 : (8 : ℕ) * 2 ^ 251 * 2 ^ 258 = 2 ^ 512 := by decide +kernel
  rw [e3]
  refine card_nbij Digest.val ?_ ?_ ?_
  · intro d hd
    rw [mem_coe, mem_filter] at hd
    rw [mem_coe, mem_filter, mem_range]
    refine ⟨d.val_lt, ?_⟩
    have := hd.2
    rw [scalarOf_eq, scalarOf_eq] at this
    omega
  · intro d _ d' _ h
    exact Fin.ext h
  · intro n hn
    rw [mem_coe, mem_filter, mem_range] at hn
    let d : Digest := ⟨n, hn.1⟩
    have hd : d.val = n := rfl
    refine ⟨d, ?_, hd⟩
    refine mem_coe.2 (mem_filter.2 ⟨mem_univ _, ?_⟩)
    rw [scalarOf_eq, scalarOf_eq, hd, hn.2]

theorem avg_scalar (e : Digest) : (avg fun d : Digest => ind (scalarOf d = scalarOf e)) = 1 / 2 ^ 251 := by
  rw [← prob_eq_avg]
  unfold prob
  rw [scalar_class, card_Digest]
  have h1 : ((8 * 2 ^ 258 : ℕ) : ℝ) = 2 ^ 261 := by
    rw [show (8 * 2 ^ 258 : ℕ) = 2 ^ 261 by decide +kernel, Nat.cast_pow, Nat.cast_ofNat]
  have h2 : (2 : ℝ) ^ 512 = 2 ^ 251 * 2 ^ 261 := pow_add (2 : ℝ) 251 261
  have h3 : (2 : ℝ) ^ 261 ≠ 0 := pow_ne_zero _ two_ne_zero
  rw [h1, Nat.cast_pow, Nat.cast_ofNat, h2]
  generalize (2 : ℝ) ^ 261 = x at h3
  rw [mul_comm, ← div_div, div_self h3]

theorem prob_of_count {α : Type} [Fintype α] (p : α → Prop) (K : ℕ) (h : ∀ _ : DecidablePred p, (univ.filter p).card ≤ K) :
    prob p ≤ K / Fintype.card α := by
  unfold prob
  exact div_le_div_of_nonneg_right (Nat.cast_le.2 (h _)) (Nat.cast_nonneg _)

theorem avg_class (t : ℕ) : (avg fun d : Digest => ind (d.val % L = t)) ≤ 1 / 2 ^ 252 := by
  have h2 : 2 ^ 512 / L + 1 ≤ 2 ^ 260 := by rw [L_eq]; decide +kernel
  have h1 := prob_of_count (fun d : Digest => d.val % L = t) (2 ^ 512 / L + 1) fun _ => digest_class t
  rw [prob_eq_avg] at h1
  refine h1.trans ?_
  generalize 2 ^ 512 / L + 1 = K at h2
  have h5 : (K : ℝ) ≤ 2 ^ 260 := by
    have := (Nat.cast_le (α := ℝ)).2 h2
    rwa [Nat.cast_pow, Nat.cast_ofNat] at this
  have h4 : (2 : ℝ) ^ 512 = 2 ^ 252 * 2 ^ 260 := pow_add (2 : ℝ) 252 260
  have h3 : (0 : ℝ) < 2 ^ 260 := pow_pos two_pos _
  have h6 : (0 : ℝ) < 2 ^ 252 := pow_pos two_pos _
  rw [card_Digest, Nat.cast_pow, Nat.cast_ofNat, h4]
  generalize (2 : ℝ) ^ 260 = x at *
  generalize (2 : ℝ) ^ 252 = y at *
  rw [div_le_div_iff₀ (mul_pos h6 h3) h6]
  nlinarith

/-! ## C103 -/

theorem onAll_mem {X : Finset Bytes} (f : X → Digest) {x : Bytes} (h : x ∈ X) : onAll f x = f ⟨x, h⟩ := by
  unfold onAll; rw [dif_pos h]

theorem derive_withHash (E : Env) (f : Bytes → Digest) (k k' : Bytes) :
    derivePublicKey (E.withHash f) (some (newPrivateKey k)) = derivePublicKey (E.withHash f) (some (newPrivateKey k')) ↔
      scalarOf (f k) = scalarOf (f k') := by
  have hs : ∀ x, scalarOf (f x) = secretScalar (E.withHash f) x := fun x => rfl
  rw [hs, hs, derive_spec, derive_spec]
  constructor
  · intro h
    have h := encodePoint_inj (PublicKey.mk.inj (Out.ok.inj h))
    refine ((secret_smul_eq_iff (E.withHash f) _ _ B).mp h).resolve_left fun h8 => ?_
    rw [← addOrderOf_dvd_iff_nsmul_eq_zero, addOrderOf_B] at h8
    have := Nat.le_of_dvd (by norm_num) h8
    have := L_gt
    omega
  · intro h
    unfold publicKeyOf
    show Out.ok (PublicKey.mk (encodePoint (secretScalar (E.withHash f) k • B))) = Out.ok (PublicKey.mk (encodePoint (secretScalar (E.withHash f) k' • B)))
    rw [h]

/-- C103: two private keys have the same public key with probability 2^-251, exactly. -/
theorem C103_two_keys (E : Env) (X : Finset Bytes) (k k' : Bytes) (hk : k ∈ X) (hk' : k' ∈ X) (hne : k ≠ k') :
    (prob fun f : X → Digest => derivePublicKey (E.withHash (onAll f)) (some (newPrivateKey k)) =
      derivePublicKey (E.withHash (onAll f)) (some (newPrivateKey k'))) = 1 / 2 ^ 251 := by
  rw [prob_eq_avg]
  have h : ∀ f : X → Digest, ind (derivePublicKey (E.withHash (onAll f)) (some (newPrivateKey k)) =
      derivePublicKey (E.withHash (onAll f)) (some (newPrivateKey k'))) = ind (scalarOf (f ⟨k, hk⟩) = scalarOf (f ⟨k', hk'⟩)) := by
    intro f
    rw [ind_congr (derive_withHash E (onAll f) k k'), onAll_mem f hk, onAll_mem f hk']
  rw [avg_congr h, avg_two (show (⟨k, hk⟩ : X) ≠ ⟨k', hk'⟩ from fun e => hne (congrArg Subtype.val e)) fun d d' => ind (scalarOf d = scalarOf d'), avg_comm]
  rw [avg_congr fun d' => avg_scalar d', avg_const]

/-- C103: n key pairs that `GenerateKeyPair` makes from random bytes, delivered in pieces of any sizes, have n different public keys but for
a probability of n (n - 1) / 2 times (2^-251 + 2^-256). -/
theorem C103_generated (E : Env) (X : Finset Bytes) (hX : ∀ x : Bytes, x.length = 32 → x ∈ X) (n : ℕ) (seed : ℕ → ℕ) (w : ℕ → (Fin n → Key) → World)
    (hw : ∀ (i : Fin n) (k : Fin n → Key), (avail (w i k (seed i))).take 32 = (k i).bytes) :
    (prob fun x : (Fin n → Key) × (X → Digest) => ∃ i j, i < j ∧ j < n ∧ ∃ a b : KeyPair,
      (generateKeyPair (E.withHash (onAll x.2)) (seed i) (w i x.1)).1 = .ok a ∧
      (generateKeyPair (E.withHash (onAll x.2)) (seed j) (w j x.1)).1 = .ok b ∧ a.pub = b.pub) ≤ n * (n - 1) / 2 * (1 / 2 ^ 251 + 1 / 2 ^ 256) := by
  classical
  refine prob_exists_pair (fun i j (x : (Fin n → Key) × (X → Digest)) => ∃ a b : KeyPair,
      (generateKeyPair (E.withHash (onAll x.2)) (seed i) (w i x.1)).1 = .ok a ∧
      (generateKeyPair (E.withHash (onAll x.2)) (seed j) (w j x.1)).1 = .ok b ∧ a.pub = b.pub) _ n ?_
  intro i j hij hj
  have gen : ∀ (f : X → Digest) (i : Fin n) (k : Fin n → Key) (a : KeyPair),
      (generateKeyPair (E.withHash (onAll f)) (seed i) (w i k)).1 = .ok a → a.pub = ⟨publicKeyOf (E.withHash (onAll f)) (k i).bytes⟩ := by
    intro f i k a ha
    have hl : 32 ≤ (avail (w i k (seed i))).length := by
      have h := congrArg List.length (hw i k)
      rw [List.length_take, Key.bytes_length] at h
      omega
    have hc : (content (w i k (seed i))).take 32 = (k i).bytes := by
      obtain ⟨t, ht⟩ := avail_prefix (w i k (seed i))
      rw [ht, List.take_append_of_le_length hl, hw i k]
    have h1 := (C28_generate (E.withHash (onAll f)) (seed i) (w i k) hl).1
    rw [hc, ha] at h1
    rw [Out.ok.inj h1]
  rw [prob_eq_avg, avg_prod]
  let i' : Fin n := ⟨i, by omega⟩
  let j' : Fin n := ⟨j, hj⟩
  have hne : i' ≠ j' := fun e => by have := congrArg Fin.val e; simp only [i', j'] at this; omega
  have key : ∀ k : Fin n → Key, (avg fun f : X → Digest => ind (∃ a b : KeyPair,
      (generateKeyPair (E.withHash (onAll f)) (seed i) (w i k)).1 = .ok a ∧
      (generateKeyPair (E.withHash (onAll f)) (seed j) (w j k)).1 = .ok b ∧ a.pub = b.pub)) ≤ 1 / 2 ^ 251 + ind (k i' = k j') := by
    intro k
    by_cases hk : k i' = k j'
    · rw [ind_true hk]
      have h1 : (avg fun f : X → Digest => ind (∃ a b : KeyPair,
        (generateKeyPair (E.withHash (onAll f)) (seed i) (w i k)).1 = .ok a ∧
        (generateKeyPair (E.withHash (onAll f)) (seed j) (w j k)).1 = .ok b ∧ a.pub = b.pub)) ≤ 1 :=
        (avg_mono fun f => ind_le_one _).trans (avg_const_le zero_le_one)
      have h2 : (0 : ℝ) ≤ 1 / 2 ^ 251 := by positivity
      linarith
    · rw [ind_false hk, add_zero]
      have hb : (k i').bytes ≠ (k j').bytes := fun e => hk (by rw [← Key.of_bytes (k i'), e, Key.of_bytes])
      rw [← C103_two_keys E X (k i').bytes (k j').bytes (hX _ (Key.bytes_length _)) (hX _ (Key.bytes_length _)) hb, prob_eq_avg]
      refine avg_mono fun f => ind_mono ?_
      rintro ⟨a, b, ha, hb, hab⟩
      have h1 := gen f i' k a ha
      have h2 := gen f j' k b hb
      rw [derive_spec, derive_spec]
      show Out.ok (PublicKey.mk (publicKeyOf (E.withHash (onAll f)) (k i').bytes)) = Out.ok (PublicKey.mk (publicKeyOf (E.withHash (onAll f)) (k j').bytes))
      rw [← h1, ← h2, hab]
  refine (avg_mono key).trans ?_
  rw [avg_add, avg_const, avg_two hne fun a b => ind (a = b), avg_comm]
  have h3 : ∀ y : Key, (avg fun d : Key => ind (d = y)) = 1 / 2 ^ 256 := fun y => by rw [← prob_eq_avg, prob_key]
  rw [avg_congr h3, avg_const]

/-- C103: two signatures of one key pair for different messages have the same R with probability at most 2^-252. -/
theorem C103_two_signatures (E : Env) (X : Finset Bytes) (k : Bytes) (hk : k ∈ X) (pub : (X → Digest) → PublicKey) (m m' : Bytes) (hne : m ≠ m')
    (hX : ∀ x : Bytes, x.length = 32 → x ++ m ∈ X ∧ x ++ m' ∈ X) :
    (prob fun f : X → Digest => ∃ s s' : Signature, sign (E.withHash (onAll f)) ⟨some (newPrivateKey k), pub f⟩ m = .ok s ∧
      sign (E.withHash (onAll f)) ⟨some (newPrivateKey k), pub f⟩ m' = .ok s' ∧ s.R = s'.R) ≤ 1 / 2 ^ 252 := by
  classical
  rw [prob_eq_avg]
  have imp : ∀ f : X → Digest, ind (∃ s s' : Signature, sign (E.withHash (onAll f)) ⟨some (newPrivateKey k), pub f⟩ m = .ok s ∧
      sign (E.withHash (onAll f)) ⟨some (newPrivateKey k), pub f⟩ m' = .ok s' ∧ s.R = s'.R) ≤
      ind ((f ⟨prefixOf (f ⟨k, hk⟩) ++ m, (hX _ (prefixOf_length _)).1⟩).val % L = (f ⟨prefixOf (f ⟨k, hk⟩) ++ m', (hX _ (prefixOf_length _)).2⟩).val % L) := by
    intro f
    refine ind_mono ?_
    rintro ⟨s, s', hs, hs', hR⟩
    have e : ∀ (m : Bytes) (s : Signature), (h : ∀ x : Bytes, x.length = 32 → x ++ m ∈ X) →
        sign (E.withHash (onAll f)) ⟨some (newPrivateKey k), pub f⟩ m = .ok s →
        s.R = encodePoint (((f ⟨prefixOf (f ⟨k, hk⟩) ++ m, h _ (prefixOf_length _)⟩).val % L) • B) := by
      intro m s h hs
      rw [C19_sign] at hs
      split at hs
      · rw [← Out.ok.inj hs]
        show encodePoint ((leVal (onAll f (prefixOf (onAll f k) ++ m)).bytes % L) • B) = _
        rw [Digest.leVal_bytes, onAll_mem f hk, onAll_mem f (h _ (prefixOf_length _))]
      · exact nomatch hs
    rw [e m s (fun x hx => (hX x hx).1) hs, e m' s' (fun x hx => (hX x hx).2) hs'] at hR
    have := (smul_B_eq_iff _ _).1 (encodePoint_inj hR)
    rwa [Nat.mod_mod, Nat.mod_mod] at this
  refine (avg_mono imp).trans ?_
  have c0 : (0 : ℝ) ≤ 1 / 2 ^ 252 := by positivity
  rw [avg_entry (⟨k, hk⟩ : X) fun d f => ind ((f ⟨prefixOf d ++ m, (hX _ (prefixOf_length _)).1⟩).val % L = (f ⟨prefixOf d ++ m', (hX _ (prefixOf_length _)).2⟩).val % L)]
  refine le_trans (avg_mono fun d => ?_) (avg_const_le (α := Digest) c0)
  have hxy : (⟨prefixOf d ++ m, (hX _ (prefixOf_length _)).1⟩ : X) ≠ ⟨prefixOf d ++ m', (hX _ (prefixOf_length _)).2⟩ :=
    fun e => hne (List.append_cancel_left (congrArg Subtype.val e))
  generalize (⟨prefixOf d ++ m, (hX _ (prefixOf_length _)).1⟩ : X) = x at hxy ⊢
  generalize (⟨prefixOf d ++ m', (hX _ (prefixOf_length _)).2⟩ : X) = y at hxy ⊢
  have main : ∀ x y : X, x ≠ y → y ≠ ⟨k, hk⟩ →
      (avg fun g : X → Digest => ind ((Function.update g ⟨k, hk⟩ d y).val % L = (Function.update g ⟨k, hk⟩ d x).val % L)) ≤ 1 / 2 ^ 252 := by
    intro x y hxy hyk
    refine le_trans (le_of_eq (avg_congr fun g => ?_)) (avg_meets y (fun d : Digest => d.val % L) (fun g => (Function.update g ⟨k, hk⟩ d x).val % L)
      (fun g e => ?_) _ avg_class)
    · rw [Function.update_of_ne hyk]
    · rw [Function.update_comm hyk, Function.update_of_ne hxy]
  by_cases hy : y = ⟨k, hk⟩
  · have := main y x hxy.symm fun e => hxy (e.trans hy.symm)
    exact this
  · refine le_trans (le_of_eq (avg_congr fun g => ind_congr eq_comm)) (main x y hxy hy)

/-- C103: the signatures of n different messages by one key pair have n different R but for a probability of n (n - 1) / 2^253. -/
theorem C103_signatures (E : Env) (X : Finset Bytes) (k : Bytes) (hk : k ∈ X) (pub : (X → Digest) → PublicKey) (n : ℕ) (m : ℕ → Bytes)
    (hne : ∀ i j, i < j → j < n → m i ≠ m j) (hX : ∀ i < n, ∀ x : Bytes, x.length = 32 → x ++ m i ∈ X) :
    (prob fun f : X → Digest => ∃ i j, i < j ∧ j < n ∧ ∃ s s' : Signature, sign (E.withHash (onAll f)) ⟨some (newPrivateKey k), pub f⟩ (m i) = .ok s ∧
      sign (E.withHash (onAll f)) ⟨some (newPrivateKey k), pub f⟩ (m j) = .ok s' ∧ s.R = s'.R) ≤ n * (n - 1) / 2 ^ 253 := by
  have h := prob_exists_pair (fun i j (f : X → Digest) => ∃ s s' : Signature, sign (E.withHash (onAll f)) ⟨some (newPrivateKey k), pub f⟩ (m i) = .ok s ∧
      sign (E.withHash (onAll f)) ⟨some (newPrivateKey k), pub f⟩ (m j) = .ok s' ∧ s.R = s'.R) (1 / 2 ^ 252) n fun i j hij hj =>
    C103_two_signatures E X k hk pub (m i) (m j) (hne i j hij hj) fun x hx => ⟨hX i (by omega) x hx, hX j hj x hx⟩
  refine h.trans (le_of_eq ?_)
  have h4 : (2 : ℝ) ^ 253 = 2 * 2 ^ 252 := by norm_num
  rw [h4]
  ring

/-! ## Cases -/

/-- The hypotheses: all byte strings of at most 100 bytes, two keys of 32 bytes, messages of 1 to 60 bytes. -/
example : ∃ (X : Finset Bytes) (k k' : Bytes) (m : ℕ → Bytes), k ∈ X ∧ k' ∈ X ∧ k ≠ k' ∧ (∀ x : Bytes, x.length = 32 → x ∈ X) ∧
    (∀ i j, i < j → j < 60 → m i ≠ m j) ∧ ∀ i < 60, ∀ x : Bytes, x.length = 32 → x ++ m i ∈ X := by
  obtain ⟨X, hX⟩ := exists_short 100
  refine ⟨X, List.replicate 32 1, List.replicate 32 2, fun i => List.replicate (i + 1) 7, hX _ (by simp), hX _ (by simp), by decide, fun x hx => hX x (by omega), ?_, ?_⟩
  · intro i j hij _ h
    have := congrArg List.length h
    simp only [List.length_replicate] at this
    omega
  · intro i hi x hx
    exact hX _ (by rw [List.length_append, List.length_replicate]; omega)

/-- Readers that deliver random bytes to the n calls. -/
example (n : ℕ) : ∃ (seed : ℕ → ℕ) (w : ℕ → (Fin n → Key) → World), ∀ (i : Fin n) (k : Fin n → Key),
    (avail (w i k (seed i))).take 32 = (k i).bytes := by
  refine ⟨id, fun i k s => if h : i < n then [⟨(k ⟨i, h⟩).bytes, none⟩] else [], fun i k => ?_⟩
  dsimp only
  rw [dif_pos i.isLt]
  show ((k i).bytes ++ []).take 32 = _
  rw [List.append_nil]
  exact List.take_of_length_le (le_of_eq (Key.bytes_length _))

end Ed

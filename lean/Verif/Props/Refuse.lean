import Verif.Props.Many

/-!
# Property C110: how often Sign refuses
-/

set_option autoImplicit false

namespace Ed

open Finset

/-- A digest from its number. -/
def Digest.ofLt (n : ℕ) (h : n < 2 ^ 512) : Digest := (⟨n, h⟩ : Fin (2 ^ 512))

theorem digest_class_ge {x : ℕ} (hx : x < L) [DecidablePred fun d : Digest => d.val % L = x] :
    2 ^ 512 / L ≤ (univ.filter fun d : Digest => d.val % L = x).card := by
  have h1 : ((range (2 ^ 512)).filter fun n => n ≡ x [MOD L]).card ≤ (univ.filter fun d : Digest => d.val % L = x).card := by
    refine card_le_card_of_injOn (fun n => if h : n < 2 ^ 512 then Digest.ofLt n h else Digest.zero) ?_ ?_
    · intro n hn
      rw [mem_coe, mem_filter, mem_range] at hn
      rw [mem_coe, mem_filter]
      refine ⟨mem_univ _, ?_⟩
      dsimp only
      rw [dif_pos hn.1]
      have h2 : n % L = x % L := hn.2
      rw [Nat.mod_eq_of_lt hx] at h2
      exact h2
    · intro n hn n' hn' e
      rw [mem_coe, mem_filter, mem_range] at hn hn'
      dsimp only at e
      rw [dif_pos hn.1, dif_pos hn'.1] at e
      exact congrArg Fin.val e
  refine le_trans ?_ h1
  rw [← Nat.count_eq_card_filter_range, Nat.count_modEq_card _ L_pos]
  omega

/-- The responses below L that the filter refuses. -/
theorem refused_count : ((range L).filter fun S => ¬ LowBitsOk S).card = 2 * (L / 2 ^ 64) + 1 := by
  have e : (range L).filter (fun S => ¬ LowBitsOk S) = (range L).filter (fun S => S ≡ 0 [MOD 2 ^ 64]) ∪ (range L).filter (fun S => S ≡ L [MOD 2 ^ 64]) := by
    ext S
    rw [mem_union, mem_filter, mem_filter, mem_filter, ← and_or_left]
    refine and_congr_right fun _ => ?_
    unfold LowBitsOk Nat.ModEq
    rw [Nat.zero_mod]
    omega
  have hd : Disjoint ((range L).filter fun S => S ≡ 0 [MOD 2 ^ 64]) ((range L).filter fun S => S ≡ L [MOD 2 ^ 64]) := by
    rw [disjoint_left]
    intro S h1 h2
    have h1 := (mem_filter.1 h1).2
    have h2 := (mem_filter.1 h2).2
    have h3 : 0 % 2 ^ 64 = L % 2 ^ 64 := h1.symm.trans h2
    rw [L_eq] at h3
    exact absurd h3 (by decide +kernel)
  have h0 : L % 2 ^ 64 ≠ 0 := by rw [L_eq]; decide +kernel
  rw [e, card_union_of_disjoint hd, ← Nat.count_eq_card_filter_range, ← Nat.count_eq_card_filter_range, Nat.count_modEq_card _ (by norm_num),
    Nat.count_modEq_card _ (by norm_num), if_pos (by rw [Nat.zero_mod]; omega), if_neg (lt_irrefl _)]
  omega

theorem shift_count (p : ℕ → Prop) [DecidablePred p] (r a : ℕ) (ha : Nat.Coprime L a) :
    ((range L).filter fun t => p ((r + t * a) % L)).card = ((range L).filter p).card := by
  have hinj : Set.InjOn (fun t => (r + t * a) % L) (range L : Finset ℕ) := by
    intro t ht t' ht' h
    rw [mem_coe, mem_range] at ht ht'
    have h : r + t * a ≡ r + t' * a [MOD L] := h
    have h := Nat.ModEq.cancel_right_of_coprime ha (Nat.ModEq.add_left_cancel' r h)
    have h : t % L = t' % L := h
    rwa [Nat.mod_eq_of_lt ht, Nat.mod_eq_of_lt ht'] at h
  have him : (range L).image (fun t => (r + t * a) % L) = range L := by
    refine eq_of_subset_of_card_le ?_ (by rw [card_image_of_injOn hinj])
    intro S hS
    obtain ⟨t, -, rfl⟩ := mem_image.1 hS
    exact mem_range.2 (Nat.mod_lt _ L_pos)
  conv_rhs => rw [← him, filter_image]
  rw [card_image_of_injOn (hinj.mono (coe_subset.2 (filter_subset _ _)))]

theorem refused_digests (r a : ℕ) (ha : Nat.Coprime L a) [DecidablePred fun d : Digest => ¬ LowBitsOk ((r + d.val % L * a) % L)] :
    (2 * (L / 2 ^ 64) + 1) * (2 ^ 512 / L) ≤ (univ.filter fun d : Digest => ¬ LowBitsOk ((r + d.val % L * a) % L)).card ∧
    (univ.filter fun d : Digest => ¬ LowBitsOk ((r + d.val % L * a) % L)).card ≤ (2 * (L / 2 ^ 64) + 1) * (2 ^ 512 / L + 1) := by
  have hc := shift_count (fun S => ¬ LowBitsOk S) r a ha
  rw [refused_count] at hc
  have hs := card_eq_sum_card_fiberwise (s := univ.filter fun d : Digest => ¬ LowBitsOk ((r + d.val % L * a) % L)) (f := fun d : Digest => d.val % L)
    (t := (range L).filter fun t => ¬ LowBitsOk ((r + t * a) % L)) (by
      intro d hd
      rw [mem_coe, mem_filter] at hd
      rw [mem_coe, mem_filter]
      exact ⟨mem_range.2 (Nat.mod_lt _ L_pos), hd.2⟩)
  have hf : ∀ t ∈ (range L).filter fun t => ¬ LowBitsOk ((r + t * a) % L),
      (univ.filter fun d : Digest => ¬ LowBitsOk ((r + d.val % L * a) % L)).filter (fun d => d.val % L = t) = univ.filter fun d : Digest => d.val % L = t := by
    intro t ht
    ext d
    rw [mem_filter, mem_filter, mem_filter]
    constructor
    · exact fun h => ⟨h.1.1, h.2⟩
    · intro h
      refine ⟨⟨h.1, ?_⟩, h.2⟩
      rw [h.2]
      exact (mem_filter.1 ht).2
  have hs' := hs.trans (sum_congr rfl fun t ht => congrArg card (hf t ht))
  rw [hs']
  constructor
  · refine le_trans (le_of_eq ?_) (card_nsmul_le_sum _ _ (2 ^ 512 / L) fun t ht => digest_class_ge (mem_range.1 (mem_filter.1 ht).1))
    rw [hc, smul_eq_mul]
  · refine le_trans (sum_le_card_nsmul _ _ (2 ^ 512 / L + 1) fun t _ => digest_class t) (le_of_eq ?_)
    rw [hc, smul_eq_mul]

theorem refused_prob (r a : ℕ) (ha : Nat.Coprime L a) :
    |(prob fun d : Digest => ¬ LowBitsOk ((r + d.val % L * a) % L)) - 1 / 2 ^ 63| ≤ 1 / 2 ^ 250 := by
  classical
  have h := refused_digests r a ha
  have n1 : (2 * (L / 2 ^ 64) + 1) * (2 ^ 512 / L + 1) ≤ 2 ^ 449 + 2 ^ 262 := by rw [L_eq]; decide +kernel
  have n2 : 2 ^ 449 ≤ (2 * (L / 2 ^ 64) + 1) * (2 ^ 512 / L) + 2 ^ 262 := by rw [L_eq]; decide +kernel
  unfold prob
  rw [card_Digest]
  obtain ⟨c, hc⟩ : ∃ c, (univ.filter fun d : Digest => ¬ LowBitsOk ((r + d.val % L * a) % L)).card = c := ⟨_, rfl⟩
  rw [hc] at h
  have h1 : c ≤ 2 ^ 449 + 2 ^ 262 := h.2.trans n1
  have h2 : 2 ^ 449 ≤ c + 2 ^ 262 := n2.trans (Nat.add_le_add_right h.1 _)
  clear h n1 n2
  have h1' : (c : ℝ) ≤ 2 ^ 449 + 2 ^ 262 := by exact_mod_cast h1
  have h2' : (2 : ℝ) ^ 449 ≤ c + 2 ^ 262 := by exact_mod_cast h2
  clear h1 h2
  have hcast : ((2 ^ 512 : ℕ) : ℝ) = 2 ^ 512 := by rw [Nat.cast_pow, Nat.cast_ofNat]
  rw [hcast]
  have e1 : (1 : ℝ) / 2 ^ 63 = 2 ^ 449 / 2 ^ 512 := by
    rw [show (512 : ℕ) = 63 + 449 from rfl, pow_add, div_eq_div_iff (by positivity) (by positivity)]; ring
  have e2 : (1 : ℝ) / 2 ^ 250 = 2 ^ 262 / 2 ^ 512 := by
    rw [show (512 : ℕ) = 250 + 262 from rfl, pow_add, div_eq_div_iff (by positivity) (by positivity)]; ring
  rw [e1, e2]
  have hz : (0 : ℝ) < 2 ^ 512 := by positivity
  generalize (2 : ℝ) ^ 512 = z at *
  generalize (2 : ℝ) ^ 449 = u at *
  generalize (2 : ℝ) ^ 262 = v at *
  have hcc : ∀ k : ℕ, (k : ℝ) = (c : ℝ) → |(k : ℝ) / z - u / z| ≤ v / z := by
    intro k hk
    rw [hk, ← sub_div, abs_div, abs_of_pos hz]
    refine div_le_div_of_nonneg_right ?_ hz.le
    rw [abs_le]
    constructor <;> linarith
  refine hcc _ (congrArg Nat.cast ?_)
  rw [← hc]
  congr

theorem avg_near {α : Type} [Fintype α] [Nonempty α] {F : α → ℝ} {c ε : ℝ} (h : ∀ x, |F x - c| ≤ ε) : |avg F - c| ≤ ε := by
  have h1 : avg F ≤ c + ε := by
    rw [← avg_const (α := α) (c + ε)]
    exact avg_mono fun x => by have := (abs_le.1 (h x)).2; linarith
  have h2 : c - ε ≤ avg F := by
    rw [← avg_const (α := α) (c - ε)]
    exact avg_mono fun x => by have := (abs_le.1 (h x)).1; linarith
  rw [abs_le]
  constructor <;> linarith

theorem scalarOf_coprime (d : Digest) : Nat.Coprime L (scalarOf d) := by
  rw [Nat.Prime.coprime_iff_not_dvd L_prime, scalarOf_eq]
  have hb : d.val / 8 % 2 ^ 251 < 2 ^ 251 := Nat.mod_lt _ (by positivity)
  generalize d.val / 8 % 2 ^ 251 = n at hb
  intro h
  have e : 2 ^ 254 + 8 * n = 8 * (2 ^ 251 + n) := by
    have : (2 : ℕ) ^ 254 = 8 * 2 ^ 251 := by decide +kernel
    rw [this, Nat.mul_add]
  rw [e] at h
  have h := Nat.le_of_dvd (by positivity) (L_coprime_8.dvd_of_dvd_mul_left h)
  have hL : 2 ^ 252 < L := by rw [L_eq]; decide +kernel
  have e2 : (2 : ℕ) ^ 252 = 2 ^ 251 + 2 ^ 251 := by decide +kernel
  rw [e2] at hL
  generalize 2 ^ 251 = z at *
  omega

/-- With the hash function `f` the key pair made from the private key `sk` gets an error from `Sign` for the message `m`. -/
def Refuses (E : Env) (sk m : Bytes) (f : Bytes → Digest) : Prop :=
  ∃ kp, newKeyPair (E.withHash f) (some (newPrivateKey sk)) none = .ok kp ∧ ∃ e, sign (E.withHash f) kp m = .err e

theorem refuses_iff (E : Env) (sk m : Bytes) (f : Bytes → Digest) :
    Refuses E sk m f ↔ ¬ LowBitsOk (((f (prefixOf (f sk) ++ m)).val % L +
      (f (encodePoint (((f (prefixOf (f sk) ++ m)).val % L) • B) ++ encodePoint (scalarOf (f sk) • B) ++ m)).val % L * scalarOf (f sk)) % L) := by
  have hk := C30_derive (E.withHash f) (newPrivateKey sk)
  have hp : publicKeyOf (E.withHash f) (newPrivateKey sk).raw = encodePoint (scalarOf (f sk) • B) := rfl
  rw [hp] at hk
  unfold Refuses
  rw [hk]
  constructor
  · rintro ⟨kp, h, e, he⟩
    have h := Out.ok.inj h
    subst h
    rw [sign_withHash] at he
    unfold idealSign signReply at he
    split at he
    · exact nomatch he
    · assumption
  · intro h
    refine ⟨_, rfl, "Generated signature is not canonical", ?_⟩
    rw [sign_withHash]
    unfold idealSign signReply
    exact if_neg h

/-- C110: with a random hash function `Sign` returns an error for a given private key and a given message with probability 2^-63, up to 2^-250. -/
theorem C110_refused (E : Env) (X : Finset Bytes) (sk m : Bytes) (hs : sk.length = 32) (hX : ∀ x : Bytes, x.length ≤ m.length + 64 → x ∈ X) :
    |(prob fun f : X → Digest => Refuses E sk m (onAll f)) - 1 / 2 ^ 63| ≤ 1 / 2 ^ 250 := by
  classical
  have hsk : sk ∈ X := hX _ (by omega)
  have hp : ∀ d : Digest, prefixOf d ++ m ∈ X := fun d => hX _ (by rw [List.length_append, prefixOf_length]; omega)
  have hc : ∀ (d r : Digest), encodePoint ((r.val % L) • B) ++ encodePoint (scalarOf d • B) ++ m ∈ X := fun d r => hX _ (by
    rw [List.length_append, List.length_append, encodePoint_length, encodePoint_length]; omega)
  let G : Digest → Digest → Digest → ℝ := fun d r c => ind (¬ LowBitsOk ((r.val % L + c.val % L * scalarOf d) % L))
  let H : (X → Digest) → ℝ := fun f => G (f ⟨sk, hsk⟩) (f ⟨_, hp (f ⟨sk, hsk⟩)⟩) (f ⟨_, hc (f ⟨sk, hsk⟩) (f ⟨_, hp (f ⟨sk, hsk⟩)⟩)⟩)
  have e1 : (prob fun f : X → Digest => Refuses E sk m (onAll f)) = avg H := by
    rw [prob_eq_avg]
    refine avg_congr fun f => ind_congr ?_
    rw [refuses_iff, onAll_mem f hsk, onAll_mem f (hp _), onAll_mem f (hc _ _)]
  have key : ∀ d r : Digest, |(avg fun c => G d r c) - 1 / 2 ^ 63| ≤ 1 / 2 ^ 250 := by
    intro d r
    have h := refused_prob (r.val % L) (scalarOf d) (scalarOf_coprime d)
    rwa [prob_eq_avg] at h
  have e2 : avg H = avg fun d : Digest => avg fun g : X → Digest =>
      G d (Function.update g ⟨sk, hsk⟩ d ⟨_, hp d⟩) (g ⟨_, hc d (Function.update g ⟨sk, hsk⟩ d ⟨_, hp d⟩)⟩) := by
    refine (avg_entry (⟨sk, hsk⟩ : X) fun d (f : X → Digest) => G d (f ⟨_, hp d⟩) (f ⟨_, hc d (f ⟨_, hp d⟩)⟩)).trans ?_
    refine avg_congr fun d => avg_congr fun g => ?_
    have : Function.update g ⟨sk, hsk⟩ d ⟨_, hc d (Function.update g ⟨sk, hsk⟩ d ⟨_, hp d⟩)⟩ = g ⟨_, hc d (Function.update g ⟨sk, hsk⟩ d ⟨_, hp d⟩)⟩ := by
      refine Function.update_of_ne (fun h => ?_) _ _
      have := congrArg List.length (congrArg Subtype.val h)
      dsimp only at this
      rw [List.length_append, List.length_append, encodePoint_length, encodePoint_length, hs] at this
      omega
    rw [this]
  have key2 : ∀ d : Digest, |(avg fun g : X → Digest =>
      G d (Function.update g ⟨sk, hsk⟩ d ⟨_, hp d⟩) (g ⟨_, hc d (Function.update g ⟨sk, hsk⟩ d ⟨_, hp d⟩)⟩)) - 1 / 2 ^ 63| ≤ 1 / 2 ^ 250 := by
    intro d
    by_cases hx : (⟨_, hp d⟩ : X) = ⟨sk, hsk⟩
    · have : ∀ g : X → Digest, Function.update g ⟨sk, hsk⟩ d ⟨_, hp d⟩ = d := by
        intro g
        rw [hx, Function.update_self]
      rw [avg_congr fun g => by rw [this g]]
      rw [avg_one (⟨_, hc d d⟩ : X) (G d d)]
      exact key d d
    · rw [avg_congr fun g => by rw [Function.update_of_ne hx]]
      rw [avg_entry (⟨_, hp d⟩ : X) fun r g => G d r (g ⟨_, hc d r⟩)]
      have h3 : ∀ r : Digest, (avg fun g : X → Digest => G d r (Function.update g ⟨_, hp d⟩ r ⟨_, hc d r⟩)) = avg fun c => G d r c := by
        intro r
        rw [← avg_one (⟨_, hc d r⟩ : X) (G d r)]
        refine avg_congr fun g => ?_
        rw [Function.update_of_ne fun h => ?_]
        have := congrArg List.length (congrArg Subtype.val h)
        dsimp only at this
        rw [List.length_append, List.length_append, List.length_append, encodePoint_length, encodePoint_length, prefixOf_length] at this
        omega
      rw [avg_congr h3]
      exact avg_near (key d)
  rw [e1, e2]
  exact avg_near key2

/-- C110: of `n` messages at least one is refused with probability at most n times that. -/
theorem C110_some (E : Env) (X : Finset Bytes) (sk : Bytes) (n : ℕ) (m : ℕ → Bytes) (hs : sk.length = 32)
    (hX : ∀ i < n, ∀ x : Bytes, x.length ≤ (m i).length + 64 → x ∈ X) :
    (prob fun f : X → Digest => ∃ i < n, Refuses E sk (m i) (onAll f)) ≤ n * (1 / 2 ^ 63 + 1 / 2 ^ 250) := by
  refine prob_exists_lt (fun i (f : X → Digest) => Refuses E sk (m i) (onAll f)) _ n fun i hi => ?_
  have := (abs_le.1 (C110_refused E X sk (m i) hs (hX i hi))).2
  linarith

theorem prob_not {α : Type} [Fintype α] [Nonempty α] (p : α → Prop) : (prob fun x => ¬ p x) = 1 - prob p := by
  have h : ((prob fun x => ¬ p x) + prob p) = 1 := by
    rw [prob_eq_avg, prob_eq_avg, ← avg_add, ← avg_const (α := α) 1]
    refine avg_congr fun x => ?_
    by_cases h : p x
    · rw [ind_false (not_not.2 h), ind_true h, zero_add]
    · rw [ind_true h, ind_false h, add_zero]
  linarith

/-- C110: a key pair made from any private key signs all of `n` messages, and `Verify` accepts all these signatures, with probability at least 1 - n(2^-63 + 2^-250). -/
theorem C110_works (E : Env) (X : Finset Bytes) (sk : Bytes) (n : ℕ) (m : ℕ → Bytes) (hs : sk.length = 32)
    (hX : ∀ i < n, ∀ x : Bytes, x.length ≤ (m i).length + 64 → x ∈ X) :
    1 - n * (1 / 2 ^ 63 + 1 / 2 ^ 250) ≤ prob fun f : X → Digest => ∃ kp, newKeyPair (E.withHash (onAll f)) (some (newPrivateKey sk)) none = .ok kp ∧
      ∀ i < n, ∃ sig, sign (E.withHash (onAll f)) kp (m i) = .ok sig ∧ verify (E.withHash (onAll f)) kp.pub (m i) sig = .ok true := by
  have h1 := C110_some E X sk n m hs hX
  have h2 := prob_not fun f : X → Digest => ∃ i < n, Refuses E sk (m i) (onAll f)
  refine le_trans (by linarith) (le_trans (le_of_eq h2.symm) (prob_mono fun f h => ?_))
  have hk := C30_derive (E.withHash (onAll f)) (newPrivateKey sk)
  refine ⟨_, hk, fun i hi => ?_⟩
  cases hsig : sign (E.withHash (onAll f)) _ (m i) with
  | ok sig => exact ⟨sig, rfl, C18_keypair _ _ _ _ _ hk hsig⟩
  | err e => exact absurd ⟨i, hi, _, hk, e, hsig⟩ h
  | panic => exact absurd hsig (C19_never_panics _ _ _)

/-! ## Cases -/

/-- The hypotheses of C110, for the messages [0], [1], [2], …: the finite set exists. -/
example (n : ℕ) : ∃ X : Finset Bytes, ∀ i < n, ∀ x : Bytes, x.length ≤ ([UInt8.ofNat i] : Bytes).length + 64 → x ∈ X := by
  obtain ⟨X, hX⟩ := exists_short 65
  exact ⟨X, fun i _ x hx => hX x hx⟩

/-- A refusal is possible: with the hash function that is zero everywhere, S is 0. -/
example (E : Env) : Refuses E (List.replicate 32 7) [1, 2, 3] fun _ => Digest.zero := by
  rw [refuses_iff]
  have hv : (Digest.zero).val = 0 := rfl
  rw [hv, Nat.zero_mod, zero_mul, Nat.zero_add, Nat.zero_mod]
  exact fun h => h.1 (Nat.zero_mod _)

end Ed

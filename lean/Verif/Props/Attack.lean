import Verif.Proofs.Attack
import Verif.Props.Binding
import Verif.Props.Text
import Mathlib.Data.Set.Finite.List

/-!
# Attackers that see signatures (C98)
-/

set_option autoImplicit false

namespace Ed

open Finset

/-- The second half of a digest. -/
def prefixOf (d : Digest) : Bytes := d.bytes.drop 32

theorem prefixOf_length (d : Digest) : (prefixOf d).length = 32 := by
  unfold prefixOf Digest.bytes
  rw [List.length_drop, leBytes_length]

/-- The attack on the code, in terms of the equation. -/
theorem forgesCma_iff (E : Env) (adv : Bytes → SignProg) (sk : Bytes) (F : Bytes → Digest) :
    ForgesCma E adv sk F ↔ WinsIdeal (scalarOf (F sk)) (encodePoint (scalarOf (F sk) • B)) F (fun m => (F (prefixOf (F sk) ++ m)).val % L) []
      (adv (encodePoint (scalarOf (F sk) • B))) := by
  have hs : secretScalar (E.withHash F) sk = scalarOf (F sk) := rfl
  have hp : publicKeyOf (E.withHash F) sk = encodePoint (scalarOf (F sk) • B) := rfl
  have hraw : (newPrivateKey sk).raw = sk := rfl
  have hk := C30_derive (E.withHash F) (newPrivateKey sk)
  rw [hraw, hp] at hk
  have hsign : sign (E.withHash F) ⟨some (newPrivateKey sk), ⟨encodePoint (scalarOf (F sk) • B)⟩⟩ =
      idealSign (scalarOf (F sk)) (encodePoint (scalarOf (F sk) • B)) F (fun m => (F (prefixOf (F sk) ++ m)).val % L) := by
    funext m
    rw [C19_sign, hraw]
    have hn : nonce (E.withHash F) sk m = (F (prefixOf (F sk) ++ m)).val % L := by
      unfold nonce
      rw [Hash_withHash, Digest.leVal_bytes]
      rfl
    have hS : sigS (E.withHash F) sk (encodePoint (scalarOf (F sk) • B)) m =
        ((F (prefixOf (F sk) ++ m)).val % L +
          (F (encodePoint (((F (prefixOf (F sk) ++ m)).val % L) • B) ++ encodePoint (scalarOf (F sk) • B) ++ m)).val % L * scalarOf (F sk)) % L := by
      unfold sigS sigR
      rw [challenge_withHash, hn, hs]
    rw [hn, hS]
    rfl
  have hA : Decodes ((⟨encodePoint (scalarOf (F sk) • B)⟩ : PublicKey).raw.take 32) (scalarOf (F sk) • B) := by
    dsimp only
    rw [List.take_of_length_le (by rw [encodePoint_length])]
    exact decodes_encodePoint _
  unfold ForgesCma WinsIdeal
  rw [hk]
  constructor
  · rintro ⟨kp, e, h1, h2⟩
    have e := Out.ok.inj e
    subst e
    dsimp only at h1 h2
    rw [hsign] at h1 h2
    exact ⟨h1, (forges_iff E _ _ hA (.done _) F).1 h2⟩
  · rintro ⟨h1, h2⟩
    refine ⟨_, rfl, ?_⟩
    dsimp only
    rw [hsign]
    exact ⟨h1, (forges_iff E _ _ hA (.done _) F).2 h2⟩

/-- The hash inputs of a run: those of the attacker, of the signatures, and of the final check. -/
noncomputable def questions (a : ℕ) (pk : Bytes) (h : Bytes → Digest) (ν : Bytes → ℕ) : SignProg → List Bytes
  | .done F => [F.input ⟨pk⟩]
  | .ask x k => x :: questions a pk h ν (k (h x))
  | .sign m k => (encodePoint (ν m • B) ++ pk ++ m) :: questions a pk h ν (k (idealSign a pk h ν m))

theorem questions_length {a : ℕ} {pk : Bytes} {h : Bytes → Digest} {ν : Bytes → ℕ} : ∀ {p : SignProg} {q s : ℕ}, p.AtMost q s →
    (questions a pk h ν p).length ≤ q + s + 1 := by
  intro p
  induction p with
  | done F => intro q s _; simp [questions]
  | ask x k ih =>
    intro q s hp
    cases q with
    | zero => exact hp.elim
    | succ q =>
      have := ih _ (hp (h x))
      unfold questions
      rw [List.length_cons]
      omega
  | sign m k ih =>
    intro q s hp
    cases s with
    | zero => cases q <;> exact hp.elim
    | succ s =>
      have hp : ∀ r, (k r).AtMost q s := by cases q <;> exact hp
      have := ih _ (hp (idealSign a pk h ν m))
      unfold questions
      rw [List.length_cons]
      omega

/-- A run depends on the hash function at its questions, and on the nonces. -/
theorem run_agree {a N : ℕ} {pk : Bytes} {h h' : Bytes → Digest} {ν ν' : Bytes → ℕ} (hν : ∀ m, m.length ≤ N → ν m = ν' m) :
    ∀ (p : SignProg) (ms : List (Bytes × Out Signature)), p.Short N → (∀ x ∈ questions a pk h ν p, h x = h' x) →
    (p.run h (idealSign a pk h ν) ms = p.run h' (idealSign a pk h' ν') ms ∧
      h ((p.run h (idealSign a pk h ν) ms).1.input ⟨pk⟩) = h' ((p.run h (idealSign a pk h ν) ms).1.input ⟨pk⟩)) := by
  intro p
  induction p with
  | done F =>
    intro ms _ hq
    exact ⟨rfl, hq _ (List.mem_singleton.2 rfl)⟩
  | ask x k ih =>
    intro ms hS hq
    have h1 := hq x (List.mem_cons_self ..)
    have h2 := ih (h x) ms (hS.2 _) (fun y hy => hq y (List.mem_cons_of_mem _ hy))
    refine ⟨?_, h2.2⟩
    show (k (h x)).run h _ ms = (k (h' x)).run h' _ ms
    rw [← h1]
    exact h2.1
  | sign m k ih =>
    intro ms hS hq
    have h1 := hq _ (List.mem_cons_self ..)
    have h2 := ih (idealSign a pk h ν m) (ms ++ [(m, idealSign a pk h ν m)]) (hS.2 _) (fun y hy => hq y (List.mem_cons_of_mem _ hy))
    refine ⟨?_, h2.2⟩
    have e : idealSign a pk h' ν' m = idealSign a pk h ν m := by
      unfold idealSign
      rw [← hν m hS.1, h1]
    show (k (idealSign a pk h ν m)).run h _ (ms ++ [(m, idealSign a pk h ν m)]) = (k (idealSign a pk h' ν' m)).run h' _ (ms ++ [(m, idealSign a pk h' ν' m)])
    rw [e]
    exact h2.1

theorem winsIdeal_agree {a N : ℕ} {pk : Bytes} {h h' : Bytes → Digest} {ν ν' : Bytes → ℕ} {p : SignProg} {ms : List (Bytes × Out Signature)}
    (hν : ∀ m, m.length ≤ N → ν m = ν' m) (hS : p.Short N) (hq : ∀ x ∈ questions a pk h ν p, h x = h' x) :
    WinsIdeal a pk h' ν' ms p → WinsIdeal a pk h ν ms p := by
  obtain ⟨h1, h2⟩ := run_agree hν p ms hS hq
  unfold WinsIdeal
  rw [h2, ← h1]
  exact id

/-! ## Independence of the nonces -/

section Mix

variable {N : ℕ} {X : Finset Bytes} (hX : ∀ x : Bytes, x.length ≤ N + 64 → x ∈ X)

/-- The messages. -/
def messagesIn (N : ℕ) (X : Finset Bytes) : Finset Bytes := X.filter fun m => m.length ≤ N

theorem mem_messagesIn {m : Bytes} (hX : ∀ x : Bytes, x.length ≤ N + 64 → x ∈ X) (hm : m.length ≤ N) : m ∈ messagesIn N X :=
  mem_filter.2 ⟨hX m (by omega), hm⟩

/-- Where the nonce of a message is hashed. -/
def nonceInput (hX : ∀ x : Bytes, x.length ≤ N + 64 → x ∈ X) (d : Digest) (m : messagesIn N X) : X :=
  ⟨prefixOf d ++ m.val, hX _ (by
    have := (mem_filter.1 m.property).2
    rw [List.length_append, prefixOf_length]
    omega)⟩

theorem nonceInput_inj (d : Digest) : Function.Injective (nonceInput hX d) := by
  intro m m' h
  exact Subtype.ext (List.append_cancel_left (congrArg Subtype.val h))

/-- The hash function put together from `f`, the digest `d` of the private key, and the digests `g` for the nonces. -/
noncomputable def mix (hX : ∀ x : Bytes, x.length ≤ N + 64 → x ∈ X) (sk : Key) (d : Digest) (f : X → Digest) (g : messagesIn N X → Digest) : X → Digest :=
  open Classical in Function.update (override (nonceInput hX d) f g) ⟨sk.bytes, hX _ (by rw [Key.bytes_length]; omega)⟩ d

/-- It is a random function. -/
theorem avg_mix (sk : Key) (Φ : (X → Digest) → ℝ) :
    (avg fun d : Digest => avg fun f : X → Digest => avg fun g : messagesIn N X → Digest => Φ (mix hX sk d f g)) = avg Φ := by
  classical
  rw [← avg_update (⟨sk.bytes, hX _ (by rw [Key.bytes_length]; omega)⟩ : X) Φ]
  refine avg_congr fun d => ?_
  exact avg_override (nonceInput_inj hX d) (fun f => Φ (Function.update f (⟨sk.bytes, hX _ (by rw [Key.bytes_length]; omega)⟩ : X) d))

theorem mix_sk (sk : Key) (d : Digest) (f : X → Digest) (g : messagesIn N X → Digest) : onAll (mix hX sk d f g) sk.bytes = d := by
  classical
  unfold onAll mix
  rw [dif_pos (hX _ (by rw [Key.bytes_length]; omega)), Function.update_self]

theorem mix_nonce {sk : Key} {d : Digest} (hne : prefixOf d ≠ sk.bytes) (f : X → Digest) (g : messagesIn N X → Digest) {m : Bytes} (hm : m.length ≤ N) :
    onAll (mix hX sk d f g) (prefixOf d ++ m) = onAll g m := by
  classical
  have hmem := mem_messagesIn hX hm
  have hin : prefixOf d ++ m ∈ X := (nonceInput hX d ⟨m, hmem⟩).property
  unfold onAll
  rw [dif_pos hin, dif_pos hmem]
  unfold mix
  rw [Function.update_of_ne]
  · exact override_at (nonceInput_inj hX d) f g ⟨m, hmem⟩
  · intro h
    have h := congrArg Subtype.val h
    dsimp only at h
    have := (List.append_inj (h.trans (List.append_nil _).symm) (by rw [prefixOf_length, Key.bytes_length])).1
    exact hne this

theorem mix_other {sk : Key} {d : Digest} {x : Bytes} (h1 : x ≠ sk.bytes) (h2 : x.take 32 ≠ prefixOf d) (f : X → Digest) (g : messagesIn N X → Digest) :
    onAll f x = onAll (mix hX sk d f g) x := by
  classical
  unfold onAll
  by_cases hx : x ∈ X
  · rw [dif_pos hx, dif_pos hx]
    unfold mix
    rw [Function.update_of_ne, override_not]
    · intro m h
      have h := congrArg Subtype.val h
      refine h2 ?_
      show x.take 32 = _
      have h' : x = prefixOf d ++ m.val := h.symm
      rw [h', List.take_left' (prefixOf_length d)]
    · intro h
      exact h1 (congrArg Subtype.val h)
  · rw [dif_neg hx, dif_neg hx]

end Mix

/-! ## The private key and the second half of its digest are not met by chance -/

theorem card_Key : Fintype.card Key = 2 ^ 256 := Fintype.card_fin _

theorem Key.bytes_inj {k k' : Key} (h : k.bytes = k'.bytes) : k = k' := by
  have h1 : ∀ k : Key, leVal k.bytes = Fin.val k := fun k => leVal_leBytes_of_lt (lt_of_lt_of_eq (Fin.isLt k) (by decide +kernel))
  have := congrArg leVal h
  rw [h1, h1] at this
  exact Fin.ext this

theorem avg_key_mem (l : List Bytes) : (avg fun k : Key => ind (k.bytes ∈ l)) ≤ l.length / 2 ^ 256 := by
  rw [← prob_eq_avg fun k : Key => k.bytes ∈ l]
  refine (prob_le_card l.toFinset Key.bytes (fun k hk => List.mem_toFinset.2 hk) fun k k' _ _ h => Key.bytes_inj h).trans ?_
  have h : (l.toFinset.card : ℝ) ≤ l.length := by exact_mod_cast l.toFinset_card_le
  have h2 : (Fintype.card Key : ℝ) = 2 ^ 256 := by rw [card_Key, Nat.cast_pow, Nat.cast_ofNat]
  rw [h2]
  exact div_le_div_of_nonneg_right h (le_of_lt (pow_pos two_pos 256))

theorem halves_lt {z u v : ℕ} (h1 : u < z) (h2 : v < z) : u + z * v < z * z := by
  calc u + z * v < z + z * v := by omega
    _ = z * (v + 1) := by ring
    _ ≤ z * z := Nat.mul_le_mul_left _ h2

/-- A digest is two halves. -/
def halves : Key × Key ≃ Digest where
  toFun := fun x => ⟨Fin.val x.1 + 2 ^ 256 * Fin.val x.2, by
    have h1 : Fin.val x.1 < 2 ^ 256 := Fin.isLt _
    have h2 : Fin.val x.2 < 2 ^ 256 := Fin.isLt _
    have h3 : (2 : ℕ) ^ 512 = 2 ^ 256 * 2 ^ 256 := by decide +kernel
    rw [h3]
    exact halves_lt h1 h2⟩
  invFun := fun d => (⟨d.val % 2 ^ 256, Nat.mod_lt _ (by positivity)⟩, ⟨d.val / 2 ^ 256, by
    have h : d.val < 2 ^ 512 := d.val_lt
    have h3 : (2 : ℕ) ^ 512 = 2 ^ 256 * 2 ^ 256 := by decide +kernel
    rw [h3] at h
    exact Nat.div_lt_of_lt_mul h⟩)
  left_inv := fun x => by
    have h1 : Fin.val x.1 < 2 ^ 256 := Fin.isLt _
    have h0 : 0 < 2 ^ 256 := by positivity
    refine Prod.ext (Fin.ext ?_) (Fin.ext ?_)
    · show (Fin.val x.1 + 2 ^ 256 * Fin.val x.2) % 2 ^ 256 = _
      rw [Nat.add_mul_mod_self_left, Nat.mod_eq_of_lt h1]
    · show (Fin.val x.1 + 2 ^ 256 * Fin.val x.2) / 2 ^ 256 = _
      rw [Nat.add_mul_div_left _ _ h0, Nat.div_eq_of_lt h1, Nat.zero_add]
  right_inv := fun d => by
    refine Fin.ext ?_
    show d.val % 2 ^ 256 + 2 ^ 256 * (d.val / 2 ^ 256) = d.val
    exact Nat.mod_add_div _ _

theorem halves_bytes (x : Key × Key) : (halves x).bytes = x.1.bytes ++ x.2.bytes := by
  refine leVal_inj ?_ ?_
  · rw [List.length_append, Key.bytes_length, Key.bytes_length]
    exact leBytes_length _ _
  · have h1 : ∀ k : Key, leVal k.bytes = Fin.val k := fun k => leVal_leBytes_of_lt (lt_of_lt_of_eq (Fin.isLt k) (by decide +kernel))
    rw [Digest.leVal_bytes, leVal_append, h1, h1, Key.bytes_length]
    have : (256 : ℕ) ^ 32 = 2 ^ 256 := by decide +kernel
    rw [this]
    rfl

theorem halves_prefix (x : Key × Key) : prefixOf (halves x) = x.2.bytes := by
  unfold prefixOf
  rw [halves_bytes, List.drop_left' (Key.bytes_length _)]

theorem halves_scalar (lo hi hi' : Key) : scalarOf (halves (lo, hi)) = scalarOf (halves (lo, hi')) := by
  unfold scalarOf
  rw [halves_bytes, halves_bytes, List.take_left' (Key.bytes_length _), List.take_left' (Key.bytes_length _)]

theorem avg_prefix_mem (l : ℕ → List Bytes) (n : ℕ) (hl : ∀ a, (l a).length ≤ n) :
    (avg fun d : Digest => ind (prefixOf d ∈ l (scalarOf d))) ≤ n / 2 ^ 256 := by
  rw [← avg_equiv halves, avg_prod]
  have h1 : ∀ lo : Key, (avg fun hi : Key => ind (prefixOf (halves (lo, hi)) ∈ l (scalarOf (halves (lo, hi))))) ≤ n / 2 ^ 256 := by
    intro lo
    have h2 : ∀ hi : Key, ind (prefixOf (halves (lo, hi)) ∈ l (scalarOf (halves (lo, hi)))) = ind (hi.bytes ∈ l (scalarOf (halves (lo, lo)))) := by
      intro hi
      rw [halves_prefix, halves_scalar lo hi lo]
    rw [avg_congr h2]
    refine (avg_key_mem _).trans ?_
    refine div_le_div_of_nonneg_right ?_ (by positivity)
    exact_mod_cast hl _
  refine (avg_mono h1).trans ?_
  rw [avg_const]

/-! ## From the code to ideal signatures -/

theorem real_le_ideal (E : Env) {N q s : ℕ} {X : Finset Bytes} (hX : ∀ x : Bytes, x.length ≤ N + 64 → x ∈ X) (adv : Bytes → SignProg)
    (hq : ∀ pk, (adv pk).AtMost q s) (hS : ∀ pk, (adv pk).Short N) :
    (avg fun sk : Key => avg fun f : X → Digest => ind (ForgesCma E adv sk.bytes (onAll f))) ≤
      (avg fun d : Digest => idealValue (scalarOf d) (encodePoint (scalarOf d • B)) X (messagesIn N X) [] [] [] (adv (encodePoint (scalarOf d • B)))) +
        (2 * (q + s) + 3) / 2 ^ 256 := by
  -- the questions of a run with ideal signatures
  let Qs : (X → Digest) → (messagesIn N X → Digest) → ℕ → List Bytes := fun f g a =>
    questions a (encodePoint (a • B)) (onAll f) (fun m => (onAll g m).val % L) (adv (encodePoint (a • B)))
  have hlen : ∀ f g a, (Qs f g a).length ≤ q + s + 1 := fun f g a => questions_length (hq _)
  let W : Digest → (X → Digest) → (messagesIn N X → Digest) → Prop := fun d f g =>
    WinsIdeal (scalarOf d) (encodePoint (scalarOf d • B)) (onAll f) (fun m => (onAll g m).val % L) [] (adv (encodePoint (scalarOf d • B)))
  have key : ∀ (sk : Key) (d : Digest) (f : X → Digest) (g : messagesIn N X → Digest), ind (ForgesCma E adv sk.bytes (onAll (mix hX sk d f g))) ≤
      ind (W d f g) + (ind (sk.bytes ∈ Qs f g (scalarOf d)) + (ind (prefixOf d ∈ (Qs f g (scalarOf d)).map (List.take 32)) + ind (sk.bytes ∈ [prefixOf d]))) := by
    intro sk d f g
    have n1 := ind_nonneg (W d f g)
    have n2 := ind_nonneg (sk.bytes ∈ Qs f g (scalarOf d))
    have n3 := ind_nonneg (prefixOf d ∈ (Qs f g (scalarOf d)).map (List.take 32))
    have n4 := ind_nonneg (sk.bytes ∈ [prefixOf d])
    have n0 := ind_le_one (ForgesCma E adv sk.bytes (onAll (mix hX sk d f g)))
    by_cases b1 : sk.bytes ∈ Qs f g (scalarOf d)
    · rw [ind_true b1]; linarith
    by_cases b2 : prefixOf d ∈ (Qs f g (scalarOf d)).map (List.take 32)
    · rw [ind_true b2]; linarith
    by_cases b3 : sk.bytes ∈ [prefixOf d]
    · rw [ind_true b3]; linarith
    have : ind (ForgesCma E adv sk.bytes (onAll (mix hX sk d f g))) ≤ ind (W d f g) := by
      refine ind_mono fun h => ?_
      rw [forgesCma_iff, mix_sk] at h
      refine winsIdeal_agree (N := N) (fun m hm => ?_) (hS _) (fun x hx => ?_) h
      · rw [mix_nonce hX (fun e => b3 (List.mem_singleton.2 e.symm)) f g hm]
      · refine mix_other hX (fun e => b1 (e ▸ hx)) (fun e => b2 (List.mem_map.2 ⟨x, hx, e⟩)) f g
    linarith
  -- draw the hash function in parts
  have h1 : ∀ sk : Key, (avg fun f : X → Digest => ind (ForgesCma E adv sk.bytes (onAll f))) =
      avg fun d : Digest => avg fun f : X → Digest => avg fun g : messagesIn N X → Digest => ind (ForgesCma E adv sk.bytes (onAll (mix hX sk d f g))) :=
    fun sk => (avg_mix hX sk fun f => ind (ForgesCma E adv sk.bytes (onAll f))).symm
  rw [avg_congr h1]
  have h2 : (avg fun sk : Key => avg fun d : Digest => avg fun f : X → Digest => avg fun g : messagesIn N X → Digest =>
      ind (ForgesCma E adv sk.bytes (onAll (mix hX sk d f g)))) ≤
      avg fun sk : Key => avg fun d : Digest => avg fun f : X → Digest => avg fun g : messagesIn N X → Digest =>
      (ind (W d f g) + (ind (sk.bytes ∈ Qs f g (scalarOf d)) + (ind (prefixOf d ∈ (Qs f g (scalarOf d)).map (List.take 32)) + ind (sk.bytes ∈ [prefixOf d])))) :=
    avg_mono fun sk => avg_mono fun d => avg_mono fun f => avg_mono fun g => key sk d f g
  refine h2.trans ?_
  simp only [avg_add]
  have n1 : (1 : ℝ) ≤ (q + s + 1 : ℕ) := by exact_mod_cast Nat.le_add_left 1 (q + s)
  have e1 : (avg fun sk : Key => avg fun d : Digest => avg fun f : X → Digest => avg fun g : messagesIn N X → Digest => ind (W d f g)) =
      avg fun d : Digest => idealValue (scalarOf d) (encodePoint (scalarOf d • B)) X (messagesIn N X) [] [] [] (adv (encodePoint (scalarOf d • B))) := by
    rw [avg_const]
    rfl
  have e2 : (avg fun sk : Key => avg fun d : Digest => avg fun f : X → Digest => avg fun g : messagesIn N X → Digest =>
      ind (sk.bytes ∈ Qs f g (scalarOf d))) ≤ (q + s + 1 : ℕ) / 2 ^ 256 := by
    rw [avg_comm]
    refine le_trans (avg_mono fun d => ?_) (avg_const_le (c := (q + s + 1 : ℕ) / 2 ^ 256) (α := Digest) (by positivity))
    rw [avg_comm]
    refine le_trans (avg_mono fun f => ?_) (avg_const_le (c := (q + s + 1 : ℕ) / 2 ^ 256) (α := X → Digest) (by positivity))
    rw [avg_comm]
    refine le_trans (avg_mono fun g => ?_) (avg_const_le (c := (q + s + 1 : ℕ) / 2 ^ 256) (α := messagesIn N X → Digest) (by positivity))
    refine (avg_key_mem _).trans ?_
    refine div_le_div_of_nonneg_right ?_ (by positivity)
    exact_mod_cast hlen f g _
  have e3 : (avg fun sk : Key => avg fun d : Digest => avg fun f : X → Digest => avg fun g : messagesIn N X → Digest =>
      ind (prefixOf d ∈ (Qs f g (scalarOf d)).map (List.take 32))) ≤ (q + s + 1 : ℕ) / 2 ^ 256 := by
    rw [avg_const, avg_comm]
    refine le_trans (avg_mono fun f => ?_) (avg_const_le (c := (q + s + 1 : ℕ) / 2 ^ 256) (α := X → Digest) (by positivity))
    rw [avg_comm]
    refine le_trans (avg_mono fun g => ?_) (avg_const_le (c := (q + s + 1 : ℕ) / 2 ^ 256) (α := messagesIn N X → Digest) (by positivity))
    exact avg_prefix_mem (fun a => (Qs f g a).map (List.take 32)) (q + s + 1) fun a => by rw [List.length_map]; exact hlen f g a
  have e4 : (avg fun sk : Key => avg fun d : Digest => avg fun f : X → Digest => avg fun g : messagesIn N X → Digest =>
      ind (sk.bytes ∈ [prefixOf d])) ≤ 1 / 2 ^ 256 := by
    simp only [avg_const]
    rw [avg_comm]
    refine le_trans (avg_mono fun d => ?_) (avg_const_le (c := 1 / 2 ^ 256) (α := Digest) (by positivity))
    refine (avg_key_mem _).trans ?_
    simp
  rw [e1]
  have e5 : ((2 * (q + s) + 3) / 2 ^ 256 : ℝ) = (q + s + 1 : ℕ) / 2 ^ 256 + ((q + s + 1 : ℕ) / 2 ^ 256 + 1 / 2 ^ 256) := by
    push_cast; ring
  rw [e5]
  linarith

/-! ## From the simulator to the private scalar -/

theorem simulate_atMost {pk : Bytes} {A : Pt} {c : ℕ → ℕ × Digest} : ∀ (p : SignProg) (q s : ℕ) (asked : List Bytes) (made : List Made), p.AtMost q s →
    (simulate pk A c asked made p).AtMost q := by
  intro p
  induction p with
  | done F =>
    intro q s asked made _
    unfold simulate
    split <;> cases q <;> trivial
  | ask x k ih =>
    intro q s asked made hq
    cases q with
    | zero => exact hq.elim
    | succ q =>
      unfold simulate
      cases made.find? fun e => e.R ++ pk ++ e.m == x with
      | some e => exact HashProg.atMost_mono (Nat.le_succ q) (ih _ q s _ _ (hq _))
      | none => exact fun d => ih d q s _ _ (hq d)
  | sign m k ih =>
    intro q s asked made hq
    cases s with
    | zero => cases q <;> exact hq.elim
    | succ s =>
      have hq : ∀ r, (k r).AtMost q s := by cases q <;> exact hq
      unfold simulate
      cases made.find? fun e => e.m == m with
      | some e => exact ih _ q s _ _ (hq _)
      | none =>
        dsimp only
        split
        · cases q <;> trivial
        · exact ih _ q s _ _ (hq _)

theorem simulate_asksIn {N : ℕ} {X : Finset Bytes} (hX : ∀ x : Bytes, x.length ≤ N + 64 → x ∈ X) {pk : Bytes} (hpk : pk.length = 32) {A : Pt}
    {c : ℕ → ℕ × Digest} : ∀ (p : SignProg) (asked : List Bytes) (made : List Made), p.Short N →
    (withCheck ⟨pk⟩ (simulate pk A c asked made p)).AsksIn X := by
  have dummy : (withCheck ⟨pk⟩ (.done ⟨[], [], []⟩)).AsksIn X := by
    refine ⟨hX _ ?_, fun d => trivial⟩
    show ([] ++ pk ++ []).length ≤ _
    rw [List.nil_append, List.append_nil, hpk]
    omega
  intro p
  induction p with
  | done F =>
    intro asked made hS
    have hS : F.m.length ≤ N := hS
    unfold simulate
    split
    · exact dummy
    · rename_i h
      have h := (not_or.1 h).2
      have h : F.R.length = 32 := by omega
      refine ⟨hX _ ?_, fun d => trivial⟩
      show (F.R ++ pk ++ F.m).length ≤ _
      rw [List.length_append, List.length_append, h, hpk]
      omega
  | ask x k ih =>
    intro asked made hS
    unfold simulate
    cases made.find? fun e => e.R ++ pk ++ e.m == x with
    | some e => exact ih _ _ _ (hS.2 _)
    | none => exact ⟨hX _ hS.1, fun d => ih d _ _ (hS.2 d)⟩
  | sign m k ih =>
    intro asked made hS
    unfold simulate
    cases made.find? fun e => e.m == m with
    | some e => exact ih _ _ _ (hS.2 _)
    | none =>
      dsimp only
      split
      · exact dummy
      · exact ih _ _ _ (hS.2 _)

theorem avg_sqrt {α : Type} [Fintype α] [Nonempty α] {F : α → ℝ} (h : ∀ x, 0 ≤ F x) : (avg fun x => Real.sqrt (F x)) ≤ Real.sqrt (avg F) := by
  refine Real.le_sqrt_of_sq_le ?_
  refine (avg_sq _).trans (le_of_eq (avg_congr fun x => ?_))
  exact Real.sq_sqrt (h x)

/-- What `simulate` gives for one public key. -/
theorem sim_le (E : Env) {N q s : ℕ} {X : Finset Bytes} (hX : ∀ x : Bytes, x.length ≤ N + 64 → x ∈ X) {Ω : Type} [Fintype Ω] (adv : Ω → Bytes → SignProg)
    (hq : ∀ ω pk, (adv ω pk).AtMost q s) (hS : ∀ ω pk, (adv ω pk).Short N) (a : ℕ) :
    (avg fun ω => simValue a (encodePoint (a • B)) X s [] [] (adv ω (encodePoint (a • B)))) ≤
      Real.sqrt ((q + 1) * avg fun ω => avg fun w : Coins s => avg fun d : Fin (q + 1) → Digest => avg fun d' : Fin (q + 1) → Digest =>
        ind (findScalar (adv ω) (a • B) w d d' = a % L)) + (q + 1) / 2 ^ 251 := by
  let pub : PublicKey := ⟨encodePoint (a • B)⟩
  let sim : Ω × Coins s → HashProg Forgery := fun x => simulate (encodePoint (a • B)) (a • B) (coinsOf x.2) [] [] (adv x.1 (encodePoint (a • B)))
  have hA : Decodes (pub.raw.take 32) (a • B) := by
    show Decodes ((encodePoint (a • B)).take 32) _
    rw [List.take_of_length_le (by rw [encodePoint_length])]
    exact decodes_encodePoint _
  have h1 := C97_bound E pub a rfl sim q (fun x => simulate_atMost _ q s _ _ (hq _ _)) X
    (fun x => simulate_asksIn hX (encodePoint_length _) _ _ _ (hS _ _)) _ le_rfl
  have h2 : (prob fun x : (Ω × Coins s) × (X → Digest) => Forges E pub (sim x.1) (onAll x.2)) =
      avg fun ω => simValue a (encodePoint (a • B)) X s [] [] (adv ω (encodePoint (a • B))) := by
    rw [prob_eq_avg, avg_prod, avg_prod]
    refine avg_congr fun ω => avg_congr fun w => avg_congr fun f => ind_congr ?_
    rw [forges_iff E pub _ hA]
    have hr : (withCheck pub (sim (ω, w))).run (onAll f) = ((sim (ω, w)).run (onAll f), onAll f (((sim (ω, w)).run (onAll f)).input pub)) := by
      unfold withCheck
      rw [HashProg.run_bind]
      rfl
    rw [hr]
    rfl
  have h3 : (prob fun x : (Ω × Coins s) × (Fin (q + 1) → Digest) × (Fin (q + 1) → Digest) => extract pub (sim x.1) x.2.1 x.2.2 = a % L) =
      avg fun ω => avg fun w : Coins s => avg fun d : Fin (q + 1) → Digest => avg fun d' : Fin (q + 1) → Digest =>
        ind (findScalar (adv ω) (a • B) w d d' = a % L) := by
    rw [prob_eq_avg, avg_prod, avg_prod]
    refine avg_congr fun ω => avg_congr fun w => ?_
    rw [avg_prod]
    rfl
  rw [h2, h3] at h1
  exact h1

/-- C98: let the hash be a random function and the private key 32 random bytes.  An attacker gets the public key, asks at most q questions for hash values
and at most s questions for signatures of messages of its choice, and wins if it produces a message and a signature that is accepted, where the message was not
to be signed, or was signed with another R.
If running it twice on the public key alone, with its questions answered without the private key (`findScalar`), finds the private scalar with probability
at most δ, then it wins with a probability of at most (1 + 2^-259)^s (sqrt((q + 1) δ) + (q + 1) / 2^251 + s q / L) + (2 (q + s) + 3) / 2^256. -/
theorem C98_unforgeable (E : Env) {Ω : Type} [Fintype Ω] [Nonempty Ω] (adv : Ω → Bytes → SignProg) (q s N : ℕ) (hq : ∀ ω pk, (adv ω pk).AtMost q s)
    (hN : ∀ ω pk, (adv ω pk).Short N) (X : Finset Bytes) (hX : ∀ x : Bytes, x.length ≤ N + 64 → x ∈ X) (δ : ℝ)
    (hδ : (prob fun x : Digest × Ω × Coins s × (Fin (q + 1) → Digest) × (Fin (q + 1) → Digest) =>
      findScalar (adv x.2.1) (scalarOf x.1 • B) x.2.2.1 x.2.2.2.1 x.2.2.2.2 = scalarOf x.1 % L) ≤ δ) :
    (prob fun x : Ω × Key × (X → Digest) => ForgesCma E (adv x.1) x.2.1.bytes (onAll x.2.2)) ≤
      (1 + 1 / 2 ^ 259) ^ s * (Real.sqrt ((q + 1) * δ) + (q + 1) / 2 ^ 251 + s * (q / L)) + (2 * (q + s) + 3) / 2 ^ 256 := by
  let pk : Digest → Bytes := fun d => encodePoint (scalarOf d • B)
  let G : Digest → ℝ := fun d => avg fun ω => avg fun w : Coins s => avg fun e : Fin (q + 1) → Digest => avg fun e' : Fin (q + 1) → Digest =>
        ind (findScalar (adv ω) (scalarOf d • B) w e e' = scalarOf d % L)
  have hG0 : ∀ d, 0 ≤ G d := fun d => avg_nonneg fun _ => avg_nonneg fun _ => avg_nonneg fun _ => avg_nonneg fun _ => ind_nonneg _
  have hG : avg G ≤ δ := by
    refine le_trans (le_of_eq ?_) hδ
    rw [prob_eq_avg, avg_prod]
    refine avg_congr fun d => ?_
    rw [avg_prod]
    refine avg_congr fun ω => ?_
    rw [avg_prod]
    refine avg_congr fun w => ?_
    rw [avg_prod]
  have h1 : (prob fun x : Ω × Key × (X → Digest) => ForgesCma E (adv x.1) x.2.1.bytes (onAll x.2.2)) ≤
      (avg fun ω => avg fun d : Digest => idealValue (scalarOf d) (pk d) X (messagesIn N X) [] [] [] (adv ω (pk d))) + (2 * (q + s) + 3) / 2 ^ 256 := by
    rw [prob_eq_avg, avg_prod]
    have : ∀ ω, (avg fun x : Key × (X → Digest) => ind (ForgesCma E (adv ω) x.1.bytes (onAll x.2))) ≤
        (avg fun d : Digest => idealValue (scalarOf d) (pk d) X (messagesIn N X) [] [] [] (adv ω (pk d))) + (2 * (q + s) + 3) / 2 ^ 256 := by
      intro ω
      rw [avg_prod]
      exact real_le_ideal E hX (adv ω) (hq ω) (hN ω)
    refine (avg_mono this).trans (le_of_eq ?_)
    rw [avg_add, avg_const]
  have h2 : ∀ ω (d : Digest), idealValue (scalarOf d) (pk d) X (messagesIn N X) [] [] [] (adv ω (pk d)) ≤
      (1 + 1 / 2 ^ 259) ^ s * (simValue (scalarOf d) (pk d) X s [] [] (adv ω (pk d)) + s * (q / L)) := by
    intro ω d
    refine ideal_le_sim (encodePoint_length _) hX (fun m hm => mem_messagesIn hX hm) q s _ q s [] [] [] (hq _ _) (hN _ _) ?_ (fun x => by simp) ?_ ?_
    · exact ⟨fun _ h => (List.not_mem_nil h).elim, fun _ h => (List.not_mem_nil h).elim, fun _ h => (List.not_mem_nil h).elim, fun _ h => (List.not_mem_nil h).elim⟩
    · simp
    · simp
  have h3 : (avg fun d => avg fun ω => simValue (scalarOf d) (pk d) X s [] [] (adv ω (pk d))) ≤ Real.sqrt ((q + 1) * δ) + (q + 1) / 2 ^ 251 := by
    refine (avg_mono fun d => sim_le E hX adv hq hN (scalarOf d)).trans ?_
    rw [avg_add, avg_const]
    refine add_le_add_left ?_ _
    refine (avg_sqrt fun d => mul_nonneg (by positivity) (hG0 d)).trans ?_
    rw [avg_mul_left]
    exact Real.sqrt_le_sqrt (mul_le_mul_of_nonneg_left hG (by positivity))
  refine h1.trans (add_le_add_left ?_ _)
  refine (avg_mono fun ω => avg_mono fun d => h2 ω d).trans ?_
  rw [avg_comm]
  have h4 : ∀ d : Digest, (avg fun ω => (1 + 1 / 2 ^ 259) ^ s * (simValue (scalarOf d) (pk d) X s [] [] (adv ω (pk d)) + s * (q / L))) =
      (1 + 1 / 2 ^ 259) ^ s * ((avg fun ω => simValue (scalarOf d) (pk d) X s [] [] (adv ω (pk d))) + s * (q / L)) := by
    intro d
    rw [avg_mul_left, avg_add, avg_const]
  rw [avg_congr h4, avg_mul_left, avg_add, avg_const]
  refine mul_le_mul_of_nonneg_left (by linarith) (by positivity)

/-- The answers are those of the signer. -/
theorem run_answers {f : Bytes → Digest} {sg : Bytes → Out Signature} : ∀ (p : SignProg) (ms : List (Bytes × Out Signature)),
    (∀ e ∈ ms, e.2 = sg e.1) → ∀ e ∈ (p.run f sg ms).2, e.2 = sg e.1 := by
  intro p
  induction p with
  | done F => exact fun ms h => h
  | ask x k ih => exact fun ms h => ih _ ms h
  | sign m k ih =>
    intro ms h
    refine ih _ (ms ++ [(m, sg m)]) fun e he => ?_
    rcases List.mem_append.1 he with he | he
    · exact h e he
    · rw [List.mem_singleton.1 he]

/-- Among the reduced signatures with one R at most one is accepted for a message. -/
theorem forgesStrong_forgesCma (E : Env) (adv : Bytes → SignProg) (sk : Bytes) (f : Bytes → Digest) (h : ForgesStrong E adv sk f) :
    ForgesCma E adv sk f := by
  obtain ⟨kp, hk, h1, h2, sig, h3, h4⟩ := h
  refine ⟨kp, hk, ?_, sig, h3, h4⟩
  intro e he hm
  obtain ⟨sg, e1, e2⟩ := h1 e he hm
  refine ⟨sg, e1, fun hR => e2 ?_⟩
  have ha := run_answers (adv kp.pub.raw) [] (fun _ h => (List.not_mem_nil h).elim) e he
  rw [e1, hm] at ha
  have hv := C18_keypair (E.withHash f) _ kp _ sg hk ha.symm
  have hw := C19_well_formed (E.withHash f) kp _ sg ha.symm
  have hs := (C33_new _ _ sig).1 h3
  obtain ⟨hRl, hSl, rfl⟩ := hs
  obtain ⟨R, S⟩ := sg
  dsimp only at hR hw hv
  subst hR
  rw [C62_reduced_unique (E.withHash f) _ _ _ _ _ hw.2.1 hSl hw.2.2.2 h2 hv h4]

/-- C98, for an application that refuses signatures with an S of L or more: a signature that is different from those that the attacker was given does not help
it either, with the same bound. -/
theorem C98_strong (E : Env) {Ω : Type} [Fintype Ω] [Nonempty Ω] (adv : Ω → Bytes → SignProg) (q s N : ℕ) (hq : ∀ ω pk, (adv ω pk).AtMost q s)
    (hN : ∀ ω pk, (adv ω pk).Short N) (X : Finset Bytes) (hX : ∀ x : Bytes, x.length ≤ N + 64 → x ∈ X) (δ : ℝ)
    (hδ : (prob fun x : Digest × Ω × Coins s × (Fin (q + 1) → Digest) × (Fin (q + 1) → Digest) =>
      findScalar (adv x.2.1) (scalarOf x.1 • B) x.2.2.1 x.2.2.2.1 x.2.2.2.2 = scalarOf x.1 % L) ≤ δ) :
    (prob fun x : Ω × Key × (X → Digest) => ForgesStrong E (adv x.1) x.2.1.bytes (onAll x.2.2)) ≤
      (1 + 1 / 2 ^ 259) ^ s * (Real.sqrt ((q + 1) * δ) + (q + 1) / 2 ^ 251 + s * (q / L)) + (2 * (q + s) + 3) / 2 ^ 256 := by
  refine le_trans ?_ (C98_unforgeable E adv q s N hq hN X hX δ hδ)
  rw [prob_eq_avg, prob_eq_avg]
  exact avg_mono fun x => ind_mono (forgesStrong_forgesCma E _ _ _)

/-- C98: the same for a key pair made by `GenerateKeyPair` from a reader that delivers random bytes, in pieces of any sizes. -/
theorem C98_generated (E : Env) {Ω : Type} [Fintype Ω] [Nonempty Ω] (adv : Ω → Bytes → SignProg) (q s N : ℕ) (hq : ∀ ω pk, (adv ω pk).AtMost q s)
    (hN : ∀ ω pk, (adv ω pk).Short N) (X : Finset Bytes) (hX : ∀ x : Bytes, x.length ≤ N + 64 → x ∈ X) (δ : ℝ)
    (hδ : (prob fun x : Digest × Ω × Coins s × (Fin (q + 1) → Digest) × (Fin (q + 1) → Digest) =>
      findScalar (adv x.2.1) (scalarOf x.1 • B) x.2.2.1 x.2.2.2.1 x.2.2.2.2 = scalarOf x.1 % L) ≤ δ)
    (seed : ℕ) (w : Ω → Key → World) (hw : ∀ ω k, (avail (w ω k seed)).take 32 = k.bytes) :
    (prob fun x : Ω × Key × (X → Digest) => ForgesGenerated E (adv x.1) seed (w x.1 x.2.1) (onAll x.2.2)) ≤
      (1 + 1 / 2 ^ 259) ^ s * (Real.sqrt ((q + 1) * δ) + (q + 1) / 2 ^ 251 + s * (q / L)) + (2 * (q + s) + 3) / 2 ^ 256 := by
  refine le_trans (le_of_eq ?_) (C98_unforgeable E adv q s N hq hN X hX δ hδ)
  rw [prob_eq_avg, prob_eq_avg]
  refine avg_congr fun x => ind_congr ?_
  obtain ⟨ω, k, f⟩ := x
  dsimp only
  have hl : 32 ≤ (avail (w ω k seed)).length := by
    have h := congrArg List.length (hw ω k)
    rw [List.length_take, Key.bytes_length] at h
    omega
  have hc : (content (w ω k seed)).take 32 = k.bytes := by
    obtain ⟨t, ht⟩ := avail_prefix (w ω k seed)
    rw [ht, List.take_append_of_le_length hl, hw ω k]
  have h1 := (C28_generate (E.withHash (onAll f)) seed (w ω k) hl).1
  rw [hc] at h1
  unfold ForgesGenerated ForgesCma
  rw [h1, C30_derive]
  rfl

/-! ## Cases -/

/-- Readers that deliver the random bytes one by one. -/
example (k : Key) : (avail (k.bytes.map fun b => (⟨[b], none⟩ : Ev))).take 32 = k.bytes := by
  have h : ∀ l : Bytes, avail (l.map fun b => (⟨[b], none⟩ : Ev)) = l := by
    intro l
    induction l with
    | nil => rfl
    | cons b l ih => show [b] ++ avail _ = _; rw [ih]; rfl
  rw [h]
  exact List.take_of_length_le (le_of_eq (Key.bytes_length k))

/-- The byte strings up to some length are a finite set. -/
theorem exists_short (n : ℕ) : ∃ X : Finset Bytes, ∀ x : Bytes, x.length ≤ n → x ∈ X := by
  classical
  have : Finite UInt8 := Finite.of_injective UInt8.toFin fun a b h => UInt8.toFin_inj.1 h
  have h := List.finite_length_le UInt8 n
  exact ⟨h.toFinset, fun x hx => h.mem_toFinset.2 hx⟩

/-- An attacker that has the message [1] signed, asks for the hash of [2], and tries its luck with the message [3]. -/
noncomputable def gambler (r : Fin 1000) (_ : Bytes) : SignProg :=
  .sign [1] fun _ => .ask [2] fun _ => .done ⟨[3], encodePoint ((r.val + 1) • B), leBytes 32 (r.val + 1)⟩

/-- The hypotheses of C98, for an attacker that wins with positive probability. -/
example (E : Env) : (∀ r pk, (gambler r pk).AtMost 1 1) ∧ (∀ r pk, (gambler r pk).Short 1) ∧
    ∃ X : Finset Bytes, (∀ x : Bytes, x.length ≤ 1 + 64 → x ∈ X) ∧
      0 < prob fun x : Fin 1000 × Key × (X → Digest) => ForgesCma E (gambler x.1) x.2.1.bytes (onAll x.2.2) := by
  refine ⟨fun r pk _ _ => trivial, fun r pk => ⟨by simp, fun _ => ⟨by simp, fun _ => by simp [SignProg.Short]⟩⟩, ?_⟩
  obtain ⟨X, hX⟩ := exists_short (1 + 64)
  refine ⟨X, hX, ?_⟩
  refine prob_pos ((0 : Fin 1000), Classical.arbitrary Key, fun _ => Digest.zero) ?_
  have hd : ∀ x, onAll (X := X) (fun _ => Digest.zero) x = Digest.zero := by
    intro x; unfold onAll; split <;> rfl
  rw [forgesCma_iff]
  dsimp only
  rw [hd]
  have hv : (Digest.zero).val = 0 := rfl
  have h1 : leVal (leBytes 32 1) = 1 := leVal_leBytes_of_lt (by norm_num)
  have hs : scalarOf Digest.zero % L ≠ 0 := by
    have h0 : leVal (Digest.zero.bytes.take 32) = 0 := by decide +kernel
    unfold scalarOf
    rw [h0, L_eq]
    decide +kernel
  generalize scalarOf Digest.zero = a at *
  refine ⟨?_, encodePoint_length _, leBytes_length _ _, ?_, ?_, Or.inl (encodePoint_length _), ?_⟩
  · intro e he h
    simp only [gambler, SignProg.run, List.nil_append, List.mem_singleton] at he
    subst he
    exact absurd (show ([1] : Bytes) = [3] from h) (by decide)
  · show LowBitsOk (leVal (leBytes 32 1)); rw [h1]; exact low_one
  · show encodePoint (a • B) ≠ _
    intro h
    have hne : a • B ≠ 0 := by
      intro h0
      have := addOrderOf_dvd_of_nsmul_eq_zero h0
      rw [addOrderOf_B] at this
      exact hs (Nat.mod_eq_zero_of_dvd this)
    have hy := y_ne_zero_of_order (L_smul_smul_B a) hne
    have hv := encodePoint_val (a • B)
    rw [h, leVal_replicate_zero] at hv
    apply hy
    have : (a • B).y.val = 0 := by omega
    exact (ZMod.val_eq_zero _).mp this
  · show encodePoint (1 • B) = encodePoint (nafVal (leVal (leBytes 32 1)) • B - ((onAll (X := X) (fun _ => Digest.zero) _).val % L) • _)
    rw [h1, nafVal_small (by norm_num), hd, hv, Nat.zero_mod, zero_smul, sub_zero]
    rfl

end Ed

import Verif.Props.Refuse
import Verif.Props.Seed

/-!
# Property C111: refused messages cannot be found
-/

set_option autoImplicit false

namespace Ed

open Finset

section
variable {X : Finset Bytes}

/-- Two places that are related, one of them asked for and not in `S`, the other asked for or in `S`. -/
theorem relations (Rel : Bytes → Digest → Bytes → Digest → Prop) (symm : ∀ x d y e, Rel x d y e → Rel y e x d) (c₁ c : ℝ) (c1 : 0 ≤ c₁) (c0 : 0 ≤ c)
    (hs : ∀ (S : Finset X) (h : X → Digest) (x : X), x ∉ S → (avg fun d : Digest => ind (∃ s ∈ S, Rel x.1 d s.1 (h s))) ≤ c₁ + S.card * c) {α : Type} :
    ∀ (p : HashProg α) (q : ℕ) (S : Finset X) (h : X → Digest), p.AtMost q → p.AsksIn X →
      (avg fun g : X → Digest => ind (∃ x y : X, x ≠ y ∧ y.1 ∈ p.asked (onAll (blend S h g)) ∧ y ∉ S ∧
        (x ∈ S ∨ x.1 ∈ p.asked (onAll (blend S h g))) ∧ Rel x.1 (blend S h g x) y.1 (blend S h g y))) ≤ q * c₁ + (q * S.card + q * (q - 1) / 2) * c
  | .done a, q, S, h, _, _ => by
    have e : ∀ g : X → Digest, ind (∃ x y : X, x ≠ y ∧ y.1 ∈ (HashProg.done a : HashProg α).asked (onAll (blend S h g)) ∧ y ∉ S ∧
        (x ∈ S ∨ x.1 ∈ (HashProg.done a : HashProg α).asked (onAll (blend S h g))) ∧ Rel x.1 (blend S h g x) y.1 (blend S h g y)) = 0 :=
      fun g => ind_false (by rintro ⟨x, y, -, hy, -⟩; exact nomatch hy)
    rw [avg_congr e, avg_const]
    refine add_nonneg (by positivity) (mul_nonneg (add_nonneg (by positivity) ?_) c0)
    rcases Nat.eq_zero_or_pos q with h0 | h0
    · rw [h0]; simp
    · have : (1 : ℝ) ≤ q := by exact_mod_cast h0
      exact div_nonneg (mul_nonneg (by positivity) (by linarith)) (by norm_num)
  | .ask x k, 0, _, _, h, _ => h.elim
  | .ask x k, q + 1, S, h, hq, hX => by
    classical
    have hx := hX.1
    by_cases hS : (⟨x, hx⟩ : X) ∈ S
    · have ih := relations Rel symm c₁ c c1 c0 hs (k (h ⟨x, hx⟩)) q S h (hq _) (hX.2 _)
      refine le_trans (avg_mono fun g => ind_mono ?_) (ih.trans ?_)
      · rintro ⟨z, y, hzy, hy, hyS, hz, hP⟩
        have e : onAll (blend S h g) x = h ⟨x, hx⟩ := by rw [onAll_mem _ hx, blend_mem hS]
        have hm : ∀ y : X, y.1 ∈ (HashProg.ask x k).asked (onAll (blend S h g)) → y ∈ S ∨ y.1 ∈ (k (h ⟨x, hx⟩)).asked (onAll (blend S h g)) := by
          intro y hy
          have hy' : y.1 ∈ x :: (k (onAll (blend S h g) x)).asked (onAll (blend S h g)) := hy
          rw [e] at hy'
          rcases List.mem_cons.1 hy' with h1 | h1
          · exact Or.inl (by rwa [show y = ⟨x, hx⟩ from Subtype.ext h1])
          · exact Or.inr h1
        exact ⟨z, y, hzy, (hm y hy).resolve_left hyS, hyS, hz.elim Or.inl (hm z), hP⟩
      · push_cast
        have h1 : (0 : ℝ) ≤ S.card := by positivity
        have h2 : (0 : ℝ) ≤ q := by positivity
        have h3 := mul_nonneg h1 c0
        have h4 := mul_nonneg h2 c0
        nlinarith
    · rw [← avg_update (⟨x, hx⟩ : X)]
      have step : ∀ d : Digest, (avg fun g : X → Digest => ind (∃ z y : X, z ≠ y ∧
          y.1 ∈ (HashProg.ask x k).asked (onAll (blend S h (Function.update g ⟨x, hx⟩ d))) ∧ y ∉ S ∧
          (z ∈ S ∨ z.1 ∈ (HashProg.ask x k).asked (onAll (blend S h (Function.update g ⟨x, hx⟩ d)))) ∧
          Rel z.1 (blend S h (Function.update g ⟨x, hx⟩ d) z) y.1 (blend S h (Function.update g ⟨x, hx⟩ d) y))) ≤
          ind (∃ s ∈ S, Rel x d s.1 (h s)) + (q * c₁ + (q * (S.card + 1) + q * (q - 1) / 2) * c) := by
        intro d
        have ih := relations Rel symm c₁ c c1 c0 hs (k d) q (insert ⟨x, hx⟩ S) (Function.update h ⟨x, hx⟩ d) (hq _) (hX.2 _)
        rw [card_insert_of_notMem hS] at ih
        push_cast at ih
        refine le_trans (avg_mono (G := fun g => ind (∃ s ∈ S, Rel x d s.1 (h s)) + ind (∃ z y : X, z ≠ y ∧
          y.1 ∈ (k d).asked (onAll (blend (insert ⟨x, hx⟩ S) (Function.update h ⟨x, hx⟩ d) g)) ∧ y ∉ insert (⟨x, hx⟩ : X) S ∧
          (z ∈ insert (⟨x, hx⟩ : X) S ∨ z.1 ∈ (k d).asked (onAll (blend (insert ⟨x, hx⟩ S) (Function.update h ⟨x, hx⟩ d) g))) ∧
          Rel z.1 (blend (insert ⟨x, hx⟩ S) (Function.update h ⟨x, hx⟩ d) g z) y.1
            (blend (insert ⟨x, hx⟩ S) (Function.update h ⟨x, hx⟩ d) g y))) fun g => ?_) ?_
        · rw [blend_update hS]
          have hv : ∀ s ∈ S, blend (insert ⟨x, hx⟩ S) (Function.update h ⟨x, hx⟩ d) g s = h s := by
            intro s hs
            rw [blend_mem (mem_insert_of_mem hs), Function.update_of_ne (show s ≠ ⟨x, hx⟩ from fun e => hS (by rw [← e]; exact hs))]
          have e0 : blend (insert ⟨x, hx⟩ S) (Function.update h ⟨x, hx⟩ d) g ⟨x, hx⟩ = d := by
            rw [blend_mem (mem_insert_self _ _), Function.update_self]
          generalize blend (insert ⟨x, hx⟩ S) (Function.update h ⟨x, hx⟩ d) g = μ at hv e0
          have e : onAll μ x = d := by rw [onAll_mem _ hx, e0]
          by_cases hP : ∃ s ∈ S, Rel x d s.1 (h s)
          · rw [ind_true hP]
            exact (ind_le_one _).trans (le_add_of_nonneg_right (ind_nonneg _))
          · rw [ind_false hP, zero_add]
            refine ind_mono ?_
            have hm : ∀ y : X, y.1 ∈ (HashProg.ask x k).asked (onAll μ) → y = ⟨x, hx⟩ ∨ y.1 ∈ (k d).asked (onAll μ) := by
              intro y hy
              have hy' : y.1 ∈ x :: (k (onAll μ x)).asked (onAll μ) := hy
              rw [e] at hy'
              exact (List.mem_cons.1 hy').imp (fun h1 => Subtype.ext h1) id
            -- two new places with equal values, one of them not x
            have main : ∀ z y : X, z ≠ y → y ∉ S → y ≠ ⟨x, hx⟩ → y.1 ∈ (k d).asked (onAll μ) →
                (z ∈ S ∨ z.1 ∈ (HashProg.ask x k).asked (onAll μ)) → Rel z.1 (μ z) y.1 (μ y) →
                ∃ z y : X, z ≠ y ∧ y.1 ∈ (k d).asked (onAll μ) ∧ y ∉ insert (⟨x, hx⟩ : X) S ∧
                  (z ∈ insert (⟨x, hx⟩ : X) S ∨ z.1 ∈ (k d).asked (onAll μ)) ∧ Rel z.1 (μ z) y.1 (μ y) := by
              intro z y hzy hyS hyx hy hz hφ
              refine ⟨z, y, hzy, hy, fun e => (mem_insert.1 e).elim hyx hyS, ?_, hφ⟩
              rcases hz with hz | hz
              · exact Or.inl (mem_insert_of_mem hz)
              · exact (hm z hz).imp (fun e => mem_insert.2 (Or.inl e)) id
            rintro ⟨z, y, hzy, hy, hyS, hz, hφ⟩
            rcases hm y hy with h1 | h1
            · subst h1
              rw [e0] at hφ
              have hφ := symm _ _ _ _ hφ
              rcases hz with hz | hz
              · exact absurd ⟨z, hz, by rw [← hv z hz]; exact hφ⟩ hP
              · have hz' := (hm z hz).resolve_left hzy
                by_cases hzS : z ∈ S
                · exact absurd ⟨z, hzS, by rw [← hv z hzS]; exact hφ⟩ hP
                · exact main ⟨x, hx⟩ z hzy.symm hzS hzy hz' (Or.inr hy) (by rw [e0]; exact hφ)
            · by_cases hyx : y = ⟨x, hx⟩
              · subst hyx
                rw [e0] at hφ
                have hφ := symm _ _ _ _ hφ
                rcases hz with hz | hz
                · exact absurd ⟨z, hz, by rw [← hv z hz]; exact hφ⟩ hP
                · have hz' := (hm z hz).resolve_left hzy
                  by_cases hzS : z ∈ S
                  · exact absurd ⟨z, hzS, by rw [← hv z hzS]; exact hφ⟩ hP
                  · exact main ⟨x, hx⟩ z hzy.symm hzS hzy hz' (Or.inr hy) (by rw [e0]; exact hφ)
              · exact main z y hzy hyS hyx h1 hz hφ
        · rw [avg_add, avg_const]
          linarith
      refine (avg_mono step).trans ?_
      rw [avg_add, avg_const (α := Digest)]
      have := hs S h ⟨x, hx⟩ hS
      push_cast
      nlinarith

end

/-- The inputs `u` of the nonce (with the digest `r`) and `v` of the challenge (with the digest `c`) of a message that the filter refuses, for the key with the digest `d`. -/
def Bad (d : Digest) (u : Bytes) (r : Digest) (v : Bytes) (c : Digest) : Prop :=
  ∃ m, u = prefixOf d ++ m ∧ v = encodePoint ((r.val % L) • B) ++ encodePoint (scalarOf d • B) ++ m ∧
    ¬ LowBitsOk ((r.val % L + c.val % L * scalarOf d) % L)

section
variable {X : Finset Bytes}

theorem bad_step (d : Digest) (S : Finset X) (h : X → Digest) (x : X) :
    (avg fun e : Digest => ind (∃ s ∈ S, Bad d x.1 e s.1 (h s) ∨ Bad d s.1 (h s) x.1 e)) ≤ (1 / 2 ^ 63 + 1 / 2 ^ 250) + S.card * (1 / 2 ^ 252) := by
  classical
  have h1 : (avg fun e : Digest => ind (∃ s ∈ S, Bad d s.1 (h s) x.1 e)) ≤ 1 / 2 ^ 63 + 1 / 2 ^ 250 := by
    by_cases hu : ∃ u : X, u.1 = prefixOf d ++ x.1.drop 64
    · obtain ⟨u, hu⟩ := hu
      have h2 := (abs_le.1 (refused_prob ((h u).val % L) (scalarOf d) (scalarOf_coprime d))).2
      rw [prob_eq_avg] at h2
      refine le_trans (avg_mono fun e => ind_mono ?_) (by linarith : (avg fun e : Digest => ind (¬ LowBitsOk (((h u).val % L + e.val % L * scalarOf d) % L))) ≤ _)
      rintro ⟨s, -, m, e1, e2, e3⟩
      have e4 : x.1.drop 64 = m := by
        rw [e2, List.drop_append_of_le_length (by rw [List.length_append, encodePoint_length, encodePoint_length]),
          List.drop_of_length_le (by rw [List.length_append, encodePoint_length, encodePoint_length]), List.nil_append]
      have e5 : s = u := Subtype.ext (by rw [e1, hu, e4])
      rw [e5] at e3
      exact e3
    · have : ∀ e : Digest, ind (∃ s ∈ S, Bad d s.1 (h s) x.1 e) = 0 := by
        intro e
        refine ind_false ?_
        rintro ⟨s, -, m, e1, e2, -⟩
        refine hu ⟨s, ?_⟩
        rw [e1, e2, List.drop_append_of_le_length (by rw [List.length_append, encodePoint_length, encodePoint_length]),
          List.drop_of_length_le (by rw [List.length_append, encodePoint_length, encodePoint_length]), List.nil_append]
      rw [avg_congr this, avg_const]
      positivity
  have h2 : ∀ s : X, (avg fun e : Digest => ind (Bad d x.1 e s.1 (h s))) ≤ 1 / 2 ^ 252 := by
    intro s
    by_cases ht : ∃ t : ℕ, encodePoint (t • B) = s.1.take 32
    · obtain ⟨t, ht⟩ := ht
      refine le_trans (avg_mono fun e => ind_mono ?_) (avg_class (t % L))
      rintro ⟨m, -, e2, -⟩
      rw [e2, List.append_assoc, List.take_append_of_le_length (by rw [encodePoint_length]), List.take_of_length_le (by rw [encodePoint_length])] at ht
      have := (smul_B_eq_iff _ _).1 (encodePoint_inj ht)
      rw [this, Nat.mod_mod]
    · have : ∀ e : Digest, ind (Bad d x.1 e s.1 (h s)) = 0 := by
        intro e
        refine ind_false ?_
        rintro ⟨m, -, e2, -⟩
        refine ht ⟨e.val % L, ?_⟩
        rw [e2, List.append_assoc, List.take_append_of_le_length (by rw [encodePoint_length]), List.take_of_length_le (by rw [encodePoint_length])]
      rw [avg_congr this, avg_const]
      positivity
  have h3 : ∀ S' : Finset X, (avg fun e : Digest => ind (∃ s ∈ S', Bad d x.1 e s.1 (h s))) ≤ S'.card * (1 / 2 ^ 252) := by
    intro S'
    induction S' using Finset.induction_on with
    | empty =>
      have : ∀ e : Digest, ind (∃ s ∈ (∅ : Finset X), Bad d x.1 e s.1 (h s)) = 0 := fun e => ind_false (by rintro ⟨s, hs, -⟩; exact absurd hs (notMem_empty s))
      rw [avg_congr this, avg_const]
      simp
    | insert s S' hsS ih =>
      have : ∀ e : Digest, ind (∃ u ∈ insert s S', Bad d x.1 e u.1 (h u)) ≤ ind (Bad d x.1 e s.1 (h s)) + ind (∃ u ∈ S', Bad d x.1 e u.1 (h u)) := by
        intro e
        by_cases h1 : Bad d x.1 e s.1 (h s)
        · rw [ind_true h1]
          exact (ind_le_one _).trans (le_add_of_nonneg_right (ind_nonneg _))
        · rw [ind_false h1, zero_add]
          refine ind_mono ?_
          rintro ⟨u, hu, he⟩
          rcases mem_insert.1 hu with h2 | h2
          · subst h2; exact absurd he h1
          · exact ⟨u, h2, he⟩
      refine (avg_mono this).trans ?_
      rw [avg_add, card_insert_of_notMem hsS]
      push_cast
      have := h2 s
      generalize (1 : ℝ) / 2 ^ 252 = z at *
      linarith
  have h4 := h3 S
  have h5 : ∀ e : Digest, ind (∃ s ∈ S, Bad d x.1 e s.1 (h s) ∨ Bad d s.1 (h s) x.1 e) ≤
      ind (∃ s ∈ S, Bad d s.1 (h s) x.1 e) + ind (∃ s ∈ S, Bad d x.1 e s.1 (h s)) := by
    intro e
    by_cases h1 : ∃ s ∈ S, Bad d s.1 (h s) x.1 e
    · rw [ind_true h1]
      exact (ind_le_one _).trans (le_add_of_nonneg_right (ind_nonneg _))
    · rw [ind_false h1, zero_add]
      refine ind_mono ?_
      rintro ⟨s, hs, h2 | h2⟩
      · exact ⟨s, hs, h2⟩
      · exact absurd ⟨s, hs, h2⟩ h1
  refine (avg_mono h5).trans ?_
  rw [avg_add]
  exact add_le_add h1 h4

/-- The run of an attacker with the signer as one program: the questions of the attacker and those of `Sign` for the key with the digest `d`. -/
noncomputable def playAll (d : Digest) : SignProg → HashProg Unit
  | .done _ => .done ()
  | .ask x k => .ask x fun e => playAll d (k e)
  | .sign m k => .ask (prefixOf d ++ m) fun r => .ask (encodePoint ((r.val % L) • B) ++ encodePoint (scalarOf d • B) ++ m) fun c =>
      playAll d (k (signReply (encodePoint ((r.val % L) • B)) ((r.val % L + c.val % L * scalarOf d) % L)))

theorem playAll_atMost (d : Digest) : ∀ {p : SignProg} {q s : ℕ}, p.AtMost q s → (playAll d p).AtMost (q + 2 * s) := by
  intro p
  induction p with
  | done F =>
    intro q s _
    generalize q + 2 * s = n
    cases n <;> exact trivial
  | ask x k ih =>
    intro q s h
    cases q with
    | zero => exact h.elim
    | succ q =>
      rw [show q + 1 + 2 * s = (q + 2 * s) + 1 by omega]
      exact fun e => ih e (h e)
  | sign m k ih =>
    intro q s h
    cases s with
    | zero => cases q <;> exact h.elim
    | succ s =>
      have h' : ∀ r, SignProg.AtMost q s (k r) := by cases q <;> exact h
      rw [show q + 2 * (s + 1) = (q + 2 * s) + 1 + 1 by omega]
      exact fun r c => ih _ (h' _)

theorem playAll_asksIn (d : Digest) (N : ℕ) (hX : ∀ x : Bytes, x.length ≤ N + 64 → x ∈ X) : ∀ {p : SignProg}, p.Short N → (playAll d p).AsksIn X := by
  intro p
  induction p with
  | done F => exact fun _ => trivial
  | ask x k ih => exact fun h => ⟨hX _ h.1, fun e => ih e (h.2 e)⟩
  | sign m k ih =>
    intro h
    have h1 := h.1
    refine ⟨hX _ ?_, fun r => ⟨hX _ ?_, fun c => ih _ (h.2 _)⟩⟩
    · rw [List.length_append, prefixOf_length]
      omega
    · rw [List.length_append, List.length_append, encodePoint_length, encodePoint_length]
      omega

/-- A refused message shows up among the questions. -/
theorem playAll_bad (d : Digest) (f : Bytes → Digest) (sg : Bytes → Out Signature)
    (hsg : sg = idealSign (scalarOf d) (encodePoint (scalarOf d • B)) f (fun m => (f (prefixOf d ++ m)).val % L)) :
    ∀ (p : SignProg) (ms : List (Bytes × Out Signature)), (∀ e ∈ ms, ∀ s, e.2 ≠ .err s) → (∃ e ∈ (p.run f sg ms).2, ∃ s, e.2 = .err s) →
      ∃ u v, u ∈ (playAll d p).asked f ∧ v ∈ (playAll d p).asked f ∧ Bad d u (f u) v (f v) := by
  intro p
  induction p with
  | done F =>
    rintro ms h ⟨e, he, s, hs⟩
    exact absurd hs (h e he s)
  | ask x k ih =>
    intro ms h h2
    obtain ⟨u, v, hu, hv, hb⟩ := ih (f x) ms h h2
    exact ⟨u, v, List.mem_cons_of_mem _ hu, List.mem_cons_of_mem _ hv, hb⟩
  | sign m k ih =>
    intro ms h h2
    have hq : (playAll d (.sign m k)).asked f = (prefixOf d ++ m) ::
        (encodePoint (((f (prefixOf d ++ m)).val % L) • B) ++ encodePoint (scalarOf d • B) ++ m) :: (playAll d (k (sg m))).asked f := by
      rw [hsg]
      rfl
    rw [hq]
    by_cases hb : Bad d (prefixOf d ++ m) (f (prefixOf d ++ m)) (encodePoint (((f (prefixOf d ++ m)).val % L) • B) ++ encodePoint (scalarOf d • B) ++ m)
        (f (encodePoint (((f (prefixOf d ++ m)).val % L) • B) ++ encodePoint (scalarOf d • B) ++ m))
    · exact ⟨_, _, List.mem_cons_self, List.mem_cons_of_mem _ List.mem_cons_self, hb⟩
    · obtain ⟨u, v, hu, hv, hb⟩ := ih (sg m) (ms ++ [(m, sg m)]) (by
        intro e he s hs
        rcases List.mem_append.1 he with he | he
        · exact h e he s hs
        · rw [List.mem_singleton] at he
          subst he
          have hs : sg m = .err s := hs
          rw [hsg] at hs
          unfold idealSign signReply at hs
          split at hs
          · exact nomatch hs
          · rename_i hl
            exact hb ⟨m, rfl, rfl, hl⟩) h2
      exact ⟨u, v, List.mem_cons_of_mem _ (List.mem_cons_of_mem _ hu), List.mem_cons_of_mem _ (List.mem_cons_of_mem _ hv), hb⟩

end

/-- C111: an attacker that has the private key (and its digest), asks for at most `q` hash values and has at most `s` messages signed, of its choice and depending on
all answers, sees `Sign` refuse a message with a probability of at most (q + 2s) (2^-63 + 2^-250 + (q + 2s + 1) / 2^253). -/
theorem C111_never (E : Env) {Ω : Type} [Fintype Ω] [Nonempty Ω] (X : Finset Bytes) (sk : Bytes) (hs : sk.length = 32) (adv : Ω → Digest → SignProg) (q s N : ℕ)
    (hq : ∀ ω d, (adv ω d).AtMost q s) (hN : ∀ ω d, (adv ω d).Short N) (hX : ∀ x : Bytes, x.length ≤ N + 64 → x ∈ X) :
    (prob fun x : Ω × (X → Digest) => ∃ kp, newKeyPair (E.withHash (onAll x.2)) (some (newPrivateKey sk)) none = .ok kp ∧
      ∃ e ∈ ((adv x.1 (onAll x.2 sk)).run (onAll x.2) (sign (E.withHash (onAll x.2)) kp) []).2, ∃ msg, e.2 = .err msg) ≤
      (q + 2 * s) * (1 / 2 ^ 63 + 1 / 2 ^ 250 + (q + 2 * s + 1) / 2 ^ 253) := by
  classical
  have hsk : sk ∈ X := hX _ (by omega)
  let bound : ℝ := (q + 2 * s) * (1 / 2 ^ 63 + 1 / 2 ^ 250 + (q + 2 * s + 1) / 2 ^ 253)
  have b0 : 0 ≤ bound := by positivity
  rw [prob_eq_avg, avg_prod]
  refine le_trans (avg_mono fun ω => ?_) (avg_const_le (α := Ω) b0)
  dsimp only
  let Ev : Digest → (Bytes → Digest) → Prop := fun d f =>
    ∃ u v, u ∈ (playAll d (adv ω d)).asked f ∧ v ∈ (playAll d (adv ω d)).asked f ∧ Bad d u (f u) v (f v)
  have h1 : ∀ f : X → Digest, ind (∃ kp, newKeyPair (E.withHash (onAll f)) (some (newPrivateKey sk)) none = .ok kp ∧
      ∃ e ∈ ((adv ω (onAll f sk)).run (onAll f) (sign (E.withHash (onAll f)) kp) []).2, ∃ msg, e.2 = .err msg) ≤ ind (Ev (f ⟨sk, hsk⟩) (onAll f)) := by
    intro f
    refine ind_mono ?_
    rintro ⟨kp, hk, h⟩
    rw [← onAll_mem f hsk]
    have h2 := C30_derive (E.withHash (onAll f)) (newPrivateKey sk)
    rw [hk] at h2
    have h2 : kp = ⟨some (newPrivateKey sk), ⟨encodePoint (scalarOf (onAll f sk) • B)⟩⟩ := Out.ok.inj h2
    rw [h2, sign_withHash] at h
    exact playAll_bad _ _ _ rfl _ [] (fun _ h => absurd h List.not_mem_nil) h
  refine (avg_mono h1).trans ?_
  rw [avg_entry (⟨sk, hsk⟩ : X) fun d (f : X → Digest) => ind (Ev d (onAll f))]
  refine le_trans (avg_mono fun d => ?_) (avg_const_le (α := Digest) b0)
  have h := relations (fun x e y e' => Bad d x e y e' ∨ Bad d y e' x e) (fun _ _ _ _ h => h.symm) (1 / 2 ^ 63 + 1 / 2 ^ 250) (1 / 2 ^ 252)
    (by positivity) (by positivity) (fun S h x _ => bad_step d S h x) (playAll d (adv ω d)) (q + 2 * s) {⟨sk, hsk⟩} (fun _ => d)
    (playAll_atMost d (hq ω d)) (playAll_asksIn d N hX (hN ω d))
  have hb : ∀ g : X → Digest, Function.update g ⟨sk, hsk⟩ d = blend {⟨sk, hsk⟩} (fun _ => d) g := by
    intro g
    funext y
    by_cases hy : y = ⟨sk, hsk⟩
    · rw [hy, Function.update_self, blend_mem (mem_singleton_self _)]
    · rw [Function.update_of_ne hy, blend_not (fun e => hy (mem_singleton.1 e))]
  refine le_trans (avg_mono fun g => ?_) (h.trans (le_of_eq ?_))
  · rw [hb g]
    refine ind_mono ?_
    rintro ⟨u, v, hu, hv, hbad⟩
    have mu := HashProg.asked_mem (playAll_asksIn d N hX (hN ω d)) hu
    have mv := HashProg.asked_mem (playAll_asksIn d N hX (hN ω d)) hv
    rw [onAll_mem _ mu, onAll_mem _ mv] at hbad
    have hlen : ∃ m, u = prefixOf d ++ m ∧ v.length = m.length + 64 := by
      obtain ⟨m, e1, e2, -⟩ := hbad
      refine ⟨m, e1, ?_⟩
      rw [e2, List.length_append, List.length_append, encodePoint_length, encodePoint_length]
      omega
    obtain ⟨m, e1, e2⟩ := hlen
    have hul : u.length = m.length + 32 := by rw [e1, List.length_append, prefixOf_length]; omega
    have hne : (⟨u, mu⟩ : X) ≠ ⟨v, mv⟩ := fun e => by
      have := congrArg List.length (congrArg Subtype.val e)
      dsimp only at this
      omega
    refine ⟨⟨u, mu⟩, ⟨v, mv⟩, hne, hv, ?_, Or.inr hu, Or.inl hbad⟩
    intro e
    have := congrArg List.length (congrArg Subtype.val (mem_singleton.1 e))
    dsimp only at this
    omega
  · rw [card_singleton]
    push_cast
    have e : (1 : ℝ) / 2 ^ 252 = 2 / 2 ^ 253 := by
      rw [show (253 : ℕ) = 252 + 1 from rfl, pow_succ, div_eq_div_iff (by positivity) (by positivity)]; ring
    rw [e]
    have hz : (2 : ℝ) ^ 253 ≠ 0 := by positivity
    generalize (2 : ℝ) ^ 253 = z at *
    generalize (1 : ℝ) / 2 ^ 63 = a
    generalize (1 : ℝ) / 2 ^ 250 = b
    field_simp
    ring

/-! ## Cases -/

/-- An attacker with the private key that asks for a hash value and has the messages [1] and [2] signed, the second if the first was signed. -/
noncomputable def chooser (_ : Unit) (d : Digest) : SignProg :=
  .ask (prefixOf d ++ [1]) fun _ => .sign [1] fun r => .sign (if r = .err "Generated signature is not canonical" then [1] else [2]) fun _ => .done ⟨[], [], []⟩

/-- The hypotheses of C111, and a function for which the attacker sees an error. -/
example (E : Env) : (∀ ω d, (chooser ω d).AtMost 1 2) ∧ (∀ ω d, (chooser ω d).Short 1) ∧ ∃ X : Finset Bytes, (∀ x : Bytes, x.length ≤ 1 + 64 → x ∈ X) ∧
    0 < prob fun x : Unit × (X → Digest) => ∃ kp, newKeyPair (E.withHash (onAll x.2)) (some (newPrivateKey (List.replicate 32 7))) none = .ok kp ∧
      ∃ e ∈ ((chooser x.1 (onAll x.2 (List.replicate 32 7))).run (onAll x.2) (sign (E.withHash (onAll x.2)) kp) []).2, ∃ msg, e.2 = .err msg := by
  refine ⟨fun _ _ _ _ _ => trivial, fun _ d => ⟨by rw [List.length_append, prefixOf_length]; simp, fun _ => ⟨by simp, fun r => ⟨?_, fun _ => by simp [SignProg.Short]⟩⟩⟩, ?_⟩
  · split <;> simp
  obtain ⟨X, hX⟩ := exists_short (1 + 64)
  refine ⟨X, hX, ?_⟩
  refine prob_pos ((), fun _ => Digest.zero) ?_
  have hd : onAll (X := X) (fun _ => Digest.zero) = fun _ => Digest.zero := by
    funext x; unfold onAll; split <;> rfl
  dsimp only
  rw [hd]
  have hr : Refuses E (List.replicate 32 7) [1] fun _ => Digest.zero := by
    rw [refuses_iff]
    have hv : (Digest.zero).val = 0 := rfl
    rw [hv, Nat.zero_mod, zero_mul, Nat.zero_add, Nat.zero_mod]
    exact fun h => h.1 (Nat.zero_mod _)
  obtain ⟨kp, hk, e, he⟩ := hr
  refine ⟨kp, hk, ([1], sign (E.withHash fun _ => Digest.zero) kp [1]), ?_, e, he⟩
  exact List.mem_append_left _ (List.mem_singleton.2 rfl)

end Ed

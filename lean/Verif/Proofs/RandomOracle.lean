import Verif.Spec.RandomOracle
import Verif.Proofs.Forking
import Verif.Props.Binding
import Mathlib.Data.Int.CardIntervalMod

/-! # Lazy digests, rewinding and extraction -/

set_option autoImplicit false

namespace Ed

open Finset

namespace HashProg

variable {α β : Type}

theorem atMost_mono {n m : ℕ} (hnm : n ≤ m) : ∀ {p : HashProg α}, p.AtMost n → p.AtMost m := by
  intro p
  induction p generalizing n m with
  | done a => intro _; cases m <;> trivial
  | ask x k ih =>
    cases n with
    | zero => intro h; exact h.elim
    | succ n =>
      cases m with
      | zero => omega
      | succ m => intro h d; exact ih d (by omega) (h d)

theorem bind_atMost {n m : ℕ} {g : α → HashProg β} (hg : ∀ a, (g a).AtMost m) : ∀ {p : HashProg α}, p.AtMost n → (p.bind g).AtMost (n + m) := by
  intro p
  induction p generalizing n with
  | done a => intro _; exact atMost_mono (Nat.le_add_left _ _) (hg a)
  | ask x k ih =>
    cases n with
    | zero => intro h; exact h.elim
    | succ n =>
      intro h
      rw [Nat.succ_add]
      intro d
      exact ih d (h d)

theorem run_bind (f : Bytes → Digest) (g : α → HashProg β) : ∀ p : HashProg α, (p.bind g).run f = (g (p.run f)).run f := by
  intro p
  induction p with
  | done a => rfl
  | ask x k ih => exact ih _

/-- Only the digests to the questions matter. -/
theorem run_congr {X : Finset Bytes} {f g : Bytes → Digest} (h : ∀ x ∈ X, f x = g x) : ∀ {p : HashProg α}, p.AsksIn X → p.run f = p.run g := by
  intro p
  induction p with
  | done a => intro _; rfl
  | ask x k ih =>
    rintro ⟨hx, hk⟩
    show (k (f x)).run f = (k (g x)).run g
    rw [h x hx]
    exact ih _ (hk _)

theorem play_some {h : ℕ → Digest} {T : List (Bytes × Digest)} {x : Bytes} {d : Digest} (k : Digest → HashProg α) (hx : T.lookup x = some d) :
    (ask x k).play h T = (k d).play h T := by
  rw [play, hx]

theorem play_none {h : ℕ → Digest} {T : List (Bytes × Digest)} {x : Bytes} (k : Digest → HashProg α) (hx : T.lookup x = none) :
    (ask x k).play h T = (k (h T.length)).play h (T ++ [(x, h T.length)]) := by
  rw [play, hx]

/-- Answers at the positions of recorded questions are not used. -/
theorem play_congr {h g : ℕ → Digest} : ∀ (p : HashProg α) (T : List (Bytes × Digest)), (∀ i, T.length ≤ i → h i = g i) →
    p.play h T = p.play g T := by
  intro p
  induction p with
  | done a => intro T _; rfl
  | ask x k ih =>
    intro T hT
    cases hx : T.lookup x with
    | some d => rw [play_some k hx, play_some k hx]; exact ih d T hT
    | none =>
      rw [play_none k hx, play_none k hx, hT _ le_rfl]
      refine ih _ _ fun i hi => hT i ?_
      rw [List.length_append, List.length_singleton] at hi
      omega

theorem play_prefix (h : ℕ → Digest) : ∀ (p : HashProg α) (T : List (Bytes × Digest)), T <+: (p.play h T).2 := by
  intro p
  induction p with
  | done a => intro T; exact List.prefix_rfl
  | ask x k ih =>
    intro T
    unfold play
    cases T.lookup x with
    | some d => exact ih d T
    | none => exact (List.prefix_append _ _).trans (ih _ _)

theorem play_length {h : ℕ → Digest} : ∀ {p : HashProg α} {n : ℕ}, p.AtMost n → ∀ T : List (Bytes × Digest), (p.play h T).2.length ≤ T.length + n := by
  intro p
  induction p with
  | done a => intro n _ T; exact Nat.le_add_right _ _
  | ask x k ih =>
    intro n hn T
    cases n with
    | zero => exact hn.elim
    | succ n =>
      unfold play
      cases T.lookup x with
      | some d => have := ih d (hn d) T; dsimp only; omega
      | none =>
        have := ih (h T.length) (hn _) (T ++ [(x, h T.length)])
        rw [List.length_append, List.length_singleton] at this
        dsimp only; omega

/-- The recorded digests are the given ones. -/
theorem play_answers (h : ℕ → Digest) : ∀ (p : HashProg α) (T : List (Bytes × Digest)), (∀ i (hi : i < T.length), T[i].2 = h i) →
    ∀ i (hi : i < (p.play h T).2.length), (p.play h T).2[i].2 = h i := by
  intro p
  induction p with
  | done a => intro T hT; exact hT
  | ask x k ih =>
    intro T hT
    cases hx : T.lookup x with
    | some d => rw [play_some k hx]; exact ih d T hT
    | none =>
      rw [play_none k hx]
      refine ih _ _ fun i hi => ?_
      rw [List.length_append, List.length_singleton] at hi
      rw [List.getElem_append]
      split
      · exact hT i _
      · have : i = T.length := by omega
        subst this
        simp

/-- Two runs whose digests agree before `j` ask the same questions up to and including the `j`-th. -/
theorem play_lockstep {h g : ℕ → Digest} {j : ℕ} (hg : ∀ i < j, h i = g i) : ∀ (p : HashProg α) (T : List (Bytes × Digest)), T.length ≤ j →
    ((p.play h T).2.map Prod.fst).take (j + 1) = ((p.play g T).2.map Prod.fst).take (j + 1) := by
  intro p
  induction p with
  | done a => intro T hT; rfl
  | ask x k ih =>
    intro T hT
    unfold play
    cases T.lookup x with
    | some d => exact ih d T hT
    | none =>
      dsimp only
      rcases Nat.lt_or_ge T.length j with hlt | hge
      · rw [hg _ hlt]
        exact ih _ _ (by rw [List.length_append, List.length_singleton]; omega)
      · have hj : T.length = j := by omega
        have key : ∀ (h : ℕ → Digest) (d : Digest), (((k d).play h (T ++ [(x, d)])).2.map Prod.fst).take (j + 1) = (T ++ [(x, d)]).map Prod.fst := by
          intro h d
          obtain ⟨U, hU⟩ := play_prefix h (k d) (T ++ [(x, d)])
          rw [← hU, List.map_append, List.take_left']
          simp [hj]
        rw [key, key]
        simp

theorem lookup_ext {T : List (Bytes × Digest)} {x : Bytes} (d : Digest) (h : T.lookup x = none) (y : Bytes) (e : Digest)
    (hy : T.lookup y = some e) : (T ++ [(x, d)]).lookup y = some e := by
  rw [List.lookup_append, hy]; rfl

/-- Recorded digests stay. -/
theorem play_lookup (h : ℕ → Digest) (y : Bytes) (e : Digest) : ∀ (p : HashProg α) (T : List (Bytes × Digest)), T.lookup y = some e →
    (p.play h T).2.lookup y = some e := by
  intro p
  induction p with
  | done a => intro T hT; exact hT
  | ask x k ih =>
    intro T hT
    unfold play
    cases hx : T.lookup x with
    | some d => exact ih d T hT
    | none => exact ih _ _ (lookup_ext _ hx _ _ hT)

theorem play_bind (h : ℕ → Digest) (g : α → HashProg β) : ∀ (p : HashProg α) (T : List (Bytes × Digest)),
    (p.bind g).play h T = (g (p.play h T).1).play h (p.play h T).2 := by
  intro p
  induction p with
  | done a => intro T; rfl
  | ask x k ih =>
    intro T
    show play h T (.ask x fun d => (k d).bind g) = _
    cases hx : T.lookup x with
    | some d => rw [play_some _ hx, play_some k hx]; exact ih d T
    | none => rw [play_none _ hx, play_none k hx]; exact ih _ _

end HashProg

/-- The answer for a recorded question is found at its position. -/
theorem lookup_idxOf {T : List (Bytes × Digest)} {x : Bytes} {d : Digest} (h : T.lookup x = some d) :
    ∃ hj : (T.map Prod.fst).idxOf x < T.length, T[(T.map Prod.fst).idxOf x].2 = d ∧ T[(T.map Prod.fst).idxOf x].1 = x := by
  induction T with
  | nil => exact nomatch h
  | cons y T ih =>
    obtain ⟨y, e⟩ := y
    rw [List.lookup_cons] at h
    by_cases hxy : x = y
    · subst hxy
      simp only [beq_self_eq_true] at h
      simp only [List.map_cons, List.idxOf_cons_self]
      exact ⟨by simp, by simpa using h, rfl⟩
    · have hb : (x == y) = false := by simpa using hxy
      rw [hb] at h
      obtain ⟨h1, h2, h3⟩ := ih h
      have hi : ((((y, e) :: T).map Prod.fst).idxOf x) = (T.map Prod.fst).idxOf x + 1 := by
        rw [List.map_cons, List.idxOf_cons_ne _ (fun h => hxy h.symm)]
      simp only [hi]
      exact ⟨by simpa using h1, by simpa using h2, by simpa using h3⟩

/-! ## Random functions and lazy digests -/

section Lazy

variable {I D : Type} [Fintype I] [DecidableEq I] [Fintype D]

/-- Drawing one entry anew changes nothing. -/
theorem sum_update (i : I) (F : (I → D) → ℕ) : ∑ d : D, ∑ g : I → D, F (Function.update g i d) = Fintype.card D * ∑ g : I → D, F g := by
  let e : D × (I → D) ≃ D × (I → D) :=
    { toFun := fun x => (x.2 i, Function.update x.2 i x.1)
      invFun := fun x => (x.2 i, Function.update x.2 i x.1)
      left_inv := fun x => by simp
      right_inv := fun x => by simp }
  have h1 : ∑ d : D, ∑ g : I → D, F (Function.update g i d) = ∑ x : D × (I → D), F (e x).2 := by
    rw [Fintype.sum_prod_type]
    rfl
  rw [h1, Equiv.sum_comp e (fun x => F x.2), Fintype.sum_prod_type]
  show ∑ _d : D, ∑ g : I → D, F g = _
  rw [sum_const, card_univ, smul_eq_mul]

/-- The entry `i` and the rest are independent. -/
theorem sum_entry (i : I) (F : D → (I → D) → ℕ) :
    Fintype.card D * ∑ g : I → D, F (g i) g = ∑ d : D, ∑ g : I → D, F d (Function.update g i d) := by
  rw [← sum_update i (fun g => F (g i) g)]
  refine sum_congr rfl fun d _ => sum_congr rfl fun g _ => ?_
  rw [Function.update_self]

end Lazy

/-- A hash function with recorded digests. -/
def overlay (T : List (Bytes × Digest)) (f : Bytes → Digest) (x : Bytes) : Digest := (T.lookup x).getD (f x)

open Classical in
theorem lazy_sum {α : Type} (X : Finset Bytes) (n : ℕ) (P : α → ℕ) : ∀ (p : HashProg α) (m : ℕ) (T : List (Bytes × Digest)), p.AtMost m →
    p.AsksIn X → T.length + m ≤ n →
    Fintype.card (Fin n → Digest) * ∑ f : X → Digest, P (p.run (overlay T (onAll f))) =
      Fintype.card (X → Digest) * ∑ h : Fin n → Digest, P (p.play (digests h) T).1 := by
  intro p
  induction p with
  | done a =>
    intro m T _ _ _
    simp only [HashProg.run, HashProg.play, sum_const, card_univ, smul_eq_mul]
    ring
  | ask x k ih =>
    intro m T hm hX hn
    cases m with
    | zero => exact hm.elim
    | succ m =>
      obtain ⟨hx, hk⟩ := hX
      cases hT : T.lookup x with
      | some d =>
        have h1 : ∀ f : X → Digest, (HashProg.ask x k).run (overlay T (onAll f)) = (k d).run (overlay T (onAll f)) := by
          intro f
          show (k (overlay T (onAll f) x)).run _ = _
          unfold overlay
          rw [hT]; rfl
        have h2 : ∀ h : Fin n → Digest, (HashProg.ask x k).play (digests h) T = (k d).play (digests h) T := by
          intro h
          rw [HashProg.play, hT]
        simp only [h1, h2]
        exact ih d m T (hm d) (hk d) (by omega)
      | none =>
        have h1 : ∀ f : X → Digest, (HashProg.ask x k).run (overlay T (onAll f)) = (k (f ⟨x, hx⟩)).run (overlay T (onAll f)) := by
          intro f
          show (k (overlay T (onAll f) x)).run _ = _
          have : overlay T (onAll f) x = f ⟨x, hx⟩ := by
            unfold overlay onAll
            rw [hT, dif_pos hx]; rfl
          rw [this]
        have hl : T.length < n := by omega
        have h2 : ∀ h : Fin n → Digest, (HashProg.ask x k).play (digests h) T =
            (k (h ⟨T.length, hl⟩)).play (digests h) (T ++ [(x, h ⟨T.length, hl⟩)]) := by
          intro h
          rw [HashProg.play, hT]
          have : digests h T.length = h ⟨T.length, hl⟩ := by unfold digests; rw [dif_pos hl]
          simp only [this]
        simp only [h1, h2]
        have e1 := sum_entry (D := Digest) (⟨x, hx⟩ : X) (fun d f => P ((k d).run (overlay T (onAll f))))
        have e2 := sum_entry (D := Digest) (⟨T.length, hl⟩ : Fin n) (fun d h => P ((k d).play (digests h) (T ++ [(x, d)])).1)
        have hD : 0 < Fintype.card Digest := Fintype.card_pos
        refine Nat.eq_of_mul_eq_mul_left hD ?_
        rw [mul_left_comm, e1, mul_left_comm, e2, mul_sum, mul_sum]
        refine sum_congr rfl fun d _ => ?_
        have o : ∀ f : X → Digest, overlay T (onAll (Function.update f ⟨x, hx⟩ d)) = overlay (T ++ [(x, d)]) (onAll f) := by
          intro f
          funext y
          unfold overlay
          rw [List.lookup_append]
          cases hy : T.lookup y with
          | some e => rfl
          | none =>
            show onAll _ y = (List.lookup y [(x, d)]).getD (onAll f y)
            rw [List.lookup_cons]
            by_cases hxy : y = x
            · subst hxy
              unfold onAll
              rw [dif_pos hx, Function.update_self]
              simp
            · have hb : (y == x) = false := by simpa using hxy
              rw [hb]
              show _ = onAll f y
              unfold onAll
              by_cases hyX : y ∈ X
              · rw [dif_pos hyX, dif_pos hyX, Function.update_of_ne]
                intro h
                exact hxy (congrArg Subtype.val h)
              · rw [dif_neg hyX, dif_neg hyX]
        simp only [o]
        have key := ih d m (T ++ [(x, d)]) (hm d) (hk d) (by rw [List.length_append, List.length_singleton]; omega)
        rw [key]
        congr 1
        refine sum_congr rfl fun h _ => ?_
        congr 2
        refine HashProg.play_congr _ _ fun i hi => ?_
        rw [List.length_append, List.length_singleton] at hi
        unfold digests
        split
        · rw [Function.update_of_ne]
          intro e
          have := congrArg Fin.val e
          dsimp only at this
          omega
        · rfl

end Ed

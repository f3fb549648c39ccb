import Mathlib.Algebra.Order.Chebyshev
import Mathlib.Algebra.BigOperators.Ring.Finset
import Mathlib.Algebra.Order.BigOperators.Group.Finset
import Mathlib.Data.Fintype.BigOperators
import Mathlib.Logic.Equiv.Fin.Basic
import Mathlib.Data.Real.Basic
import Mathlib.Tactic.Linarith
import Mathlib.Tactic.Ring
import Mathlib.Tactic.Positivity
import Mathlib.Tactic.FieldSimp

/-! # The forking lemma: counting -/

set_option autoImplicit false

namespace Ed.Forking

open Finset

variable {I D : Type} [Fintype I] [DecidableEq I] [Fintype D]

/-- `h` where `p` holds, `h'` elsewhere. -/
def splice (p : I → Prop) [DecidablePred p] (h h' : I → D) : I → D := fun i => if p i then h i else h' i

/-- Rewinding succeeds at least as often as two independent runs. -/
theorem splice_count (p : I → Prop) [DecidablePred p] (f : (I → D) → Prop) [DecidablePred f] :
    (univ.filter f).card ^ 2 ≤ (univ.filter fun x : (I → D) × (I → D) => f x.1 ∧ f (splice p x.1 x.2)).card := by
  let e := Equiv.piEquivPiSubtypeProd p (fun _ : I => D)
  let g : ({i // p i} → D) → ({i // ¬p i} → D) → ℕ := fun a b => if f (e.symm (a, b)) then 1 else 0
  have h1 : (univ.filter f).card = ∑ a, ∑ b, g a b := by
    rw [card_filter, ← Fintype.sum_prod_type', ← Equiv.sum_comp e.symm]
  have h2 : (univ.filter fun x : (I → D) × (I → D) => f x.1 ∧ f (splice p x.1 x.2)).card =
      Fintype.card ({i // p i} → D) * ∑ a, (∑ b, g a b) ^ 2 := by
    rw [card_filter, Fintype.sum_prod_type, ← Equiv.sum_comp e.symm, Fintype.sum_prod_type]
    have : ∀ a b, (∑ h' : I → D, if f (e.symm (a, b)) ∧ f (splice p (e.symm (a, b)) h') then 1 else 0) =
        Fintype.card ({i // p i} → D) * ∑ b', g a b * g a b' := by
      intro a b
      rw [← Equiv.sum_comp e.symm, Fintype.sum_prod_type]
      have hs : ∀ a' b', splice p (e.symm (a, b)) (e.symm (a', b')) = e.symm (a, b') := by
        intro a' b'
        funext i
        unfold splice
        by_cases hi : p i <;> simp [e, Equiv.piEquivPiSubtypeProd, hi]
      simp only [hs]
      rw [sum_const, card_univ, smul_eq_mul]
      congr 1
      refine sum_congr rfl fun b' _ => ?_
      simp only [g]
      by_cases x : f (e.symm (a, b)) <;> by_cases y : f (e.symm (a, b')) <;> simp [x, y]
    simp only [this]
    rw [mul_sum]
    refine sum_congr rfl fun a _ => ?_
    rw [← mul_sum, sq, sum_mul_sum]
  rw [h1, h2]
  have := sq_sum_le_card_mul_sum_sq (s := (univ : Finset ({i // p i} → D))) (f := fun a => ∑ b, g a b)
  rwa [card_univ] at this

open Classical in
/-- The vectors with an entry in a given set. -/
theorem entry_count (j : I) (T : D → Prop) (K : ℕ) (hK : (univ.filter T).card ≤ K) :
    (univ.filter fun h : I → D => T (h j)).card ≤ K * Fintype.card D ^ (Fintype.card I - 1) := by
  have h1 : (univ.filter fun h : I → D => T (h j)) =
      Fintype.piFinset (fun i : I => if i = j then univ.filter T else univ) := by
    ext h
    simp only [mem_filter, mem_univ, true_and, Fintype.mem_piFinset]
    constructor
    · intro hT i
      by_cases hi : i = j
      · subst hi; simp [hT]
      · simp [hi]
    · intro hh
      have := hh j
      simpa using this
  rw [h1, Fintype.card_piFinset, ← mul_prod_erase univ _ (mem_univ j), if_pos rfl]
  have h2 : ∏ x ∈ univ.erase j, (if x = j then univ.filter T else univ).card = Fintype.card D ^ (Fintype.card I - 1) := by
    rw [prod_congr rfl (g := fun _ => Fintype.card D) (fun x hx => by rw [if_neg (ne_of_mem_erase hx), card_univ]), prod_const,
      card_erase_of_mem (mem_univ j), card_univ]
  rw [h2]
  exact Nat.mul_le_mul_right _ hK

variable {n : ℕ} {Ω κ : Type} [Fintype Ω]

/-- The second run: the same answers before position `j`, new ones from there. -/
def rewind (j : Fin n) (h h' : Fin n → D) : Fin n → D := splice (fun i => i < j) h h'

open Classical in
/-- The general forking lemma, as a count.  `J ω h` is the position of the decisive question if the run with coins `ω` and answers `h`
is successful. -/
theorem forking_count (J : Ω → (Fin n → D) → Option (Fin n)) (c : D → κ) (K : ℕ)
    (hK : ∀ x : κ, (univ.filter fun d => c d = x).card ≤ K) :
    (univ.filter fun x : Ω × (Fin n → D) => (J x.1 x.2).isSome).card ^ 2 ≤
      (Fintype.card Ω * n) *
      ((univ.filter fun x : Ω × (Fin n → D) × (Fin n → D) =>
          ∃ j, J x.1 x.2.1 = some j ∧ J x.1 (rewind j x.2.1 x.2.2) = some j ∧ c (x.2.1 j) ≠ c (x.2.2 j)).card +
        (univ.filter fun x : Ω × (Fin n → D) => (J x.1 x.2).isSome).card * (K * Fintype.card D ^ (n - 1))) := by
  set acc := (univ.filter fun x : Ω × (Fin n → D) => (J x.1 x.2).isSome).card with hacc
  set good := (univ.filter fun x : Ω × (Fin n → D) × (Fin n → D) =>
    ∃ j, J x.1 x.2.1 = some j ∧ J x.1 (rewind j x.2.1 x.2.2) = some j ∧ c (x.2.1 j) ≠ c (x.2.2 j)).card with hgood
  -- successes by coins and position
  let W : Ω × Fin n → ℕ := fun y => (univ.filter fun h : Fin n → D => J y.1 h = some y.2).card
  have hsplit : ∀ (ω : Ω) (h : Fin n → D), (if (J ω h).isSome then 1 else 0) = ∑ j, if J ω h = some j then 1 else 0 := by
    intro ω h
    cases hj : J ω h with
    | none => simp
    | some j => simp
  have haccW : acc = ∑ y, W y := by
    rw [hacc, card_filter, Fintype.sum_prod_type, Fintype.sum_prod_type]
    refine sum_congr rfl fun ω _ => ?_
    simp only [W, card_filter]
    rw [sum_comm]
    refine sum_congr rfl fun h _ => ?_
    exact hsplit ω h
  have hcs : acc ^ 2 ≤ (Fintype.card Ω * n) * ∑ y, W y ^ 2 := by
    have := sq_sum_le_card_mul_sum_sq (s := (univ : Finset (Ω × Fin n))) (f := W)
    rwa [card_univ, Fintype.card_prod, Fintype.card_fin, ← haccW] at this
  refine hcs.trans (Nat.mul_le_mul_left _ ?_)
  -- pairs of runs with the same position
  let both : Ω × Fin n → ℕ := fun y =>
    (univ.filter fun x : (Fin n → D) × (Fin n → D) => J y.1 x.1 = some y.2 ∧ J y.1 (rewind y.2 x.1 x.2) = some y.2).card
  have hboth : ∑ y, W y ^ 2 ≤ ∑ y, both y := by
    refine sum_le_sum fun y _ => ?_
    exact splice_count (fun i => i < y.2) (fun h => J y.1 h = some y.2)
  refine hboth.trans ?_
  -- split by the challenges
  have hsum : ∑ y, both y ≤ good + ∑ y : Ω × Fin n, W y * (K * Fintype.card D ^ (n - 1)) := by
    have h1 : ∀ y : Ω × Fin n, both y ≤
        (univ.filter fun x : (Fin n → D) × (Fin n → D) => J y.1 x.1 = some y.2 ∧ J y.1 (rewind y.2 x.1 x.2) = some y.2 ∧
          c (x.1 y.2) ≠ c (x.2 y.2)).card + W y * (K * Fintype.card D ^ (n - 1)) := by
      intro y
      have h2 : (univ.filter fun x : (Fin n → D) × (Fin n → D) => J y.1 x.1 = some y.2 ∧ c (x.2 y.2) = c (x.1 y.2)).card ≤
          W y * (K * Fintype.card D ^ (n - 1)) := by
        rw [card_filter, Fintype.sum_prod_type]
        simp only [W]
        rw [card_filter, sum_mul]
        refine sum_le_sum fun h _ => ?_
        by_cases hJ : J y.1 h = some y.2
        · simp only [hJ, true_and, if_true, one_mul]
          rw [← card_filter]
          have := entry_count (I := Fin n) y.2 (fun d => c d = c (h y.2)) K (hK _)
          rwa [Fintype.card_fin] at this
        · simp [hJ]
      refine le_trans ?_ (Nat.add_le_add_left h2 _)
      simp only [both]
      rw [← card_union_add_card_inter]
      refine le_trans (card_le_card ?_) (Nat.le_add_right _ _)
      intro x hx
      simp only [mem_filter, mem_univ, true_and, mem_union] at hx ⊢
      by_cases hc : c (x.1 y.2) = c (x.2 y.2)
      · exact Or.inr ⟨hx.1, hc.symm⟩
      · exact Or.inl ⟨hx.1, hx.2, hc⟩
    refine (sum_le_sum fun y _ => h1 y).trans ?_
    rw [sum_add_distrib]
    refine Nat.add_le_add_right ?_ _
    rw [hgood, Fintype.sum_prod_type, card_filter, Fintype.sum_prod_type]
    refine sum_le_sum fun ω _ => ?_
    simp only [card_filter]
    rw [sum_comm]
    refine sum_le_sum fun x _ => ?_
    cases hj : J ω x.1 with
    | none => simp
    | some j =>
      have : ∀ i, (if some j = some i ∧ J ω (rewind i x.1 x.2) = some i ∧ c (x.1 i) ≠ c (x.2 i) then 1 else 0) =
          if i = j then (if J ω (rewind j x.1 x.2) = some j ∧ c (x.1 j) ≠ c (x.2 j) then 1 else 0) else 0 := by
        intro i
        by_cases hi : i = j
        · subst hi; simp
        · have : ¬ j = i := fun h => hi h.symm
          simp [hi, this]
      simp only [this]
      rw [sum_ite_eq' univ j]
      simp only [mem_univ, if_true]
      by_cases hh : J ω (rewind j x.1 x.2) = some j ∧ c (x.1 j) ≠ c (x.2 j)
      · rw [if_pos hh, if_pos ⟨j, rfl, hh⟩]
      · rw [if_neg hh]; exact Nat.zero_le _
  refine hsum.trans ?_
  rw [← sum_mul, ← haccW]

end Ed.Forking

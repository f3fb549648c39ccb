import Verif.Proofs.Avg
import Verif.Spec.Secrecy
import Mathlib.Data.Fintype.Perm
import Mathlib.GroupTheory.Perm.Basic
import Mathlib.Algebra.BigOperators.Fin
import Mathlib.Tactic.FieldSimp

/-!
# Random permutations and random answers

Programs that draw random values and evaluate secret permutations.  With random permutations and with random answers they give the same result, up to the
probability that an input or an answer repeats.
-/

set_option autoImplicit false

namespace Ed

open Finset

/-- A program that draws from `C` and evaluates permutations of `X`, one for each element of `K`. -/
inductive BProg (K X C : Type) where
  | done (v : Bool)
  | draw (k : C → BProg K X C)
  | eval (κ : K) (x : X) (k : X → BProg K X C)

namespace BProg

variable {K X C : Type} [Fintype K] [DecidableEq K] [Fintype X] [DecidableEq X] [Fintype C]

/-- The probability of `true` with the permutations `P`. -/
noncomputable def real (P : K → Equiv.Perm X) : BProg K X C → ℝ
  | .done v => ind (v = true)
  | .draw k => avg fun c => real P (k c)
  | .eval κ x k => real P (k (P κ x))

/-- The probability of `true` with random answers. -/
noncomputable def ideal : BProg K X C → ℝ
  | .done v => ind (v = true)
  | .draw k => avg fun c => ideal (k c)
  | .eval _ _ k => avg fun y => ideal (k y)

/-- The probability that, with random answers, an input or an answer repeats; the earlier inputs are `D`, the earlier answers `A`. -/
noncomputable def bad (D A : List (K × X)) : BProg K X C → ℝ
  | .done _ => 0
  | .draw k => avg fun c => bad D A (k c)
  | .eval κ x k => avg fun y => if (κ, x) ∈ D ∨ (κ, y) ∈ A then 1 else bad ((κ, x) :: D) ((κ, y) :: A) (k y)

theorem real_nonneg (P : K → Equiv.Perm X) (p : BProg K X C) : 0 ≤ p.real P := by
  induction p with
  | done v => exact ind_nonneg _
  | draw k ih => exact avg_nonneg fun c => ih c
  | eval κ x k ih => exact ih _

theorem real_le_one (P : K → Equiv.Perm X) (p : BProg K X C) : p.real P ≤ 1 := by
  induction p with
  | done v => exact ind_le_one _
  | draw k ih => exact (avg_mono fun c => ih c).trans (avg_const_le zero_le_one)
  | eval κ x k ih => exact ih _

omit [Fintype K] [DecidableEq K] [DecidableEq X] in
theorem ideal_nonneg (p : BProg K X C) : 0 ≤ p.ideal := by
  induction p with
  | done v => exact ind_nonneg _
  | draw k ih => exact avg_nonneg fun c => ih c
  | eval κ x k ih => exact avg_nonneg fun y => ih y

omit [Fintype K] [DecidableEq K] [DecidableEq X] in
theorem ideal_le_one (p : BProg K X C) : p.ideal ≤ 1 := by
  induction p with
  | done v => exact ind_le_one _
  | draw k ih => exact (avg_mono fun c => ih c).trans (avg_const_le zero_le_one)
  | eval κ x k ih => exact (avg_mono fun c => ih c).trans (avg_const_le zero_le_one)

theorem bad_nonneg (p : BProg K X C) : ∀ D A : List (K × X), 0 ≤ p.bad D A := by
  induction p with
  | done v => intro D A; exact le_rfl
  | draw k ih => intro D A; exact avg_nonneg fun c => ih c _ _
  | eval κ x k ih =>
    intro D A
    refine avg_nonneg fun y => ?_
    split
    · exact zero_le_one
    · exact ih y _ _

/-- The permutations with given values. -/
def consistent (T : List (K × X × X)) : Finset (K → Equiv.Perm X) := univ.filter fun P => ∀ e ∈ T, P e.1 e.2.1 = e.2.2

theorem mem_consistent {T : List (K × X × X)} {P : K → Equiv.Perm X} : P ∈ consistent T ↔ ∀ e ∈ T, P e.1 e.2.1 = e.2.2 := by
  unfold consistent
  rw [mem_filter]
  exact ⟨fun h => h.2, fun h => ⟨mem_univ _, h⟩⟩

theorem consistent_cons (T : List (K × X × X)) (κ : K) (x y : X) :
    consistent ((κ, x, y) :: T) = (consistent T).filter fun P => P κ x = y := by
  ext P
  rw [mem_filter, mem_consistent, mem_consistent, List.forall_mem_cons]
  exact and_comm

/-- The answers of the earlier evaluations. -/
def answersOf (T : List (K × X × X)) : List (K × X) := T.map fun e => (e.1, e.2.2)
/-- The inputs of the earlier evaluations. -/
def inputsOf (T : List (K × X × X)) : List (K × X) := T.map fun e => (e.1, e.2.1)

theorem consistent_used {T : List (K × X × X)} {κ : K} {x y : X} (hx : (κ, x) ∉ inputsOf T) (hy : (κ, y) ∈ answersOf T) :
    consistent ((κ, x, y) :: T) = ∅ := by
  rw [eq_empty_iff_forall_notMem]
  intro P hP
  rw [mem_consistent, List.forall_mem_cons] at hP
  obtain ⟨e, he, h⟩ := List.mem_map.1 hy
  obtain ⟨h1, h2⟩ := Prod.mk.inj h
  have h3 := hP.2 e he
  have h4 : P κ x = y := hP.1
  rw [h1, h2, ← h4] at h3
  have := (P κ).injective h3
  exact hx (List.mem_map.2 ⟨e, he, by rw [h1, this]⟩)

theorem consistent_card_le {T : List (K × X × X)} {κ : K} {x y y' : X} (hy : (κ, y) ∉ answersOf T) (hy' : (κ, y') ∉ answersOf T) :
    (consistent ((κ, x, y) :: T)).card ≤ (consistent ((κ, x, y') :: T)).card := by
  refine card_le_card_of_injOn (fun P => Function.update P κ ((P κ).trans (Equiv.swap y y'))) ?_ ?_
  · intro P hP
    have hP := mem_consistent.1 (mem_coe.1 hP)
    rw [List.forall_mem_cons] at hP
    refine mem_coe.2 (mem_consistent.2 (List.forall_mem_cons.2 ⟨?_, ?_⟩))
    · dsimp only
      rw [Function.update_self, Equiv.trans_apply, hP.1, Equiv.swap_apply_left]
    · intro e he
      dsimp only
      by_cases hk : e.1 = κ
      · have h1 : e.2.2 ≠ y := fun h => hy (List.mem_map.2 ⟨e, he, by rw [hk, h]⟩)
        have h2 : e.2.2 ≠ y' := fun h => hy' (List.mem_map.2 ⟨e, he, by rw [hk, h]⟩)
        have h3 := hP.2 e he
        rw [hk] at h3 ⊢
        rw [Function.update_self, Equiv.trans_apply, h3, Equiv.swap_apply_of_ne_of_ne h1 h2]
      · rw [Function.update_of_ne hk]
        exact hP.2 e he
  · intro P _ Q _ h
    funext j
    by_cases hj : j = κ
    · have := congrFun h j
      rw [hj] at this ⊢
      simp only [Function.update_self] at this
      ext z
      have := Equiv.congr_fun this z
      exact (Equiv.swap y y').injective this
    · have := congrFun h j
      simp only [Function.update_of_ne hj] at this
      exact this

/-- The arithmetic of one evaluation. -/
theorem step_bound (U V : Finset X) (a i b : X → ℝ) (s N t : ℝ) (hU : (U.card : ℝ) = N - t) (hV : (V.card : ℝ) = t) (hN : 0 < N) (hs : 0 ≤ s)
    (ha : ∀ y ∈ U, 0 ≤ a y ∧ a y ≤ s) (hi : ∀ y, 0 ≤ i y ∧ i y ≤ 1) (h : ∀ y ∈ U, |a y - s * i y| ≤ s * b y) :
    |∑ y ∈ U, a y - (N - t) * s * ((∑ y ∈ U, i y + ∑ y ∈ V, i y) / N)| ≤ (N - t) * s * ((∑ y ∈ U, b y + t) / N) := by
  have ht : 0 ≤ t := by rw [← hV]; positivity
  have hNt : 0 ≤ N - t := by rw [← hU]; positivity
  have h1 : |∑ y ∈ U, (a y - s * i y)| ≤ s * ∑ y ∈ U, b y := by
    rw [mul_sum]
    exact (abs_sum_le_sum_abs _ _).trans (sum_le_sum h)
  rw [sum_sub_distrib, ← mul_sum] at h1
  have h2 : 0 ≤ ∑ y ∈ U, a y := sum_nonneg fun y hy => (ha y hy).1
  have h3 : ∑ y ∈ U, a y ≤ (N - t) * s := by
    rw [← hU, ← nsmul_eq_mul]
    exact sum_le_card_nsmul _ _ _ fun y hy => (ha y hy).2
  have h4 : 0 ≤ ∑ y ∈ V, i y := sum_nonneg fun y _ => (hi y).1
  have h5 : ∑ y ∈ V, i y ≤ t := by
    rw [← hV]
    refine (sum_le_card_nsmul _ _ 1 fun y _ => (hi y).2).trans ?_
    simp
  generalize ∑ y ∈ U, a y = a at *
  generalize ∑ y ∈ U, i y = u at *
  generalize ∑ y ∈ V, i y = v at *
  generalize ∑ y ∈ U, b y = b at *
  have e1 : a - (N - t) * s * ((u + v) / N) = ((N - t) * (a - s * u) + (t * a - (N - t) * s * v)) / N := by field_simp; ring
  rw [e1, abs_div, abs_of_pos hN]
  have e2 : (N - t) * s * ((b + t) / N) = ((N - t) * (s * b) + (N - t) * s * t) / N := by field_simp
  rw [e2]
  refine div_le_div_of_nonneg_right ?_ hN.le
  refine (abs_add_le _ _).trans (add_le_add ?_ ?_)
  · rw [abs_mul, abs_of_nonneg hNt]
    exact mul_le_mul_of_nonneg_left h1 hNt
  · have k1 : 0 ≤ t * a := mul_nonneg ht h2
    have k2 : t * a ≤ (N - t) * s * t := by rw [mul_comm]; exact mul_le_mul_of_nonneg_right h3 ht
    have k3 : 0 ≤ (N - t) * s * v := mul_nonneg (mul_nonneg hNt hs) h4
    have k4 : (N - t) * s * v ≤ (N - t) * s * t := mul_le_mul_of_nonneg_left h5 (mul_nonneg hNt hs)
    rw [abs_le]
    constructor <;> linarith

/-- Random permutations and random answers: identical until something repeats. -/
theorem real_ideal (p : BProg K X C) : ∀ T : List (K × X × X),
    |∑ P ∈ consistent T, p.real P - (consistent T).card * p.ideal| ≤ (consistent T).card * p.bad (inputsOf T) (answersOf T) := by
  induction p with
  | done v =>
    intro T
    unfold real ideal bad
    rw [sum_const, nsmul_eq_mul, sub_self, abs_zero, mul_zero]
  | draw k ih =>
    intro T
    have e1 : ∑ P ∈ consistent T, (BProg.draw k).real P = avg fun c => ∑ P ∈ consistent T, (k c).real P := by
      unfold avg
      rw [sum_comm, sum_div]
      rfl
    rw [e1]
    show |_ - _ * avg fun c => (k c).ideal| ≤ _ * avg fun c => (k c).bad _ _
    rw [← avg_mul_left, ← avg_mul_left]
    have e2 : (avg fun c => ∑ P ∈ consistent T, (k c).real P) - (avg fun c => ((consistent T).card : ℝ) * (k c).ideal) =
        avg fun c => (∑ P ∈ consistent T, (k c).real P - (consistent T).card * (k c).ideal) := by
      unfold avg
      rw [sum_sub_distrib, sub_div]
    rw [e2]
    refine le_trans ?_ (avg_mono fun c => ih c T)
    unfold avg
    rw [abs_div, abs_of_nonneg (Nat.cast_nonneg (α := ℝ) (Fintype.card C))]
    exact div_le_div_of_nonneg_right (abs_sum_le_sum_abs _ _) (Nat.cast_nonneg _)
  | eval κ x k ih =>
    intro T
    by_cases hx : (κ, x) ∈ inputsOf T
    · -- a repeated input
      have e1 : (BProg.eval κ x k).bad (inputsOf T) (answersOf T) = 1 := by
        haveI : Nonempty X := ⟨x⟩
        unfold bad
        rw [avg_congr fun y => if_pos (Or.inl hx), avg_const]
      rw [e1, mul_one]
      have h1 : 0 ≤ ∑ P ∈ consistent T, (BProg.eval κ x k).real P := sum_nonneg fun P _ => real_nonneg _ _
      have h2 : ∑ P ∈ consistent T, (BProg.eval κ x k).real P ≤ (consistent T).card := by
        refine (sum_le_card_nsmul _ _ 1 fun P _ => real_le_one _ _).trans ?_
        simp
      have h3 := ideal_nonneg (BProg.eval κ x k)
      have h4 := ideal_le_one (BProg.eval κ x k)
      have h5 : (0 : ℝ) ≤ (consistent T).card := Nat.cast_nonneg _
      have h6 := mul_nonneg h5 h3
      have h7 := mul_le_mul_of_nonneg_left h4 h5
      rw [abs_le]
      constructor <;> linarith
    · -- a new input
      let U : Finset X := univ.filter fun y => (κ, y) ∉ answersOf T
      let V : Finset X := univ.filter fun y => ¬ (κ, y) ∉ answersOf T
      have hUV : ∀ F : X → ℝ, ∑ y, F y = ∑ y ∈ U, F y + ∑ y ∈ V, F y := fun F => (sum_filter_add_sum_filter_not univ _ F).symm
      have hcard : U.card + V.card = Fintype.card X := card_filter_add_card_filter_not _
      let a : X → ℝ := fun y => ∑ P ∈ consistent ((κ, x, y) :: T), (k y).real P
      have hsum : ∑ P ∈ consistent T, (BProg.eval κ x k).real P = ∑ y ∈ U, a y := by
        rw [← sum_fiberwise (consistent T) (fun P => P κ x)]
        have : ∀ y, ∑ P ∈ consistent T with P κ x = y, (BProg.eval κ x k).real P = a y := by
          intro y
          rw [← consistent_cons]
          refine sum_congr rfl fun P hP => ?_
          have h1 : P κ x = y := (mem_consistent.1 hP) _ (List.mem_cons_self ..)
          show (k (P κ x)).real P = _
          rw [h1]
        rw [sum_congr rfl fun y _ => this y, hUV]
        have h0 : ∑ y ∈ V, a y = 0 := by
          refine sum_eq_zero fun y hy => ?_
          have hy := not_not.1 (mem_filter.1 hy).2
          simp only [a]
          rw [consistent_used hx hy, sum_empty]
        rw [h0, add_zero]
      have hcsum : ((consistent T).card : ℝ) = ∑ y ∈ U, ((consistent ((κ, x, y) :: T)).card : ℝ) := by
        have h1 : (consistent T).card = ∑ y, ((consistent T).filter fun P => P κ x = y).card := (card_eq_sum_card_fiberwise fun P _ => mem_univ (P κ x))
        rw [h1, Nat.cast_sum]
        have : ∀ y, (((consistent T).filter fun P => P κ x = y).card : ℝ) = ((consistent ((κ, x, y) :: T)).card : ℝ) := by
          intro y; rw [← consistent_cons]
        rw [sum_congr rfl fun y _ => this y, hUV]
        have h0 : ∑ y ∈ V, ((consistent ((κ, x, y) :: T)).card : ℝ) = 0 := by
          refine sum_eq_zero fun y hy => ?_
          have hy := not_not.1 (mem_filter.1 hy).2
          rw [consistent_used hx hy, card_empty, Nat.cast_zero]
        rw [h0, add_zero]
      rcases U.eq_empty_or_nonempty with hU | ⟨y0, hy0⟩
      · rw [hU, sum_empty] at hsum hcsum
        rw [hsum, hcsum]
        simp
      · let s : ℝ := (consistent ((κ, x, y0) :: T)).card
        have hs : ∀ y ∈ U, ((consistent ((κ, x, y) :: T)).card : ℝ) = s := by
          intro y hy
          have h1 := (mem_filter.1 hy).2
          have h2 := (mem_filter.1 hy0).2
          exact congrArg Nat.cast (le_antisymm (consistent_card_le (x := x) h1 h2) (consistent_card_le h2 h1))
        have hc : ((consistent T).card : ℝ) = ((Fintype.card X : ℝ) - V.card) * s := by
          rw [hcsum, sum_congr rfl hs, sum_const, nsmul_eq_mul, ← hcard]
          push_cast
          ring
        have hX : (0 : ℝ) < Fintype.card X := by
          exact_mod_cast Fintype.card_pos_iff.2 ⟨x⟩
        have hb : (BProg.eval κ x k).bad (inputsOf T) (answersOf T) =
            (∑ y ∈ U, (k y).bad (inputsOf ((κ, x, y) :: T)) (answersOf ((κ, x, y) :: T)) + V.card) / Fintype.card X := by
          have e : (BProg.eval κ x k).bad (inputsOf T) (answersOf T) = avg fun y => if (κ, x) ∈ inputsOf T ∨ (κ, y) ∈ answersOf T then 1
            else bad ((κ, x) :: inputsOf T) ((κ, y) :: answersOf T) (k y) := rfl
          rw [e]
          unfold avg
          rw [hUV]
          congr 2
          · refine sum_congr rfl fun y hy => ?_
            rw [if_neg (not_or.2 ⟨hx, (mem_filter.1 hy).2⟩)]
            rfl
          · have : ∀ y ∈ V, (if (κ, x) ∈ inputsOf T ∨ (κ, y) ∈ answersOf T then (1 : ℝ)
                else bad ((κ, x) :: inputsOf T) ((κ, y) :: answersOf T) (k y)) = 1 := fun y hy =>
              if_pos (Or.inr (not_not.1 (mem_filter.1 hy).2))
            rw [sum_congr rfl this]
            simp
        have hid : (BProg.eval κ x k).ideal = (∑ y ∈ U, (k y).ideal + ∑ y ∈ V, (k y).ideal) / Fintype.card X := by
          have e : (BProg.eval κ x k).ideal = avg fun y => (k y).ideal := rfl
          rw [e]
          unfold avg
          rw [hUV]
        rw [hsum, hc, hb, hid]
        refine step_bound U V a _ _ s _ _ ?_ rfl hX (Nat.cast_nonneg _) ?_ ?_ ?_
        · rw [← hcard]; push_cast; ring
        · intro y hy
          refine ⟨sum_nonneg fun P _ => real_nonneg _ _, ?_⟩
          rw [← hs y hy]
          refine (sum_le_card_nsmul _ _ 1 fun P _ => real_le_one _ _).trans ?_
          simp
        · exact fun y => ⟨ideal_nonneg _, ideal_le_one _⟩
        · intro y hy
          rw [← hs y hy]
          exact ih y ((κ, x, y) :: T)

/-! ## Chains -/

/-- Evaluating a chain: each input is made from the next element of the list and the answer before. -/
def chain (op : X → X → X) (κ : K) : X → List X → (List X → BProg K X C) → BProg K X C
  | _, [], k => k []
  | c, p :: ps, k => .eval κ (op p c) fun y => chain op κ y ps fun ys => k (y :: ys)

/-- The answers of a chain. -/
def answers (op : X → X → X) (π : X → X) : X → List X → List X
  | _, [] => []
  | c, p :: ps => π (op p c) :: answers op π (π (op p c)) ps

omit [Fintype K] [DecidableEq K] [DecidableEq X] in
theorem real_chain (P : K → Equiv.Perm X) (op : X → X → X) (κ : K) : ∀ (ps : List X) (c : X) (k : List X → BProg K X C),
    (chain op κ c ps k).real P = (k (answers op (P κ) c ps)).real P
  | [], _, _ => rfl
  | p :: ps, c, k => by
    show (chain op κ (P κ (op p c)) ps _).real P = _
    rw [real_chain P op κ ps]
    rfl

/-- Random lists of length `n`. -/
noncomputable def avgList (n : ℕ) (F : List X → ℝ) : ℝ := match n with
  | 0 => F []
  | n + 1 => avg fun y => avgList n fun ys => F (y :: ys)

omit [Fintype K] [DecidableEq K] [DecidableEq X] in
theorem ideal_chain (op : X → X → X) (κ : K) : ∀ (ps : List X) (c : X) (k : List X → BProg K X C),
    (chain op κ c ps k).ideal = avgList ps.length fun ys => (k ys).ideal
  | [], _, _ => rfl
  | p :: ps, c, k => by
    show (avg fun y => (chain op κ y ps _).ideal) = _
    exact avg_congr fun y => ideal_chain op κ ps y _

theorem avg_mem_le (κ : K) (f : X → X) (hf : Function.Injective f) (l : List (K × X)) :
    (avg fun c => ind ((κ, f c) ∈ l)) ≤ l.length / Fintype.card X := by
  rw [← prob_eq_avg fun c => (κ, f c) ∈ l]
  refine (prob_le_card l.toFinset (fun c => (κ, f c)) (fun c hc => List.mem_toFinset.2 hc) fun c c' _ _ h => hf (Prod.mk.inj h).2).trans ?_
  refine div_le_div_of_nonneg_right ?_ (Nat.cast_nonneg _)
  exact_mod_cast l.toFinset_card_le

/-- Something repeats in a chain that starts at random. -/
theorem bad_chain [Nonempty X] (op : X → X → X) (hop : ∀ p, Function.Injective (op p)) (κ : K) (β : ℝ) : ∀ (ps : List X) (t : ℕ) (D : List (K × X)) (A : X → List (K × X))
    (k : X → List X → BProg K X C), D.length ≤ t → (∀ c, (A c).length ≤ t) →
    (∀ c ys D' A', D'.length ≤ t + ps.length → A'.length ≤ t + ps.length → (k c ys).bad D' A' ≤ β) →
    (avg fun c => (chain op κ c ps (k c)).bad D (A c)) ≤ (((t + ps.length : ℕ) : ℝ) ^ 2 - (t : ℝ) ^ 2) / Fintype.card X + β
  | [], t, D, A, k, hD, hA, hk => by
    have h1 : (avg fun c => (chain op κ c [] (k c)).bad D (A c)) ≤ avg fun _ : X => β := avg_mono fun c => hk c [] _ _ hD (hA c)
    refine h1.trans (le_of_eq ?_)
    rw [avg_const]
    simp
  | p :: ps, t, D, A, k, hD, hA, hk => by
    have hN : (0 : ℝ) < Fintype.card X := by exact_mod_cast Fintype.card_pos
    have e : ∀ c, (chain op κ c (p :: ps) (k c)).bad D (A c) ≤ ind ((κ, op p c) ∈ D) + ((avg fun y => ind ((κ, y) ∈ A c)) +
        avg fun y => (chain op κ y ps fun ys => k c (y :: ys)).bad ((κ, op p c) :: D) ((κ, y) :: A c)) := by
      intro c
      have e1 : (chain op κ c (p :: ps) (k c)).bad D (A c) = avg fun y => if (κ, op p c) ∈ D ∨ (κ, y) ∈ A c then 1
        else (chain op κ y ps fun ys => k c (y :: ys)).bad ((κ, op p c) :: D) ((κ, y) :: A c) := rfl
      have e2 : ind ((κ, op p c) ∈ D) = avg fun _ : X => ind ((κ, op p c) ∈ D) := (avg_const _).symm
      rw [e1, e2, ← avg_add, ← avg_add]
      refine avg_mono fun y => ?_
      have h1 := ind_nonneg ((κ, op p c) ∈ D)
      have h2 := ind_nonneg ((κ, y) ∈ A c)
      have h3 := bad_nonneg (chain op κ y ps fun ys => k c (y :: ys)) ((κ, op p c) :: D) ((κ, y) :: A c)
      split
      · rename_i h
        rcases h with h | h
        · rw [ind_true h]; linarith
        · rw [ind_true h]; linarith
      · linarith
    refine (avg_mono e).trans ?_
    rw [avg_add, avg_add]
    have h1 : (avg fun c => ind ((κ, op p c) ∈ D)) ≤ t / Fintype.card X := by
      refine (avg_mem_le κ (op p) (hop p) D).trans (div_le_div_of_nonneg_right ?_ hN.le)
      exact_mod_cast hD
    have h2 : (avg fun c => avg fun y => ind ((κ, y) ∈ A c)) ≤ t / Fintype.card X := by
      refine le_trans (avg_mono fun c => ?_) (avg_const_le (α := X) (by positivity))
      refine (avg_mem_le κ id Function.injective_id (A c)).trans (div_le_div_of_nonneg_right ?_ hN.le)
      exact_mod_cast hA c
    have h3 : (avg fun c => avg fun y => (chain op κ y ps fun ys => k c (y :: ys)).bad ((κ, op p c) :: D) ((κ, y) :: A c)) ≤
        (((t + 1 + ps.length : ℕ) : ℝ) ^ 2 - ((t + 1 : ℕ) : ℝ) ^ 2) / Fintype.card X + β := by
      refine le_trans (avg_mono fun c => ?_) (le_of_eq (avg_const (α := X) _))
      refine bad_chain op hop κ β ps (t + 1) _ (fun y => (κ, y) :: A c) (fun y ys => k c (y :: ys)) ?_ ?_ ?_
      · rw [List.length_cons]; omega
      · intro y; rw [List.length_cons]; have := hA c; omega
      · intro y ys D' A' hD' hA'
        refine hk c (y :: ys) D' A' ?_ ?_
        · rw [List.length_cons]; omega
        · rw [List.length_cons]; omega
    have e3 : t + (p :: ps).length = t + 1 + ps.length := by rw [List.length_cons]; omega
    rw [e3]
    have e4 : ((((t + 1 + ps.length : ℕ) : ℝ)) ^ 2 - (t : ℝ) ^ 2) / Fintype.card X =
        ((((t + 1 + ps.length : ℕ) : ℝ)) ^ 2 - ((t + 1 : ℕ) : ℝ) ^ 2) / Fintype.card X + (t / Fintype.card X + (t / Fintype.card X + 1 / Fintype.card X)) := by
      push_cast
      field_simp
      ring
    have h5 : (0 : ℝ) ≤ 1 / Fintype.card X := by positivity
    linarith

end BProg

end Ed

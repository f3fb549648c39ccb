import Verif.Spec.RandomOracle
import Mathlib.Algebra.Order.Chebyshev
import Mathlib.Algebra.BigOperators.Ring.Finset
import Mathlib.Algebra.Order.BigOperators.Group.Finset
import Mathlib.Algebra.BigOperators.Field
import Mathlib.Tactic.Linarith
import Mathlib.Tactic.Ring
import Mathlib.Tactic.FieldSimp

/-! # Averages over finite types -/

set_option autoImplicit false

namespace Ed

open Finset

/-- The average of a function on a finite type. -/
noncomputable def avg {α : Type} [Fintype α] (F : α → ℝ) : ℝ := (∑ x, F x) / Fintype.card α

open Classical in
/-- 1 if the proposition holds, otherwise 0. -/
noncomputable def ind (p : Prop) : ℝ := if p then 1 else 0

theorem ind_true {p : Prop} (h : p) : ind p = 1 := by unfold ind; rw [if_pos h]
theorem ind_false {p : Prop} (h : ¬ p) : ind p = 0 := by unfold ind; rw [if_neg h]
theorem ind_nonneg (p : Prop) : 0 ≤ ind p := by unfold ind; split <;> norm_num
theorem ind_le_one (p : Prop) : ind p ≤ 1 := by unfold ind; split <;> norm_num
theorem ind_mono {p q : Prop} (h : p → q) : ind p ≤ ind q := by
  by_cases hp : p
  · rw [ind_true hp, ind_true (h hp)]
  · rw [ind_false hp]; exact ind_nonneg q
theorem ind_congr {p q : Prop} (h : p ↔ q) : ind p = ind q := le_antisymm (ind_mono h.1) (ind_mono h.2)

variable {α β : Type} [Fintype α] [Fintype β]

theorem prob_eq_avg (p : α → Prop) : prob p = avg fun x => ind (p x) := by
  classical
  unfold prob avg ind
  rw [card_filter]
  push_cast
  rfl

theorem prob_le_card {γ : Type} {p : α → Prop} (s : Finset γ) (φ : α → γ) (h1 : ∀ x, p x → φ x ∈ s) (h2 : ∀ x y, p x → p y → φ x = φ y → x = y) :
    prob p ≤ s.card / Fintype.card α := by
  classical
  unfold prob
  refine div_le_div_of_nonneg_right ?_ (by positivity)
  rw [Nat.cast_le]
  refine card_le_card_of_injOn φ ?_ ?_
  · intro x hx
    exact mem_coe.2 (h1 x (mem_filter.1 (mem_coe.1 hx)).2)
  · intro x hx y hy h
    exact h2 x y (mem_filter.1 (mem_coe.1 hx)).2 (mem_filter.1 (mem_coe.1 hy)).2 h

theorem avg_congr {F G : α → ℝ} (h : ∀ x, F x = G x) : avg F = avg G := by unfold avg; simp [h]

theorem avg_mono {F G : α → ℝ} (h : ∀ x, F x ≤ G x) : avg F ≤ avg G := by
  unfold avg
  exact div_le_div_of_nonneg_right (sum_le_sum fun x _ => h x) (by positivity)

theorem avg_nonneg {F : α → ℝ} (h : ∀ x, 0 ≤ F x) : 0 ≤ avg F := by
  unfold avg
  exact div_nonneg (sum_nonneg fun x _ => h x) (by positivity)

theorem avg_add (F G : α → ℝ) : (avg fun x => F x + G x) = avg F + avg G := by
  unfold avg
  rw [sum_add_distrib, add_div]

theorem avg_mul_left (c : ℝ) (F : α → ℝ) : (avg fun x => c * F x) = c * avg F := by
  unfold avg
  rw [← mul_sum, mul_div_assoc]

theorem avg_const [Nonempty α] (c : ℝ) : (avg fun _ : α => c) = c := by
  unfold avg
  rw [sum_const, card_univ, nsmul_eq_mul]
  have : (Fintype.card α : ℝ) ≠ 0 := by exact_mod_cast Fintype.card_ne_zero
  field_simp

theorem avg_const_le {c : ℝ} (h : 0 ≤ c) : (avg fun _ : α => c) ≤ c := by
  cases isEmpty_or_nonempty α with
  | inl h' => unfold avg; simp [h]
  | inr h' => rw [avg_const]

theorem avg_comm (F : α → β → ℝ) : (avg fun x => avg fun y => F x y) = avg fun y => avg fun x => F x y := by
  unfold avg
  dsimp only
  rw [← Finset.sum_div, ← Finset.sum_div, sum_comm, div_div, div_div, mul_comm]

theorem avg_prod (F : α × β → ℝ) : avg F = avg fun x => avg fun y => F (x, y) := by
  unfold avg
  dsimp only
  rw [Fintype.sum_prod_type, Fintype.card_prod, ← Finset.sum_div, div_div]
  push_cast
  rw [mul_comm (Fintype.card α : ℝ)]

theorem avg_equiv (e : α ≃ β) (F : β → ℝ) : (avg fun x => F (e x)) = avg F := by
  unfold avg
  rw [Equiv.sum_comp e F, Fintype.card_congr e]

/-- Cauchy-Schwarz. -/
theorem avg_sq [Nonempty α] (F : α → ℝ) : (avg F) ^ 2 ≤ avg fun x => F x ^ 2 := by
  unfold avg
  have h := sq_sum_le_card_mul_sum_sq (s := (univ : Finset α)) (f := F)
  rw [card_univ] at h
  have hc : (0 : ℝ) < Fintype.card α := by exact_mod_cast Fintype.card_pos
  rw [div_pow, div_le_div_iff₀ (by positivity) hc]
  nlinarith

variable {I D : Type} [Fintype I] [DecidableEq I] [Fintype D]

/-- Swapping two entries of different places. -/
def swapEntry (i : I) : D × (I → D) ≃ D × (I → D) where
  toFun := fun x => (x.2 i, Function.update x.2 i x.1)
  invFun := fun x => (x.2 i, Function.update x.2 i x.1)
  left_inv := fun x => by simp
  right_inv := fun x => by simp

/-- Drawing one entry anew changes nothing. -/
theorem avg_update [Nonempty D] (i : I) (F : (I → D) → ℝ) : (avg fun d => avg fun g : I → D => F (Function.update g i d)) = avg F := by
  have h1 := avg_prod (fun x : D × (I → D) => F (Function.update x.2 i x.1))
  have h2 := avg_equiv (swapEntry i) (fun x : D × (I → D) => F x.2)
  have h3 := avg_prod (fun x : D × (I → D) => F x.2)
  dsimp only at h1 h3
  rw [← h1]
  rw [show (fun x : D × (I → D) => F (Function.update x.2 i x.1)) = fun x => F (swapEntry i x).2 from rfl, h2, h3, avg_const]

/-- The entry `i` and the rest are independent. -/
theorem avg_entry [Nonempty D] (i : I) (F : D → (I → D) → ℝ) :
    (avg fun g : I → D => F (g i) g) = avg fun d => avg fun g : I → D => F d (Function.update g i d) := by
  rw [← avg_update i (fun g => F (g i) g)]
  refine avg_congr fun d => avg_congr fun g => ?_
  rw [Function.update_self]

/-- The entries at the places `ι j` taken from `g`, the others from `f`. -/
noncomputable def override {I D J : Type} (ι : J → I) (f : I → D) (g : J → D) : I → D :=
  open Classical in fun i => if h : ∃ j, ι j = i then g h.choose else f i

omit [Fintype I] [DecidableEq I] [Fintype D] in
theorem override_at {J : Type} {ι : J → I} (hι : Function.Injective ι) (f : I → D) (g : J → D) (j : J) : override ι f g (ι j) = g j := by
  unfold override
  have h : ∃ j', ι j' = ι j := ⟨j, rfl⟩
  rw [dif_pos h]
  exact congrArg g (hι h.choose_spec)

omit [Fintype I] [DecidableEq I] [Fintype D] in
theorem override_not {J : Type} {ι : J → I} (f : I → D) (g : J → D) {i : I} (h : ∀ j, ι j ≠ i) : override ι f g i = f i := by
  unfold override
  rw [dif_neg]
  rintro ⟨j, hj⟩
  exact h j hj

/-- Drawing many entries anew changes nothing. -/
theorem avg_override [Nonempty D] {J : Type} [Fintype J] [DecidableEq J] {ι : J → I} (hι : Function.Injective ι) (F : (I → D) → ℝ) :
    (avg fun f : I → D => avg fun g : J → D => F (override ι f g)) = avg F := by
  have inv : ∀ (f : I → D) (g : J → D), override ι (override ι f g) (fun j => f (ι j)) = f := by
    intro f g
    funext i
    by_cases h : ∃ j, ι j = i
    · obtain ⟨j, rfl⟩ := h
      rw [override_at hι]
    · push Not at h
      rw [override_not _ _ h, override_not _ _ h]
  let e : (I → D) × (J → D) ≃ (I → D) × (J → D) :=
    { toFun := fun x => (override ι x.1 x.2, fun j => x.1 (ι j))
      invFun := fun x => (override ι x.1 x.2, fun j => x.1 (ι j))
      left_inv := fun x => Prod.ext (inv _ _) (funext fun j => override_at hι _ _ j)
      right_inv := fun x => Prod.ext (inv _ _) (funext fun j => override_at hι _ _ j) }
  have h1 := avg_prod (fun x : (I → D) × (J → D) => F (override ι x.1 x.2))
  have h2 := avg_equiv e (fun x : (I → D) × (J → D) => F x.1)
  have h3 := avg_prod (fun x : (I → D) × (J → D) => F x.1)
  dsimp only at h1 h3
  rw [← h1]
  rw [show (fun x : (I → D) × (J → D) => F (override ι x.1 x.2)) = fun x => F (e x).1 from rfl, h2, h3]
  exact avg_congr fun f => avg_const _

end Ed

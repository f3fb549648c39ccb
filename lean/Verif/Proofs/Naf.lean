import Verif.Spec.Naf
import Verif.Proofs.Recode
import Mathlib.Tactic.Ring
import Mathlib.Tactic.IntervalCases

/-! # The exact value of the sliding-window recoding -/

namespace Ed

open Finset

/-- The digits from `n` up. -/
def nafTail (e : ℕ → ℤ) (n : ℕ) : ℤ := ∑ j ∈ range (256 - n), e (n + j) * 2 ^ j

theorem nafTail_succ (e : ℕ → ℤ) {n : ℕ} (hn : n < 256) : nafTail e n = e n + 2 * nafTail e (n + 1) := by
  unfold nafTail
  rw [show 256 - n = (256 - (n + 1)) + 1 by omega, sum_range_succ', mul_sum]
  rw [add_comm]
  congr 1
  · simp
  · apply sum_congr rfl
    intro j _
    rw [show n + (j + 1) = n + 1 + j by omega, pow_succ]; ring

theorem nafTail_five (e : ℕ → ℤ) {n : ℕ} (hn : n < 252) :
    nafTail e n = e n + 2 * e (n+1) + 4 * e (n+2) + 8 * e (n+3) + 16 * e (n+4) + 32 * nafTail e (n + 5) := by
  rw [nafTail_succ e (by omega), nafTail_succ e (by omega), nafTail_succ e (by omega), nafTail_succ e (by omega),
    nafTail_succ e (by omega)]
  ring

theorem nafTail_zero (e : ℕ → ℤ) : nafTail e 0 = ∑ j ∈ range 256, e j * 2 ^ j := by
  unfold nafTail; simp

theorem naf_unique {e s : ℕ → ℤ} (he : IsNaf5 e) (hs : IsNaf5 s) {n : ℕ} (hn : n ≤ 252)
    (h : nafTail e 0 - nafTail s 0 = 2 ^ 256) :
    nafTail e n - nafTail s n = 2 ^ (256 - n) := by
  induction n with
  | zero => exact h
  | succ n ih =>
    specialize ih (by omega)
    have dn : e n = s n := by
      obtain ⟨k, hk⟩ : ∃ k : ℤ, (2 : ℤ) ^ (256 - n) = 32 * k :=
        ⟨2 ^ (251 - n), by rw [show 256 - n = 5 + (251 - n) by omega, pow_add]; norm_num⟩
      rw [hk, nafTail_five e (by omega), nafTail_five s (by omega)] at ih
      have e0 := he.1 n (by omega)
      have s0 := hs.1 n (by omega)
      have e1 := he.2 n (n+1) (by omega) (by omega) (by omega)
      have e2 := he.2 n (n+2) (by omega) (by omega) (by omega)
      have e3 := he.2 n (n+3) (by omega) (by omega) (by omega)
      have e4 := he.2 n (n+4) (by omega) (by omega) (by omega)
      have s1 := hs.2 n (n+1) (by omega) (by omega) (by omega)
      have s2 := hs.2 n (n+2) (by omega) (by omega) (by omega)
      have s3 := hs.2 n (n+3) (by omega) (by omega) (by omega)
      have s4 := hs.2 n (n+4) (by omega) (by omega) (by omega)
      by_cases c1 : e n = 0
      · by_cases c2 : s n = 0
        · omega
        · omega
      · by_cases c2 : s n = 0
        · omega
        · specialize e1 c1; specialize e2 c1; specialize e3 c1; specialize e4 c1
          specialize s1 c2; specialize s2 c2; specialize s3 c2; specialize s4 c2
          omega
    have q1 := nafTail_succ e (n := n) (by omega)
    have q2 := nafTail_succ s (n := n) (by omega)
    have q3 : (2 : ℤ) ^ (256 - n) = 2 * 2 ^ (256 - (n + 1)) := by
      rw [show 256 - n = (256 - (n+1)) + 1 by omega, pow_succ]; ring
    rw [q3] at ih
    generalize (2:ℤ) ^ (256 - (n+1)) = w at *
    omega

/-- No number of the form `v + 2^256` has an expansion when `v` has one whose top four digits are zero. -/
theorem naf_lost {e s : ℕ → ℤ} (he : IsNaf5 e) (hs : IsNaf5 s) (h0 : ∀ j, 252 ≤ j → j < 256 → s j = 0)
    (h : ∑ j ∈ range 256, e j * 2 ^ j = ∑ j ∈ range 256, s j * 2 ^ j + 2 ^ 256) : False := by
  have k := naf_unique he hs (n := 252) (le_refl _) (by rw [nafTail_zero, nafTail_zero]; omega)
  have t : ∀ f : ℕ → ℤ, nafTail f 252 = f 252 + 2 * f 253 + 4 * f 254 + 8 * f 255 := by
    intro f
    rw [nafTail_succ f (by omega), nafTail_succ f (by omega), nafTail_succ f (by omega), nafTail_succ f (by omega)]
    have : nafTail f (252 + 1 + 1 + 1 + 1) = 0 := by unfold nafTail; simp
    rw [this]; ring
  rw [t, t, h0 252 (by omega) (by omega), h0 253 (by omega) (by omega), h0 254 (by omega) (by omega),
    h0 255 (by omega) (by omega)] at k
  have a0 := he.1 252 (by omega)
  have a1 := he.1 253 (by omega)
  have a2 := he.1 254 (by omega)
  have a3 := he.1 255 (by omega)
  have b1 := he.2 252 253 (by omega) (by omega) (by omega)
  have b2 := he.2 252 254 (by omega) (by omega) (by omega)
  have b3 := he.2 252 255 (by omega) (by omega) (by omega)
  have c2 := he.2 253 254 (by omega) (by omega) (by omega)
  have c3 := he.2 253 255 (by omega) (by omega) (by omega)
  have d3 := he.2 254 255 (by omega) (by omega) (by omega)
  norm_num at k
  omega

theorem slide_isNaf5 (a : Bytes) : IsNaf5 (fun j => (slide a j).toInt) := by
  obtain ⟨h1, -, -, h2⟩ := slide_loop a 256 (le_refl _)
  refine ⟨h1, ?_⟩
  intro j k hjk hk5 hk hj
  have := h2 j (by omega) (fun h => hj (by rw [int8_eq_zero] at h; exact h)) k hjk hk5 hk
  rw [int8_eq_zero] at this
  exact this

/-- The exact value of the recoding of a 32-byte scalar. -/
theorem slide_naf (a : Bytes) :
    ∑ j ∈ range 256, (slide a j).toInt * 2 ^ j = nafVal (leVal a % 2 ^ 256) := by
  have hn := slide_isNaf5 a
  obtain ⟨-, -, h, -⟩ := slide_loop a 256 (le_refl _)
  generalize leVal a % 2 ^ 256 = v at *
  unfold nafVal
  rcases h with ⟨w, -⟩ | ⟨w, -, -, z⟩
  · have v' : ∑ j ∈ range 256, (slide a j).toInt * 2 ^ j = (v : ℤ) := w
    rw [if_pos ⟨_, hn, v'⟩, v']
  · have v' : ∑ j ∈ range 256, (slide a j).toInt * 2 ^ j = (v : ℤ) - 2 ^ 256 := w
    rw [if_neg, v']
    rintro ⟨e, he, hv⟩
    refine naf_lost he hn (fun j a b => ?_) (by rw [hv, v']; ring)
    have := z j a b
    rw [int8_eq_zero] at this
    exact this

theorem nafVal_small {n : ℕ} (h : n < 2 ^ 255) : nafVal n = n := by
  have l := leVal_leBytes_of_lt (k := 32) (n := n) (lt_trans h (by norm_num))
  have := slide_naf (leBytes 32 n)
  rw [l, Nat.mod_eq_of_lt (by omega)] at this
  rw [← this]
  obtain ⟨-, v⟩ := slide_spec (leBytes 32 n)
  rw [l, Nat.mod_eq_of_lt (by omega)] at v
  rcases v with v | ⟨v, -⟩
  · exact v
  · omega

/-- A single digit at the very top fits. -/
theorem naf5_two255 : Naf5 (2 ^ 255) := by
  refine ⟨fun j => if j = 255 then 1 else 0, ⟨fun j _ => ?_, fun j k h1 h2 h3 h4 => ?_⟩, ?_⟩
  · by_cases c : j = 255 <;> simp [c]
  · have : j = 255 := by by_contra c; simp [c] at h4
    omega
  · simp

/-- All ones does not fit: the carry runs out of the top. -/
theorem not_naf5_ones : ¬ Naf5 (2 ^ 256 - 1) := by
  rintro ⟨e, he, hv⟩
  refine naf_lost (s := fun j => if j = 0 then -1 else 0) he ⟨fun j _ => ?_, fun j k h1 h2 h3 h4 => ?_⟩
    (fun j a _ => if_neg (by omega)) ?_
  · by_cases c : j = 0 <;> simp [c]
  · exact if_neg (by omega)
  · rw [hv]; simp

theorem slide_naf32 {a : Bytes} (ha : a.length = 32) :
    ∑ j ∈ range 256, (slide a j).toInt * 2 ^ j = nafVal (leVal a) := by
  rw [slide_naf, Nat.mod_eq_of_lt (by have := leVal_lt a; rw [ha] at this; exact this)]

theorem nafVal_cases (n : ℕ) : nafVal n = n ∨ nafVal n = (n : ℤ) - 2 ^ 256 := by
  unfold nafVal; split <;> simp

theorem nafVal_of (n : ℕ) (h : Naf5 n) : nafVal n = n := by
  unfold nafVal; rw [if_pos h]

theorem nafVal_of_not (n : ℕ) (h : ¬ Naf5 n) : nafVal n = (n : ℤ) - 2 ^ 256 := by
  unfold nafVal; rw [if_neg h]

theorem nafVal_bounds {n : ℕ} (h : n < 2 ^ 256) : -2 ^ 255 ≤ nafVal n ∧ nafVal n < 2 ^ 256 := by
  by_cases c : n < 2 ^ 255
  · rw [nafVal_small c]; omega
  · rcases nafVal_cases n with e | e <;> omega

theorem nafVal_inj {n m : ℕ} (hn : n < 2 ^ 256) (hm : m < 2 ^ 256) (h : nafVal n = nafVal m) : n = m := by
  rcases nafVal_cases n with e | e <;> rcases nafVal_cases m with e' | e' <;> omega

end Ed

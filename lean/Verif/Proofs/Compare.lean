import Mathlib.Tactic.ByContra
import Verif.Model.Field

/-! # The constant-time comparison decides equality -/

namespace Ed

theorem constantTimeByteEq_zero (v : UInt8) : constantTimeByteEq v 0 = if v = 0 then 1 else 0 := by
  have h : ∀ n : Fin 256, constantTimeByteEq (UInt8.ofNat n) 0 = if (UInt8.ofNat n) = 0 then 1 else 0 := by
    decide +kernel
  have := h ⟨v.toNat, v.toNat_lt⟩
  simpa using this

theorem or_eq_zero8 (a b : UInt8) : a ||| b = 0 ↔ a = 0 ∧ b = 0 := by
  rw [← UInt8.toNat_inj, UInt8.toNat_or, ← UInt8.toNat_inj, ← UInt8.toNat_inj]
  exact Nat.or_eq_zero_iff

theorem xor_eq_zero8 (a b : UInt8) : a ^^^ b = 0 ↔ a = b := UInt8.xor_eq_zero_iff

theorem foldl_or_zero : ∀ (l : List (UInt8 × UInt8)) (v : UInt8),
    l.foldl (fun v p => v ||| (p.1 ^^^ p.2)) v = 0 ↔ v = 0 ∧ ∀ p ∈ l, p.1 = p.2
  | [], v => by simp
  | p :: l, v => by
      rw [List.foldl_cons, foldl_or_zero l, or_eq_zero8, xor_eq_zero8]
      simp only [List.mem_cons, forall_eq_or_imp]
      exact and_assoc

theorem zip_all_eq : ∀ (x y : Bytes), x.length = y.length → ((∀ p ∈ x.zip y, p.1 = p.2) ↔ x = y)
  | [], [], _ => by simp
  | a :: x, b :: y, h => by
      have := zip_all_eq x y (by simpa using h)
      rw [List.zip_cons_cons]
      simp only [List.mem_cons, forall_eq_or_imp, this, List.cons.injEq]
  | [], _ :: _, h => by simp at h
  | _ :: _, [], h => by simp at h

theorem isEqualConstantTime_iff (x y : Bytes) : isEqualConstantTime x y = true ↔ x = y := by
  unfold isEqualConstantTime constantTimeCompare
  rw [beq_iff_eq]
  by_cases h : x.length = y.length
  · rw [if_neg (by simpa using h), constantTimeByteEq_zero]
    have h1 := foldl_or_zero (x.zip y) 0
    rw [zip_all_eq x y h] at h1
    constructor
    · intro e
      by_contra hne
      rw [if_neg (fun hz => hne (h1.1 hz).2)] at e
      exact absurd e (by decide)
    · intro e
      rw [if_pos (h1.2 ⟨rfl, e⟩)]
  · rw [if_pos (by simpa using h)]
    constructor
    · intro e; exact absurd e (by decide)
    · rintro rfl; exact absurd rfl h

theorem isEqualConstantTime_eq (x y : Bytes) : isEqualConstantTime x y = (x == y) := by
  by_cases h : x = y
  · rw [(isEqualConstantTime_iff x y).2 h]; simp [h]
  · have : isEqualConstantTime x y = false := by
      rw [← Bool.not_eq_true, isEqualConstantTime_iff]; exact h
    rw [this]; simp [h]

end Ed

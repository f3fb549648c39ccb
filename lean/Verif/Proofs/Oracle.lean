import Verif.Spec.Oracle
import Mathlib.Tactic.Ring

/-! # The questions of the padding oracle attacks, counted -/

set_option autoImplicit false

namespace Ed

namespace Asker
variable {α β : Type}

theorem run_bind (orc : OBytes → Bool) (f : α → Asker β) : ∀ p : Asker α,
    (p.bind f).run orc = (((f (p.run orc).1).run orc).1, (p.run orc).2 + ((f (p.run orc).1).run orc).2)
  | .done a => by simp [bind, run]
  | .ask q k => by
    have ih := run_bind orc f (k (orc q))
    simp only [bind, run, ih]
    ext <;> simp; omega

theorem run_all (orc : OBytes → Bool) (yes no : Asker UInt8) : ∀ qs : List OBytes,
    ((first.all qs yes no).run orc).1 = (if qs.all orc then (yes.run orc).1 else (no.run orc).1) ∧
    ((first.all qs yes no).run orc).2 ≤ qs.length + max (yes.run orc).2 (no.run orc).2
  | [] => by simp [first.all]
  | q :: qs => by
    obtain ⟨h1, h2⟩ := run_all orc yes no qs
    simp only [first.all, run, List.all_cons, List.length_cons]
    by_cases c : orc q
    · simp only [c, if_true, Bool.true_and]; exact ⟨h1, by omega⟩
    · simp only [c]; simp; omega

theorem run_first (orc : OBytes → Bool) (qs : UInt8 → List OBytes) {N : ℕ} (hN : ∀ b, (qs b).length ≤ N) : ∀ bs : List UInt8,
    ((first qs bs).run orc).1 = (bs.find? fun b => (qs b).all orc).getD 0 ∧ ((first qs bs).run orc).2 ≤ N * bs.length
  | [] => by simp [first, run]
  | b :: bs => by
    obtain ⟨h1, h2⟩ := run_first orc qs hN bs
    obtain ⟨a1, a2⟩ := run_all orc (.done b) (first qs bs) (qs b)
    have := hN b
    unfold first
    rw [a1, List.find?_cons]
    constructor
    · by_cases c : (qs b).all orc
      · simp [c, run]
      · simp only [c]; exact h1
    · simp only [run] at a2
      rw [List.length_cons, Nat.mul_add, Nat.mul_one]
      omega

theorem run_byte (orc : OBytes → Bool) (qs : UInt8 → List OBytes) {N : ℕ} (hN : ∀ b, (qs b).length ≤ N) :
    ((byte qs).run orc).1 = findByte (fun b => (qs b).all orc) ∧ ((byte qs).run orc).2 ≤ N * 256 := by
  have h := run_first orc qs hN ((List.range 256).map UInt8.ofNat)
  rw [List.length_map, List.length_range] at h
  exact h

theorem run_last (orc : OBytes → Bool) (mk : OBytes → OBytes) :
    ((last mk).run orc).1 = [oracleLast fun iv => orc (mk iv)] ∧ ((last mk).run orc).2 ≤ 512 := by
  unfold last
  obtain ⟨h1, h2⟩ := run_byte orc (fun b => [mk (List.replicate 14 0 ++ [0, b]), mk (List.replicate 14 0 ++ [1, b])]) (N := 2) (fun _ => le_refl _)
  rw [run_bind, h1]
  simp only [run, List.all_cons, List.all_nil, Bool.and_true]
  exact ⟨rfl, h2⟩

theorem run_more (orc : OBytes → Bool) (mk : OBytes → OBytes) : ∀ (n : ℕ) (known : OBytes),
    ((more mk n known).run orc).1 = (oracleMore fun iv => orc (mk iv))^[n] known ∧ ((more mk n known).run orc).2 ≤ 256 * n
  | 0, known => by simp [more, run]
  | n + 1, known => by
    unfold more
    dsimp only
    obtain ⟨h1, h2⟩ := run_byte orc (fun b => [mk (List.replicate (15 - known.length) 0 ++ b :: known.map (· ^^^ UInt8.ofNat (known.length + 1)))])
      (N := 1) (fun _ => le_refl _)
    rw [run_bind, h1]
    simp only [List.all_cons, List.all_nil, Bool.and_true]
    obtain ⟨i1, i2⟩ := run_more orc mk n (oracleMore (fun iv => orc (mk iv)) known)
    rw [Function.iterate_succ_apply]
    refine ⟨i1, ?_⟩
    have : ∀ a b c : ℕ, a ≤ 1 * 256 → b ≤ 256 * n → a + b ≤ 256 * (n + 1) := by intros; omega
    exact this _ _ 0 h2 i2

theorem run_block (orc : OBytes → Bool) (mk : OBytes → OBytes) :
    ((block mk).run orc).1 = oracleBlock (fun iv => orc (mk iv)) ∧ ((block mk).run orc).2 ≤ 4352 := by
  unfold block
  obtain ⟨h1, h2⟩ := run_last orc mk
  rw [run_bind, h1]
  obtain ⟨i1, i2⟩ := run_more orc mk 15 [oracleLast fun iv => orc (mk iv)]
  exact ⟨i1, by dsimp only; omega⟩

theorem run_blocks (orc : OBytes → Bool) (salt : OBytes) : ∀ (cs : List OBytes) (prev : OBytes),
    ((blocks salt prev cs).run orc).1 = oracleBlocks orc salt prev cs ∧ ((blocks salt prev cs).run orc).2 ≤ 4352 * cs.length
  | [], prev => by simp [blocks, run, oracleBlocks]
  | c :: cs, prev => by
    obtain ⟨h1, h2⟩ := run_block orc fun iv => salt ++ iv ++ c
    obtain ⟨i1, i2⟩ := run_blocks orc salt cs c
    unfold blocks
    rw [run_bind, run_bind, h1, i1]
    refine ⟨rfl, ?_⟩
    simp only [run, List.length_cons]
    omega

theorem run_message (orc : OBytes → Bool) (n : ℕ) (input : OBytes) :
    ((message n input).run orc).1 = oracleMessage orc n input ∧ ((message n input).run orc).2 ≤ 4352 * n := by
  unfold message
  obtain ⟨h1, h2⟩ := run_blocks orc (input.take 32) ((List.range n).map fun i => (input.drop (48 + 16 * i)).take 16) ((input.drop 32).take 16)
  rw [List.length_map, List.length_range] at h2
  rw [run_bind, h1]
  exact ⟨rfl, by simpa [run] using h2⟩

theorem run_forgeBlocks (orc : OBytes → Bool) (salt last : OBytes) : ∀ ps : List OBytes,
    ((forgeBlocks salt last ps).run orc).1 = Ed.forgeBlocks orc salt last ps ∧ ((forgeBlocks salt last ps).run orc).2 ≤ 4352 * ps.length
  | [] => by simp [forgeBlocks, run, Ed.forgeBlocks]
  | p :: ps => by
    obtain ⟨i1, i2⟩ := run_forgeBlocks orc salt last ps
    obtain ⟨h1, h2⟩ := run_block orc fun iv => salt ++ iv ++ (Ed.forgeBlocks orc salt last ps).1
    unfold forgeBlocks
    rw [run_bind, i1, run_bind, h1]
    refine ⟨rfl, ?_⟩
    simp only [run, List.length_cons]
    omega

theorem run_forge (orc : OBytes → Bool) (salt last m : OBytes) :
    ((forge salt last m).run orc).1 = Ed.forge orc salt last m ∧ ((forge salt last m).run orc).2 ≤ 4352 * (m.length / 16 + 1) := by
  unfold forge
  obtain ⟨h1, h2⟩ := run_forgeBlocks orc salt last ((List.range (m.length / 16 + 1)).map fun i => ((padTo16 m).drop (16 * i)).take 16)
  rw [List.length_map, List.length_range] at h2
  rw [run_bind, h1]
  exact ⟨rfl, by simpa [run] using h2⟩

end Asker

end Ed

import Mathlib.NumberTheory.LucasPrimality
import Mathlib.Tactic.NormNum.Prime
import Mathlib.Data.ZMod.Basic

/-!
# Primality of the field size p and of the group order L

Pratt certificates, checked by kernel evaluation of `powMod` (generated by tools/genprime.py).
-/

set_option autoImplicit false

namespace Ed

/-- `powMod n fuel b e acc = acc * b^e mod n` if `e < 2^fuel` (binary exponentiation). -/
def powMod (n : Nat) : Nat → Nat → Nat → Nat → Nat
  | 0, _, _, acc => acc
  | k + 1, b, e, acc => powMod n k (b * b % n) (e / 2) (if e % 2 = 1 then acc * b % n else acc)

theorem powMod_spec (n : Nat) : ∀ (k b e acc : Nat), e < 2 ^ k →
    ((powMod n k b e acc : Nat) : ZMod n) = (acc : ZMod n) * (b : ZMod n) ^ e
  | 0, b, e, acc, h => by
      have : e = 0 := by simpa using h
      subst this; simp [powMod]
  | k + 1, b, e, acc, h => by
      rw [powMod, powMod_spec n k _ _ _ (by rw [pow_succ] at h; omega)]
      have he : e = 2 * (e / 2) + e % 2 := by omega
      have key : (b : ZMod n) ^ e = ((b : ZMod n) * b) ^ (e / 2) * (b : ZMod n) ^ (e % 2) := by
        conv_lhs => rw [he, pow_add, pow_mul, sq]
      rw [key, ZMod.natCast_mod, Nat.cast_mul]
      split
      · rename_i h1
        rw [ZMod.natCast_mod, Nat.cast_mul, h1]; ring
      · rename_i h1
        have : e % 2 = 0 := by omega
        rw [this]; ring

/-- One step of a Pratt certificate: `a` is a witness, `fs` the prime factors of `n - 1` (with multiplicity). -/
def prattCheck (n a k : Nat) (fs : List Nat) : Bool :=
  fs.prod == n - 1 && decide (n - 1 < 2 ^ k) && decide (2 < n) && powMod n k a (n - 1) 1 == 1 &&
    fs.all fun q => powMod n k a ((n - 1) / q) 1 != 1

theorem pratt (n a k : Nat) (fs : List Nat) (h : prattCheck n a k fs = true)
    (hp : ∀ q ∈ fs, q.Prime) : n.Prime := by
  simp only [prattCheck, Bool.and_eq_true, beq_iff_eq, decide_eq_true_eq, List.all_eq_true,
    bne_iff_ne, ne_eq] at h
  obtain ⟨⟨⟨⟨h1, h2⟩, h3⟩, h4⟩, h5⟩ := h
  have lt : ∀ k b e acc, acc < n → powMod n k b e acc < n := by
    intro k
    induction k with
    | zero => intro b e acc h; simpa [powMod]
    | succ k ih =>
      intro b e acc h
      rw [powMod]; apply ih; split
      · exact Nat.mod_lt _ (by omega)
      · exact h
  have one : ∀ e, e < 2 ^ k → ((powMod n k a e 1 = 1) ↔ ((a : ZMod n) ^ e = 1)) := by
    intro e he
    have hs := powMod_spec n k a e 1 he
    rw [Nat.cast_one, one_mul] at hs
    rw [← hs, ← Nat.cast_one (R := ZMod n), ZMod.natCast_eq_natCast_iff']
    rw [Nat.mod_eq_of_lt (lt k a e 1 (by omega)), Nat.mod_eq_of_lt (by omega : 1 < n)]
  refine lucas_primality n (a : ZMod n) ((one _ h2).1 h4) ?_
  intro q hq hdvd
  have hmem : q ∈ fs := by
    rw [← h1] at hdvd
    obtain ⟨r, hr, hqr⟩ := (Prime.dvd_prod_iff hq.prime).1 hdvd
    rwa [(Nat.prime_dvd_prime_iff_eq hq (hp r hr)).1 hqr]
  intro hc
  exact h5 q hmem ((one _ (lt_of_le_of_lt (Nat.div_le_self _ _) h2)).2 hc)

private theorem prime_1361 : Nat.Prime 1361 := by norm_num
private theorem prime_2437 : Nat.Prime 2437 := by norm_num
private theorem prime_2551 : Nat.Prime 2551 := by norm_num
private theorem prime_2851 : Nat.Prime 2851 := by norm_num
private theorem prime_3727 : Nat.Prime 3727 := by norm_num
private theorem prime_4153 : Nat.Prime 4153 := by norm_num
private theorem prime_5879 : Nat.Prime 5879 := by norm_num
private theorem prime_30703 : Nat.Prime 30703 := by norm_num
private theorem prime_57467 : Nat.Prime 57467 := by norm_num
private theorem prime_65147 : Nat.Prime 65147 := by norm_num
private theorem prime_75707 : Nat.Prime 75707 := by norm_num
private theorem prime_82163 : Nat.Prime 82163 := by norm_num
private theorem prime_132049 : Nat.Prime 132049 := by norm_num
private theorem prime_132667 : Nat.Prime 132667 := by norm_num
private theorem prime_137849 : Nat.Prime 137849 := by norm_num
private theorem prime_409477 : Nat.Prime 409477 := by norm_num
private theorem prime_430751 : Nat.Prime 430751 := by norm_num
private theorem prime_531581 : Nat.Prime 531581 := by norm_num
private theorem prime_569003 : Nat.Prime 569003 := by norm_num
private theorem prime_1224481 : Nat.Prime 1224481 := by
  refine pratt _ 13 21 [2, 2, 2, 2, 2, 3, 5, 2551] (by decide +kernel) ?_
  simp only [List.mem_cons, List.not_mem_nil, or_false]
  rintro q (rfl | rfl | rfl | rfl | rfl | rfl | rfl | rfl)
  · norm_num
  · norm_num
  · norm_num
  · norm_num
  · norm_num
  · norm_num
  · norm_num
  · exact prime_2551
private theorem prime_1923133 : Nat.Prime 1923133 := by
  refine pratt _ 2 21 [2, 2, 3, 43, 3727] (by decide +kernel) ?_
  simp only [List.mem_cons, List.not_mem_nil, or_false]
  rintro q (rfl | rfl | rfl | rfl | rfl)
  · norm_num
  · norm_num
  · norm_num
  · norm_num
  · exact prime_3727
private theorem prime_8574133 : Nat.Prime 8574133 := by
  refine pratt _ 2 24 [2, 2, 3, 7, 103, 991] (by decide +kernel) ?_
  simp only [List.mem_cons, List.not_mem_nil, or_false]
  rintro q (rfl | rfl | rfl | rfl | rfl | rfl)
  · norm_num
  · norm_num
  · norm_num
  · norm_num
  · norm_num
  · norm_num
private theorem prime_14741173 : Nat.Prime 14741173 := by
  refine pratt _ 2 24 [2, 2, 3, 3, 409477] (by decide +kernel) ?_
  simp only [List.mem_cons, List.not_mem_nil, or_false]
  rintro q (rfl | rfl | rfl | rfl | rfl)
  · norm_num
  · norm_num
  · norm_num
  · norm_num
  · exact prime_409477
private theorem prime_58964693 : Nat.Prime 58964693 := by
  refine pratt _ 2 26 [2, 2, 14741173] (by decide +kernel) ?_
  simp only [List.mem_cons, List.not_mem_nil, or_false]
  rintro q (rfl | rfl | rfl)
  · norm_num
  · norm_num
  · exact prime_14741173
private theorem prime_292386187 : Nat.Prime 292386187 := by
  refine pratt _ 2 29 [2, 3, 3, 3, 3, 307, 5879] (by decide +kernel) ?_
  simp only [List.mem_cons, List.not_mem_nil, or_false]
  rintro q (rfl | rfl | rfl | rfl | rfl | rfl | rfl)
  · norm_num
  · norm_num
  · norm_num
  · norm_num
  · norm_num
  · norm_num
  · exact prime_5879
private theorem prime_2773320623 : Nat.Prime 2773320623 := by
  refine pratt _ 5 32 [2, 2437, 569003] (by decide +kernel) ?_
  simp only [List.mem_cons, List.not_mem_nil, or_false]
  rintro q (rfl | rfl | rfl)
  · norm_num
  · exact prime_2437
  · exact prime_569003
private theorem prime_72106336199 : Nat.Prime 72106336199 := by
  refine pratt _ 7 37 [2, 13, 2773320623] (by decide +kernel) ?_
  simp only [List.mem_cons, List.not_mem_nil, or_false]
  rintro q (rfl | rfl | rfl)
  · norm_num
  · norm_num
  · exact prime_2773320623
private theorem prime_213441916511 : Nat.Prime 213441916511 := by
  refine pratt _ 13 38 [2, 5, 73, 292386187] (by decide +kernel) ?_
  simp only [List.mem_cons, List.not_mem_nil, or_false]
  rintro q (rfl | rfl | rfl | rfl)
  · norm_num
  · norm_num
  · norm_num
  · exact prime_292386187
private theorem prime_1257559732178653 : Nat.Prime 1257559732178653 := by
  refine pratt _ 2 51 [2, 2, 3, 7, 23, 531581, 1224481] (by decide +kernel) ?_
  simp only [List.mem_cons, List.not_mem_nil, or_false]
  rintro q (rfl | rfl | rfl | rfl | rfl | rfl | rfl)
  · norm_num
  · norm_num
  · norm_num
  · norm_num
  · norm_num
  · exact prime_531581
  · exact prime_1224481
private theorem prime_1919519569386763 : Nat.Prime 1919519569386763 := by
  refine pratt _ 2 51 [2, 3, 7, 19, 47, 47, 127, 8574133] (by decide +kernel) ?_
  simp only [List.mem_cons, List.not_mem_nil, or_false]
  rintro q (rfl | rfl | rfl | rfl | rfl | rfl | rfl | rfl)
  · norm_num
  · norm_num
  · norm_num
  · norm_num
  · norm_num
  · norm_num
  · norm_num
  · exact prime_8574133
private theorem prime_31757755568855353 : Nat.Prime 31757755568855353 := by
  refine pratt _ 10 55 [2, 2, 2, 3, 31, 107, 223, 4153, 430751] (by decide +kernel) ?_
  simp only [List.mem_cons, List.not_mem_nil, or_false]
  rintro q (rfl | rfl | rfl | rfl | rfl | rfl | rfl | rfl | rfl)
  · norm_num
  · norm_num
  · norm_num
  · norm_num
  · norm_num
  · norm_num
  · norm_num
  · exact prime_4153
  · exact prime_430751
private theorem prime_4434155615661930479 : Nat.Prime 4434155615661930479 := by
  refine pratt _ 17 62 [2, 41, 43, 1257559732178653] (by decide +kernel) ?_
  simp only [List.mem_cons, List.not_mem_nil, or_false]
  rintro q (rfl | rfl | rfl | rfl)
  · norm_num
  · norm_num
  · norm_num
  · exact prime_1257559732178653
private theorem prime_3044861653679985063343 : Nat.Prime 3044861653679985063343 := by
  refine pratt _ 5 72 [2, 3, 11, 30703, 82163, 132667, 137849] (by decide +kernel) ?_
  simp only [List.mem_cons, List.not_mem_nil, or_false]
  rintro q (rfl | rfl | rfl | rfl | rfl | rfl | rfl)
  · norm_num
  · norm_num
  · norm_num
  · exact prime_30703
  · exact prime_82163
  · exact prime_132667
  · exact prime_137849
private theorem prime_172054593956031949258510691 : Nat.Prime 172054593956031949258510691 := by
  refine pratt _ 2 88 [2, 5, 1361, 2851, 4434155615661930479] (by decide +kernel) ?_
  simp only [List.mem_cons, List.not_mem_nil, or_false]
  rintro q (rfl | rfl | rfl | rfl | rfl)
  · norm_num
  · norm_num
  · exact prime_1361
  · exact prime_2851
  · exact prime_4434155615661930479
private theorem prime_198211423230930754013084525763697 : Nat.Prime 198211423230930754013084525763697 := by
  refine pratt _ 5 108 [2, 2, 2, 2, 3, 23, 58964693, 3044861653679985063343] (by decide +kernel) ?_
  simp only [List.mem_cons, List.not_mem_nil, or_false]
  rintro q (rfl | rfl | rfl | rfl | rfl | rfl | rfl | rfl)
  · norm_num
  · norm_num
  · norm_num
  · norm_num
  · norm_num
  · norm_num
  · exact prime_58964693
  · exact prime_3044861653679985063343
private theorem prime_75445702479781427272750846543864801 : Nat.Prime 75445702479781427272750846543864801 := by
  refine pratt _ 7 116 [2, 2, 2, 2, 2, 3, 3, 5, 5, 75707, 72106336199, 1919519569386763] (by decide +kernel) ?_
  simp only [List.mem_cons, List.not_mem_nil, or_false]
  rintro q (rfl | rfl | rfl | rfl | rfl | rfl | rfl | rfl | rfl | rfl | rfl | rfl)
  · norm_num
  · norm_num
  · norm_num
  · norm_num
  · norm_num
  · norm_num
  · norm_num
  · norm_num
  · norm_num
  · exact prime_75707
  · exact prime_72106336199
  · exact prime_1919519569386763
private theorem prime_19757330305831588566944191468367130476339 : Nat.Prime 19757330305831588566944191468367130476339 := by
  refine pratt _ 2 134 [2, 269, 213441916511, 172054593956031949258510691] (by decide +kernel) ?_
  simp only [List.mem_cons, List.not_mem_nil, or_false]
  rintro q (rfl | rfl | rfl | rfl)
  · norm_num
  · norm_num
  · exact prime_213441916511
  · exact prime_172054593956031949258510691
private theorem prime_276602624281642239937218680557139826668747 : Nat.Prime 276602624281642239937218680557139826668747 := by
  refine pratt _ 2 138 [2, 7, 19757330305831588566944191468367130476339] (by decide +kernel) ?_
  simp only [List.mem_cons, List.not_mem_nil, or_false]
  rintro q (rfl | rfl | rfl)
  · norm_num
  · norm_num
  · exact prime_19757330305831588566944191468367130476339
private theorem prime_74058212732561358302231226437062788676166966415465897661863160754340907 : Nat.Prime 74058212732561358302231226437062788676166966415465897661863160754340907 := by
  refine pratt _ 2 236 [2, 3, 353, 57467, 132049, 1923133, 31757755568855353, 75445702479781427272750846543864801] (by decide +kernel) ?_
  simp only [List.mem_cons, List.not_mem_nil, or_false]
  rintro q (rfl | rfl | rfl | rfl | rfl | rfl | rfl | rfl)
  · norm_num
  · norm_num
  · norm_num
  · exact prime_57467
  · exact prime_132049
  · exact prime_1923133
  · exact prime_31757755568855353
  · exact prime_75445702479781427272750846543864801
theorem prime_L : Nat.Prime (2 ^ 252 + 27742317777372353535851937790883648493) := by
  refine pratt _ 2 253 [2, 2, 3, 11, 198211423230930754013084525763697, 276602624281642239937218680557139826668747] (by decide +kernel) ?_
  simp only [List.mem_cons, List.not_mem_nil, or_false]
  rintro q (rfl | rfl | rfl | rfl | rfl | rfl)
  · norm_num
  · norm_num
  · norm_num
  · norm_num
  · exact prime_198211423230930754013084525763697
  · exact prime_276602624281642239937218680557139826668747
theorem prime_p : Nat.Prime (2 ^ 255 - 19) := by
  refine pratt _ 2 255 [2, 2, 3, 65147, 74058212732561358302231226437062788676166966415465897661863160754340907] (by decide +kernel) ?_
  simp only [List.mem_cons, List.not_mem_nil, or_false]
  rintro q (rfl | rfl | rfl | rfl | rfl)
  · norm_num
  · norm_num
  · norm_num
  · exact prime_65147
  · exact prime_74058212732561358302231226437062788676166966415465897661863160754340907

end Ed

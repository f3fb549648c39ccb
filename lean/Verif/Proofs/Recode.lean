import Verif.Proofs.ScalarIO
import Verif.Model.Recode
import Mathlib.Algebra.BigOperators.Group.Finset.Basic
import Mathlib.Algebra.BigOperators.Intervals
import Mathlib.Tactic.Linarith

/-!
# Scalar recodings
-/

namespace Ed

open Finset

theorem setD_same (e : Digits) (i : ℕ) (v : Int8) : setD e i v i = v := by simp [setD]
theorem setD_ne (e : Digits) {i j : ℕ} (v : Int8) (h : j ≠ i) : setD e i v j = e j := by simp [setD, h]

/-- Value of the digits `0..n-1` in base `B`. -/
def DV (B : ℤ) (e : Digits) (n : ℕ) : ℤ := ∑ j ∈ range n, (e j).toInt * B ^ j

theorem DV_succ (B : ℤ) (e : Digits) (n : ℕ) : DV B e (n + 1) = DV B e n + (e n).toInt * B ^ n := by
  unfold DV; rw [sum_range_succ]

theorem DV_setD_ge (B : ℤ) (e : Digits) {i n : ℕ} (v : Int8) (h : n ≤ i) : DV B (setD e i v) n = DV B e n := by
  unfold DV
  apply sum_congr rfl
  intro j hj
  rw [setD_ne]
  have := mem_range.1 hj
  omega

theorem DV_setD (B : ℤ) (e : Digits) {i n : ℕ} (v : Int8) (h : i < n) :
    DV B (setD e i v) n = DV B e n + (v.toInt - (e i).toInt) * B ^ i := by
  induction n with
  | zero => omega
  | succ n ih =>
    rw [DV_succ, DV_succ]
    by_cases hi : i = n
    · subst hi
      rw [DV_setD_ge B e v (Nat.le_refl _), setD_same]; ring
    · rw [ih (by omega), setD_ne e v (by omega)]; ring

theorem digits_sum (B N : ℕ) : ∀ n, ∑ j ∈ range n, (N / B ^ j % B) * B ^ j = N % B ^ n
  | 0 => by simp [Nat.mod_one]
  | n + 1 => by
      rw [sum_range_succ, digits_sum B N n, pow_succ, Nat.mod_mul]; ring

theorem byteN_eq (a : Bytes) (i : ℕ) : byteN a i = leVal a / 256 ^ i % 256 := by
  have h := leVal_take (a.drop i) 1
  rw [← leVal_drop, pow_one] at h
  rw [h, leVal_take_succ, byteN_drop]
  simp [leVal]

/-! ## Radix 16 -/

theorem nibble_lo (b : UInt8) : (byteToInt8 b &&& 15).toInt = ((b.toNat % 16 : ℕ) : ℤ) := by
  have h : ∀ n < 256, (byteToInt8 (UInt8.ofNat n) &&& 15).toInt = ((n % 16 : ℕ) : ℤ) := by decide +kernel
  have := h b.toNat b.toNat_lt
  rwa [UInt8.ofNat_toNat] at this

theorem nibble_hi (b : UInt8) : (sar8 (byteToInt8 b) 4 &&& 15).toInt = ((b.toNat / 16 : ℕ) : ℤ) := by
  have h : ∀ n < 256, (sar8 (byteToInt8 (UInt8.ofNat n)) 4 &&& 15).toInt = ((n / 16 : ℕ) : ℤ) := by decide +kernel
  have := h b.toNat b.toNat_lt
  rwa [UInt8.ofNat_toNat] at this

theorem nibbles_spec (a : Bytes) (j : ℕ) : (radix16Nibbles a j).toInt = ((leVal a / 16 ^ j % 16 : ℕ) : ℤ) := by
  unfold radix16Nibbles
  have hb := byteN_eq a (j / 2)
  have e256 : (256 : ℕ) ^ (j / 2) = 16 ^ (2 * (j / 2)) := by rw [pow_mul]; norm_num
  rw [e256] at hb
  split
  · rename_i h
    rw [nibble_lo, show (a.getD (j / 2) 0).toNat = byteN a (j / 2) from rfl, hb]
    have : 2 * (j / 2) = j := by omega
    rw [this, Nat.mod_mod_of_dvd _ (by norm_num)]
  · rename_i h
    rw [nibble_hi, show (a.getD (j / 2) 0).toNat = byteN a (j / 2) from rfl, hb]
    have : j = 2 * (j / 2) + 1 := by omega
    congr 1
    conv_rhs => rw [this, pow_succ, ← Nat.div_div_eq_div_mul]
    omega

/-- Loop invariant of the carries of `toRadix16`. -/
theorem radix16_loop (a : Bytes) (n : ℕ) :
    let st := (List.range n).foldl radix16Step (radix16Nibbles a, 0)
    (st.2 = 0 ∨ st.2 = 1) ∧ (∀ j < n, -8 ≤ (st.1 j).toInt ∧ (st.1 j).toInt < 8) ∧
    (∀ j, n ≤ j → st.1 j = radix16Nibbles a j) ∧
    DV 16 st.1 n + st.2 * 16 ^ n = ((leVal a % 16 ^ n : ℕ) : ℤ) := by
  induction n with
  | zero => simp [DV, Nat.mod_one]
  | succ n ih =>
    rw [List.range_succ, List.foldl_append]
    simp only [List.foldl_cons, List.foldl_nil]
    generalize List.foldl radix16Step (radix16Nibbles a, 0) (List.range n) = st at ih
    obtain ⟨e, c⟩ := st
    simp only at ih
    obtain ⟨hc, hlo, hhi, hv⟩ := ih
    have hd : (e n).toInt = ((leVal a / 16 ^ n % 16 : ℕ) : ℤ) := by rw [hhi n (le_refl _), nibbles_spec]
    have hdl : leVal a / 16 ^ n % 16 < 16 := Nat.mod_lt _ (by norm_num)
    generalize hD : leVal a / 16 ^ n % 16 = D at *
    have hci : (Int8.ofInt c).toInt = c := toInt8_ofInt (by omega) (by omega)
    have h1 : (e n + Int8.ofInt c).toInt = D + c := by
      rw [toInt8_add] <;> rw [hci, hd] <;> omega
    obtain ⟨c', hc'⟩ : ∃ c', c' = ((D : ℤ) + c + 8) / 2 ^ 4 := ⟨_, rfl⟩
    have hc01 : c' = 0 ∨ c' = 1 := by omega
    have hst : radix16Step (e, c) n = (setD (setD e n (e n + Int8.ofInt c)) n
        (e n + Int8.ofInt c - shl8 (Int8.ofInt c') 4), c') := by
      simp only [radix16Step, setD_same, h1, hc']
    have hci' : (Int8.ofInt c').toInt = c' := toInt8_ofInt (by omega) (by omega)
    have h2 : (shl8 (Int8.ofInt c') 4).toInt = c' * 2 ^ 4 := by
      rw [toInt8_shl] <;> rw [hci'] <;> omega
    have h3 : (e n + Int8.ofInt c - shl8 (Int8.ofInt c') 4).toInt = D + c - c' * 2 ^ 4 := by
      rw [toInt8_sub] <;> rw [h1, h2] <;> omega
    rw [hst]
    dsimp only
    refine ⟨hc01, ?_, ?_, ?_⟩
    · intro j hj
      by_cases hjn : j = n
      · subst hjn; rw [setD_same, h3]; omega
      · rw [setD_ne _ _ hjn, setD_ne _ _ hjn]; exact hlo j (by omega)
    · intro j hj
      rw [setD_ne _ _ (by omega), setD_ne _ _ (by omega)]; exact hhi j (by omega)
    · rw [DV_succ, setD_same, h3, DV_setD_ge _ _ _ (le_refl _), DV_setD_ge _ _ _ (le_refl _)]
      have e1 : leVal a % 16 ^ (n + 1) = leVal a % 16 ^ n + 16 ^ n * D := by
        rw [pow_succ, Nat.mod_mul, hD]
      rw [e1]; push_cast; push_cast at hv; rw [← hv]; ring

theorem toRadix16_spec (a : Bytes) :
    (∀ j < 63, -8 ≤ (toRadix16 a j).toInt ∧ (toRadix16 a j).toInt < 8) ∧
    (0 ≤ (toRadix16 a 63).toInt ∧ (toRadix16 a 63).toInt ≤ 16) ∧
    ∑ j ∈ range 64, (toRadix16 a j).toInt * 16 ^ j = ((leVal a % 2 ^ 256 : ℕ) : ℤ) := by
  obtain ⟨hc, hlo, hhi, hv⟩ := radix16_loop a 63
  unfold toRadix16
  generalize List.foldl radix16Step (radix16Nibbles a, 0) (List.range 63) = st at *
  obtain ⟨e, c⟩ := st
  simp only at *
  have hd : (e 63).toInt = ((leVal a / 16 ^ 63 % 16 : ℕ) : ℤ) := by rw [hhi 63 (le_refl _), nibbles_spec]
  have hdl : leVal a / 16 ^ 63 % 16 < 16 := Nat.mod_lt _ (by norm_num)
  generalize hD : leVal a / 16 ^ 63 % 16 = D at *
  have hci : (Int8.ofInt c).toInt = c := toInt8_ofInt (by omega) (by omega)
  have h1 : (e 63 + Int8.ofInt c).toInt = D + c := by
    rw [toInt8_add] <;> rw [hci, hd] <;> omega
  refine ⟨?_, ?_, ?_⟩
  · intro j hj
    rw [setD_ne _ _ (by omega)]; exact hlo j hj
  · rw [setD_same, h1]; omega
  · change DV 16 _ 64 = _
    rw [DV_succ, DV_setD_ge _ _ _ (le_refl _), setD_same, h1]
    have e1 : leVal a % 2 ^ 256 = leVal a % 16 ^ 63 + 16 ^ 63 * D := by
      rw [← hD, ← Nat.mod_mul]; norm_num
    rw [e1]; push_cast; push_cast at hv; rw [← hv]; ring

/-! ## Sliding window -/

theorem bit_spec (b : UInt8) (k : ℕ) (hk : k < 8) : (1 &&& sar8 (byteToInt8 b) k).toInt = ((b.toNat / 2 ^ k % 2 : ℕ) : ℤ) := by
  have h : ∀ n < 256, ∀ k < 8, (1 &&& sar8 (byteToInt8 (UInt8.ofNat n)) k).toInt = ((n / 2 ^ k % 2 : ℕ) : ℤ) := by
    decide +kernel
  have := h b.toNat b.toNat_lt k hk
  rwa [UInt8.ofNat_toNat] at this

theorem slideBits_spec (a : Bytes) (i : ℕ) : (slideBits a i).toInt = ((leVal a / 2 ^ i % 2 : ℕ) : ℤ) := by
  unfold slideBits
  rw [bit_spec _ _ (by omega), show (a.getD (i / 2 ^ 3) 0).toNat = byteN a (i / 2 ^ 3) from rfl, byteN_eq]
  congr 1
  have e256 : (256 : ℕ) ^ (i / 2 ^ 3) = 2 ^ (8 * (i / 2 ^ 3)) := by rw [pow_mul]; norm_num
  rw [e256, show (256 : ℕ) = 2 ^ 8 from rfl]
  have := window (leVal a) (8 * (i / 2 ^ 3)) 8 (i % 8) 1 (by omega)
  rw [pow_one] at this
  rw [this]
  congr 3
  omega

/-- 0 or 1. -/
def IsBit (x : Int8) : Prop := x.toInt = 0 ∨ x.toInt = 1

theorem int8_eq_zero {x : Int8} : x = 0 ↔ x.toInt = 0 := by
  rw [← Int8.toInt_inj]; rfl

theorem isBit_zero : IsBit 0 := Or.inl rfl
theorem isBit_one : IsBit 1 := Or.inr rfl

/-- The carry loop of `slide`. -/
theorem slideCarry_spec : ∀ (n k : ℕ) (r : Digits), k + n = 256 → (∀ j, k ≤ j → j < 256 → IsBit (r j)) →
    let r' := slideCarry n k r
    (∀ j < k, r' j = r j) ∧ (∀ j, k ≤ j → j < 256 → IsBit (r' j)) ∧
    ((DV 2 r' 256 = DV 2 r 256 + 2 ^ k ∧ (∀ j, k ≤ j → j < 255 → r 255 = 0 → r' 255 ≠ 0 → r' j = 0)) ∨
      (DV 2 r' 256 = DV 2 r 256 + 2 ^ k - 2 ^ 256 ∧ (∀ j, k ≤ j → j < 256 → r' j = 0) ∧ (k < 256 → r 255 ≠ 0)))
  | 0, k, r, h, hb => by
      obtain rfl : k = 256 := by omega
      refine ⟨fun _ _ => rfl, fun j h1 h2 => by omega, Or.inr ⟨by simp [slideCarry], fun j h1 h2 => by omega, fun h => by omega⟩⟩
  | n + 1, k, r, h, hb => by
      simp only [slideCarry]
      by_cases h0 : r k = 0
      · rw [if_pos h0]
        refine ⟨fun j hj => setD_ne _ _ (by omega), ?_, Or.inl ⟨?_, ?_⟩⟩
        · intro j h1 h2
          by_cases e : j = k
          · subst e; rw [setD_same]; exact isBit_one
          · rw [setD_ne _ _ e]; exact hb j h1 h2
        · rw [DV_setD 2 r 1 (by omega), h0]
          have e1 : (1 : Int8).toInt = 1 := rfl
          have e0 : (0 : Int8).toInt = 0 := rfl
          rw [e1, e0]; ring
        · intro j h1 h2 h3 h4
          by_cases e : (255 : ℕ) = k
          · omega
          · rw [setD_ne _ _ e] at h4; exact absurd h3 h4
      · rw [if_neg h0]
        have hk1 : (r k).toInt = 1 := (hb k (le_refl _) (by omega)).resolve_left (fun e => h0 (int8_eq_zero.2 e))
        have hb' : ∀ j, k + 1 ≤ j → j < 256 → IsBit (setD r k 0 j) := by
          intro j h1 h2; rw [setD_ne _ _ (by omega)]; exact hb j (by omega) h2
        obtain ⟨i1, i2, i3⟩ := slideCarry_spec n (k + 1) (setD r k 0) (by omega) hb'
        generalize slideCarry n (k + 1) (setD r k 0) = r' at *
        have hk0 : r' k = 0 := by rw [i1 k (by omega), setD_same]
        have hDV : DV 2 (setD r k 0) 256 = DV 2 r 256 - 2 ^ k := by
          rw [DV_setD 2 r 0 (by omega), hk1]
          have e0 : (0 : Int8).toInt = 0 := rfl
          rw [e0]; ring
        refine ⟨?_, ?_, ?_⟩
        · intro j hj; rw [i1 j (by omega), setD_ne _ _ (by omega)]
        · intro j h1 h2
          by_cases e : j = k
          · subst e; rw [hk0]; exact isBit_zero
          · exact i2 j (by omega) h2
        · rw [hDV] at i3
          rcases i3 with ⟨v, z⟩ | ⟨v, z, w⟩
          · refine Or.inl ⟨by rw [v, pow_succ]; ring, ?_⟩
            intro j h1 h2 h3 h4
            by_cases e : j = k
            · rw [e]; exact hk0
            · exact z j (by omega) h2 (by rw [setD_ne _ _ (by omega)]; exact h3) h4
          · refine Or.inr ⟨by rw [v, pow_succ]; ring, ?_, ?_⟩
            · intro j h1 h2
              by_cases e : j = k
              · rw [e]; exact hk0
              · exact z j (by omega) h2
            · intro _
              by_cases e : (255 : ℕ) = k
              · rw [e]; exact h0
              · have := w (by omega)
                rwa [setD_ne _ _ e] at this

/-- The first digit of a carry that starts at a 1 becomes 0. -/
theorem slideCarry_first {n k : ℕ} {r : Digits} (h : k + n = 256) (hk : r k ≠ 0) (hb : ∀ j, k ≤ j → j < 256 → IsBit (r j)) :
    n = 0 ∨ slideCarry n k r k = 0 := by
  rcases n with _ | n
  · exact Or.inl rfl
  · right
    simp only [slideCarry, if_neg hk]
    have := (slideCarry_spec n (k + 1) (setD r k 0) (by omega) (by
      intro j h1 h2; rw [setD_ne _ _ (by omega)]; exact hb j (by omega) h2)).1 k (by omega)
    rw [this, setD_same]

/-- One accumulation step of the inner loop (b = 1, 2, 3): the bit is always added. -/
theorem slideInner_add {i n b : ℕ} {r : Digits} (hb1 : 1 ≤ b) (hb3 : b ≤ 3) (hib : i + b < 256)
    (hri : 1 ≤ (r i).toInt ∧ (r i).toInt < 2 ^ b) (hbit : IsBit (r (i + b))) :
    ∃ x : Int8, x.toInt = (r i).toInt + (r (i + b)).toInt * 2 ^ b ∧
      slideInner i (n + 1) b r = slideInner i n (b + 1) (setD (setD r i x) (i + b) 0) := by
  have hp : (2 : ℤ) ^ b ≤ 8 := by
    have : b = 1 ∨ b = 2 ∨ b = 3 := by omega
    rcases this with rfl | rfl | rfl <;> norm_num
  have hp0 : (0 : ℤ) < 2 ^ b := by positivity
  rcases hbit with h0 | h1
  · refine ⟨r i, by rw [h0]; ring, ?_⟩
    have hz : r (i + b) = 0 := int8_eq_zero.2 h0
    simp only [slideInner, if_pos hib, hz, ne_eq, not_true_eq_false, if_false]
    congr 1
    funext j
    by_cases e : j = i + b
    · rw [e, setD_same, hz]
    · rw [setD_ne _ _ e]
      by_cases e' : j = i
      · rw [e', setD_same]
      · rw [setD_ne _ _ e']
  · have hnz : r (i + b) ≠ 0 := fun e => by rw [int8_eq_zero.1 e] at h1; omega
    have hs : (shl8 (r (i + b)) b).toInt = 2 ^ b := by
      rw [toInt8_shl] <;> rw [h1, one_mul] <;> omega
    have ha : (r i + shl8 (r (i + b)) b).toInt = (r i).toInt + 2 ^ b := by
      rw [toInt8_add] <;> rw [hs] <;> omega
    refine ⟨r i + shl8 (r (i + b)) b, by rw [ha, h1, one_mul], ?_⟩
    have hle : r i + shl8 (r (i + b)) b ≤ 15 := by
      rw [Int8.le_iff_toInt_le, ha]
      have : (15 : Int8).toInt = 15 := rfl
      omega
    simp only [slideInner, if_pos hib, if_pos hnz, if_pos hle]

/-- From b = 5 on nothing changes any more. -/
theorem slideInner_tail {i : ℕ} : ∀ (n b : ℕ) (r : Digits), b + n = 7 → 5 ≤ b →
    -15 ≤ (r i).toInt → (r i).toInt ≤ 15 → (∀ j, i < j → j < 256 → IsBit (r j)) → slideInner i n b r = r
  | 0, _, _, _, _, _, _, _ => rfl
  | n + 1, b, r, hn, hb, h1, h2, hbit => by
      rw [slideInner]
      by_cases hib : i + b < 256
      · rw [if_pos hib]
        by_cases hz : r (i + b) = 0
        · simp only [hz, ne_eq, not_true_eq_false, if_false]
          exact slideInner_tail n (b + 1) r (by omega) (by omega) h1 h2 hbit
        · have hv : (r (i + b)).toInt = 1 :=
            (hbit (i + b) (by omega) hib).resolve_left (fun e => hz (int8_eq_zero.2 e))
          have hp : (2 : ℤ) ^ b = 32 ∨ (2 : ℤ) ^ b = 64 := by
            have : b = 5 ∨ b = 6 := by omega
            rcases this with rfl | rfl <;> norm_num
          have hs : (shl8 (r (i + b)) b).toInt = 2 ^ b := by
            rw [toInt8_shl] <;> rw [hv, one_mul] <;> omega
          have ha : (r i + shl8 (r (i + b)) b).toInt = (r i).toInt + 2 ^ b := by
            rw [toInt8_add] <;> rw [hs] <;> omega
          have hsb : (r i - shl8 (r (i + b)) b).toInt = (r i).toInt - 2 ^ b := by
            rw [toInt8_sub] <;> rw [hs] <;> omega
          have c1 : ¬ (r i + shl8 (r (i + b)) b ≤ 15) := by
            rw [Int8.le_iff_toInt_le, ha]
            have : (15 : Int8).toInt = 15 := rfl
            omega
          have c2 : ¬ (r i - shl8 (r (i + b)) b ≥ -15) := by
            rw [ge_iff_le, Int8.le_iff_toInt_le, hsb]
            have : (-15 : Int8).toInt = -15 := rfl
            omega
          simp only [ne_eq, hz, not_false_eq_true, if_true, if_neg c1, if_neg c2]
      · rw [if_neg hib]

/-- State between the accumulation steps. -/
structure Acc (r0 r : Digits) (i b : ℕ) : Prop where
  lo : 1 ≤ (r i).toInt
  hi : (r i).toInt < 2 ^ b
  odd : (r i).toInt % 2 = 1
  below : ∀ j < i, r j = r0 j
  zero : ∀ j, i < j → j < i + b → j < 256 → r j = 0
  above : ∀ j, i + b ≤ j → r j = r0 j
  value : DV 2 r 256 = DV 2 r0 256

theorem Acc.step {r0 r : Digits} {i n b : ℕ} (hA : Acc r0 r i b) (hbit : ∀ j, i < j → j < 256 → IsBit (r0 j))
    (hb1 : 1 ≤ b) (hb3 : b ≤ 3) (hib : i + b < 256) :
    ∃ r', Acc r0 r' i (b + 1) ∧ slideInner i (n + 1) b r = slideInner i n (b + 1) r' := by
  have hbt : IsBit (r (i + b)) := by rw [hA.above _ (le_refl _)]; exact hbit _ (by omega) hib
  obtain ⟨x, hx, he⟩ := slideInner_add (n := n) hb1 hb3 hib ⟨hA.lo, hA.hi⟩ hbt
  refine ⟨_, ?_, he⟩
  have hri : setD (setD r i x) (i + b) 0 i = x := by rw [setD_ne _ _ (by omega), setD_same]
  have hp2 : ∃ q : ℤ, (2 : ℤ) ^ b = 2 * q ∧ 0 < q := ⟨2 ^ (b - 1), by
    obtain ⟨k, rfl⟩ : ∃ k, b = k + 1 := ⟨b - 1, by omega⟩
    rw [pow_succ]; simp [mul_comm], by positivity⟩
  obtain ⟨q, hq, hq0⟩ := hp2
  have hlo := hA.lo
  have hhi := hA.hi
  have hodd := hA.odd
  constructor
  · rw [hri, hx, hq]; rcases hbt with h | h <;> rw [h] <;> omega
  · rw [hri, hx, pow_succ]; rw [hq] at *; rcases hbt with h | h <;> rw [h] <;> omega
  · rw [hri, hx, hq]; rcases hbt with h | h <;> rw [h] <;> omega
  · intro j hj; rw [setD_ne _ _ (by omega), setD_ne _ _ (by omega)]; exact hA.below j hj
  · intro j h1 h2 h3
    by_cases e : j = i + b
    · rw [e, setD_same]
    · rw [setD_ne _ _ e, setD_ne _ _ (by omega)]; exact hA.zero j h1 (by omega) h3
  · intro j h1; rw [setD_ne _ _ (by omega), setD_ne _ _ (by omega)]; exact hA.above j (by omega)
  · rw [DV_setD 2 _ 0 hib, DV_setD 2 r x (by omega), hA.value, setD_ne _ _ (by omega), hx]
    have e0 : (0 : Int8).toInt = 0 := rfl
    rw [e0, pow_add]; ring

/-- State after the complete inner loop. -/
structure After (r0 r : Digits) (i : ℕ) : Prop where
  lo : -15 ≤ (r i).toInt
  hi : (r i).toInt ≤ 15
  odd : (r i).toInt % 2 = 1
  below : ∀ j < i, r j = r0 j
  bits : ∀ j, i < j → j < 256 → IsBit (r j)
  gap : ∀ j, i < j → j < i + 5 → j < 256 → r j = 0
  value : (DV 2 r 256 = DV 2 r0 256 ∧ ((r0 255 = 0 ∨ i = 255) → r 255 = 0 ∨ ∀ j, i < j → j < 255 → r j = 0)) ∨
    (DV 2 r 256 = DV 2 r0 256 - 2 ^ 256 ∧ (∀ j, i < j → j < 256 → r j = 0) ∧ r0 255 ≠ 0 ∧ i < 252)

theorem Acc.bits {r0 r : Digits} {i b : ℕ} (hA : Acc r0 r i b) (hbit : ∀ j, i < j → j < 256 → IsBit (r0 j)) :
    ∀ j, i < j → j < 256 → IsBit (r j) := by
  intro j h1 h2
  by_cases e : j < i + b
  · rw [hA.zero j h1 e h2]; exact isBit_zero
  · rw [hA.above j (by omega)]; exact hbit j h1 h2

theorem Acc.after {r0 r : Digits} {i b : ℕ} (hA : Acc r0 r i b) (hb1 : 1 ≤ b) (hb4 : b ≤ 4) (hi : i < 256)
    (hbit : ∀ j, i < j → j < 256 → IsBit (r0 j)) (hgap : 256 ≤ i + b ∨ (b = 4 ∧ r (i + 4) = 0)) : After r0 r i := by
  have hlo := hA.lo
  have hhi := hA.hi
  have hp : (2 : ℤ) ^ b ≤ 16 := by
    have : (2 : ℤ) ^ b ≤ 2 ^ 4 := pow_le_pow_right₀ (by norm_num) hb4
    simpa using this
  refine ⟨by omega, by omega, hA.odd, hA.below, hA.bits hbit, ?_, Or.inl ⟨hA.value, ?_⟩⟩
  · intro j h1 h2 h3
    rcases hgap with h | ⟨h, h'⟩
    · exact hA.zero j h1 (by omega) h3
    · by_cases e : j = i + 4
      · rw [e]; exact h'
      · exact hA.zero j h1 (by omega) h3
  · rintro (h | h)
    · by_cases e : i < 255
      · left
        by_cases e' : 255 < i + b
        · exact hA.zero 255 e e' (by norm_num)
        · rw [hA.above 255 (by omega)]; exact h
      · have : i = 255 := by omega
        subst this
        right
        intro j h1 h2; omega
    · right; intro j h1 h2; omega

theorem slideInner_spec {r0 : Digits} {i : ℕ} (hi : i < 256) (h1 : (r0 i).toInt = 1)
    (hbit : ∀ j, i < j → j < 256 → IsBit (r0 j)) : After r0 (slideInner i 6 1 r0) i := by
  have stop : ∀ {n b : ℕ} {r : Digits}, ¬ (i + b < 256) → slideInner i (n + 1) b r = r := by
    intro n b r h; rw [slideInner, if_neg h]
  have A1 : Acc r0 r0 i 1 := ⟨by omega, by omega, by omega, fun _ _ => rfl, fun j a b _ => by omega, fun _ _ => rfl, rfl⟩
  by_cases c1 : i + 1 < 256
  swap
  · rw [stop c1]; exact A1.after (by norm_num) (by norm_num) hi hbit (Or.inl (by omega))
  obtain ⟨r1, A2, e1⟩ := A1.step (n := 5) hbit (by norm_num) (by norm_num) c1
  rw [e1]
  by_cases c2 : i + 2 < 256
  swap
  · rw [stop c2]; exact A2.after (by norm_num) (by norm_num) hi hbit (Or.inl (by omega))
  obtain ⟨r2, A3, e2⟩ := A2.step (n := 4) hbit (by norm_num) (by norm_num) c2
  rw [e2]
  by_cases c3 : i + 3 < 256
  swap
  · rw [stop c3]; exact A3.after (by norm_num) (by norm_num) hi hbit (Or.inl (by omega))
  obtain ⟨r3, A4, e3⟩ := A3.step (n := 3) hbit (by norm_num) (by norm_num) c3
  rw [e3]
  by_cases c4 : i + (3 + 1) < 256
  swap
  · rw [stop c4]; exact A4.after (by norm_num) (by norm_num) hi hbit (Or.inl (by omega))
  have hbits3 := A4.bits hbit
  clear e1 e2 e3 A1 A2 A3
  by_cases hz : r3 (i + (3 + 1)) = 0
  · have : slideInner i 3 (3 + 1) r3 = slideInner i 2 5 r3 := by
      rw [slideInner, if_pos c4]
      simp only [hz, ne_eq, not_true_eq_false, if_false]
    have Af := A4.after (by norm_num) (by norm_num) hi hbit (Or.inr ⟨rfl, hz⟩)
    rw [this, slideInner_tail 2 5 r3 rfl (le_refl _) Af.lo Af.hi Af.bits]
    exact Af
  · have hv : (r3 (i + (3 + 1))).toInt = 1 :=
      (hbits3 _ (by omega) c4).resolve_left (fun e => hz (int8_eq_zero.2 e))
    have hlo := A4.lo
    have hhi := A4.hi
    have hodd := A4.odd
    norm_num at hhi
    have hs : (shl8 (r3 (i + (3 + 1))) (3 + 1)).toInt = 16 := by
      rw [toInt8_shl] <;> rw [hv] <;> norm_num
    have ha : (r3 i + shl8 (r3 (i + (3 + 1))) (3 + 1)).toInt = (r3 i).toInt + 16 := by
      rw [toInt8_add] <;> rw [hs] <;> omega
    have hsb : (r3 i - shl8 (r3 (i + (3 + 1))) (3 + 1)).toInt = (r3 i).toInt - 16 := by
      rw [toInt8_sub] <;> rw [hs] <;> omega
    have c5 : ¬ (r3 i + shl8 (r3 (i + (3 + 1))) (3 + 1) ≤ 15) := by
      rw [Int8.le_iff_toInt_le, ha]
      have : (15 : Int8).toInt = 15 := rfl
      omega
    have c6 : r3 i - shl8 (r3 (i + (3 + 1))) (3 + 1) ≥ -15 := by
      rw [ge_iff_le, Int8.le_iff_toInt_le, hsb]
      have : (-15 : Int8).toInt = -15 := rfl
      omega
    generalize hx : r3 i - shl8 (r3 (i + (3 + 1))) (3 + 1) = x at *
    have hstep : slideInner i 3 (3 + 1) r3 =
        slideInner i 2 5 (slideCarry (256 - (i + (3 + 1))) (i + (3 + 1)) (setD r3 i x)) := by
      rw [slideInner, if_pos c4]
      simp only [ne_eq, hz, not_false_eq_true, if_true, if_neg c5, hx, if_pos c6]
    rw [hstep]
    have hbits4 : ∀ j, i + (3 + 1) ≤ j → j < 256 → IsBit (setD r3 i x j) := by
      intro j h1 h2; rw [setD_ne _ _ (by omega)]; exact hbits3 j (by omega) h2
    have k4 : slideCarry (256 - (i + (3 + 1))) (i + (3 + 1)) (setD r3 i x) (i + (3 + 1)) = 0 :=
      (slideCarry_first (by omega) (by rw [setD_ne _ _ (by omega)]; exact hz) hbits4).resolve_left (by omega)
    obtain ⟨k1, k2, k3⟩ := slideCarry_spec (256 - (i + (3 + 1))) (i + (3 + 1)) (setD r3 i x) (by omega) hbits4
    generalize slideCarry (256 - (i + (3 + 1))) (i + (3 + 1)) (setD r3 i x) = r4 at *
    have hi4 : r4 i = x := by rw [k1 i (by omega), setD_same]
    have hDV : DV 2 (setD r3 i x) 256 = DV 2 r0 256 - 2 ^ (i + (3 + 1)) := by
      rw [DV_setD 2 r3 x hi, A4.value, hsb, pow_add]; ring
    have hmid : ∀ j, i < j → j < i + (3 + 1) → r4 j = 0 := by
      intro j h1 h2; rw [k1 j h2, setD_ne _ _ (by omega)]; exact A4.zero j h1 h2 (by omega)
    have hbits : ∀ j, i < j → j < 256 → IsBit (r4 j) := by
      intro j h1 h2
      by_cases e : j < i + (3 + 1)
      · rw [hmid j h1 e]; exact isBit_zero
      · exact k2 j (by omega) h2
    rw [slideInner_tail 2 5 r4 rfl (le_refl _) (by rw [hi4]; omega) (by rw [hi4]; omega) hbits]
    refine ⟨by rw [hi4]; omega, by rw [hi4]; omega, by rw [hi4]; omega, ?_, hbits, ?_, ?_⟩
    · intro j hj; rw [k1 j (by omega), setD_ne _ _ (by omega)]; exact A4.below j hj
    · intro j h1 h2 h3
      by_cases e : j = i + (3 + 1)
      · rw [e]; exact k4
      · exact hmid j h1 (by omega)
    · have h255 : setD r3 i x 255 = r0 255 := by
        rw [setD_ne _ _ (by omega)]
        exact A4.above 255 (by omega)
      rcases k3 with ⟨v, z⟩ | ⟨v, z, w⟩
      · refine Or.inl ⟨by rw [v, hDV]; ring, ?_⟩
        rintro (h | h)
        · by_cases e : r4 255 = 0
          · exact Or.inl e
          · right
            intro j h1 h2
            by_cases e' : j < i + (3 + 1)
            · exact hmid j h1 e'
            · exact z j (by omega) h2 (by rw [h255]; exact h) e
        · omega
      · refine Or.inr ⟨by rw [v, hDV]; ring, ?_, ?_⟩
        · intro j h1 h2
          by_cases e : j < i + (3 + 1)
          · exact hmid j h1 e
          · exact z j (by omega) h2
        · rw [← h255]; exact ⟨w (by omega), by omega⟩

/-- A finished digit: 0 or odd between -15 and 15. -/
def SlideDigit (x : ℤ) : Prop := x = 0 ∨ (x % 2 = 1 ∧ -15 ≤ x ∧ x ≤ 15)

/-- Loop invariant of `slide`. -/
theorem slide_loop (a : Bytes) (n : ℕ) (hn : n ≤ 256) :
    let r := (List.range n).foldl slideStep (slideBits a)
    (∀ j < n, SlideDigit (r j).toInt) ∧ (∀ j, n ≤ j → j < 256 → IsBit (r j)) ∧
    ((DV 2 r 256 = ((leVal a % 2 ^ 256 : ℕ) : ℤ) ∧
        (leVal a % 2 ^ 256 < 2 ^ 255 → r 255 = 0 ∨ ∀ j, n ≤ j → j < 255 → r j = 0)) ∨
      (DV 2 r 256 = ((leVal a % 2 ^ 256 : ℕ) : ℤ) - 2 ^ 256 ∧ (∀ j, n ≤ j → j < 256 → r j = 0) ∧
        2 ^ 255 ≤ leVal a % 2 ^ 256 ∧ ∀ j, 252 ≤ j → j < 256 → r j = 0)) ∧
    (∀ j < n, r j ≠ 0 → ∀ k, j < k → k < j + 5 → k < 256 → r k = 0) := by
  induction n with
  | zero =>
    refine ⟨fun j h => by omega, ?_, Or.inl ⟨?_, ?_⟩, fun j h => by omega⟩
    · intro j _ _
      have := slideBits_spec a j
      have h2 : leVal a / 2 ^ j % 2 < 2 := Nat.mod_lt _ (by norm_num)
      simp only [List.range_zero, List.foldl_nil]
      unfold IsBit
      omega
    · simp only [List.range_zero, List.foldl_nil]
      rw [← digits_sum 2 (leVal a) 256, DV]
      push_cast
      apply sum_congr rfl
      intro j _
      rw [slideBits_spec]; push_cast; rfl
    · intro h
      left
      rw [int8_eq_zero]
      simp only [List.range_zero, List.foldl_nil]
      rw [slideBits_spec]
      have : leVal a / 2 ^ 255 % 2 = leVal a % 2 ^ 256 / 2 ^ 255 := by
        rw [show (2 : ℕ) ^ 256 = 2 ^ 255 * 2 from rfl, Nat.mod_mul_right_div_self]
      rw [this, Nat.div_eq_of_lt h]; rfl
  | succ n ih =>
    rw [List.range_succ, List.foldl_append]
    simp only [List.foldl_cons, List.foldl_nil]
    specialize ih (by omega)
    generalize List.foldl slideStep (slideBits a) (List.range n) = r at *
    simp only at ih
    obtain ⟨hd, hb, hv, hg⟩ := ih
    unfold slideStep
    by_cases hz : r n = 0
    · simp only [hz, ne_eq, not_true_eq_false, if_false]
      refine ⟨?_, fun j h1 h2 => hb j (by omega) h2, ?_, ?_⟩
      · intro j hj
        by_cases e : j = n
        · left; rw [e, hz]; rfl
        · exact hd j (by omega)
      · rcases hv with ⟨v, z⟩ | ⟨v, z, w⟩
        · exact Or.inl ⟨v, fun h => (z h).imp id (fun k j h1 h2 => k j (by omega) h2)⟩
        · exact Or.inr ⟨v, fun j h1 h2 => z j (by omega) h2, w⟩
      · intro j hj hj0
        by_cases e : j = n
        · exact absurd hz (e ▸ hj0)
        · exact hg j (by omega) hj0
    · simp only [ne_eq, hz, not_false_eq_true, if_true]
      have h1 : (r n).toInt = 1 := (hb n (le_refl _) (by omega)).resolve_left (fun e => hz (int8_eq_zero.2 e))
      have A := slideInner_spec (r0 := r) (i := n) (by omega) h1 (fun j h1 h2 => hb j (by omega) h2)
      generalize slideInner n 6 1 r = r' at *
      refine ⟨?_, fun j h1 h2 => A.bits j (by omega) h2, ?_, ?_⟩
      · intro j hj
        by_cases e : j = n
        · rw [e]; right; exact ⟨A.odd, A.lo, A.hi⟩
        · rw [A.below j (by omega)]; exact hd j (by omega)
      · rcases hv with ⟨v, z⟩ | ⟨v, z, w⟩
        · have hr255 : leVal a % 2 ^ 256 < 2 ^ 255 → r 255 = 0 ∨ n = 255 := by
            intro h
            rcases z h with z | z
            · exact Or.inl z
            · right
              by_contra hne
              exact hz (z n (le_refl _) (by omega))
          rcases A.value with ⟨v', z'⟩ | ⟨v', z', w', w''⟩
          · exact Or.inl ⟨by rw [v', v], fun h => (z' (hr255 h)).imp id (fun k j h1 h2 => k j (by omega) h2)⟩
          · refine Or.inr ⟨by rw [v', v], fun j h1 h2 => z' j (by omega) h2, ?_, fun j h1 h2 => z' j (by omega) h2⟩
            by_contra hlt
            rcases hr255 (by omega) with h | h
            · exact w' h
            · rcases z (by omega) with z | z
              · exact w' z
              · omega
        · exact absurd (z n (le_refl _) (by omega)) hz
      · intro j hj hj0 k h1 h2 h3
        by_cases e : j = n
        · exact A.gap k (by omega) (by omega) h3
        · rw [A.below j (by omega)] at hj0
          by_cases e' : k < n
          · rw [A.below k e']; exact hg j (by omega) hj0 k h1 h2 h3
          · exact absurd (hg j (by omega) hj0 n (by omega) (by omega) (by omega)) hz

theorem slide_spec (a : Bytes) :
    (∀ j < 256, SlideDigit (slide a j).toInt) ∧
    (∑ j ∈ range 256, (slide a j).toInt * 2 ^ j = ((leVal a % 2 ^ 256 : ℕ) : ℤ) ∨
      (2 ^ 255 ≤ leVal a % 2 ^ 256 ∧
        ∑ j ∈ range 256, (slide a j).toInt * 2 ^ j = ((leVal a % 2 ^ 256 : ℕ) : ℤ) - 2 ^ 256)) := by
  obtain ⟨h1, -, h2, -⟩ := slide_loop a 256 (le_refl _)
  refine ⟨h1, ?_⟩
  rcases h2 with ⟨v, -⟩ | ⟨v, -, w, -⟩
  · exact Or.inl v
  · exact Or.inr ⟨w, v⟩

/-- Range of the low 63 digits. -/
theorem digits16_bounds {e : Digits} (h : ∀ j < 63, -8 ≤ (e j).toInt ∧ (e j).toInt < 8) :
    -(8 * ((16 ^ 63 - 1) / 15)) ≤ ∑ j ∈ range 63, (e j).toInt * 16 ^ j ∧
    ∑ j ∈ range 63, (e j).toInt * 16 ^ j ≤ 7 * ((16 ^ 63 - 1) / 15) := by
  have key : ∀ n ≤ 63, -(8 * (16 ^ n - 1)) ≤ 15 * ∑ j ∈ range n, (e j).toInt * 16 ^ j ∧
      15 * ∑ j ∈ range n, (e j).toInt * 16 ^ j ≤ 7 * (16 ^ n - 1) := by
    intro n
    induction n with
    | zero => intro _; simp
    | succ n ih =>
      intro hn
      have i := ih (by omega)
      have hd := h n (by omega)
      rw [sum_range_succ, pow_succ]
      have hp : (0 : ℤ) < 16 ^ n := by positivity
      have t : (0:ℤ) ≤ ((e n).toInt + 8) * 16 ^ n := mul_nonneg (by omega) hp.le
      have u : (0:ℤ) ≤ (7 - (e n).toInt) * 16 ^ n := mul_nonneg (by omega) hp.le
      constructor <;> nlinarith
  have k := key 63 (le_refl _)
  generalize ∑ j ∈ range 63, (e j).toInt * 16 ^ j = s at *
  norm_num at *
  omega

end Ed

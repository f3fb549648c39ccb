import Verif.Go.Limbs
import Mathlib.Tactic.Ring
import Mathlib.Tactic.LinearCombination

/-!
# A verified range and value analysis for limb programs

`absRun` runs a program on intervals.  If it succeeds, no int64 operation of the concrete run wraps
around, the final limbs lie in the final intervals, and the represented integer is unchanged modulo `m`.
-/

namespace Ed

/-- Integer represented by the limbs `0..n-1` with weights `2^(pos i)`. -/
def V (pos : Nat → Nat) (s : Limbs) : Nat → Int
  | 0 => 0
  | n + 1 => V pos s n + (s n).toInt * 2 ^ pos n

theorem upd_same (s : Limbs) (i : Nat) (v : Int64) : upd s i v i = v := by simp [upd]
theorem upd_ne (s : Limbs) {i j : Nat} (v : Int64) (h : j ≠ i) : upd s i v j = s j := by simp [upd, h]

theorem V_upd_ge (pos) (s : Limbs) (i : Nat) (v : Int64) : ∀ n, n ≤ i → V pos (upd s i v) n = V pos s n
  | 0, _ => rfl
  | n + 1, h => by
      simp only [V]
      rw [V_upd_ge pos s i v n (by omega), upd_ne s v (by omega)]

theorem V_upd (pos) (s : Limbs) (i : Nat) (v : Int64) : ∀ n, i < n →
    V pos (upd s i v) n = V pos s n + (v.toInt - (s i).toInt) * 2 ^ pos i
  | 0, h => by omega
  | n + 1, h => by
      simp only [V]
      by_cases hi : i = n
      · subst hi
        rw [V_upd_ge pos s i v i (Nat.le_refl _), upd_same]; ring
      · rw [V_upd pos s i v n (by omega), upd_ne s v (by omega)]; ring

/-- Interval environment. -/
abbrev Bnds := List (Int × Int)

/-- The limbs lie in their intervals. -/
def InB (s : Limbs) (b : Bnds) : Prop :=
  ∀ i lo hi, b[i]? = some (lo, hi) → lo ≤ (s i).toInt ∧ (s i).toInt ≤ hi

theorem InB.upd {s : Limbs} {b : Bnds} (h : InB s b) {i : Nat} {v : Int64} {lo hi : Int}
    (h1 : lo ≤ v.toInt) (h2 : v.toInt ≤ hi) : InB (upd s i v) (b.set i (lo, hi)) := by
  intro j l u hj
  by_cases e : j = i
  · subst e
    rw [List.getElem?_set_self'] at hj
    rw [upd_same]
    cases hb : b[j]? with
    | none => simp [hb] at hj
    | some q =>
      simp [hb] at hj
      obtain ⟨rfl, rfl⟩ := hj
      exact ⟨h1, h2⟩
  · rw [List.getElem?_set_ne (by omega)] at hj
    rw [upd_ne s v e]
    exact h j l u hj

/-- Does the interval fit into int64? -/
def fitsI (lo hi : Int) : Bool := decide (-2 ^ 63 ≤ lo) && decide (hi < 2 ^ 63)

theorem fitsI_fits {lo hi z : Int} (h : fitsI lo hi = true) (h1 : lo ≤ z) (h2 : z ≤ hi) : Fits z := by
  simp only [fitsI, Bool.and_eq_true, decide_eq_true_eq] at h
  exact ⟨by omega, by omega⟩

/-- Abstract `s[j] += x` for `x` in `[clo, chi]`. -/
def absAdd (b : Bnds) (j : Nat) (clo chi : Int) : Option Bnds :=
  match b[j]? with
  | some (lo, hi) => if fitsI (lo + clo) (hi + chi) then some (b.set j (lo + clo, hi + chi)) else none
  | none => none

theorem absAdd_sound {s : Limbs} {b b' : Bnds} {j : Nat} {clo chi c : Int} (h : InB s b)
    (ha : absAdd b j clo chi = some b') (h1 : clo ≤ c) (h2 : c ≤ chi) :
    (Int64.ofInt ((s j).toInt + c)).toInt = (s j).toInt + c ∧
      InB (upd s j (Int64.ofInt ((s j).toInt + c))) b' := by
  unfold absAdd at ha
  cases hb : b[j]? with
  | none => simp [hb] at ha
  | some q =>
    obtain ⟨lo, hi⟩ := q
    simp only [hb] at ha
    split at ha
    · rename_i hf
      obtain rfl := Option.some.inj ha
      obtain ⟨k1, k2⟩ := h j lo hi hb
      have e := toInt_ofInt_of_fits (fitsI_fits hf (by omega) (by omega) : Fits ((s j).toInt + c))
      exact ⟨e, h.upd (by omega) (by omega)⟩
    · simp at ha

/-- Abstract `s[j] += s[k] * c`. -/
def absMac (b : Bnds) (j k : Nat) (c : Int) : Option Bnds :=
  match b[k]? with
  | some (lo, hi) => if 0 ≤ c then absAdd b j (lo * c) (hi * c) else absAdd b j (hi * c) (lo * c)
  | none => none

theorem absMac_sound {s : Limbs} {b b' : Bnds} {j k : Nat} {c : Int} (h : InB s b)
    (ha : absMac b j k c = some b') :
    (Int64.ofInt ((s j).toInt + (s k).toInt * c)).toInt = (s j).toInt + (s k).toInt * c ∧
      InB (upd s j (Int64.ofInt ((s j).toInt + (s k).toInt * c))) b' := by
  unfold absMac at ha
  cases hb : b[k]? with
  | none => simp [hb] at ha
  | some q =>
    obtain ⟨lo, hi⟩ := q
    simp only [hb] at ha
    obtain ⟨k1, k2⟩ := h k lo hi hb
    split at ha
    · rename_i hc
      exact absAdd_sound h ha (Int.mul_le_mul_of_nonneg_right k1 hc) (Int.mul_le_mul_of_nonneg_right k2 hc)
    · rename_i hc
      exact absAdd_sound h ha (Int.mul_le_mul_of_nonpos_right k2 (by omega))
        (Int.mul_le_mul_of_nonpos_right k1 (by omega))

/-- Abstract carry out of limb `i` (offset `h`, width `w`), `mul` times the carry being added to limb `j`. -/
def absCarry (b : Bnds) (i j w : Nat) (h mul : Int) : Option Bnds :=
  match b[i]? with
  | some (lo, hi) =>
      if fitsI h h && fitsI (lo + h) (hi + h) && fitsI (-h) (2 ^ w - 1 - h) && decide (0 ≤ mul) && decide (i ≠ j) then
        match absAdd b j ((lo + h) / 2 ^ w * mul) ((hi + h) / 2 ^ w * mul) with
        | some b => some (b.set i (-h, 2 ^ w - 1 - h))
        | none => none
      else none
  | none => none

theorem absCarry_sound {s : Limbs} {b b' : Bnds} {i j w : Nat} {h mul : Int} (hs : InB s b)
    (ha : absCarry b i j w h mul = some b') :
    ∃ c : Int, c = ((s i).toInt + h) / 2 ^ w ∧ i ≠ j ∧ Fits h ∧ Fits ((s i).toInt + h) ∧
      (Int64.ofInt ((s j).toInt + c * mul)).toInt = (s j).toInt + c * mul ∧
      (Int64.ofInt ((s i).toInt - c * 2 ^ w)).toInt = (s i).toInt - c * 2 ^ w ∧
      InB (upd (upd s j (Int64.ofInt ((s j).toInt + c * mul))) i
        (Int64.ofInt ((s i).toInt - c * 2 ^ w))) b' := by
  unfold absCarry at ha
  cases hb : b[i]? with
  | none => simp [hb] at ha
  | some q =>
    obtain ⟨lo, hi⟩ := q
    simp only [hb] at ha
    split at ha
    · rename_i hc
      simp only [Bool.and_eq_true, decide_eq_true_eq] at hc
      obtain ⟨⟨⟨⟨f0, f1⟩, f2⟩, hm⟩, hij⟩ := hc
      cases hadd : absAdd b j ((lo + h) / 2 ^ w * mul) ((hi + h) / 2 ^ w * mul) with
      | none => simp [hadd] at ha
      | some b1 =>
        simp only [hadd] at ha
        obtain rfl := Option.some.inj ha
        obtain ⟨k1, k2⟩ := hs i lo hi hb
        have hp : (0 : Int) < 2 ^ w := Int.pow_pos (by decide)
        have c1 : (lo + h) / 2 ^ w ≤ ((s i).toInt + h) / 2 ^ w := Int.ediv_le_ediv hp (by omega)
        have c2 : ((s i).toInt + h) / 2 ^ w ≤ (hi + h) / 2 ^ w := Int.ediv_le_ediv hp (by omega)
        obtain ⟨e1, e2⟩ := absAdd_sound (c := ((s i).toInt + h) / 2 ^ w * mul) hs hadd
          (Int.mul_le_mul_of_nonneg_right c1 hm) (Int.mul_le_mul_of_nonneg_right c2 hm)
        have hmod := Int.emod_add_mul_ediv ((s i).toInt + h) (2 ^ w)
        have hm1 := Int.emod_nonneg ((s i).toInt + h) (by omega : (2 ^ w : Int) ≠ 0)
        have hm2 := Int.emod_lt_of_pos ((s i).toInt + h) hp
        have hcomm : ((s i).toInt + h) / 2 ^ w * 2 ^ w = 2 ^ w * (((s i).toInt + h) / 2 ^ w) := by ring
        have e3 := toInt_ofInt_of_fits (fitsI_fits f2 (by omega) (by omega) :
          Fits ((s i).toInt - ((s i).toInt + h) / 2 ^ w * 2 ^ w))
        refine ⟨_, rfl, hij, fitsI_fits f0 (Int.le_refl _) (Int.le_refl _), fitsI_fits f1 (by omega) (by omega), e1, e3, ?_⟩
        exact e2.upd (by omega) (by omega)
    · simp at ha

/-- The multiple of `2^252` folded by `Op.fold`. -/
def foldC : Int := 666643 + 470296 * 2 ^ 21 + 654183 * 2 ^ 42 - 997805 * 2 ^ 63 + 136657 * 2 ^ 84
  - 683901 * 2 ^ 105

/-- One abstract step: `n` is the number of limbs that carry the value. -/
def absOp (pos : Nat → Nat) (m : Int) (nb : Nat × Bnds) : Op → Option (Nat × Bnds)
  | .rc i w =>
      if i + 1 < nb.1 ∧ pos (i + 1) = pos i + w then
        (absCarry nb.2 i (i + 1) w (2 ^ (w - 1)) 1).map (nb.1, ·)
      else none
  | .fc i w =>
      if i + 1 < nb.1 ∧ pos (i + 1) = pos i + w then
        (absCarry nb.2 i (i + 1) w 0 1).map (nb.1, ·)
      else none
  | .wrap i w =>
      if i < nb.1 ∧ pos 0 = 0 ∧ (2 ^ (pos i + w) - 19) % m = 0 then
        (absCarry nb.2 i 0 w (2 ^ (w - 1)) 19).map (nb.1, ·)
      else none
  | .fold k =>
      if k + 1 = nb.1 ∧ 12 ≤ k ∧ (2 ^ 252 - foldC) % m = 0 ∧ pos k = pos (k - 12) + 252 ∧
          pos (k - 11) = pos (k - 12) + 21 ∧ pos (k - 10) = pos (k - 12) + 42 ∧
          pos (k - 9) = pos (k - 12) + 63 ∧ pos (k - 8) = pos (k - 12) + 84 ∧
          pos (k - 7) = pos (k - 12) + 105 then do
        let b ← absMac nb.2 (k - 12) k 666643
        let b ← absMac b (k - 11) k 470296
        let b ← absMac b (k - 10) k 654183
        let b ← absMac b (k - 9) k (-997805)
        let b ← absMac b (k - 8) k 136657
        let b ← absMac b (k - 7) k (-683901)
        some (k, b)
      else none
  | .zero i => if i = nb.1 then some (i + 1, nb.2.set i (0, 0)) else none

theorem exec_rc {s : Limbs} {i w : Nat} (hf : Fits ((s i).toInt + 2 ^ (w - 1)))
    (hw : Fits (2 ^ (w - 1))) :
    Op.exec s (.rc i w) = upd (upd s (i + 1) (Int64.ofInt ((s (i + 1)).toInt +
      ((s i).toInt + 2 ^ (w - 1)) / 2 ^ w * 1))) i
      (Int64.ofInt ((s i).toInt - ((s i).toInt + 2 ^ (w - 1)) / 2 ^ w * 2 ^ w)) := by
  simp only [Op.exec]
  have e0 : (Int64.ofInt (2 ^ (w - 1))).toInt = 2 ^ (w - 1) := toInt_ofInt_of_fits hw
  have e1 : (s i + Int64.ofInt (2 ^ (w - 1))).toInt = (s i).toInt + 2 ^ (w - 1) := by
    rw [toInt_add_of_fits (by rwa [e0]), e0]
  have e2 : upd s (i + 1) (s (i + 1) + sar (s i + Int64.ofInt (2 ^ (w - 1))) w) i = s i :=
    upd_ne _ _ (by omega)
  rw [e2, add_ofInt (s (i + 1)), toInt_sar, e1, Int.mul_one]
  congr 1
  rw [shl, toInt_sar, e1, Int64.ofInt_sub, Int64.ofInt_toInt]

theorem exec_fc {s : Limbs} {i w : Nat} :
    Op.exec s (.fc i w) = upd (upd s (i + 1) (Int64.ofInt ((s (i + 1)).toInt +
      ((s i).toInt + 0) / 2 ^ w * 1))) i
      (Int64.ofInt ((s i).toInt - ((s i).toInt + 0) / 2 ^ w * 2 ^ w)) := by
  simp only [Op.exec]
  have e2 : upd s (i + 1) (s (i + 1) + sar (s i) w) i = s i := upd_ne _ _ (by omega)
  rw [e2, add_ofInt (s (i + 1)), toInt_sar, Int.mul_one, Int.add_zero]
  congr 1
  rw [shl, toInt_sar, Int64.ofInt_sub, Int64.ofInt_toInt]

theorem exec_wrap {s : Limbs} {i w : Nat} (hi : i ≠ 0) (hf : Fits ((s i).toInt + 2 ^ (w - 1)))
    (hw : Fits (2 ^ (w - 1))) :
    Op.exec s (.wrap i w) = upd (upd s 0 (Int64.ofInt ((s 0).toInt +
      ((s i).toInt + 2 ^ (w - 1)) / 2 ^ w * 19))) i
      (Int64.ofInt ((s i).toInt - ((s i).toInt + 2 ^ (w - 1)) / 2 ^ w * 2 ^ w)) := by
  simp only [Op.exec]
  have e0 : (Int64.ofInt (2 ^ (w - 1))).toInt = 2 ^ (w - 1) := toInt_ofInt_of_fits hw
  have e1 : (s i + Int64.ofInt (2 ^ (w - 1))).toInt = (s i).toInt + 2 ^ (w - 1) := by
    rw [toInt_add_of_fits (by rwa [e0]), e0]
  have e2 : ∀ v, upd s 0 v i = s i := fun v => upd_ne _ _ hi
  rw [e2]
  have e3 : s 0 + sar (s i + Int64.ofInt (2 ^ (w - 1))) w * 19 =
      Int64.ofInt ((s 0).toInt + ((s i).toInt + 2 ^ (w - 1)) / 2 ^ w * 19) := by
    rw [Int64.ofInt_add, Int64.ofInt_mul, Int64.ofInt_toInt, ← e1, ← toInt_sar, Int64.ofInt_toInt]
    rfl
  rw [e3]
  congr 1
  rw [shl, toInt_sar, e1, Int64.ofInt_sub, Int64.ofInt_toInt]

theorem add_mul_lit (x y l : Int64) (c : Int) (h : l = Int64.ofInt c) :
    x + y * l = Int64.ofInt (x.toInt + y.toInt * c) := by
  rw [Int64.ofInt_add, Int64.ofInt_mul, Int64.ofInt_toInt, Int64.ofInt_toInt, h]

theorem sub_mul_lit (x y l : Int64) (c : Int) (h : l = Int64.ofInt c) :
    x - y * l = Int64.ofInt (x.toInt + y.toInt * (-c)) := by
  have : x.toInt + y.toInt * (-c) = x.toInt - y.toInt * c := by ring
  rw [this, Int64.ofInt_sub, Int64.ofInt_mul, Int64.ofInt_toInt, Int64.ofInt_toInt, h]

/-- Soundness of the abstract carry w.r.t. the value. -/
theorem carry_value {pos : Nat → Nat} {s : Limbs} {n i j w : Nat} {c mul : Int} {x y : Int64}
    (hi : i < n) (hj : j < n) (hij : i ≠ j) (hx : x.toInt = (s j).toInt + c * mul)
    (hy : y.toInt = (s i).toInt - c * 2 ^ w) :
    V pos (upd (upd s j x) i y) n = V pos s n + c * (mul * 2 ^ pos j - 2 ^ (pos i + w)) := by
  rw [V_upd pos _ i y n hi, V_upd pos s j x n hj, upd_ne s x hij, hx, hy, pow_add]; ring

/-- Exact effect of a fold on the value. -/
theorem fold_value (pos : Nat → Nat) (m : Int) {s : Limbs} {k : Nat} {b : Bnds} {nb' : Nat × Bnds}
    (hs : InB s b) (h : absOp pos m (k + 1, b) (.fold k) = some nb') :
    nb'.1 = k ∧ InB ((Op.fold k).exec s) nb'.2 ∧ V pos ((Op.fold k).exec s) k =
      V pos s (k + 1) - (s k).toInt * 2 ^ pos (k - 12) * (2 ^ 252 - foldC) := by
  simp only [absOp] at h
  split at h
  · rename_i hc
    obtain ⟨-, hk, -, p12, p11, p10, p9, p8, p7⟩ := hc
    simp only [Option.bind_eq_bind, Option.bind_eq_some_iff] at h
    obtain ⟨b1, h1, b2, h2, b3, h3, b4, h4, b5, h5, b6, h6, h7⟩ := h
    obtain rfl := Option.some.inj h7
    obtain ⟨e1, i1⟩ := absMac_sound hs h1
    obtain ⟨e2, i2⟩ := absMac_sound i1 h2
    obtain ⟨e3, i3⟩ := absMac_sound i2 h3
    obtain ⟨e4, i4⟩ := absMac_sound i3 h4
    obtain ⟨e5, i5⟩ := absMac_sound i4 h5
    obtain ⟨e6, i6⟩ := absMac_sound i5 h6
    simp only [Op.exec]
    rw [add_mul_lit _ _ 666643 666643 rfl, add_mul_lit _ _ 470296 470296 rfl,
      add_mul_lit _ _ 654183 654183 rfl, sub_mul_lit _ _ 997805 997805 rfl,
      add_mul_lit _ _ 136657 136657 rfl, sub_mul_lit _ _ 683901 683901 rfl]
    refine ⟨trivial, i6, ?_⟩
    have d1 : k ≠ k - 12 := by omega
    have d2 : k ≠ k - 11 := by omega
    have d3 : k ≠ k - 10 := by omega
    have d4 : k ≠ k - 9 := by omega
    have d5 : k ≠ k - 8 := by omega
    rw [V_upd pos _ (k - 7) _ k (by omega), e6, V_upd pos _ (k - 8) _ k (by omega), e5,
      V_upd pos _ (k - 9) _ k (by omega), e4, V_upd pos _ (k - 10) _ k (by omega), e3,
      V_upd pos _ (k - 11) _ k (by omega), e2, V_upd pos _ (k - 12) _ k (by omega), e1]
    rw [upd_ne _ _ d5, upd_ne _ _ d4, upd_ne _ _ d3, upd_ne _ _ d2, upd_ne _ _ d1]
    simp only [V]
    rw [p12, p11, p10, p9, p8, p7]
    unfold foldC
    simp only [pow_add]
    ring
  · simp at h

theorem absOp_sound (pos : Nat → Nat) (m : Int) {s : Limbs} {nb nb' : Nat × Bnds} {op : Op}
    (hs : InB s nb.2) (h : absOp pos m nb op = some nb') :
    InB (op.exec s) nb'.2 ∧ m ∣ V pos (op.exec s) nb'.1 - V pos s nb.1 := by
  obtain ⟨n, b⟩ := nb
  cases op with
  | rc i w =>
    simp only [absOp] at h
    split at h
    · rename_i hc
      rw [Option.map_eq_some_iff] at h
      obtain ⟨b', hb', rfl⟩ := h
      obtain ⟨c, rfl, hij, hw, hf, hx, hy, hin⟩ := absCarry_sound hs hb'
      rw [exec_rc hf hw]
      refine ⟨hin, ?_⟩
      rw [carry_value (by omega) hc.1 hij hx hy, hc.2, one_mul, sub_self, mul_zero, add_zero, sub_self]
      exact Int.dvd_zero m
    · simp at h
  | fc i w =>
    simp only [absOp] at h
    split at h
    · rename_i hc
      rw [Option.map_eq_some_iff] at h
      obtain ⟨b', hb', rfl⟩ := h
      obtain ⟨c, rfl, hij, hw, hf, hx, hy, hin⟩ := absCarry_sound hs hb'
      rw [exec_fc]
      refine ⟨hin, ?_⟩
      rw [carry_value (by omega) hc.1 hij hx hy, hc.2, one_mul, sub_self, mul_zero, add_zero, sub_self]
      exact Int.dvd_zero m
    · simp at h
  | wrap i w =>
    simp only [absOp] at h
    split at h
    · rename_i hc
      rw [Option.map_eq_some_iff] at h
      obtain ⟨b', hb', rfl⟩ := h
      obtain ⟨c, rfl, hij, hw, hf, hx, hy, hin⟩ := absCarry_sound hs hb'
      rw [exec_wrap hij hf hw]
      refine ⟨hin, ?_⟩
      rw [carry_value hc.1 (by omega) hij hx hy, hc.2.1]
      obtain ⟨t, ht⟩ := Int.dvd_of_emod_eq_zero hc.2.2
      refine ⟨-(((s i).toInt + 2 ^ (w - 1)) / 2 ^ w * t), ?_⟩
      linear_combination (-(((s i).toInt + 2 ^ (w - 1)) / 2 ^ w)) * ht
    · simp at h
  | fold k =>
    have hk : k + 1 = n ∧ 12 ≤ k ∧ (2 ^ 252 - foldC) % m = 0 := by
      simp only [absOp] at h
      split at h
      · rename_i hc; exact ⟨hc.1, hc.2.1, hc.2.2.1⟩
      · simp at h
    obtain ⟨rfl, -, hm⟩ := hk
    obtain ⟨e, h1, h2⟩ := fold_value pos m hs h
    refine ⟨h1, ?_⟩
    rw [e, h2]
    obtain ⟨t, ht⟩ := Int.dvd_of_emod_eq_zero hm
    exact ⟨-((s k).toInt * 2 ^ pos (k - 12) * t), by rw [ht]; ring⟩
  | zero i =>
    simp only [absOp] at h
    split at h
    · rename_i hc
      subst hc
      obtain rfl := Option.some.inj h
      simp only [Op.exec]
      have z : (0 : Int64).toInt = 0 := rfl
      refine ⟨hs.upd (by rw [z]) (by rw [z]), ?_⟩
      rw [V, V_upd_ge pos s i 0 i (Nat.le_refl _), upd_same, z, zero_mul, add_zero, sub_self]
      exact Int.dvd_zero m
    · simp at h

/-- Abstract run of a program. -/
def absRun (pos : Nat → Nat) (m : Int) : List Op → Nat × Bnds → Option (Nat × Bnds)
  | [], nb => some nb
  | op :: ops, nb =>
    match absOp pos m nb op with
    | some nb => absRun pos m ops nb
    | none => none

theorem absRun_sound (pos : Nat → Nat) (m : Int) : ∀ (ops : List Op) {s : Limbs} {nb nb' : Nat × Bnds},
    InB s nb.2 → absRun pos m ops nb = some nb' →
    InB (run ops s) nb'.2 ∧ m ∣ V pos (run ops s) nb'.1 - V pos s nb.1
  | [], s, nb, nb', hs, h => by
      obtain rfl := Option.some.inj h
      exact ⟨hs, by simp [run]⟩
  | op :: ops, s, nb, nb', hs, h => by
      simp only [absRun] at h
      cases ho : absOp pos m nb op with
      | none => simp [ho] at h
      | some nb1 =>
        simp only [ho] at h
        obtain ⟨h1, h2⟩ := absOp_sound pos m hs ho
        obtain ⟨h3, h4⟩ := absRun_sound pos m ops h1 h
        refine ⟨h3, ?_⟩
        have := Int.dvd_add h4 h2
        have e : V pos (run (op :: ops) s) nb'.1 - V pos s nb.1 =
          V pos (run ops (op.exec s)) nb'.1 - V pos (op.exec s) nb1.1 +
            (V pos (op.exec s) nb1.1 - V pos s nb.1) := by
          simp only [run, List.foldl_cons]; ring
        rw [e]; exact this

/-- All intervals of `b` are contained in those of `b'`. -/
def subB : Bnds → Bnds → Bool
  | (lo, hi) :: b, (lo', hi') :: b' => decide (lo' ≤ lo) && decide (hi ≤ hi') && subB b b'
  | _, [] => true
  | [], _ :: _ => false

theorem subB_sound : ∀ {b b' : Bnds}, subB b b' = true → ∀ {s : Limbs}, InB s b → InB s b'
  | b, [], _, s, _ => by intro i lo hi h; simp at h
  | [], _ :: _, h, _, _ => by simp [subB] at h
  | (lo, hi) :: b, (lo', hi') :: b', h, s, hs => by
      simp only [subB, Bool.and_eq_true, decide_eq_true_eq] at h
      obtain ⟨⟨h1, h2⟩, h3⟩ := h
      have ht : InB (fun i => s (i + 1)) b := by
        intro i l u hi
        exact hs (i + 1) l u (by simpa using hi)
      have := subB_sound h3 ht
      intro i l u hb
      cases i with
      | zero =>
        simp at hb
        obtain ⟨rfl, rfl⟩ := hb
        have := hs 0 lo hi (by simp)
        omega
      | succ i => exact this i l u (by simpa using hb)

/-- The complete check: the run succeeds from `nb`, ends with `n'` live limbs inside `b'`. -/
def checkRun (pos : Nat → Nat) (m : Int) (ops : List Op) (nb : Nat × Bnds) (n' : Nat) (b' : Bnds) : Bool :=
  match absRun pos m ops nb with
  | some (n1, b1) => n1 == n' && subB b1 b'
  | none => false

theorem checkRun_sound {pos : Nat → Nat} {m : Int} {ops : List Op} {n n' : Nat} {b b' : Bnds}
    (h : checkRun pos m ops (n, b) n' b' = true) {s : Limbs} (hs : InB s b) :
    InB (run ops s) b' ∧ m ∣ V pos (run ops s) n' - V pos s n := by
  unfold checkRun at h
  cases hr : absRun pos m ops (n, b) with
  | none => simp [hr] at h
  | some q =>
    obtain ⟨n1, b1⟩ := q
    simp only [hr, Bool.and_eq_true, beq_iff_eq] at h
    obtain ⟨rfl, h2⟩ := h
    obtain ⟨h3, h4⟩ := absRun_sound pos m ops hs hr
    exact ⟨subB_sound h2 h3, h4⟩

end Ed

import Verif.Proofs.PointCodec
import Verif.Proofs.CT
import Verif.Proofs.Recode
import Verif.Spec.TableRep

/-! # Table lookup, scalar multiplication, precomputation -/

namespace Ed
open FE Finset

namespace GC

theorem neg_precomputed {g : GC} {q : Pt} (hs : g.sys = .precomputed) (h : g.Repr q) :
    Repr (newPrecomputed g.Y g.X g.Z.negate) (-q) := by
  unfold Repr at h; rw [hs] at h
  obtain ⟨h1, h2, h3, h4, h5, h6⟩ := h
  refine ⟨h2, h1, (negate_val h3 (by norm_num) (by norm_num)).1, ?_, ?_, ?_⟩
  · show g.Y.toF = _
    rw [h5, Pt.neg_x, Pt.neg_y]; ring
  · show g.X.toF = _
    rw [h4, Pt.neg_x, Pt.neg_y]; ring
  · show g.Z.negate.toF = _
    rw [negate_toF h3 (by norm_num) (by norm_num), h6, Pt.neg_x, Pt.neg_y]; ring

theorem cmov_one (r u : GC) : r.cmov u 1 = .ok u := by unfold cmov; rw [if_pos rfl]
theorem cmov_zero (r u : GC) : r.cmov u 0 = .ok r := by
  unfold cmov; rw [if_neg (by decide), if_pos rfl]

end GC

namespace GE

/-- `selectLoop` picks the entry with index `m - 1`. -/
theorem selectLoop_spec (bAbs : Int64) (m : ℕ) (hm : m ≤ 128) (hb : bAbs.toInt = (m : ℤ)) :
    ∀ (row : List GC) (i : ℕ) (t : GC), i + row.length < 256 →
      selectLoop bAbs row i t = .ok (if i + 1 ≤ m ∧ m ≤ i + row.length then row.getD (m - 1 - i) t else t)
  | [], i, t, _ => by
      rw [selectLoop, if_neg (by simp)]
  | el :: row, i, t, hi => by
      rw [selectLoop, isConstantTimeByteEq_eq, hb]
      rw [List.length_cons] at hi ⊢
      have hf : (Int64.ofInt ((i : ℤ) + 1)).toInt = (i : ℤ) + 1 := toInt_ofInt_of_fits ⟨by omega, by omega⟩
      rw [hf]
      by_cases h : m = i + 1
      · rw [if_pos (by omega), GC.cmov_one, Out.ok_bind, selectLoop_spec bAbs m hm hb row (i + 1) el (by omega),
          if_neg (by omega), if_pos (by omega)]
        have : m - 1 - i = 0 := by omega
        rw [this]; rfl
      · rw [if_neg (by omega), GC.cmov_zero, Out.ok_bind, selectLoop_spec bAbs m hm hb row (i + 1) t (by omega)]
        by_cases h2 : i + 1 + 1 ≤ m ∧ m ≤ i + 1 + row.length
        · rw [if_pos h2, if_pos (by omega)]
          have : m - 1 - i = (m - 1 - (i + 1)) + 1 := by omega
          rw [this]; rfl
        · rw [if_neg h2, if_neg (by omega)]

/-- The absolute value of a digit as `Select` computes it. -/
theorem abs_digit (b : Int64) (hb : -128 ≤ b.toInt ∧ b.toInt < 128) :
    (b - shl ((-(if b.toInt / 256 % 2 = 1 then (1 : Int64) else 0)) &&& b) 1).toInt = |b.toInt| := by
  by_cases hn : b.toInt < 0
  · rw [if_pos (by omega)]
    have e1 : (-(1 : Int64)) &&& b = b := by
      apply Int64.toBitVec_inj.1
      have h1 : (-(1 : Int64)).toBitVec = BitVec.allOnes 64 := by decide
      rw [Int64.toBitVec_and, h1, BitVec.allOnes_and]
    have e2 : (shl b 1).toInt = b.toInt * 2 := by
      rw [toInt_shl_of_fits ⟨by omega, by omega⟩]; ring
    rw [e1, toInt_sub_of_fits (by rw [e2]; exact ⟨by omega, by omega⟩), e2, abs_of_neg hn]; ring
  · rw [if_neg (by omega)]
    have e1 : (-(0 : Int64)) &&& b = 0 := by
      apply Int64.toBitVec_inj.1
      have h1 : (-(0 : Int64)).toBitVec = 0#64 := by decide
      rw [Int64.toBitVec_and, h1, BitVec.zero_and]; rfl
    have e2 : shl (0 : Int64) 1 = 0 := by decide
    rw [e1, e2, abs_of_nonneg (by omega)]
    have : b - 0 = b := by rw [sub_ofInt]; simp
    rw [this]

/-- `Select` for digits in the range of the table and beyond. -/
theorem select_spec {g : GE} {q : Pt} (ht : g.SingleTable q) (pos : ℕ) (hpos : pos < 32) (b : Int64)
    (hb : -128 ≤ b.toInt ∧ b.toInt < 128) :
    ∃ r, g.select pos b = .ok r ∧ r.sys = .precomputed ∧
      r.Repr (if |b.toInt| ≤ 8 then (b.toInt * 256 ^ pos) • q else 0) := by
  obtain ⟨t, ht1, ht2, ht3⟩ := ht
  obtain ⟨row, hr1, hr2, hr3⟩ := ht3 pos hpos
  unfold select
  rw [ht1, isNegativeConstantTime_eq]
  dsimp only [Option.getD]
  have hidx : Out.index t pos = .ok row := by unfold Out.index; rw [hr1]; rfl
  rw [hidx, Out.ok_bind]
  have habs := abs_digit b hb
  obtain ⟨m, hm⟩ := Int.eq_ofNat_of_zero_le (abs_nonneg b.toInt)
  have hm128 : m ≤ 128 := by
    have : |b.toInt| ≤ 128 := abs_le.2 ⟨by omega, by omega⟩
    omega
  rw [selectLoop_spec _ m hm128 (habs.trans hm) row 0 _ (by omega), Out.ok_bind, hr2]
  -- the selected entry represents m * 256^pos * q
  have key : ∃ e, (if 0 + 1 ≤ m ∧ m ≤ 0 + 8 then row.getD (m - 1 - 0) .zeroPrecomputed else .zeroPrecomputed) = e ∧
      e.sys = .precomputed ∧ e.Repr (if m ≤ 8 then (m * 256 ^ pos) • q else 0) := by
    by_cases h : 0 + 1 ≤ m ∧ m ≤ 0 + 8
    · obtain ⟨e, he1, he2, he3⟩ := hr3 (m - 1) (by omega)
      refine ⟨e, ?_, he2, ?_⟩
      · rw [if_pos h, List.getD_eq_getElem?_getD, Nat.sub_zero, he1]; rfl
      · rw [if_pos (by omega)]
        have : m - 1 + 1 = m := by omega
        rwa [this] at he3
    · refine ⟨_, if_neg h, rfl, ?_⟩
      by_cases h8 : m ≤ 8
      · have : m = 0 := by omega
        rw [if_pos h8, this, Nat.zero_mul, zero_smul]
        exact GC.zeroPrecomputed_repr
      · rw [if_neg h8]; exact GC.zeroPrecomputed_repr
  obtain ⟨e, he, hes, her⟩ := key
  rw [he]
  have hm' : |b.toInt| ≤ 8 ↔ m ≤ 8 := by omega
  by_cases hn : b.toInt < 0
  · have hneg := GC.neg_precomputed hes her
    rw [if_pos (show b.toInt / 256 % 2 = 1 by omega), GC.cmov_one]
    refine ⟨_, rfl, rfl, ?_⟩
    have hb' : b.toInt = -(m : ℤ) := by
      rw [abs_of_neg hn] at hm; omega
    simp only [hm']
    by_cases h8 : m ≤ 8
    · rw [if_pos h8] at hneg ⊢
      have e2 : (b.toInt * 256 ^ pos) • q = -((m * 256 ^ pos) • q) := by
        rw [hb', neg_mul, neg_smul, ← natCast_zsmul]; push_cast; rfl
      rw [e2]; exact hneg
    · rw [if_neg h8] at hneg ⊢
      rwa [neg_zero] at hneg
  · rw [if_neg (show ¬ b.toInt / 256 % 2 = 1 by omega), GC.cmov_zero]
    refine ⟨_, rfl, hes, ?_⟩
    have hb' : b.toInt = (m : ℤ) := by
      rw [abs_of_nonneg (by omega)] at hm; omega
    simp only [hm']
    by_cases h8 : m ≤ 8
    · rw [if_pos h8] at her ⊢
      have e2 : (b.toInt * 256 ^ pos) • q = (m * 256 ^ pos) • q := by
        rw [hb', ← natCast_zsmul]; push_cast; rfl
      rw [e2]; exact her
    · rw [if_neg h8] at her ⊢
      exact her

/-- The value of a digit as seen by `Select`: digits outside [-8, 8] count as 0. -/
def seen (x : ℤ) : ℤ := if |x| ≤ 8 then x else 0

theorem scalarStep_spec {g : GE} {q r : Pt} (ht : g.SingleTable q) {h : GC} (hs : h.sys = .p3) (hr : h.Repr r)
    (e : Digits) (i : ℕ) (hi : i < 64) :
    ∃ h', scalarStep g e h i = .ok h' ∧ h'.sys = .p3 ∧ h'.Repr (r + (seen (e i).toInt * 256 ^ (i / 2)) • q) := by
  have b1 := (e i).le_toInt
  have b2 := (e i).toInt_lt
  have hd : (int8ToInt (e i)).toInt = (e i).toInt := toInt_ofInt_of_fits ⟨by omega, by omega⟩
  obtain ⟨s, s1, s2, s3⟩ := select_spec ht (i / 2) (by omega) (int8ToInt (e i)) (by rw [hd]; omega)
  rw [hd] at s3
  have s3' : s.Repr ((seen (e i).toInt * 256 ^ (i / 2)) • q) := by
    unfold seen
    by_cases h8 : |(e i).toInt| ≤ 8
    · rw [if_pos h8] at s3 ⊢; exact s3
    · rw [if_neg h8] at s3 ⊢; rw [zero_mul, zero_smul]; exact s3
  obtain ⟨a, a1, a2, a3⟩ := GC.precomputedAdd_repr hs hr s2 s3'
  obtain ⟨p, p1, p2, p3⟩ := GC.toP3_of_p1xp1 a2 a3
  refine ⟨p, ?_, p2, p3⟩
  unfold scalarStep
  rw [s1, Out.ok_bind, a1, Out.ok_bind, p1]

theorem foldlM_spec {g : GE} {q : Pt} (ht : g.SingleTable q) (e : Digits) :
    ∀ (l : List ℕ) (_ : ∀ i ∈ l, i < 64) (h : GC) (r : Pt), h.sys = .p3 → h.Repr r →
    ∃ h', l.foldlM (scalarStep g e) h = .ok h' ∧ h'.sys = .p3 ∧
      h'.Repr (r + (l.map fun i => seen (e i).toInt * 256 ^ (i / 2)).sum • q)
  | [], _, h, r, hs, hr => ⟨h, rfl, hs, by simpa using hr⟩
  | i :: l, hl, h, r, hs, hr => by
      obtain ⟨h1, e1, e2, e3⟩ := scalarStep_spec ht hs hr e i (hl i (by simp))
      obtain ⟨h2, f1, f2, f3⟩ := foldlM_spec ht e l (fun j hj => hl j (by simp [hj])) h1 _ e2 e3
      refine ⟨h2, ?_, f2, ?_⟩
      · rw [List.foldlM_cons, e1]; exact f1
      · rw [List.map_cons, List.sum_cons, add_smul, ← add_assoc]; exact f3

theorem times16_spec {h : GC} {r : Pt} (hs : h.sys = .p3) (hr : h.Repr r) :
    ∃ h', times16 h = .ok h' ∧ h'.sys = .p3 ∧ h'.Repr ((16 : ℤ) • r) := by
  obtain ⟨a, a1, a2, a3⟩ := GC.dbl_repr (Or.inr hs) hr
  obtain ⟨b, b1, b2, b3⟩ := GC.toP2_of_p1xp1 a2 a3
  obtain ⟨c, c1, c2, c3⟩ := GC.dbl_repr (Or.inl b2) b3
  obtain ⟨d, d1, d2, d3⟩ := GC.toP2_of_p1xp1 c2 c3
  obtain ⟨e, e1, e2, e3⟩ := GC.dbl_repr (Or.inl d2) d3
  obtain ⟨f, f1, f2, f3⟩ := GC.toP2_of_p1xp1 e2 e3
  obtain ⟨k, k1, k2, k3⟩ := GC.dbl_repr (Or.inl f2) f3
  obtain ⟨m, m1, m2, m3⟩ := GC.toP3_of_p1xp1 k2 k3
  refine ⟨m, ?_, m2, ?_⟩
  · unfold times16
    rw [a1, Out.ok_bind, b1, Out.ok_bind, c1, Out.ok_bind, d1, Out.ok_bind, e1, Out.ok_bind, f1, Out.ok_bind,
      k1, Out.ok_bind, m1]
  · have : (16 : ℤ) • r = r + r + (r + r) + (r + r + (r + r)) + (r + r + (r + r) + (r + r + (r + r))) := by
      abel
    rw [this]; exact m3

theorem map_range_sum (f : ℕ → ℤ) (n : ℕ) : ((List.range n).map f).sum = ∑ k ∈ range n, f k := by
  rw [Finset.sum_range]
  induction n with
  | zero => simp
  | succ n ih => rw [List.range_succ, List.map_append, List.sum_append, ih, Fin.sum_univ_castSucc]; simp

/-- Splitting the digits into even and odd positions. -/
theorem sum_even_odd (f : ℕ → ℤ) (n : ℕ) :
    ∑ j ∈ range (2 * n), f j * 16 ^ j =
      ∑ k ∈ range n, f (2 * k) * 256 ^ k + 16 * ∑ k ∈ range n, f (2 * k + 1) * 256 ^ k := by
  induction n with
  | zero => simp
  | succ n ih =>
    have : 2 * (n + 1) = 2 * n + 1 + 1 := by ring
    rw [this, sum_range_succ, sum_range_succ, ih, sum_range_succ, sum_range_succ]
    have h1 : (16 : ℤ) ^ (2 * n) = 256 ^ n := by rw [pow_mul]; norm_num
    rw [pow_succ, h1]; ring

/-- `scalarMultiply` in terms of the digits. -/
theorem scalarMultiply_digits {g : GE} {q : Pt} (ht : g.SingleTable q) (a : Bytes) :
    ∃ h, g.scalarMultiply a = .ok h ∧ h.sys = .p3 ∧
      h.Repr ((∑ j ∈ range 64, seen (toRadix16 a j).toInt * 16 ^ j) • q) := by
  unfold scalarMultiply
  dsimp only
  generalize toRadix16 a = e
  obtain ⟨h1, a1, a2, a3⟩ := foldlM_spec ht e ((List.range 32).map fun k => 2 * k + 1)
    (by intro i hi; simp at hi; obtain ⟨k, hk, rfl⟩ := hi; omega) _ _ rfl GC.zeroP3_repr
  obtain ⟨h2, b1, b2, b3⟩ := times16_spec a2 a3
  obtain ⟨h3, c1, c2, c3⟩ := foldlM_spec ht e ((List.range 32).map fun k => 2 * k)
    (by intro i hi; simp at hi; obtain ⟨k, hk, rfl⟩ := hi; omega) _ _ b2 b3
  refine ⟨h3, ?_, c2, ?_⟩
  · rw [a1, Out.ok_bind, b1, Out.ok_bind, c1]
  · rw [List.map_map, List.map_map, map_range_sum, map_range_sum, zero_add, ← mul_smul, ← add_smul] at c3
    have hs := sum_even_odd (fun j => seen (e j).toInt) 32
    have e1 : ∀ k, ((fun i => seen (e i).toInt * 256 ^ (i / 2)) ∘ fun k => 2 * k + 1) k =
        seen (e (2 * k + 1)).toInt * 256 ^ k := by
      intro k
      have : (2 * k + 1) / 2 = k := by omega
      simp only [Function.comp, this]
    have e2 : ∀ k, ((fun i => seen (e i).toInt * 256 ^ (i / 2)) ∘ fun k => 2 * k) k =
        seen (e (2 * k)).toInt * 256 ^ k := by
      intro k
      have : (2 * k) / 2 = k := by omega
      simp only [Function.comp, this]
    rw [sum_congr rfl (fun k _ => e1 k), sum_congr rfl (fun k _ => e2 k)] at c3
    have : (64 : ℕ) = 2 * 32 := rfl
    rw [this, hs, add_comm]
    exact c3

theorem scalarMultiply_spec {g : GE} {q : Pt} (ht : g.SingleTable q) (a : Bytes) (ha : leVal a < 2 ^ 255) :
    ∃ h, g.scalarMultiply a = .ok h ∧ h.sys = .p3 ∧ h.Repr (leVal a • q) := by
  obtain ⟨h, h1, h2, h3⟩ := scalarMultiply_digits ht a
  obtain ⟨d1, d2, d3⟩ := toRadix16_spec a
  rw [Nat.mod_eq_of_lt (by omega)] at d3
  refine ⟨h, h1, h2, ?_⟩
  have h63 : (toRadix16 a 63).toInt ≤ 8 := by
    have hs := (digits16_bounds d1).1
    rw [sum_range_succ] at d3
    generalize ∑ j ∈ range 63, (toRadix16 a j).toInt * 16 ^ j = s at *
    generalize (toRadix16 a 63).toInt = x at *
    by_contra hx
    have : (9 : ℤ) * 16 ^ 63 ≤ x * 16 ^ 63 := by nlinarith [pow_pos (by norm_num : (0:ℤ) < 16) 63]
    norm_num at *
    omega
  have hseen : ∑ j ∈ range 64, seen (toRadix16 a j).toInt * 16 ^ j = (leVal a : ℤ) := by
    rw [← d3]
    apply sum_congr rfl
    intro j hj
    have hj := mem_range.1 hj
    have : |(toRadix16 a j).toInt| ≤ 8 := by
      by_cases h : j < 63
      · have := d1 j h
        exact abs_le.2 ⟨by omega, by omega⟩
      · have : j = 63 := by omega
        subst this
        exact abs_le.2 ⟨by omega, h63⟩
    unfold seen
    rw [if_pos this]
  rw [hseen, natCast_zsmul] at h3
  exact h3

/-- The scalar `scalarMultiply` really uses: all of it as long as the last digit is in the table, otherwise the last digit
is lost. -/
theorem scalarMultiply_any {g : GE} {q : Pt} (ht : g.SingleTable q) (a : Bytes) (ha : leVal a < 2 ^ 256) :
    ∃ h, g.scalarMultiply a = .ok h ∧ h.sys = .p3 ∧
      h.Repr ((if leVal a ≤ 8 * 16 ^ 63 + 7 * ((16 ^ 63 - 1) / 15) then (leVal a : ℤ)
        else ((leVal a : ℤ) + 8 * ((16 ^ 63 - 1) / 15)) % 16 ^ 63 - 8 * ((16 ^ 63 - 1) / 15)) • q) := by
  obtain ⟨h, h1, h2, h3⟩ := scalarMultiply_digits ht a
  refine ⟨h, h1, h2, ?_⟩
  obtain ⟨d1, d2, d3⟩ := toRadix16_spec a
  rw [Nat.mod_eq_of_lt ha] at d3
  have hb := digits16_bounds d1
  have hlow : ∑ j ∈ range 63, seen (toRadix16 a j).toInt * 16 ^ j = ∑ j ∈ range 63, (toRadix16 a j).toInt * 16 ^ j := by
    apply sum_congr rfl
    intro j hj
    have := d1 j (mem_range.1 hj)
    unfold seen
    rw [if_pos (abs_le.2 ⟨by omega, by omega⟩)]
  have key : ∑ j ∈ range 64, seen (toRadix16 a j).toInt * 16 ^ j =
      if leVal a ≤ 8 * 16 ^ 63 + 7 * ((16 ^ 63 - 1) / 15) then (leVal a : ℤ)
        else ((leVal a : ℤ) + 8 * ((16 ^ 63 - 1) / 15)) % 16 ^ 63 - 8 * ((16 ^ 63 - 1) / 15) := by
    rw [sum_range_succ] at d3 ⊢
    rw [hlow]
    generalize ∑ j ∈ range 63, (toRadix16 a j).toInt * 16 ^ j = s at *
    generalize (toRadix16 a 63).toInt = x at *
    generalize leVal a = v at *
    unfold seen
    by_cases hx : x ≤ 8
    · rw [if_pos (abs_le.2 ⟨by omega, hx⟩), if_pos, ← d3]
      have : x * 16 ^ 63 ≤ (8 : ℤ) * 16 ^ 63 := by nlinarith [pow_pos (by norm_num : (0:ℤ) < 16) 63]
      norm_num at *
      omega
    · have : (9 : ℤ) * 16 ^ 63 ≤ x * 16 ^ 63 := by nlinarith [pow_pos (by norm_num : (0:ℤ) < 16) 63]
      rw [if_neg (fun h => hx (abs_le.1 h).2), if_neg (by norm_num at *; omega), ← d3, zero_mul, add_zero]
      have e : s + x * 16 ^ 63 + 8 * ((16 ^ 63 - 1) / 15) = (s + 8 * ((16 ^ 63 - 1) / 15)) + 16 ^ 63 * x := by ring
      rw [e, Int.add_mul_emod_self_left, Int.emod_eq_of_lt (by omega) (by norm_num at *; omega)]
      ring
  rw [key] at h3
  exact h3

/-! ## Double scalar multiplication -/

theorem int8_half {a : Int8} (h : 0 < a.toInt) : (a / 2).toInt.toNat = (a.toInt / 2).toNat := by
  have h2 : ¬ a.toInt < -1 := by omega
  have e : (a / 2).toInt = (a.toInt.tdiv 2).bmod 256 := by
    rw [Int8.toInt_div]; rfl
  rw [e]
  have : a.toInt.tdiv 2 = a.toInt / 2 := Int.tdiv_eq_ediv_of_nonneg (by omega)
  have := a.toInt_lt
  rw [‹a.toInt.tdiv 2 = a.toInt / 2›, Int.bmod_eq_of_le (by omega) (by omega)]

theorem int8_neg {a : Int8} (h : -15 ≤ a.toInt) : (-a).toInt = -a.toInt := by
  have h2 := a.toInt_lt
  have : -a = Int8.ofInt (-a.toInt) := by rw [Int8.ofInt_neg, Int8.ofInt_toInt]
  rw [this, toInt8_ofInt (by omega) (by omega)]

theorem int8_pos_iff {a : Int8} : a > 0 ↔ 0 < a.toInt := by
  show (0 : Int8) < a ↔ _
  rw [Int8.lt_iff_toInt_lt]; rfl

theorem int8_neg_iff {a : Int8} : a < 0 ↔ a.toInt < 0 := by
  rw [Int8.lt_iff_toInt_lt]; rfl

theorem double_entry {g : GE} {q : Pt} (ht : g.DoubleTable q) {a : Int8} (h : 0 < a.toInt)
    (ho : a.toInt % 2 = 1) (h15 : a.toInt ≤ 15) :
    ∃ e, Out.index (g.double.getD []) (a / 2).toInt.toNat = .ok e ∧ e.sys = .precomputed ∧
      e.Repr (a.toInt • q) := by
  obtain ⟨t, t1, t2, t3⟩ := ht
  obtain ⟨e, e1, e2, e3⟩ := t3 (a.toInt / 2).toNat (by omega)
  refine ⟨e, ?_, e2, ?_⟩
  · rw [int8_half h, t1]
    unfold Out.index
    dsimp only [Option.getD]
    rw [e1]; rfl
  · have : a.toInt = ((2 * (a.toInt / 2).toNat + 1 : ℕ) : ℤ) := by omega
    rw [this, natCast_zsmul]
    exact e3

/-- One of the two table additions: `sub` tells whether positive digits subtract. -/
theorem digit_add {g : GE} {q r : Pt} (ht : g.DoubleTable q) {a : Int8} (hd : SlideDigit a.toInt)
    {t : GC} (hs : t.sys = .p1xp1) (hr : t.Repr r) :
    (∃ t', addDigit g a t = .ok t' ∧ t'.sys = .p1xp1 ∧ t'.Repr (r + a.toInt • q)) ∧
    (∃ t', subDigit g a t = .ok t' ∧ t'.sys = .p1xp1 ∧ t'.Repr (r - a.toInt • q)) := by
  unfold addDigit subDigit
  obtain ⟨u, u1, u2, u3⟩ := GC.toP3_of_p1xp1 hs hr
  rcases hd with h0 | ⟨ho, hlo, hhi⟩
  · have n1 : ¬ a > 0 := by rw [int8_pos_iff]; omega
    have n2 : ¬ a < 0 := by rw [int8_neg_iff]; omega
    rw [if_neg n1, if_neg n2, if_neg n1, if_neg n2, h0, zero_smul, add_zero, sub_zero]
    exact ⟨⟨t, rfl, hs, hr⟩, t, rfl, hs, hr⟩
  · by_cases hp : 0 < a.toInt
    · have n1 : a > 0 := int8_pos_iff.2 hp
      obtain ⟨e, e1, e2, e3⟩ := double_entry ht hp ho hhi
      rw [if_pos n1, if_pos n1]
      constructor
      · obtain ⟨s, s1, s2, s3⟩ := GC.precomputedAdd_repr u2 u3 e2 e3
        exact ⟨s, by rw [u1, Out.ok_bind, e1, Out.ok_bind, s1], s2, s3⟩
      · obtain ⟨s, s1, s2, s3⟩ := GC.precomputedSubtract_repr u2 u3 e2 e3
        exact ⟨s, by rw [u1, Out.ok_bind, e1, Out.ok_bind, s1], s2, s3⟩
    · have hn : a.toInt < 0 := by omega
      have n1 : ¬ a > 0 := by rw [int8_pos_iff]; omega
      have n2 : a < 0 := int8_neg_iff.2 hn
      have hneg := int8_neg hlo
      obtain ⟨e, e1, e2, e3⟩ := double_entry (a := -a) ht (by rw [hneg]; omega) (by rw [hneg]; omega)
        (by rw [hneg]; omega)
      rw [hneg, neg_smul] at e3
      rw [if_neg n1, if_pos n2, if_neg n1, if_pos n2]
      constructor
      · obtain ⟨s, s1, s2, s3⟩ := GC.precomputedSubtract_repr u2 u3 e2 e3
        rw [sub_neg_eq_add] at s3
        exact ⟨s, by rw [u1, Out.ok_bind, e1, Out.ok_bind, s1], s2, s3⟩
      · obtain ⟨s, s1, s2, s3⟩ := GC.precomputedAdd_repr u2 u3 e2 e3
        rw [← sub_eq_add_neg] at s3
        exact ⟨s, by rw [u1, Out.ok_bind, e1, Out.ok_bind, s1], s2, s3⟩

theorem doubleStep_spec {g A : GE} {q p r : Pt} (hg : g.DoubleTable q) (hA : A.DoubleTable p)
    {a b : Int8} (ha : SlideDigit a.toInt) (hb : SlideDigit b.toInt) {h : GC} (hs : h.sys = .p2) (hr : h.Repr r) :
    ∃ h', doubleStep g A a b h = .ok h' ∧ h'.sys = .p2 ∧ h'.Repr ((2 : ℤ) • r + (b.toInt • q - a.toInt • p)) := by
  obtain ⟨t, t1, t2, t3⟩ := GC.dbl_repr (Or.inl hs) hr
  obtain ⟨u, u1, u2, u3⟩ := (digit_add hA ha t2 t3).2
  obtain ⟨v, v1, v2, v3⟩ := (digit_add hg hb u2 u3).1
  obtain ⟨w, w1, w2, w3⟩ := GC.toP2_of_p1xp1 v2 v3
  refine ⟨w, ?_, w2, ?_⟩
  · unfold doubleStep
    rw [t1, Out.ok_bind, u1, Out.ok_bind, v1, Out.ok_bind, w1]
  · have : (2 : ℤ) • r + (b.toInt • q - a.toInt • p) = r + r - a.toInt • p + b.toInt • q := by
      rw [two_smul]; abel
    rw [this]; exact w3

theorem doubleLoop_spec {g A : GE} {q p : Pt} (hg : g.DoubleTable q) (hA : A.DoubleTable p)
    (aS bS : Digits) (ha : ∀ j < 256, SlideDigit (aS j).toInt) (hb : ∀ j < 256, SlideDigit (bS j).toInt) :
    ∀ (n : ℕ) (_ : n ≤ 256) (flag : Bool) (h : GC) (r : Pt), h.sys = .p2 → h.Repr r → (flag = false → r = 0) →
    ∃ h', doubleLoop g A aS bS n flag h = .ok h' ∧ h'.sys = .p2 ∧
      h'.Repr ((2 : ℤ) ^ n • r + ((∑ j ∈ range n, (bS j).toInt * 2 ^ j) • q -
        (∑ j ∈ range n, (aS j).toInt * 2 ^ j) • p))
  | 0, _, flag, h, r, hs, hr, _ => ⟨h, rfl, hs, by simpa using hr⟩
  | n + 1, hn, flag, h, r, hs, hr, hf => by
      rw [doubleLoop]
      rw [sum_range_succ, sum_range_succ]
      by_cases hfl : (flag || aS n != 0 || bS n != 0) = true
      · rw [if_pos hfl]
        obtain ⟨k, k1, k2, k3⟩ := doubleStep_spec hg hA (ha n (by omega)) (hb n (by omega)) hs hr
        obtain ⟨h', e1, e2, e3⟩ := doubleLoop_spec hg hA aS bS ha hb n (by omega)
          (flag || aS n != 0 || bS n != 0) k _ k2 k3 (fun hh => by rw [hfl] at hh; exact absurd hh (by simp))
        refine ⟨h', ?_, e2, ?_⟩
        · rw [k1, Out.ok_bind, e1]
        · generalize ∑ j ∈ range n, (bS j).toInt * 2 ^ j = sb at *
          generalize ∑ j ∈ range n, (aS j).toInt * 2 ^ j = sa at *
          generalize (aS n).toInt = x at *
          generalize (bS n).toInt = y at *
          have : (2 : ℤ) ^ (n + 1) • r + ((sb + y * 2 ^ n) • q - (sa + x * 2 ^ n) • p) =
              (2 : ℤ) ^ n • ((2 : ℤ) • r + (y • q - x • p)) + (sb • q - sa • p) := by
            rw [smul_add, smul_sub, ← mul_smul, ← mul_smul, ← mul_smul, add_smul, add_smul, pow_succ,
              mul_comm y, mul_comm x]
            abel
          rw [this]; exact e3
      · rw [if_neg hfl]
        simp only [Bool.or_eq_true, bne_iff_ne, ne_eq, not_or, not_not] at hfl
        obtain ⟨⟨f1, f2⟩, f3⟩ := hfl
        have f1 : flag = false := by simpa using f1
        have hr0 := hf f1
        have z1 : (aS n).toInt = 0 := by rw [f2]; rfl
        have z2 : (bS n).toInt = 0 := by rw [f3]; rfl
        have hflag : (flag || aS n != 0 || bS n != 0) = false := by rw [f1, f2, f3]; rfl
        obtain ⟨h', e1, e2, e3⟩ := doubleLoop_spec hg hA aS bS ha hb n (by omega)
          (flag || aS n != 0 || bS n != 0) h r hs hr (fun _ => hr0)
        refine ⟨h', e1, e2, ?_⟩
        rw [z1, z2, zero_mul, add_zero, add_zero, hr0, smul_zero]
        rw [hr0, smul_zero] at e3
        exact e3

theorem doubleScalar_digits {g A : GE} {q p : Pt} (hg : g.DoubleTable q) (hA : A.DoubleTable p) (a b : Bytes) :
    ∃ h, g.doubleScalarMultiplyVariableTime A a b = .ok h ∧ h.sys = .p2 ∧
      h.Repr ((∑ j ∈ range 256, (slide b j).toInt * 2 ^ j) • q -
        (∑ j ∈ range 256, (slide a j).toInt * 2 ^ j) • p) := by
  obtain ⟨ha, -⟩ := slide_spec a
  obtain ⟨hb, -⟩ := slide_spec b
  obtain ⟨h, h1, h2, h3⟩ := doubleLoop_spec hg hA (slide a) (slide b) ha hb 256 (le_refl _) false _ 0 rfl
    GC.zeroP2_repr (fun _ => rfl)
  refine ⟨h, h1, h2, ?_⟩
  rw [smul_zero, zero_add] at h3
  exact h3

theorem slide_val (a : Bytes) (ha : leVal a < 2 ^ 255) :
    ∑ j ∈ range 256, (slide a j).toInt * 2 ^ j = (leVal a : ℤ) := by
  obtain ⟨-, h⟩ := slide_spec a
  rw [Nat.mod_eq_of_lt (by omega)] at h
  rcases h with h | ⟨h, -⟩
  · exact h
  · omega

theorem doubleScalar_spec {g A : GE} {q p : Pt} (hg : g.DoubleTable q) (hA : A.DoubleTable p) (a b : Bytes)
    (ha : leVal a < 2 ^ 255) (hb : leVal b < 2 ^ 255) :
    ∃ h, g.doubleScalarMultiplyVariableTime A a b = .ok h ∧ h.sys = .p2 ∧ h.Repr (leVal b • q - leVal a • p) := by
  obtain ⟨h, h1, h2, h3⟩ := doubleScalar_digits hg hA a b
  rw [slide_val a ha, slide_val b hb, natCast_zsmul, natCast_zsmul] at h3
  exact ⟨h, h1, h2, h3⟩

end GE

/-! ## Precomputation -/

namespace GC

theorem precEntry_repr2 {g : GC} {q : Pt} (hs : g.sys = .p2 ∨ g.sys = .p3) (h : g.Repr q) :
    (precEntry g).sys = .precomputed ∧ (precEntry g).Repr q := by
  obtain ⟨⟨x1, x2⟩, y1, y2⟩ := affine_coords hs h
  unfold precEntry
  dsimp only
  generalize g.X.multiply g.Z.invert = x at *
  generalize g.Y.multiply g.Z.invert = y at *
  obtain ⟨p1, p2⟩ := add_small y1.small x1.small
  obtain ⟨m1, m2⟩ := sub_small y1.small x1.small
  obtain ⟨xy1, xy2⟩ := multiply_spec x1.loose y1.loose
  obtain ⟨t1, t2⟩ := multiply_spec xy1.loose d2FE_spec.1.loose
  refine ⟨rfl, p1, m1, t1.loose, ?_, ?_, ?_⟩
  · show (y.add x).toF = _
    rw [p2, x2, y2]
  · show (y.subtract x).toF = _
    rw [m2, x2, y2]
  · show ((x.multiply y).multiply d2FE).toF = _
    rw [t2, xy2, x2, y2, d2FE_spec.2]; ring

theorem precEntry_repr {g : GC} {q : Pt} (hs : g.sys = .p3) (h : g.Repr q) :
    (precEntry g).sys = .precomputed ∧ (precEntry g).Repr q := precEntry_repr2 (Or.inr hs) h

theorem addP3_repr {g h : GC} {q r : Pt} (hs : g.sys = .p3) (hg : g.Repr q) (hs' : h.sys = .p3) (hh : h.Repr r) :
    ∃ s, g.addP3 h = .ok s ∧ s.sys = .p3 ∧ s.Repr (q + r) := by
  obtain ⟨c, c1, c2, c3⟩ := toCached_of_p3 hs' hh
  obtain ⟨s, s1, s2, s3⟩ := add_repr hs hg c2 c3
  obtain ⟨t, t1, t2, t3⟩ := toP3_of_p1xp1 s2 s3
  refine ⟨t, ?_, t2, t3⟩
  unfold addP3
  rw [c1, Out.ok_bind, s1, Out.ok_bind, t1]

theorem precRow_spec {bi : GC} {q : Pt} (hs : bi.sys = .p3) (hb : bi.Repr q) :
    ∀ (n : ℕ) (bij : GC) (r : Pt), bij.sys = .p3 → bij.Repr r →
    ∃ row, precRow bi n bij = .ok row ∧ row.length = n ∧
      ∀ j < n, ∃ e, row[j]? = some e ∧ e.sys = .precomputed ∧ e.Repr (r + j • q)
  | 0, _, _, _, _ => ⟨[], rfl, rfl, fun j hj => absurd hj (by omega)⟩
  | n + 1, bij, r, hs2, hr => by
      obtain ⟨c, c1, c2, c3⟩ := addP3_repr hs2 hr hs hb
      obtain ⟨row, r1, r2, r3⟩ := precRow_spec hs hb n c _ c2 c3
      obtain ⟨e1, e2⟩ := precEntry_repr hs2 hr
      refine ⟨precEntry bij :: row, ?_, by simp [r2], ?_⟩
      · rw [precRow, c1, Out.ok_bind, r1, Out.ok_bind]
      · intro j hj
        cases j with
        | zero => exact ⟨_, rfl, e1, by simpa using e2⟩
        | succ j =>
          obtain ⟨e, f1, f2, f3⟩ := r3 j (by omega)
          refine ⟨e, by simpa using f1, f2, ?_⟩
          have : r + (j + 1) • q = r + q + j • q := by rw [add_smul, one_smul]; abel
          rw [this]; exact f3

theorem doubleN_spec : ∀ (n : ℕ) (b : GC) (r : Pt), b.sys = .p3 → b.Repr r →
    ∃ s, doubleN n b = .ok s ∧ s.sys = .p3 ∧ s.Repr (2 ^ n • r)
  | 0, b, r, hs, hr => ⟨b, rfl, hs, by simpa using hr⟩
  | n + 1, b, r, hs, hr => by
      obtain ⟨c, c1, c2, c3⟩ := addP3_repr hs hr hs hr
      obtain ⟨s, s1, s2, s3⟩ := doubleN_spec n c _ c2 c3
      refine ⟨s, ?_, s2, ?_⟩
      · rw [doubleN, c1, Out.ok_bind, s1]
      · have : 2 ^ (n + 1) • r = 2 ^ n • (r + r) := by rw [pow_succ, mul_smul, two_smul]
        rw [this]; exact s3

theorem precRows_spec : ∀ (n : ℕ) (b : GC) (r : Pt), b.sys = .p3 → b.Repr r →
    ∃ t, precRows n b = .ok t ∧ t.length = n ∧ ∀ i < n, ∃ row, t[i]? = some row ∧ row.length = 8 ∧
      ∀ j < 8, ∃ e, row[j]? = some e ∧ e.sys = .precomputed ∧ e.Repr (((j + 1) * 256 ^ i) • r)
  | 0, _, _, _, _ => ⟨[], rfl, rfl, fun j hj => absurd hj (by omega)⟩
  | n + 1, b, r, hs, hr => by
      obtain ⟨row, r1, r2, r3⟩ := precRow_spec hs hr 8 b r hs hr
      obtain ⟨c, c1, c2, c3⟩ := doubleN_spec 8 b r hs hr
      obtain ⟨t, t1, t2, t3⟩ := precRows_spec n c _ c2 c3
      refine ⟨row :: t, ?_, by simp [t2], ?_⟩
      · rw [precRows, r1, Out.ok_bind, c1, Out.ok_bind, t1, Out.ok_bind]
      · intro i hi
        cases i with
        | zero =>
          refine ⟨row, rfl, r2, ?_⟩
          intro j hj
          obtain ⟨e, e1, e2, e3⟩ := r3 j hj
          refine ⟨e, e1, e2, ?_⟩
          have : ((j + 1) * 256 ^ 0) • r = r + j • r := by
            rw [pow_zero, mul_one, add_smul, one_smul, add_comm]
          rw [this]; exact e3
        | succ i =>
          obtain ⟨rw', w1, w2, w3⟩ := t3 i (by omega)
          refine ⟨rw', by simpa using w1, w2, ?_⟩
          intro j hj
          obtain ⟨e, e1, e2, e3⟩ := w3 j hj
          refine ⟨e, e1, e2, ?_⟩
          have : ((j + 1) * 256 ^ (i + 1)) • r = ((j + 1) * 256 ^ i) • (2 ^ 8 • r) := by
            rw [← mul_smul]; congr 1; rw [pow_succ]; ring
          rw [this]; exact e3

theorem precOdd_spec {g : GC} {q : Pt} (hs : g.sys = .p3) (hg : g.Repr q) :
    ∀ (n : ℕ) (bi : GC) (r : Pt), bi.sys = .p3 → bi.Repr r →
    ∃ t, precOdd g n bi = .ok t ∧ t.length = n ∧
      ∀ i < n, ∃ e, t[i]? = some e ∧ e.sys = .precomputed ∧ e.Repr (r + (2 * i) • q)
  | 0, _, _, _, _ => ⟨[], rfl, rfl, fun j hj => absurd hj (by omega)⟩
  | n + 1, bi, r, hs2, hr => by
      obtain ⟨c, c1, c2, c3⟩ := addP3_repr hs hg hs2 hr
      obtain ⟨c', c1', c2', c3'⟩ := addP3_repr hs hg c2 c3
      obtain ⟨t, t1, t2, t3⟩ := precOdd_spec hs hg n c' _ c2' c3'
      obtain ⟨e1, e2⟩ := precEntry_repr hs2 hr
      refine ⟨precEntry bi :: t, ?_, by simp [t2], ?_⟩
      · rw [precOdd, c1, Out.ok_bind, c1', Out.ok_bind, t1, Out.ok_bind]
      · intro i hi
        cases i with
        | zero => exact ⟨_, rfl, e1, by simpa using e2⟩
        | succ i =>
          obtain ⟨e, f1, f2, f3⟩ := t3 i (by omega)
          refine ⟨e, by simpa using f1, f2, ?_⟩
          have : r + (2 * (i + 1)) • q = q + (q + r) + (2 * i) • q := by
            have : 2 * (i + 1) = 2 * i + 1 + 1 := by ring
            rw [this, add_smul, add_smul, one_smul]; abel
          rw [this]; exact f3

end GC

namespace GE

theorem precomputeSingle_spec {g : GE} {q : Pt} (hs : g.sys = .p3) (hr : g.toGC.Repr q) (hn : g.single = none) :
    ∃ g', g.precomputeForScalarMultiplication = .ok g' ∧ g'.toGC = g.toGC ∧ g'.double = g.double ∧
      g'.SingleTable q := by
  obtain ⟨t, t1, t2, t3⟩ := GC.precRows_spec 32 g.toGC q hs hr
  refine ⟨{ g with single := some t }, ?_, rfl, rfl, t, rfl, t2, t3⟩
  unfold precomputeForScalarMultiplication
  rw [hn, if_neg (by simp), t1]; rfl

theorem precomputeDouble_spec {g : GE} {q : Pt} (hs : g.sys = .p3) (hr : g.toGC.Repr q)
    (hn : (g.double.getD []).length = 0) :
    ∃ g', g.precomputeForDoubleScalarMultiplication = .ok g' ∧ g'.toGC = g.toGC ∧ g'.single = g.single ∧
      g'.DoubleTable q := by
  obtain ⟨t, t1, t2, t3⟩ := GC.precOdd_spec hs hr 8 g.toGC q hs hr
  refine ⟨{ g with double := some t }, ?_, rfl, rfl, t, rfl, t2, ?_⟩
  · unfold precomputeForDoubleScalarMultiplication
    rw [if_neg (by omega), t1]; rfl
  · intro i hi
    obtain ⟨e, e1, e2, e3⟩ := t3 i hi
    refine ⟨e, e1, e2, ?_⟩
    have : (2 * i + 1) • q = q + (2 * i) • q := by rw [add_smul, one_smul, add_comm]
    rw [this]; exact e3

end GE
end Ed

import Verif.Proofs.Group

/-! # Encoding and decoding of points -/

namespace Ed
open FE

/-! ## Bytes -/

theorem leBytes_succ_last (k n : ℕ) : leBytes (k + 1) n = leBytes k n ++ [UInt8.ofNat (n / 256 ^ k % 256)] := by
  induction k generalizing n with
  | zero => simp [leBytes]
  | succ k ih =>
    rw [leBytes, ih (n / 256)]
    rw [Nat.div_div_eq_div_mul, ← Nat.pow_succ']
    rfl

theorem byte_or_80 : ∀ m < 128, (UInt8.ofNat m ||| 0x80) = UInt8.ofNat (m + 128) := by decide +kernel

theorem setTopBit_leBytes {n : ℕ} (h : n < 2 ^ 255) : GC.setTopBit (leBytes 32 n) = leBytes 32 (n + 2 ^ 255) := by
  unfold GC.setTopBit
  rw [leBytes_length, leBytes_succ_last 31 n, leBytes_succ_last 31 (n + 2 ^ 255)]
  have h1 : (n + 2 ^ 255) / 256 ^ 31 % 256 = n / 256 ^ 31 % 256 + 128 := by
    have : (256 : ℕ) ^ 31 = 2 ^ 248 := by norm_num
    rw [this]; omega
  have h2 : leBytes 31 (n + 2 ^ 255) = leBytes 31 n := by
    apply leVal_inj (by simp)
    rw [leVal_leBytes, leVal_leBytes]
    have : (256 : ℕ) ^ 31 = 2 ^ 248 := by norm_num
    rw [this]; omega
  have h3 : n / 256 ^ 31 % 256 < 128 := by
    have : (256 : ℕ) ^ 31 = 2 ^ 248 := by norm_num
    rw [this]; omega
  rw [h1, h2]
  generalize n / 256 ^ 31 % 256 = m at *
  have hl : (leBytes 31 n).length = 31 := leBytes_length _ _
  generalize leBytes 31 n = l at *
  have hg : (l ++ [UInt8.ofNat m]).getD (32 - 1) 0 = UInt8.ofNat m := by
    rw [List.getD_eq_getElem?_getD, List.getElem?_append_right (by omega), hl]; rfl
  rw [hg, byte_or_80 m h3, List.set_append_right _ _ (by omega), hl]
  rfl

theorem getBit_255 (raw : Bytes) :
    getBitToBool raw 255 = true ↔ leVal (raw.take 32) / 2 ^ 255 % 2 = 1 := by
  unfold getBitToBool
  have key : leVal (raw.take 32) = leVal (raw.take 31) + 256 ^ 31 * (raw.getD 31 0).toNat := by
    have e : raw.take 32 = raw.take 31 ++ (raw.drop 31).take 1 := by
      rw [← List.take_add]
    rw [e, leVal_append]
    rcases hr : raw.drop 31 with _ | ⟨x, xs⟩
    · have : raw.length ≤ 31 := by
        have := congrArg List.length hr; simp at this; omega
      rw [List.getD_eq_getElem?_getD, List.getElem?_eq_none (by omega)]
      simp [leVal]
    · have hlen : 31 < raw.length := by
        have := congrArg List.length hr; simp at this; omega
      have hx : raw.getD 31 0 = x := by
        have : raw[31]? = (raw.drop 31)[0]? := by rw [List.getElem?_drop]
        rw [List.getD_eq_getElem?_getD, this, hr]; rfl
      rw [hx]
      have : (List.take 31 raw).length = 31 := by simp; omega
      rw [this]
      simp [leVal]
  have hlt : leVal (raw.take 31) < 256 ^ 31 := by
    have := leVal_lt (raw.take 31)
    have h2 : (raw.take 31).length ≤ 31 := by simp
    exact this.trans_le (Nat.pow_le_pow_right (by norm_num) h2)
  have e1 : (255 : ℕ) / 8 = 31 := by norm_num
  have e2 : (255 : ℕ) % 8 = 7 := by norm_num
  rw [key, e1, e2]
  have hb := (raw.getD 31 0).toNat_lt
  generalize (raw.getD 31 0).toNat = m at *
  generalize leVal (raw.take 31) = w at *
  have : (256 : ℕ) ^ 31 = 2 ^ 248 := by norm_num
  rw [this] at *
  rw [Nat.testBit_eq_decide_div_mod_eq, decide_eq_true_iff]
  have hq : (w + 2 ^ 248 * m) / 2 ^ 255 = m / 2 ^ 7 := by omega
  rw [hq]

/-! ## Square roots -/

theorem v_ne (y : F) : d * (y * y) + 1 ≠ 0 := by
  intro h
  have hy : y ≠ 0 := by
    rintro rfl
    apply one_ne_zero (α := F)
    linear_combination h
  apply d_nonsq (sqrtm1 / y)
  have hs := sqrtm1_sq
  field_simp
  linear_combination hs - h

theorem onCurve_iff (x y : F) : OnCurve x y ↔ (d * (y * y) + 1) * (x * x) = y * y - 1 := by
  unfold OnCurve
  constructor
  · intro h; linear_combination -h
  · intro h; linear_combination -h

theorem sqrt_candidate {e : ℕ} (he : P = 8 * e + 5) (u v x : F) (h : v * (x * x) = u) :
    v * ((u * v ^ 3 * (u * v ^ 7) ^ e) * (u * v ^ 3 * (u * v ^ 7) ^ e)) = u ∨
    v * ((u * v ^ 3 * (u * v ^ 7) ^ e) * (u * v ^ 3 * (u * v ^ 7) ^ e)) = -u := by
  have key : v * ((u * v ^ 3 * (u * v ^ 7) ^ e) * (u * v ^ 3 * (u * v ^ 7) ^ e)) =
      u * ((u * v ^ 7) * (u * v ^ 7) ^ e * (u * v ^ 7) ^ e) := by ring
  have hw : u * v ^ 7 = (x * v ^ 4) ^ 2 := by rw [← h]; ring
  rw [key]
  by_cases hs : x * v ^ 4 = 0
  · left
    have : u * v ^ 7 = 0 := by rw [hw, hs]; ring
    have hu : u = 0 := by
      rcases mul_eq_zero.1 this with h0 | h0
      · exact h0
      · have : v = 0 := pow_eq_zero_iff (by norm_num) |>.1 h0
        rw [← h, this]; ring
    rw [hu]; ring
  · have h1 : (x * v ^ 4) ^ (P - 1) = 1 := ZMod.pow_card_sub_one_eq_one hs
    have hP : P - 1 = 8 * e + 4 := by omega
    rw [hP] at h1
    rw [hw]
    generalize x * v ^ 4 = s at *
    have h2 : (s ^ 2 * (s ^ 2) ^ e * (s ^ 2) ^ e) * (s ^ 2 * (s ^ 2) ^ e * (s ^ 2) ^ e) = 1 := by
      rw [← h1]; ring
    rcases mul_self_eq_one_iff.1 h2 with h3 | h3
    · left; rw [h3]; ring
    · right; rw [h3]; ring

theorem P_e : P = 8 * (2 ^ 252 - 3) + 5 := by rw [P_eq]; norm_num

theorem P_odd : P % 2 = 1 := by rw [P_eq]; norm_num

theorem neg_parity {x : F} (h : x ≠ 0) : (-x).val % 2 ≠ x.val % 2 := by
  have h1 : (-x).val = P - x.val := by
    rw [ZMod.neg_val]; simp [h]
  have h2 := ZMod.val_lt x
  have h3 := P_odd
  rw [h1]; omega

/-- Points are determined by y and the parity of x. -/
theorem pt_unique {q r : Pt} (hy : q.y = r.y) (b : ℕ) (hq : q.x = 0 ∨ q.x.val % 2 = b)
    (hr : r.x = 0 ∨ r.x.val % 2 = b) : q = r := by
  have h1 := (onCurve_iff _ _).1 q.on
  have h2 := (onCurve_iff _ _).1 r.on
  rw [hy, ← h2] at h1
  have h3 : q.x * q.x = r.x * r.x := mul_left_cancel₀ (v_ne r.y) h1
  have h4 : q.x = r.x := by
    rcases mul_self_eq_mul_self_iff.1 h3 with h | h
    · exact h
    · by_cases h0 : r.x = 0
      · rw [h, h0, neg_zero]
      · have hq0 : q.x ≠ 0 := by rw [h]; exact neg_ne_zero.2 h0
        rcases hq with hq | hq
        · exact absurd hq hq0
        rcases hr with hr | hr
        · exact absurd hr h0
        have := neg_parity h0
        rw [← h] at this
        omega
  ext
  · exact h4
  · exact hy

namespace GC

/-- The sign step of `GetAffineX`. -/
theorem sign_step {x : FE} (hx : Reduced x) (bit : Bool) :
    let r := if x.isNegative != bit then x.negate else x
    Reduced r ∧ (r.toF = x.toF ∨ r.toF = -x.toF) ∧ (r.toF = 0 ∨ r.toF.val % 2 = if bit then 1 else 0) := by
  have hn := isNegative_spec hx.encodable
  have hneg : Reduced x.negate ∧ _ := negate_val hx (by norm_num) (by norm_num)
  have hneg' := negate_toF hx (by norm_num) (by norm_num)
  intro r
  by_cases h0 : x.toF = 0
  · have : Reduced r ∧ (r.toF = x.toF ∨ r.toF = -x.toF) := by
      show Reduced (if x.isNegative != bit then x.negate else x) ∧ _
      show _ ∧ ((if x.isNegative != bit then x.negate else x).toF = _ ∨
        (if x.isNegative != bit then x.negate else x).toF = _)
      split
      · exact ⟨hneg.1, Or.inr hneg'⟩
      · exact ⟨hx, Or.inl rfl⟩
    refine ⟨this.1, this.2, Or.inl ?_⟩
    rcases this.2 with h | h <;> rw [h, h0]
    simp
  · have hp := neg_parity h0
    rw [← hneg'] at hp
    show Reduced (if x.isNegative != bit then x.negate else x) ∧
      ((if x.isNegative != bit then x.negate else x).toF = _ ∨
        (if x.isNegative != bit then x.negate else x).toF = _) ∧
      (_ ∨ (if x.isNegative != bit then x.negate else x).toF.val % 2 = _)
    have hb : ∀ n : ℕ, n % 2 = 0 ∨ n % 2 = 1 := fun n => by omega
    cases hx1 : x.isNegative
    · have : ¬ x.toF.val % 2 = 1 := by rw [← hn, hx1]; simp
      cases bit
      · refine ⟨by simpa using hx, Or.inl (by simp), Or.inr ?_⟩
        simpa using this
      · refine ⟨by simpa using hneg.1, Or.inr (by simpa using hneg'), Or.inr ?_⟩
        have := hb x.negate.toF.val
        have h5 : x.negate.toF.val % 2 = 1 := by omega
        simpa using h5
    · have : x.toF.val % 2 = 1 := by rw [← hn, hx1]
      cases bit
      · refine ⟨by simpa using hneg.1, Or.inr (by simpa using hneg'), Or.inr ?_⟩
        have := hb x.negate.toF.val
        have h5 : x.negate.toF.val % 2 = 0 := by omega
        simpa using h5
      · refine ⟨by simpa using hx, Or.inl (by simp), Or.inr ?_⟩
        simpa using this

/-- y-coordinate denoted by a byte string. -/
def yOf (raw : Bytes) : F := ((leVal (raw.take 32) % 2 ^ 255 : ℕ) : F)

theorem affineX_core (y : FE) (hy : Reduced y) :
    let u := y.square.subtract .one
    let v := (y.square.multiply dFE).add .one
    let x := FE.sqrt u v
    let c1 := (x.square.multiply v).subtract u
    let c2 := (x.square.multiply v).add u
    (c1.isNonZero = false → Reduced x ∧ OnCurve x.toF y.toF) ∧
    (c1.isNonZero = true → c2.isNonZero = false →
      Reduced (x.multiply iFE) ∧ OnCurve (x.multiply iFE).toF y.toF) ∧
    (c1.isNonZero = true → c2.isNonZero = true → ∀ z, ¬ OnCurve z y.toF) := by
  intro u v x c1 c2
  obtain ⟨yy1, yy2⟩ := square_spec hy.loose
  obtain ⟨u1, u2⟩ := sub_small2 yy1.small one_red.small
  obtain ⟨dy1, dy2⟩ := multiply_spec yy1.loose dFE_spec.1.loose
  obtain ⟨v1, v2⟩ := add_small2 dy1.small one_red.small
  have u2' : u.toF = y.toF * y.toF - 1 := by rw [show u = _ from rfl, u2, yy2, one_toF]
  have v2' : v.toF = d * (y.toF * y.toF) + 1 := by
    rw [show v = _ from rfl, v2, dy2, yy2, one_toF, dFE_spec.2]; ring
  have us : Sum2 u := u1
  have vs : Sum2 v := v1
  have hu : Loose u := u1.loose
  have hv : Loose v := v1.loose
  have hxs : Reduced x ∧ x.toF = _ := sqrt_spec hu hv
  clear_value u v
  obtain ⟨x1, x2⟩ := hxs
  clear_value x
  obtain ⟨xx1, xx2⟩ := square_spec x1.loose
  obtain ⟨vx1, vx2⟩ := multiply_spec xx1.loose hv
  obtain ⟨i1, i2⟩ := multiply_spec x1.loose iFE_spec.1.loose
  have hc1 : Encodable c1 ∧ c1.toF = v.toF * (x.toF * x.toF) - u.toF := by
    obtain ⟨a, b⟩ := sub_red_sum vx1 us
    refine ⟨a.encodable, ?_⟩
    show ((x.square.multiply v).subtract u).toF = _
    rw [b, vx2, xx2]; ring
  have hc2 : Encodable c2 ∧ c2.toF = v.toF * (x.toF * x.toF) + u.toF := by
    have a := (add_val vx1 us (by norm_num) (by norm_num)).1
    have b := add_toF vx1 us (by norm_num) (by norm_num)
    refine ⟨Bd.mono a (by norm_num) (by norm_num), ?_⟩
    show ((x.square.multiply v).add u).toF = _
    rw [b, vx2, xx2]; ring
  have n1 := isNonZero_spec hc1.1
  have n2 := isNonZero_spec hc2.1
  rw [hc1.2] at n1
  rw [hc2.2] at n2
  clear_value c1 c2
  refine ⟨?_, ?_, ?_⟩
  · intro h
    have h0 : v.toF * (x.toF * x.toF) - u.toF = 0 := by
      by_contra hne
      rw [n1.2 hne] at h; exact absurd h (by simp)
    refine ⟨x1, (onCurve_iff _ _).2 ?_⟩
    rw [← v2', ← u2']; linear_combination h0
  · intro _ h
    have h0 : v.toF * (x.toF * x.toF) + u.toF = 0 := by
      by_contra hne
      rw [n2.2 hne] at h; exact absurd h (by simp)
    refine ⟨i1, (onCurve_iff _ _).2 ?_⟩
    rw [← v2', ← u2', i2, iFE_spec.2]
    linear_combination (v.toF * x.toF * x.toF) * sqrtm1_sq - h0
  · intro ha hb z hz
    rw [n1] at ha
    rw [n2] at hb
    have := (onCurve_iff _ _).1 hz
    rw [← v2', ← u2'] at this
    have k := sqrt_candidate P_e _ _ _ this
    rw [← x2] at k
    rcases k with k | k
    · exact ha (by linear_combination k)
    · exact hb (by linear_combination k)

/-- Full behaviour of `GetAffineX`. -/
theorem getAffineX_spec (raw : Bytes) (hl : raw.length = 32 ∨ raw.length = 64) :
    (∃ x, getAffineX raw = .ok x ∧ Reduced x ∧ OnCurve x.toF (yOf raw) ∧
      (x.toF = 0 ∨ x.toF.val % 2 = leVal (raw.take 32) / 2 ^ 255 % 2)) ∨
    ((∃ m, getAffineX raw = .err m) ∧ ∀ z, ¬ OnCurve z (yOf raw)) := by
  obtain ⟨hy, hyF⟩ := decode_spec raw
  have hyF' : (FE.decode raw).toF = yOf raw := hyF
  obtain ⟨k1, k2, k3⟩ := affineX_core _ hy
  rw [hyF'] at k1 k2 k3
  have hbit := getBit_255 raw
  have hb2 : (if getBitToBool raw 255 = true then 1 else 0) = leVal (raw.take 32) / 2 ^ 255 % 2 := by
    split
    · rename_i h; exact (hbit.1 h).symm
    · rename_i h
      rw [hbit] at h
      omega
  have e : getAffineY raw = .ok (FE.decode raw) := by
    unfold getAffineY newEncodedFieldElement
    rw [if_pos hl]; rfl
  unfold getAffineX
  rw [e, Out.ok_bind]
  dsimp only
  generalize FE.decode raw = y at *
  generalize hu : y.square.subtract .one = u at *
  generalize hv : (y.square.multiply dFE).add .one = v at *
  generalize hx : FE.sqrt u v = x at *
  generalize getBitToBool raw 255 = bit at *
  cases hc1 : ((x.square.multiply v).subtract u).isNonZero
  · left
    obtain ⟨a, b⟩ := k1 hc1
    obtain ⟨s1, s2, s3⟩ := sign_step a bit
    refine ⟨if x.isNegative != bit then x.negate else x, ?_, s1, ?_, ?_⟩
    · rw [if_neg (by simp), Out.ok_bind]; split <;> rfl
    · rw [onCurve_iff] at b ⊢
      rcases s2 with s | s <;> rw [s]
      · exact b
      · rw [← b]; ring
    · rw [hb2] at s3; exact s3
  · cases hc2 : ((x.square.multiply v).add u).isNonZero
    · left
      obtain ⟨a, b⟩ := k2 hc1 hc2
      obtain ⟨s1, s2, s3⟩ := sign_step a bit
      refine ⟨if (x.multiply iFE).isNegative != bit then (x.multiply iFE).negate else x.multiply iFE, ?_, s1, ?_, ?_⟩
      · rw [if_pos rfl, if_neg (by simp), Out.ok_bind]; split <;> rfl
      · rw [onCurve_iff] at b ⊢
        rcases s2 with s | s <;> rw [s]
        · exact b
        · rw [← b]; ring
      · rw [hb2] at s3; exact s3
    · right
      refine ⟨⟨"not a valid Ed25519EncodedGroupElement.", ?_⟩, k3 hc1 hc2⟩
      rw [if_pos rfl, if_pos rfl]; rfl

/-- `Decode` of a string denoting the point `q`. -/
theorem decode_ok {raw : Bytes} (hl : raw.length = 32 ∨ raw.length = 64) {q : Pt}
    (hq : Decodes (raw.take 32) q) :
    ∃ g, GC.decode raw = .ok g ∧ g.sys = .p3 ∧ g.Repr q ∧ g.Z = .one := by
  obtain ⟨hqy, hqx⟩ := hq
  obtain ⟨hy, hyF⟩ := decode_spec raw
  rcases getAffineX_spec raw hl with ⟨x, h1, h2, h3, h4⟩ | ⟨-, h⟩
  · have hr : q = (⟨x.toF, yOf raw, h3⟩ : Pt) := pt_unique hqy _ hqx h4
    obtain ⟨t1, t2⟩ := multiply_spec h2.loose hy.loose
    have e : getAffineY raw = .ok (FE.decode raw) := by
      unfold getAffineY newEncodedFieldElement
      rw [if_pos hl]; rfl
    refine ⟨newP3 x (FE.decode raw) .one (some (x.multiply (FE.decode raw))), ?_, rfl, ?_, rfl⟩
    · unfold GC.decode
      rw [h1, Out.ok_bind, e, Out.ok_bind]
    · rw [hr]
      refine ⟨h2.small, hy.small, one_red.small, ?_, ?_, ?_, _, rfl, t1.small, ?_⟩
      · show one.toF ≠ 0
        rw [one_toF]; exact one_ne_zero
      · show x.toF = x.toF * one.toF
        rw [one_toF, mul_one]
      · show (FE.decode raw).toF = yOf raw * one.toF
        rw [one_toF, mul_one, hyF]; rfl
      · show (x.multiply (FE.decode raw)).toF = x.toF * yOf raw * one.toF
        rw [one_toF, mul_one, t2, hyF]; rfl
  · have ho := q.on
    rw [hqy] at ho
    exact absurd ho (h _)

/-- `Decode` succeeds only on strings denoting points. -/
theorem decode_cases {raw : Bytes} (hl : raw.length = 32 ∨ raw.length = 64) :
    (∃ q, Decodes (raw.take 32) q) ∨ ((∃ m, GC.decode raw = .err m) ∧ ∀ q : Pt, q.y ≠ yOf raw) := by
  rcases getAffineX_spec raw hl with ⟨x, h1, h2, h3, h4⟩ | ⟨⟨m, hm⟩, h⟩
  · exact Or.inl ⟨⟨x.toF, yOf raw, h3⟩, rfl, h4⟩
  · right
    refine ⟨⟨m, ?_⟩, ?_⟩
    · unfold GC.decode; rw [hm]; rfl
    · intro q hq
      exact h q.x (hq ▸ q.on)

theorem decode_badlen {raw : Bytes} (hl : ¬ (raw.length = 32 ∨ raw.length = 64)) :
    GC.decode raw = .err "Invalid 2^8 bit representation." := by
  unfold GC.decode getAffineX getAffineY newEncodedFieldElement
  rw [if_neg hl]; rfl

theorem decodes_unique {b : Bytes} {q r : Pt} (hq : Decodes b q) (hr : Decodes b r) : q = r :=
  pt_unique (hq.1.trans hr.1.symm) _ hq.2 hr.2

/-- Coordinates of P2/P3 elements. -/
theorem Repr.proj {g : GC} {q : Pt} (hs : g.sys = .p2 ∨ g.sys = .p3) (h : g.Repr q) :
    Small g.X ∧ Small g.Y ∧ Small g.Z ∧ g.Z.toF ≠ 0 ∧ g.X.toF = q.x * g.Z.toF ∧ g.Y.toF = q.y * g.Z.toF := by
  unfold Repr at h
  rcases hs with hs | hs <;> rw [hs] at h
  · exact h
  · obtain ⟨h1, h2, h3, h4, h5, h6, -⟩ := h
    exact ⟨h1, h2, h3, h4, h5, h6⟩

/-- Affine coordinates as computed by `Encode`, `SatisfiesCurveEquation` and the precomputations. -/
theorem affine_coords {g : GC} {q : Pt} (hs : g.sys = .p2 ∨ g.sys = .p3) (h : g.Repr q) :
    (Reduced (g.X.multiply g.Z.invert) ∧ (g.X.multiply g.Z.invert).toF = q.x) ∧
    (Reduced (g.Y.multiply g.Z.invert) ∧ (g.Y.multiply g.Z.invert).toF = q.y) := by
  obtain ⟨h1, h2, h3, h4, h5, h6⟩ := h.proj hs
  obtain ⟨i1, i2⟩ := invert_spec h3.loose
  obtain ⟨x1, x2⟩ := multiply_spec h1.loose i1.loose
  obtain ⟨y1, y2⟩ := multiply_spec h2.loose i1.loose
  refine ⟨⟨x1, ?_⟩, y1, ?_⟩
  · rw [x2, i2, h5, mul_assoc, mul_inv_cancel₀ h4, mul_one]
  · rw [y2, i2, h6, mul_assoc, mul_inv_cancel₀ h4, mul_one]

theorem encodeP_repr {g : GC} {q : Pt} (hs : g.sys = .p2 ∨ g.sys = .p3) (h : g.Repr q) :
    g.encodeP = encodePoint q := by
  obtain ⟨⟨x1, x2⟩, y1, y2⟩ := affine_coords hs h
  unfold encodeP
  dsimp only
  rw [encode_spec y1.encodable, y2]
  have hn := isNegative_spec x1.encodable
  rw [x2] at hn
  unfold encodePoint
  split
  · rename_i hneg
    rw [setTopBit_leBytes (F_val_lt _), hn.1 hneg, Nat.mul_one]
  · rename_i hneg
    rw [hn] at hneg
    have : q.x.val % 2 = 0 := by omega
    rw [this, Nat.mul_zero, Nat.add_zero]

theorem encode_repr {g : GC} {q : Pt} (hs : g.sys = .p2 ∨ g.sys = .p3 ∨ g.sys = .p1xp1) (h : g.Repr q) :
    g.encode = .ok (encodePoint q) := by
  unfold encode
  rcases hs with hs | hs | hs
  · rw [hs]; dsimp only; rw [encodeP_repr (Or.inl hs) h]
  · rw [hs]; dsimp only; rw [encodeP_repr (Or.inr hs) h]
  · rw [hs]; dsimp only
    obtain ⟨r, h1, h2, h3⟩ := toP2_of_p1xp1 hs h
    rw [h1, Out.ok_bind, encodeP_repr (Or.inl h2) h3]

end GC

theorem encodePoint_val (q : Pt) : leVal (encodePoint q) = q.y.val + 2 ^ 255 * (q.x.val % 2) := by
  have := F_val_lt q.y
  unfold encodePoint
  rw [leVal_leBytes_of_lt]
  have : (256 : ℕ) ^ 32 = 2 ^ 256 := by norm_num
  omega

theorem encodePoint_length (q : Pt) : (encodePoint q).length = 32 := leBytes_length _ _

theorem decodes_encodePoint (q : Pt) : Decodes (encodePoint q) q := by
  have := F_val_lt q.y
  unfold Decodes
  rw [encodePoint_val]
  refine ⟨?_, Or.inr ?_⟩
  · rw [Nat.add_mul_mod_self_left, Nat.mod_eq_of_lt this]
    exact (ZMod.natCast_zmod_val q.y).symm
  · rw [Nat.add_mul_div_left _ _ (by norm_num), Nat.div_eq_of_lt this]
    omega

theorem encodePoint_inj {q r : Pt} (h : encodePoint q = encodePoint r) : q = r :=
  GC.decodes_unique (decodes_encodePoint q) (h ▸ decodes_encodePoint r)

end Ed

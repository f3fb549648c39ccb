import Verif.Proofs.FieldDec
import Verif.Spec.GroupRep

/-! # The group operations implement the group law -/

namespace Ed

namespace FE

theorem Reduced.small {f : FE} (h : Reduced f) : Small f := Bd.mono h (by norm_num) (by norm_num)
theorem Small.loose {f : FE} (h : Small f) : Loose f := Bd.mono h (by norm_num) (by norm_num)

theorem ofInts_toInt {a : ℤ} (h : Fits a) : (Int64.ofInt a).toInt = a := toInt_ofInt_of_fits h

theorem zero_red : Reduced zero := by unfold Reduced Bd; decide
theorem one_red : Reduced one := by unfold Reduced Bd; decide
theorem zero_toF : zero.toF = 0 := by
  have : zero.val = 0 := by unfold val; decide
  unfold toF; rw [this]; simp
theorem one_toF : one.toF = 1 := by
  have : one.val = 1 := by unfold val; decide
  unfold toF; rw [this]; simp

/-- `add` on small operands. -/
theorem add_small {f g : FE} (hf : Small f) (hg : Small g) : Loose (f.add g) ∧ (f.add g).toF = f.toF + g.toF :=
  ⟨Bd.mono (add_val hf hg (by norm_num) (by norm_num)).1 (by norm_num) (by norm_num),
    add_toF hf hg (by norm_num) (by norm_num)⟩

theorem sub_small {f g : FE} (hf : Small f) (hg : Small g) :
    Loose (f.subtract g) ∧ (f.subtract g).toF = f.toF - g.toF :=
  ⟨Bd.mono (subtract_val hf hg (by norm_num) (by norm_num)).1 (by norm_num) (by norm_num),
    subtract_toF hf hg (by norm_num) (by norm_num)⟩

/-- Sum of two small operands, exact bound. -/
def Sum2 (f : FE) : Prop := Bd 73819750 36909874 f

theorem add_small2 {f g : FE} (hf : Small f) (hg : Small g) : Sum2 (f.add g) ∧ (f.add g).toF = f.toF + g.toF :=
  ⟨(add_val hf hg (by norm_num) (by norm_num)).1, add_toF hf hg (by norm_num) (by norm_num)⟩

theorem sub_small2 {f g : FE} (hf : Small f) (hg : Small g) :
    Sum2 (f.subtract g) ∧ (f.subtract g).toF = f.toF - g.toF :=
  ⟨(subtract_val hf hg (by norm_num) (by norm_num)).1, subtract_toF hf hg (by norm_num) (by norm_num)⟩

theorem Sum2.loose {f : FE} (h : Sum2 f) : Loose f := Bd.mono h (by norm_num) (by norm_num)

theorem add_sum_red {f g : FE} (hf : Sum2 f) (hg : Reduced g) :
    Loose (f.add g) ∧ (f.add g).toF = f.toF + g.toF :=
  ⟨Bd.mono (add_val hf hg (by norm_num) (by norm_num)).1 (by norm_num) (by norm_num),
    add_toF hf hg (by norm_num) (by norm_num)⟩

theorem sub_sum_red {f g : FE} (hf : Sum2 f) (hg : Reduced g) :
    Loose (f.subtract g) ∧ (f.subtract g).toF = f.toF - g.toF :=
  ⟨Bd.mono (subtract_val hf hg (by norm_num) (by norm_num)).1 (by norm_num) (by norm_num),
    subtract_toF hf hg (by norm_num) (by norm_num)⟩

theorem sub_red_sum {f g : FE} (hf : Reduced f) (hg : Sum2 g) :
    Loose (f.subtract g) ∧ (f.subtract g).toF = f.toF - g.toF :=
  ⟨Bd.mono (subtract_val hf hg (by norm_num) (by norm_num)).1 (by norm_num) (by norm_num),
    subtract_toF hf hg (by norm_num) (by norm_num)⟩

end FE

open FE

/-- The constant `d` of the code. -/
theorem dFE_spec : Reduced dFE ∧ dFE.toF = d := by
  refine ⟨by unfold Reduced Bd dFE; decide +kernel, ?_⟩
  have h : ((dFE.val : ℤ) : F) = ((dN : ℤ) : F) := by
    apply F_intCast_eq; unfold val dFE; decide +kernel
  rw [d_eq]; unfold toF; rw [h]; simp

theorem d2FE_spec : Reduced d2FE ∧ d2FE.toF = 2 * d := by
  refine ⟨by unfold Reduced Bd d2FE; decide +kernel, ?_⟩
  have h : ((d2FE.val : ℤ) : F) = ((2 * dN : ℤ) : F) := by
    apply F_intCast_eq; unfold val d2FE; decide +kernel
  rw [d_eq]; unfold toF; rw [h]; simp

theorem iFE_spec : Reduced iFE ∧ iFE.toF = sqrtm1 := by
  obtain ⟨h1, h2⟩ := decode_spec iBytes
  refine ⟨h1, ?_⟩
  have e : leVal (iBytes.take 32) % 2 ^ 255 = sqrtm1N := by decide +kernel
  unfold iFE
  rw [h2, e]; rfl

namespace GC

theorem repr_p2 {X Y Z : FE} {q : Pt} (hX : Reduced X) (hY : Reduced Y) (hZ : Reduced Z) (z : Z.toF ≠ 0)
    (x : X.toF = q.x * Z.toF) (y : Y.toF = q.y * Z.toF) : Repr (newP2 X Y Z) q :=
  ⟨hX.small, hY.small, hZ.small, z, x, y⟩

/-- All supported conversions of an element given by its system. -/
theorem toP2_of_p3 {g : GC} {q : Pt} (hs : g.sys = .p3) (h : g.Repr q) :
    ∃ r, g.toP2 = .ok r ∧ r.sys = .p2 ∧ r.Repr q := by
  refine ⟨newP2 g.X g.Y g.Z, ?_, rfl, ?_⟩
  · unfold toP2 toCoordinateSystem; rw [hs]
  · unfold Repr at h; rw [hs] at h
    obtain ⟨h1, h2, h3, h4, h5, h6, -⟩ := h
    exact ⟨h1, h2, h3, h4, h5, h6⟩

theorem toP2_of_p2 {g : GC} {q : Pt} (hs : g.sys = .p2) (h : g.Repr q) :
    ∃ r, g.toP2 = .ok r ∧ r.sys = .p2 ∧ r.Repr q := by
  refine ⟨newP2 g.X g.Y g.Z, ?_, rfl, ?_⟩
  · unfold toP2 toCoordinateSystem; rw [hs]
  · unfold Repr at h; rw [hs] at h
    obtain ⟨h1, h2, h3, h4, h5, h6⟩ := h
    exact ⟨h1, h2, h3, h4, h5, h6⟩

theorem toP3_of_p3 {g : GC} {q : Pt} (hs : g.sys = .p3) (h : g.Repr q) :
    ∃ r, g.toP3 = .ok r ∧ r.sys = .p3 ∧ r.Repr q := by
  refine ⟨newP3 g.X g.Y g.Z g.T, ?_, rfl, ?_⟩
  · unfold toP3 toCoordinateSystem; rw [hs]
  · unfold Repr at h; rw [hs] at h
    exact h

theorem toP2_of_p1xp1 {g : GC} {q : Pt} (hs : g.sys = .p1xp1) (h : g.Repr q) :
    ∃ r, g.toP2 = .ok r ∧ r.sys = .p2 ∧ r.Repr q := by
  unfold Repr at h; rw [hs] at h
  obtain ⟨h1, h2, h3, h4, t, ht, h5, h6, h7, h8⟩ := h
  obtain ⟨x1, x2⟩ := multiply_spec h1 h5
  obtain ⟨y1, y2⟩ := multiply_spec h2 h3
  obtain ⟨z1, z2⟩ := multiply_spec h3 h5
  refine ⟨newP2 (g.X.multiply t) (g.Y.multiply g.Z) (g.Z.multiply t), ?_, rfl, ?_⟩
  · unfold toP2 toCoordinateSystem; rw [hs, ht]; rfl
  · refine repr_p2 x1 y1 z1 ?_ ?_ ?_
    · rw [z2]; exact mul_ne_zero h4 h6
    · rw [x2, z2, h7]; ring
    · rw [y2, z2, h8]; ring

theorem toP3_of_p1xp1 {g : GC} {q : Pt} (hs : g.sys = .p1xp1) (h : g.Repr q) :
    ∃ r, g.toP3 = .ok r ∧ r.sys = .p3 ∧ r.Repr q := by
  unfold Repr at h; rw [hs] at h
  obtain ⟨h1, h2, h3, h4, t, ht, h5, h6, h7, h8⟩ := h
  obtain ⟨x1, x2⟩ := multiply_spec h1 h5
  obtain ⟨y1, y2⟩ := multiply_spec h2 h3
  obtain ⟨z1, z2⟩ := multiply_spec h3 h5
  obtain ⟨t1, t2⟩ := multiply_spec h1 h2
  refine ⟨newP3 (g.X.multiply t) (g.Y.multiply g.Z) (g.Z.multiply t) (some (g.X.multiply g.Y)), ?_, rfl, ?_⟩
  · unfold toP3 toCoordinateSystem; rw [hs, ht]; rfl
  · refine ⟨x1.small, y1.small, z1.small, ?_, ?_, ?_, _, rfl, t1.small, ?_⟩
    · show (g.Z.multiply t).toF ≠ 0
      rw [z2]; exact mul_ne_zero h4 h6
    · show (g.X.multiply t).toF = _ * (g.Z.multiply t).toF
      rw [x2, z2, h7]; ring
    · show (g.Y.multiply g.Z).toF = _ * (g.Z.multiply t).toF
      rw [y2, z2, h8]; ring
    · show (g.X.multiply g.Y).toF = _ * (g.Z.multiply t).toF
      rw [t2, z2, h7, h8]; ring

theorem toCached_of_p3 {g : GC} {q : Pt} (hs : g.sys = .p3) (h : g.Repr q) :
    ∃ r, g.toCached = .ok r ∧ r.sys = .cached ∧ r.Repr q := by
  unfold Repr at h; rw [hs] at h
  obtain ⟨h1, h2, h3, h4, h5, h6, t, ht, h7, h8⟩ := h
  obtain ⟨x1, x2⟩ := add_small h2 h1
  obtain ⟨y1, y2⟩ := sub_small h2 h1
  obtain ⟨t1, t2⟩ := multiply_spec h7.loose d2FE_spec.1.loose
  refine ⟨newCached (g.Y.add g.X) (g.Y.subtract g.X) g.Z (some (t.multiply d2FE)), ?_, rfl, ?_⟩
  · unfold toCached toCoordinateSystem; rw [hs, ht]; rfl
  · refine ⟨x1, y1, h3.loose, h4, ?_, ?_, _, rfl, t1.loose, ?_⟩
    · show (g.Y.add g.X).toF = _ * g.Z.toF
      rw [x2, h5, h6]; ring
    · show (g.Y.subtract g.X).toF = _ * g.Z.toF
      rw [y2, h5, h6]; ring
    · show (t.multiply d2FE).toF = _ * g.Z.toF
      rw [t2, h8, d2FE_spec.2]; ring

theorem frac_mul {a u c : F} (hu : u ≠ 0) : a * c = a / u * (u * c) := by field_simp

theorem two_smul_pt (q : Pt) : (q + q).x = 2 * q.x * q.y / (1 + d * q.x ^ 2 * q.y ^ 2) ∧
    (q + q).y = (q.y ^ 2 + q.x ^ 2) / (1 - d * q.x ^ 2 * q.y ^ 2) := by
  rw [Pt.add_x, Pt.add_y]
  constructor <;> congr 1 <;> ring

theorem dbl_repr {g : GC} {q : Pt} (hs : g.sys = .p2 ∨ g.sys = .p3) (h : g.Repr q) :
    ∃ r, g.dbl = .ok r ∧ r.sys = .p1xp1 ∧ r.Repr (q + q) := by
  have h' : Small g.X ∧ Small g.Y ∧ Small g.Z ∧ g.Z.toF ≠ 0 ∧
      g.X.toF = q.x * g.Z.toF ∧ g.Y.toF = q.y * g.Z.toF := by
    unfold Repr at h
    rcases hs with hs | hs <;> rw [hs] at h
    · exact h
    · obtain ⟨h1, h2, h3, h4, h5, h6, -⟩ := h
      exact ⟨h1, h2, h3, h4, h5, h6⟩
  obtain ⟨h1, h2, h3, h4, h5, h6⟩ := h'
  obtain ⟨xx1, xx2⟩ := square_spec h1.loose
  obtain ⟨yy1, yy2⟩ := square_spec h2.loose
  obtain ⟨b1, b2⟩ := squareAndDouble_spec h3.loose
  obtain ⟨a1, a2⟩ := add_small h1 h2
  obtain ⟨aa1, aa2⟩ := square_spec a1
  obtain ⟨p1, p2⟩ := add_small2 yy1.small xx1.small
  obtain ⟨m1, m2⟩ := sub_small2 yy1.small xx1.small
  obtain ⟨x1, x2⟩ := sub_red_sum aa1 p1
  obtain ⟨t1, t2⟩ := sub_red_sum b1 m1
  have hr : g.dbl = .ok (newP1xP1 ((g.X.add g.Y).square.subtract (g.Y.square.add g.X.square))
      (g.Y.square.add g.X.square) (g.Y.square.subtract g.X.square)
      (some (g.Z.squareAndDouble.subtract (g.Y.square.subtract g.X.square)))) := by
    unfold dbl
    rcases hs with hs | hs <;> rw [hs]
  refine ⟨_, hr, rfl, ?_⟩
  have hlaw := q.on.law
  have hp := Pt.dp_ne q q
  have hm := Pt.dm_ne q q
  have ep : 1 + d * q.x * q.x * q.y * q.y = 1 + d * q.x ^ 2 * q.y ^ 2 := by ring
  have em : 1 - d * q.x * q.x * q.y * q.y = 1 - d * q.x ^ 2 * q.y ^ 2 := by ring
  rw [ep] at hp
  rw [em] at hm
  obtain ⟨sx, sy⟩ := two_smul_pt q
  have eX : ((g.X.add g.Y).square.subtract (g.Y.square.add g.X.square)).toF = 2 * q.x * q.y * g.Z.toF ^ 2 := by
    rw [x2, aa2, a2, p2, yy2, xx2, h5, h6]; ring
  have eY : (g.Y.square.add g.X.square).toF = (q.y ^ 2 + q.x ^ 2) * g.Z.toF ^ 2 := by
    rw [p2, yy2, xx2, h5, h6]; ring
  have eZ : (g.Y.square.subtract g.X.square).toF = (1 + d * q.x ^ 2 * q.y ^ 2) * g.Z.toF ^ 2 := by
    rw [m2, yy2, xx2, h5, h6, ← hlaw]; ring
  have eT : (g.Z.squareAndDouble.subtract (g.Y.square.subtract g.X.square)).toF =
      (1 - d * q.x ^ 2 * q.y ^ 2) * g.Z.toF ^ 2 := by
    rw [t2, b2, eZ]; ring
  have hz2 : g.Z.toF ^ 2 ≠ 0 := pow_ne_zero _ h4
  refine ⟨x1, p1.loose, m1.loose, ?_, _, rfl, t1, ?_, ?_, ?_⟩
  · show (g.Y.square.subtract g.X.square).toF ≠ 0
    rw [eZ]; exact mul_ne_zero hp hz2
  · rw [eT]; exact mul_ne_zero hm hz2
  · show ((g.X.add g.Y).square.subtract (g.Y.square.add g.X.square)).toF =
      _ * (g.Y.square.subtract g.X.square).toF
    rw [eX, eZ, sx]; exact frac_mul hp
  · show (g.Y.square.add g.X.square).toF = _
    rw [eY, eT, sy]; exact frac_mul hm

/-- Common part of the four additions: completed coordinates of the sum. -/
theorem repr_sum {x y z t : FE} {q r : Pt} {c : F} (hc : c ≠ 0)
    (hx : Loose x) (hy : Loose y) (hz : Loose z) (ht : Loose t)
    (ex : x.toF = (q.x * r.y + r.x * q.y) * c) (ey : y.toF = (q.y * r.y + q.x * r.x) * c)
    (ez : z.toF = (1 + d * q.x * r.x * q.y * r.y) * c) (et : t.toF = (1 - d * q.x * r.x * q.y * r.y) * c) :
    Repr (newP1xP1 x y z (some t)) (q + r) := by
  have hp := Pt.dp_ne q r
  have hm := Pt.dm_ne q r
  refine ⟨hx, hy, hz, ?_, _, rfl, ht, ?_, ?_, ?_⟩
  · show z.toF ≠ 0
    rw [ez]; exact mul_ne_zero hp hc
  · rw [et]; exact mul_ne_zero hm hc
  · show x.toF = _ * z.toF
    rw [ex, ez, Pt.add_x]; exact frac_mul hp
  · show y.toF = _
    rw [ey, et, Pt.add_y]; exact frac_mul hm

theorem precomputedAdd_repr {g h : GC} {q r : Pt} (hs : g.sys = .p3) (hg : g.Repr q)
    (hs' : h.sys = .precomputed) (hh : h.Repr r) :
    ∃ s, g.precomputedAdd h = .ok s ∧ s.sys = .p1xp1 ∧ s.Repr (q + r) := by
  unfold Repr at hg hh
  rw [hs] at hg
  rw [hs'] at hh
  obtain ⟨h1, h2, h3, h4, h5, h6, t, ht, h7, h8⟩ := hg
  obtain ⟨k1, k2, k3, k4, k5, k6⟩ := hh
  obtain ⟨p1, p2⟩ := add_small h2 h1
  obtain ⟨m1, m2⟩ := sub_small h2 h1
  obtain ⟨a1, a2⟩ := multiply_spec m1 k2
  obtain ⟨b1, b2⟩ := multiply_spec p1 k1
  obtain ⟨c1, c2⟩ := multiply_spec h7.loose k3
  obtain ⟨d1, d2⟩ := add_small2 h3 h3
  obtain ⟨x1, x2⟩ := sub_small b1.small a1.small
  obtain ⟨y1, y2⟩ := add_small a1.small b1.small
  obtain ⟨z1, z2⟩ := add_sum_red d1 c1
  obtain ⟨t1, t2⟩ := sub_sum_red d1 c1
  refine ⟨_, ?_, ?_, repr_sum (c := 2 * g.Z.toF) (mul_ne_zero two_ne_zero_F h4)
    x1 y1 z1 t1 ?_ ?_ ?_ ?_⟩
  · unfold precomputedAdd
    rw [if_neg (by rw [hs]; simp), if_neg (by rw [hs']; simp), ht]
    rfl
  · rfl
  · rw [x2, a2, b2, p2, m2, k4, k5, h5, h6]; ring
  · rw [y2, a2, b2, p2, m2, k4, k5, h5, h6]; ring
  · rw [z2, c2, d2, k6, h8]; ring
  · rw [t2, c2, d2, k6, h8]; ring

theorem precomputedSubtract_repr {g h : GC} {q r : Pt} (hs : g.sys = .p3) (hg : g.Repr q)
    (hs' : h.sys = .precomputed) (hh : h.Repr r) :
    ∃ s, g.precomputedSubtract h = .ok s ∧ s.sys = .p1xp1 ∧ s.Repr (q - r) := by
  unfold Repr at hg hh
  rw [hs] at hg
  rw [hs'] at hh
  obtain ⟨h1, h2, h3, h4, h5, h6, t, ht, h7, h8⟩ := hg
  obtain ⟨k1, k2, k3, k4, k5, k6⟩ := hh
  obtain ⟨p1, p2⟩ := add_small h2 h1
  obtain ⟨m1, m2⟩ := sub_small h2 h1
  obtain ⟨a1, a2⟩ := multiply_spec p1 k2
  obtain ⟨b1, b2⟩ := multiply_spec m1 k1
  obtain ⟨c1, c2⟩ := multiply_spec k3 h7.loose
  obtain ⟨d1, d2⟩ := add_small2 h3 h3
  obtain ⟨x1, x2⟩ := sub_small a1.small b1.small
  obtain ⟨y1, y2⟩ := add_small a1.small b1.small
  obtain ⟨z1, z2⟩ := sub_sum_red d1 c1
  obtain ⟨t1, t2⟩ := add_sum_red d1 c1
  rw [sub_eq_add_neg]
  refine ⟨_, ?_, ?_, repr_sum (c := 2 * g.Z.toF) (mul_ne_zero two_ne_zero_F h4)
    x1 y1 z1 t1 ?_ ?_ ?_ ?_⟩
  · unfold precomputedSubtract
    rw [if_neg (by rw [hs]; simp), if_neg (by rw [hs']; simp), ht]
    rfl
  · rfl
  · rw [x2, a2, b2, p2, m2, k4, k5, h5, h6, Pt.neg_x, Pt.neg_y]; ring
  · rw [y2, a2, b2, p2, m2, k4, k5, h5, h6, Pt.neg_x, Pt.neg_y]; ring
  · rw [z2, c2, d2, k6, h8, Pt.neg_x, Pt.neg_y]; ring
  · rw [t2, c2, d2, k6, h8, Pt.neg_x, Pt.neg_y]; ring

theorem add_repr {g h : GC} {q r : Pt} (hs : g.sys = .p3) (hg : g.Repr q)
    (hs' : h.sys = .cached) (hh : h.Repr r) :
    ∃ s, g.add h = .ok s ∧ s.sys = .p1xp1 ∧ s.Repr (q + r) := by
  unfold Repr at hg hh
  rw [hs] at hg
  rw [hs'] at hh
  obtain ⟨h1, h2, h3, h4, h5, h6, t, ht, h7, h8⟩ := hg
  obtain ⟨k1, k2, k3, k4, k5, k6, u, hu, k7, k8⟩ := hh
  obtain ⟨p1, p2⟩ := add_small h2 h1
  obtain ⟨m1, m2⟩ := sub_small h2 h1
  obtain ⟨a1, a2⟩ := multiply_spec m1 k2
  obtain ⟨b1, b2⟩ := multiply_spec p1 k1
  obtain ⟨c1, c2⟩ := multiply_spec k7 h7.loose
  obtain ⟨zz1, zz2⟩ := multiply_spec h3.loose k3
  obtain ⟨d1, d2⟩ := add_small2 zz1.small zz1.small
  obtain ⟨x1, x2⟩ := sub_small b1.small a1.small
  obtain ⟨y1, y2⟩ := add_small a1.small b1.small
  obtain ⟨z1, z2⟩ := add_sum_red d1 c1
  obtain ⟨t1, t2⟩ := sub_sum_red d1 c1
  refine ⟨_, ?_, ?_, repr_sum (c := 2 * (g.Z.toF * h.Z.toF)) (mul_ne_zero two_ne_zero_F (mul_ne_zero h4 k4))
    x1 y1 z1 t1 ?_ ?_ ?_ ?_⟩
  · unfold GC.add
    rw [if_neg (by rw [hs]; simp), if_neg (by rw [hs']; simp), ht, hu]
    rfl
  · rfl
  · rw [x2, a2, b2, p2, m2, k5, k6, h5, h6]; ring
  · rw [y2, a2, b2, p2, m2, k5, k6, h5, h6]; ring
  · rw [z2, c2, d2, zz2, k8, h8]; ring
  · rw [t2, c2, d2, zz2, k8, h8]; ring

theorem subtract_repr {g h : GC} {q r : Pt} (hs : g.sys = .p3) (hg : g.Repr q)
    (hs' : h.sys = .cached) (hh : h.Repr r) :
    ∃ s, g.subtract h = .ok s ∧ s.sys = .p1xp1 ∧ s.Repr (q - r) := by
  unfold Repr at hg hh
  rw [hs] at hg
  rw [hs'] at hh
  obtain ⟨h1, h2, h3, h4, h5, h6, t, ht, h7, h8⟩ := hg
  obtain ⟨k1, k2, k3, k4, k5, k6, u, hu, k7, k8⟩ := hh
  obtain ⟨p1, p2⟩ := add_small h2 h1
  obtain ⟨m1, m2⟩ := sub_small h2 h1
  obtain ⟨a1, a2⟩ := multiply_spec p1 k2
  obtain ⟨b1, b2⟩ := multiply_spec m1 k1
  obtain ⟨c1, c2⟩ := multiply_spec k7 h7.loose
  obtain ⟨zz1, zz2⟩ := multiply_spec h3.loose k3
  obtain ⟨d1, d2⟩ := add_small2 zz1.small zz1.small
  obtain ⟨x1, x2⟩ := sub_small a1.small b1.small
  obtain ⟨y1, y2⟩ := add_small a1.small b1.small
  obtain ⟨z1, z2⟩ := sub_sum_red d1 c1
  obtain ⟨t1, t2⟩ := add_sum_red d1 c1
  rw [sub_eq_add_neg]
  refine ⟨_, ?_, ?_, repr_sum (c := 2 * (g.Z.toF * h.Z.toF)) (mul_ne_zero two_ne_zero_F (mul_ne_zero h4 k4))
    x1 y1 z1 t1 ?_ ?_ ?_ ?_⟩
  · unfold GC.subtract
    rw [if_neg (by rw [hs]; simp), if_neg (by rw [hs']; simp), ht, hu]
    rfl
  · rfl
  · rw [x2, a2, b2, p2, m2, k5, k6, h5, h6, Pt.neg_x, Pt.neg_y]; ring
  · rw [y2, a2, b2, p2, m2, k5, k6, h5, h6, Pt.neg_x, Pt.neg_y]; ring
  · rw [z2, c2, d2, zz2, k8, h8, Pt.neg_x, Pt.neg_y]; ring
  · rw [t2, c2, d2, zz2, k8, h8, Pt.neg_x, Pt.neg_y]; ring

theorem zeroP2_repr : zeroP2.Repr 0 := by
  refine ⟨zero_red.small, one_red.small, one_red.small, ?_, ?_, ?_⟩
  · show one.toF ≠ 0
    rw [one_toF]; exact one_ne_zero
  · show zero.toF = _ * one.toF
    rw [zero_toF]; simp
  · show one.toF = _ * one.toF
    simp

theorem zeroP3_repr : zeroP3.Repr 0 := by
  refine ⟨zero_red.small, one_red.small, one_red.small, ?_, ?_, ?_, _, rfl, zero_red.small, ?_⟩
  · show one.toF ≠ 0
    rw [one_toF]; exact one_ne_zero
  · show zero.toF = _ * one.toF
    rw [zero_toF]; simp
  · show one.toF = _ * one.toF
    simp
  · rw [zero_toF]; simp

theorem zeroPrecomputed_repr : zeroPrecomputed.Repr 0 := by
  refine ⟨one_red.loose, one_red.loose, zero_red.loose, ?_, ?_, ?_⟩
  · show one.toF = _
    rw [one_toF]; simp
  · show one.toF = _
    rw [one_toF]; simp
  · show zero.toF = _
    rw [zero_toF]; simp

theorem negate_repr {g : GC} {q : Pt} (hs : g.sys = .p3) (hg : g.Repr q) :
    ∃ s, g.negate = .ok s ∧ s.sys = .p3 ∧ s.Repr (-q) := by
  obtain ⟨c, hc, hcs, hcr⟩ := toCached_of_p3 hs hg
  obtain ⟨s, hss, hs1, hs2⟩ := subtract_repr (g := zeroP3) rfl zeroP3_repr hcs hcr
  obtain ⟨r, h1, h2, h3⟩ := toP3_of_p1xp1 hs1 hs2
  refine ⟨r, ?_, h2, ?_⟩
  · unfold negate
    rw [if_neg (by rw [hs]; simp), hc]
    show (zeroP3.subtract c >>= fun s => s.toP3) = _
    rw [hss]; exact h1
  · rwa [zero_sub] at h3

end GC
end Ed

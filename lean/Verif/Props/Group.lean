import Verif.Proofs.ScalarMul
import Verif.Proofs.Tables
import Verif.Proofs.Naf

/-!
# Properties C12-C17: points, group law, scalar multiplication, constants

`Pt` is the group of points of -x^2 + y^2 = 1 + d x^2 y^2 over the integers modulo 2^255 - 19
(Spec/Curve.lean), `g.Repr q` says that the coordinates of the Go object `g` represent the point `q`
in the coordinate system of `g`, within the documented limb bounds (Spec/GroupRep.lean).
-/

set_option autoImplicit false

namespace Ed
open FE

/-- **C12.** Decoding 32 bytes succeeds exactly for y-coordinates of curve points, yields the point
with the given y and parity of x in P3 coordinates, and otherwise returns an error (no panic). -/
theorem C12_decode (raw : Bytes) (hl : raw.length = 32) :
    ((∃ g, GC.decode raw = .ok g) ↔ ∃ x : F, OnCurve x ((leVal raw % 2 ^ 255 : ℕ) : F)) ∧
    (∀ g, GC.decode raw = .ok g → g.sys = .p3 ∧ ∃ q : Pt, g.Repr q ∧ q.y = ((leVal raw % 2 ^ 255 : ℕ) : F) ∧
      (q.x = 0 ∨ q.x.val % 2 = leVal raw / 2 ^ 255)) ∧
    GC.decode raw ≠ .panic := by
  have ht : raw.take 32 = raw := List.take_of_length_le (by omega)
  have hlt : leVal raw < 2 ^ 256 := by have := leVal_lt raw; rw [hl] at this; exact this
  rcases GC.decode_cases (Or.inl hl) with ⟨q, hq⟩ | ⟨⟨m, hm⟩, hn⟩
  · obtain ⟨g, g1, g2, g3, -⟩ := GC.decode_ok (Or.inl hl) hq
    rw [ht] at hq
    refine ⟨⟨fun _ => ⟨q.x, hq.1 ▸ q.on⟩, fun _ => ⟨g, g1⟩⟩, ?_, by rw [g1]; simp⟩
    intro g' hg'
    rw [g1] at hg'
    cases hg'
    refine ⟨g2, q, g3, hq.1, ?_⟩
    rcases hq.2 with h | h
    · exact Or.inl h
    · right; rw [h, Nat.mod_eq_of_lt (by omega)]
  · refine ⟨⟨?_, ?_⟩, ?_, by rw [hm]; simp⟩
    · rintro ⟨g, hg⟩; rw [hm] at hg; cases hg
    · rintro ⟨x, hx⟩
      refine absurd ?_ (hn ⟨x, _, hx⟩)
      show _ = ((leVal (raw.take 32) % 2 ^ 255 : ℕ) : F)
      rw [ht]
    · intro g hg; rw [hm] at hg; cases hg

/-- Lengths: 64 bytes are read like their first half, all other lengths are refused. -/
theorem C12_decode_length (raw : Bytes) :
    (raw.length = 64 → (∀ q : Pt, (∃ g, GC.decode raw = .ok g ∧ g.Repr q) ↔
      (∃ g, GC.decode (raw.take 32) = .ok g ∧ g.Repr q))) ∧
    (raw.length ≠ 32 → raw.length ≠ 64 → ∃ m, GC.decode raw = .err m) := by
  constructor
  · intro h q
    have hl2 : (raw.take 32).length = 32 := by rw [List.length_take]; omega
    have ht : (raw.take 32).take 32 = raw.take 32 := List.take_of_length_le (by omega)
    have huniq : ∀ {g : GC} {q r : Pt}, g.sys = .p3 → g.Repr q → g.Repr r → q = r := by
      intro g q r hs h1 h2
      obtain ⟨-, -, -, z, x1, y1⟩ := GC.Repr.proj (Or.inr hs) h1
      obtain ⟨-, -, -, -, x2, y2⟩ := GC.Repr.proj (Or.inr hs) h2
      ext
      · exact mul_right_cancel₀ z (x1.symm.trans x2)
      · exact mul_right_cancel₀ z (y1.symm.trans y2)
    rcases GC.decode_cases (Or.inr h) with ⟨r, hr⟩ | ⟨⟨m, hm⟩, hn⟩
    · obtain ⟨g, g1, g2, g3, -⟩ := GC.decode_ok (Or.inr h) hr
      obtain ⟨k, k1, k2, k3, -⟩ := GC.decode_ok (raw := raw.take 32) (Or.inl hl2) (q := r) (by rw [ht]; exact hr)
      constructor
      · rintro ⟨g', e1, e2⟩
        rw [g1] at e1; cases e1
        exact ⟨k, k1, huniq g2 e2 g3 ▸ k3⟩
      · rintro ⟨g', e1, e2⟩
        rw [k1] at e1; cases e1
        exact ⟨g, g1, huniq k2 e2 k3 ▸ g3⟩
    · constructor
      · rintro ⟨g', e1, -⟩; rw [hm] at e1; cases e1
      · rintro ⟨g', e1, -⟩
        have := (C12_decode _ hl2).2.1 g' e1
        obtain ⟨-, r, -, r2, -⟩ := this
        exact absurd r2 (hn r)
  · intro h1 h2
    exact ⟨_, GC.decode_badlen (by tauto)⟩

/-- y = 7 belongs to no point: 48 (1 + 49 d) is not a square. -/
theorem not_sq_48_d (x : F) : x * (1 + 49 * d) * (x * (1 + 49 * d)) ≠ 48 * (1 + 49 * d) := by
  have e : (48 : F) * (1 + 49 * d) = ((48 * (1 + 49 * dN) : ℕ) : F) := by rw [d_eq]; push_cast; ring
  have hp : (48 * (1 + 49 * d) : F) ^ ((P - 1) / 2) = -1 := by
    have he : (P - 1) / 2 = (2 ^ 255 - 20) / 2 := by rw [P_eq]; decide +kernel
    rw [e, he, F_pow_natCast _ _ (2 ^ 255 - 20) (by decide +kernel) (by decide +kernel)]
    have : ((2 ^ 255 - 20 + 1 : ℕ) : F) = 0 := by rw [F_natCast_eq_zero]; decide
    rw [Nat.cast_add, Nat.cast_one] at this
    exact eq_neg_of_add_eq_zero_left this
  intro h
  rw [← h] at hp
  generalize x * (1 + 49 * d) = s at *
  have h0 : s ≠ 0 := by
    rintro rfl
    rw [mul_zero, zero_pow (by rw [P_eq]; decide)] at hp
    exact one_ne_zero (α := F) (by linear_combination hp)
  have h1 : s ^ (P - 1) = 1 := ZMod.pow_card_sub_one_eq_one h0
  have h2 : (s * s) ^ ((P - 1) / 2) = s ^ (P - 1) := by
    rw [← sq, ← pow_mul]
    congr 1
    rw [P_eq]; decide +kernel
  rw [h1, hp] at h2
  exact one_ne_neg_one_F h2.symm

/-- Both cases of C12 occur: the base point is decoded; y = 7 belongs to no point. -/
example : ∃ g, GC.decode basePointBytes = .ok g := by
  obtain ⟨g, h, -⟩ := GC.decode_ok (raw := basePointBytes) (Or.inl rfl) (q := B) basePoint_decodes
  exact ⟨g, h⟩

theorem decode_seven : ∃ m, GC.decode (7 :: List.replicate 31 0) = .err m := by
  have h := C12_decode (7 :: List.replicate 31 0) (by simp)
  have e : leVal (7 :: List.replicate 31 0) % 2 ^ 255 = 7 := by decide +kernel
  rw [e] at h
  cases hd : GC.decode (7 :: List.replicate 31 0) with
  | err m => exact ⟨m, rfl⟩
  | panic => exact absurd hd h.2.2
  | ok g =>
    exfalso
    obtain ⟨x, hx⟩ := h.1.1 ⟨g, hd⟩
    apply not_sq_48_d x
    unfold OnCurve at hx
    push_cast at hx
    linear_combination (1 + 49 * d) * -hx

/-- **C13.** Round trip through bytes from any P2, P3 or P1xP1 representation, and injectivity. -/
theorem C13_roundtrip (g : GC) (q : Pt) (hs : g.sys = .p2 ∨ g.sys = .p3 ∨ g.sys = .p1xp1) (h : g.Repr q) :
    ∃ b, g.encode = .ok b ∧ b.length = 32 ∧ ∃ g', GC.decode b = .ok g' ∧ g'.sys = .p3 ∧ g'.Repr q := by
  refine ⟨_, GC.encode_repr hs h, encodePoint_length q, ?_⟩
  have ht : (encodePoint q).take 32 = encodePoint q := List.take_of_length_le (by rw [encodePoint_length])
  obtain ⟨g', h1, h2, h3, -⟩ := GC.decode_ok (raw := encodePoint q) (Or.inl (encodePoint_length q)) (q := q)
    (by rw [ht]; exact decodes_encodePoint q)
  exact ⟨g', h1, h2, h3⟩

/-- The bytes are the canonical encoding (y little-endian, parity of x in the top bit); equal bytes
exactly for equal points. -/
theorem C13_encode (g g' : GC) (q q' : Pt) (hs : g.sys = .p2 ∨ g.sys = .p3 ∨ g.sys = .p1xp1) (h : g.Repr q)
    (hs' : g'.sys = .p2 ∨ g'.sys = .p3 ∨ g'.sys = .p1xp1) (h' : g'.Repr q') :
    g.encode = .ok (leBytes 32 (q.y.val + 2 ^ 255 * (q.x.val % 2))) ∧ (g.encode = g'.encode ↔ q = q') := by
  refine ⟨GC.encode_repr hs h, ?_⟩
  rw [GC.encode_repr hs h, GC.encode_repr hs' h']
  constructor
  · intro e
    exact encodePoint_inj (Out.ok.inj e)
  · rintro rfl; rfl

/-- The neutral element in P2 and P3, and the base point, are instances. -/
example : GC.zeroP2.encode = .ok (1 :: List.replicate 31 0) := by
  rw [(C13_encode _ _ 0 0 (Or.inl rfl) GC.zeroP2_repr (Or.inl rfl) GC.zeroP2_repr).1]
  have e1 : (0 : Pt).y.val = 1 := by
    have := val_natCast_F (n := 1) (by norm_num)
    simpa using this
  have e2 : (0 : Pt).x.val = 0 := ZMod.val_zero
  rw [e1, e2]; decide +kernel

/-- `x = 0` only at the two points with y = 1 and y = -1. -/
theorem Pt.x_zero_iff (q : Pt) : q.x = 0 ↔ q.y = 1 ∨ q.y = -1 := by
  have h := q.on
  unfold OnCurve at h
  constructor
  · intro hx
    rw [hx] at h
    have : (q.y - 1) * (q.y + 1) = 0 := by linear_combination h
    rcases mul_eq_zero.1 this with h | h
    · left; linear_combination h
    · right; linear_combination h
  · intro hy
    have h2 : q.y ^ 2 = 1 := by rcases hy with h | h <;> rw [h] <;> ring
    rw [h2] at h
    have h3 : q.x * q.x * (1 + d) = 0 := by linear_combination -h
    have h4 : (1 : F) + d ≠ 0 := by
      intro e
      apply d_nonsq sqrtm1
      have := sqrtm1_sq
      linear_combination this - e
    have h5 := (mul_eq_zero.1 h3).resolve_right h4
    exact mul_self_eq_zero.1 h5

/-- Re-encoding a decoded string gives the string back exactly if it is canonical: y below p, and the
sign bit not set when x = 0, i.e. when y is 1 or p - 1. -/
theorem C13_reencode (raw : Bytes) (hl : raw.length = 32) (g : GC) (hg : GC.decode raw = .ok g) :
    g.encode = .ok raw ↔
      leVal raw % 2 ^ 255 < 2 ^ 255 - 19 ∧
      ¬ ((leVal raw % 2 ^ 255 = 1 ∨ leVal raw % 2 ^ 255 = 2 ^ 255 - 20) ∧ leVal raw / 2 ^ 255 = 1) := by
  obtain ⟨hs, q, hr, hy, hx⟩ := (C12_decode raw hl).2.1 g hg
  rw [GC.encode_repr (Or.inr (Or.inl hs)) hr]
  have hlt : leVal raw < 2 ^ 256 := by have := leVal_lt raw; rw [hl] at this; exact this
  have hv := encodePoint_val q
  have hF := F_val_lt q.y
  have hyv : q.y.val = leVal raw % 2 ^ 255 % (2 ^ 255 - 19) := by rw [hy, ZMod.val_natCast, P_eq]
  have key : (Out.ok (encodePoint q) = Out.ok raw) ↔ leVal (encodePoint q) = leVal raw :=
    ⟨fun e => by rw [Out.ok.inj e], fun e => by rw [leVal_inj (by rw [encodePoint_length, hl]) e]⟩
  rw [key, hv]
  have hp : (2 : ℕ) ^ 255 - 19 < 2 ^ 255 := by norm_num
  have hx0 : q.x = 0 ↔ (q.y.val = 1 ∨ q.y.val = 2 ^ 255 - 20) := by
    rw [Pt.x_zero_iff]
    have e1 : q.y = 1 ↔ q.y.val = 1 := by
      constructor
      · intro e; rw [e]
        have := val_natCast_F (n := 1) (by norm_num)
        simpa using this
      · intro e; rw [← ZMod.natCast_zmod_val q.y, e]; simp
    have e2 : q.y = -1 ↔ q.y.val = 2 ^ 255 - 20 := by
      have hm : ((2 ^ 255 - 20 : ℕ) : F) = -1 := by
        have : ((2 ^ 255 - 20 + 1 : ℕ) : F) = 0 := by rw [F_natCast_eq_zero]; decide
        rw [Nat.cast_add, Nat.cast_one] at this
        exact eq_neg_of_add_eq_zero_left this
      constructor
      · intro e; rw [e, ← hm]
        exact val_natCast_F (n := 2 ^ 255 - 20) (by norm_num)
      · intro e; rw [← ZMod.natCast_zmod_val q.y, e, hm]
    rw [e1, e2]
  have hxz : q.x = 0 → q.x.val = 0 := by intro e; rw [e]; exact ZMod.val_zero
  have hsx : q.x.val % 2 = 0 ∨ q.x.val % 2 = 1 := by omega
  have hdm : leVal raw = leVal raw % 2 ^ 255 + 2 ^ 255 * (leVal raw / 2 ^ 255) := (Nat.mod_add_div _ _).symm
  have hY : leVal raw % 2 ^ 255 < 2 ^ 255 := Nat.mod_lt _ (by norm_num)
  have hs1 : leVal raw / 2 ^ 255 < 2 := by omega
  have hvY : leVal raw % 2 ^ 255 < 2 ^ 255 - 19 → q.y.val = leVal raw % 2 ^ 255 := by
    intro h; rw [hyv, Nat.mod_eq_of_lt h]
  have hF' : q.y.val < 2 ^ 255 - 19 := by rw [hyv]; exact Nat.mod_lt _ (by norm_num)
  clear hv hyv key hy hr hF hlt
  generalize leVal raw % 2 ^ 255 = Y at *
  generalize leVal raw / 2 ^ 255 = s at *
  generalize leVal raw = R at *
  generalize q.y.val = v at *
  by_cases hq : q.x = 0
  · have hz : q.x.val % 2 = 0 := by rw [hxz hq]
    rw [hz]
    have hv := hx0.1 hq
    clear hx0 hx hxz hsx
    constructor
    · intro e; omega
    · rintro ⟨a, b⟩
      have := hvY a
      omega
  · have hq2 : ¬ (v = 1 ∨ v = 2 ^ 255 - 20) := fun h => hq (hx0.2 h)
    have hz : q.x.val % 2 = s := hx.resolve_left hq
    rw [hz]
    clear hx0 hx hxz hsx
    constructor
    · intro e; omega
    · rintro ⟨a, b⟩
      have := hvY a
      omega

/-- Every curve point has a Go object in P3 coordinates without tables, so none of the statements below
is vacuous for any point. -/
theorem exists_repr (q : Pt) : ∃ g : GE, g.sys = .p3 ∧ g.toGC.Repr q ∧ g.single = none ∧ g.double = none := by
  have ht : (encodePoint q).take 32 = encodePoint q := List.take_of_length_le (by rw [encodePoint_length])
  obtain ⟨g', h1, h2, h3, -⟩ := GC.decode_ok (raw := encodePoint q) (Or.inl (encodePoint_length q)) (q := q)
    (by rw [ht]; exact decodes_encodePoint q)
  exact ⟨GE.ofGC g', h2, h3, rfl, rfl⟩

/-- **C14.** The point operations implement the group law for all pairs of points, without
exceptional cases: doubling, addition and subtraction of a CACHED or PRECOMPUTED point, negation. -/
theorem C14_dbl (g : GC) (q : Pt) (hs : g.sys = .p2 ∨ g.sys = .p3) (h : g.Repr q) :
    ∃ r, g.dbl = .ok r ∧ r.sys = .p1xp1 ∧ r.Repr (q + q) := GC.dbl_repr hs h

theorem C14_add_subtract (g h : GC) (q r : Pt) (hg : g.sys = .p3) (hgr : g.Repr q) (hh : h.sys = .cached)
    (hhr : h.Repr r) :
    (∃ s, g.add h = .ok s ∧ s.sys = .p1xp1 ∧ s.Repr (q + r)) ∧
    (∃ s, g.subtract h = .ok s ∧ s.sys = .p1xp1 ∧ s.Repr (q - r)) :=
  ⟨GC.add_repr hg hgr hh hhr, GC.subtract_repr hg hgr hh hhr⟩

theorem C14_precomputed (g h : GC) (q r : Pt) (hg : g.sys = .p3) (hgr : g.Repr q) (hh : h.sys = .precomputed)
    (hhr : h.Repr r) :
    (∃ s, g.precomputedAdd h = .ok s ∧ s.sys = .p1xp1 ∧ s.Repr (q + r)) ∧
    (∃ s, g.precomputedSubtract h = .ok s ∧ s.sys = .p1xp1 ∧ s.Repr (q - r)) :=
  ⟨GC.precomputedAdd_repr hg hgr hh hhr, GC.precomputedSubtract_repr hg hgr hh hhr⟩

theorem C14_negate (g : GC) (q : Pt) (hs : g.sys = .p3) (h : g.Repr q) :
    ∃ r, g.negate = .ok r ∧ r.sys = .p3 ∧ r.Repr (-q) := GC.negate_repr hs h

/-- The group law meant by `+` on `Pt` is the textbook affine one (with non-zero denominators). -/
theorem C14_law (p q : Pt) :
    1 + d * p.x * q.x * p.y * q.y ≠ 0 ∧ 1 - d * p.x * q.x * p.y * q.y ≠ 0 ∧
    (p + q).x = (p.x * q.y + q.x * p.y) / (1 + d * p.x * q.x * p.y * q.y) ∧
    (p + q).y = (p.y * q.y + p.x * q.x) / (1 - d * p.x * q.x * p.y * q.y) ∧
    (-p).x = -p.x ∧ (-p).y = p.y ∧ (0 : Pt).x = 0 ∧ (0 : Pt).y = 1 :=
  ⟨p.dp_ne q, p.dm_ne q, rfl, rfl, rfl, rfl, rfl, rfl⟩

/-- A chain of conversions and operations composes: from bytes of two points to the bytes of the sum,
for all pairs of points (also equal or opposite ones). -/
theorem C14_add_bytes (q r : Pt) :
    ∃ g h c s, GC.decode (encodePoint q) = .ok g ∧ GC.decode (encodePoint r) = .ok h ∧ h.toCached = .ok c ∧
      g.add c = .ok s ∧ s.encode = .ok (encodePoint (q + r)) := by
  have key : ∀ q : Pt, ∃ g, GC.decode (encodePoint q) = .ok g ∧ g.sys = .p3 ∧ g.Repr q := by
    intro q
    have ht : (encodePoint q).take 32 = encodePoint q := List.take_of_length_le (by rw [encodePoint_length])
    obtain ⟨g', h1, h2, h3, -⟩ := GC.decode_ok (raw := encodePoint q) (Or.inl (encodePoint_length q)) (q := q)
      (by rw [ht]; exact decodes_encodePoint q)
    exact ⟨g', h1, h2, h3⟩
  obtain ⟨g, g1, g2, g3⟩ := key q
  obtain ⟨h, h1, h2, h3⟩ := key r
  obtain ⟨c, c1, c2, c3⟩ := GC.toCached_of_p3 h2 h3
  obtain ⟨s, s1, s2, s3⟩ := GC.add_repr g2 g3 c2 c3
  exact ⟨g, h, c, s, g1, h1, c1, s1, GC.encode_repr (Or.inr (Or.inr s2)) s3⟩

/-- The chain is not trivial: B + B is neither B nor the neutral element. -/
example : encodePoint (B + B) ≠ encodePoint B ∧ encodePoint (B + B) ≠ encodePoint 0 := by
  constructor
  · intro h
    have := encodePoint_inj h
    exact B_ne_zero (by simpa using this)
  · intro h
    have h2 := encodePoint_inj h
    have : 2 • B = 0 • B := by rw [two_smul, zero_smul]; exact h2
    rw [smul_B_eq_iff, L_eq] at this
    revert this; decide

/-- **C15.** Scalar multiplication after precomputation, for every point and every scalar below 2^255. -/
theorem C15_scalarMultiply (g : GE) (q : Pt) (hs : g.sys = .p3) (hr : g.toGC.Repr q) (hn : g.single = none)
    (a : Bytes) (ha : leVal a < 2 ^ 255) :
    ∃ g' h, g.precomputeForScalarMultiplication = .ok g' ∧ g'.scalarMultiply a = .ok h ∧ h.sys = .p3 ∧
      h.Repr (leVal a • q) := by
  obtain ⟨g', h1, -, -, h4⟩ := GE.precomputeSingle_spec hs hr hn
  obtain ⟨h, e1, e2, e3⟩ := GE.scalarMultiply_spec h4 a ha
  exact ⟨g', h, h1, e1, e2, e3⟩

/-- The base point with the built-in table. -/
theorem C15_basePoint (a : Bytes) (ha : leVal a < 2 ^ 255) :
    ∃ g h, getBasePoint = .ok g ∧ g.scalarMultiply a = .ok h ∧ h.sys = .p3 ∧ h.Repr (leVal a • B) ∧
      h.encode = .ok (encodePoint (leVal a • B)) := by
  obtain ⟨g, h1, -, -, -, h5, -⟩ := getBasePoint_spec
  obtain ⟨h, e1, e2, e3⟩ := GE.scalarMultiply_spec h5 a ha
  exact ⟨g, h, h1, e1, e2, e3, GC.encode_repr (Or.inr (Or.inl e2)) e3⟩

/-- All scalars of 32 bytes, with R = (16^63 - 1) / 15: the result is a * P up to a = 8 * 16^63 + 7 * R; for larger a the
top digit is lost, so that the scalar is reduced modulo 16^63 into the range from -8 * R to 7 * R. -/
theorem C15_any_scalar (g : GE) (q : Pt) (hs : g.sys = .p3) (hr : g.toGC.Repr q) (hn : g.single = none)
    (a : Bytes) (ha : a.length = 32) :
    ∃ g' h, g.precomputeForScalarMultiplication = .ok g' ∧ g'.scalarMultiply a = .ok h ∧ h.sys = .p3 ∧
      if leVal a ≤ 8 * 16 ^ 63 + 7 * ((16 ^ 63 - 1) / 15) then h.Repr (leVal a • q)
      else ∃ n : ℤ, h.Repr (n • q) ∧ n ≡ leVal a [ZMOD 16 ^ 63] ∧
        -(8 * ((16 ^ 63 - 1) / 15)) ≤ n ∧ n ≤ 7 * ((16 ^ 63 - 1) / 15) := by
  have la : leVal a < 2 ^ 256 := by have := leVal_lt a; rw [ha] at this; exact this
  obtain ⟨g', h1, -, -, h4⟩ := GE.precomputeSingle_spec hs hr hn
  obtain ⟨h, e1, e2, e3⟩ := GE.scalarMultiply_any h4 a la
  refine ⟨g', h, h1, e1, e2, ?_⟩
  split_ifs at e3 ⊢ with hc
  · rwa [natCast_zsmul] at e3
  · refine ⟨_, e3, ?_, ?_, ?_⟩
    · calc ((leVal a : ℤ) + 8 * ((16 ^ 63 - 1) / 15)) % 16 ^ 63 - 8 * ((16 ^ 63 - 1) / 15)
          ≡ ((leVal a : ℤ) + 8 * ((16 ^ 63 - 1) / 15)) - 8 * ((16 ^ 63 - 1) / 15) [ZMOD 16 ^ 63] :=
            (Int.mod_modEq _ _).sub_right _
        _ = leVal a := by ring
    · have := Int.emod_nonneg ((leVal a : ℤ) + 8 * ((16 ^ 63 - 1) / 15)) (by norm_num : (16 ^ 63 : ℤ) ≠ 0)
      omega
    · have := Int.emod_lt_of_pos ((leVal a : ℤ) + 8 * ((16 ^ 63 - 1) / 15)) (by norm_num : (0 : ℤ) < 16 ^ 63)
      generalize ((leVal a : ℤ) + 8 * ((16 ^ 63 - 1) / 15)) % 16 ^ 63 = r at *
      norm_num at *
      omega

/-- Both cases occur. -/
example : leVal (List.replicate 31 0xff ++ [0x7f]) ≤ 8 * 16 ^ 63 + 7 * ((16 ^ 63 - 1) / 15) ∧
    ¬ leVal (List.replicate 32 0xff) ≤ 8 * 16 ^ 63 + 7 * ((16 ^ 63 - 1) / 15) := by
  decide +kernel

/-- The bound on the scalar is needed: for 32 bytes 0xff the result is -B, which is not (2^256 - 1) * B. -/
theorem C15_large_scalar : ∃ g h, getBasePoint = .ok g ∧ g.scalarMultiply (List.replicate 32 0xff) = .ok h ∧
    h.Repr (-B) ∧ -B ≠ leVal (List.replicate 32 0xff) • B := by
  obtain ⟨g, h1, -, -, -, h5, -⟩ := getBasePoint_spec
  obtain ⟨h, e1, e2, e3⟩ := GE.scalarMultiply_digits h5 (List.replicate 32 0xff)
  have es : (∑ j ∈ Finset.range 64, GE.seen (toRadix16 (List.replicate 32 0xff) j).toInt * 16 ^ j) = -1 := by
    decide +kernel
  rw [es, neg_one_smul] at e3
  refine ⟨g, h, h1, e1, e3, ?_⟩
  have hv : leVal (List.replicate 32 0xff) = 2 ^ 256 - 1 := by decide +kernel
  rw [hv]
  intro h
  have h2 : (2 ^ 256) • B = 0 • B := by
    have : (2 ^ 256 : ℕ) = 2 ^ 256 - 1 + 1 := by norm_num
    rw [this, add_smul, one_smul, ← h, zero_smul]; simp
  rw [smul_B_eq_iff, L_eq] at h2
  revert h2; decide +kernel

example : leVal (List.replicate 31 0xff ++ [0x7f]) < 2 ^ 255 ∧ 2 ^ 254 < leVal (List.replicate 31 0xff ++ [0x7f]) := by
  decide +kernel

/-- **C16.** `bp.doubleScalarMultiplyVariableTime(A, a, b)` is b * B - a * A, for the built-in base point
and every point A after precomputation. -/
theorem C16_doubleScalar (A : GE) (p : Pt) (hs : A.sys = .p3) (hr : A.toGC.Repr p) (hn : A.double = none)
    (a b : Bytes) (ha : leVal a < 2 ^ 255) (hb : leVal b < 2 ^ 255) :
    ∃ bp A' h, getBasePoint = .ok bp ∧ A.precomputeForDoubleScalarMultiplication = .ok A' ∧
      bp.doubleScalarMultiplyVariableTime A' a b = .ok h ∧ h.sys = .p2 ∧ h.Repr (leVal b • B - leVal a • p) := by
  obtain ⟨bp, h1, -, -, -, -, h6⟩ := getBasePoint_spec
  obtain ⟨A', a1, -, -, a4⟩ := GE.precomputeDouble_spec hs hr (by rw [hn]; rfl)
  obtain ⟨h, e1, e2, e3⟩ := GE.doubleScalar_spec h6 a4 a b ha hb
  exact ⟨bp, A', h, h1, a1, e1, e2, e3⟩

/-- The same with an arbitrary receiver. -/
theorem C16_doubleScalar_any (g A : GE) (q p : Pt) (hg : g.sys = .p3) (hgr : g.toGC.Repr q) (hgn : g.double = none)
    (hs : A.sys = .p3) (hr : A.toGC.Repr p) (hn : A.double = none)
    (a b : Bytes) (ha : leVal a < 2 ^ 255) (hb : leVal b < 2 ^ 255) :
    ∃ g' A' h, g.precomputeForDoubleScalarMultiplication = .ok g' ∧
      A.precomputeForDoubleScalarMultiplication = .ok A' ∧
      g'.doubleScalarMultiplyVariableTime A' a b = .ok h ∧ h.sys = .p2 ∧ h.Repr (leVal b • q - leVal a • p) := by
  obtain ⟨g', g1, -, -, g4⟩ := GE.precomputeDouble_spec hg hgr (by rw [hgn]; rfl)
  obtain ⟨A', a1, -, -, a4⟩ := GE.precomputeDouble_spec hs hr (by rw [hn]; rfl)
  obtain ⟨h, e1, e2, e3⟩ := GE.doubleScalar_spec g4 a4 a b ha hb
  exact ⟨g', A', h, g1, a1, e1, e2, e3⟩

/-- All 32-byte scalars: the result is b' * B - a' * A, where a' is a if it has a 256-digit width-5 expansion and a - 2^256 otherwise, same
for b (below 2^255 it is the scalar itself). -/
theorem C16_doubleScalar_large (g A : GE) (q p : Pt) (hg : g.sys = .p3) (hgr : g.toGC.Repr q)
    (hgn : g.double = none) (hs : A.sys = .p3) (hr : A.toGC.Repr p) (hn : A.double = none)
    (a b : Bytes) (ha : a.length = 32) (hb : b.length = 32) :
    ∃ g' A' h, g.precomputeForDoubleScalarMultiplication = .ok g' ∧
      A.precomputeForDoubleScalarMultiplication = .ok A' ∧
      g'.doubleScalarMultiplyVariableTime A' a b = .ok h ∧ h.sys = .p2 ∧
      h.Repr (nafVal (leVal b) • q - nafVal (leVal a) • p) := by
  obtain ⟨g', g1, -, -, g4⟩ := GE.precomputeDouble_spec hg hgr (by rw [hgn]; rfl)
  obtain ⟨A', a1, -, -, a4⟩ := GE.precomputeDouble_spec hs hr (by rw [hn]; rfl)
  obtain ⟨h, e1, e2, e3⟩ := GE.doubleScalar_digits g4 a4 a b
  rw [slide_naf32 ha, slide_naf32 hb] at e3
  exact ⟨g', A', h, g1, a1, e1, e2, e3⟩

/-- The hypotheses of C16 hold for every point and for all 32-byte scalars; with A = 3 * B, a = 2, b = 7 the result is B. -/
example : ∃ A : GE, A.sys = .p3 ∧ A.toGC.Repr (3 • B) ∧ A.double = none ∧
    ∃ bp A' h, getBasePoint = .ok bp ∧ A.precomputeForDoubleScalarMultiplication = .ok A' ∧
      bp.doubleScalarMultiplyVariableTime A' (leBytes 32 2) (leBytes 32 7) = .ok h ∧ h.Repr B := by
  obtain ⟨A, a1, a2, -, a3⟩ := exists_repr (3 • B)
  have v2 : leVal (leBytes 32 2) = 2 := leVal_leBytes_of_lt (by norm_num)
  have v7 : leVal (leBytes 32 7) = 7 := leVal_leBytes_of_lt (by norm_num)
  obtain ⟨bp, A', h, h1, h2, h3, -, h4⟩ := C16_doubleScalar A _ a1 a2 a3 (leBytes 32 2) (leBytes 32 7) (by rw [v2]; norm_num)
    (by rw [v7]; norm_num)
  rw [v2, v7, smul_smul, show (7 : ℕ) = 1 + 2 * 3 from rfl, add_smul, one_smul, add_sub_cancel_right] at h4
  exact ⟨A, a1, a2, a3, bp, A', h, h1, h2, h3, h4⟩

/-- **C17.** The base point object: decoding succeeds, the point is (x, 4/5) with x even, of order
exactly L = 2^252 + 27742317777372353535851937790883648493, and all 256 + 8 table entries are the
documented multiples in the form (y+x, y-x, 2dxy). -/
theorem C17_basePoint : ∃ g, getBasePoint = .ok g ∧ g.sys = .p3 ∧ g.toGC.Repr B ∧
    (B.y * 5 = 4 ∧ B.x.val % 2 = 0 ∧
      addOrderOf B = 2 ^ 252 + 27742317777372353535851937790883648493) ∧
    (∃ t, g.single = some t ∧ t.length = 32 ∧ ∀ i < 32, ∃ row, t[i]? = some row ∧ row.length = 8 ∧
      ∀ j < 8, ∃ e, row[j]? = some e ∧ e.sys = .precomputed ∧ Loose e.X ∧ Loose e.Y ∧ Loose e.Z ∧
        let q := ((j + 1) * 256 ^ i) • B
        e.X.toF = q.y + q.x ∧ e.Y.toF = q.y - q.x ∧ e.Z.toF = 2 * d * q.x * q.y) ∧
    (∃ t, g.double = some t ∧ t.length = 8 ∧ ∀ i < 8, ∃ e, t[i]? = some e ∧ e.sys = .precomputed ∧
      Loose e.X ∧ Loose e.Y ∧ Loose e.Z ∧
        let q := (2 * i + 1) • B
        e.X.toF = q.y + q.x ∧ e.Y.toF = q.y - q.x ∧ e.Z.toF = 2 * d * q.x * q.y) := by
  obtain ⟨g, h1, h2, h3, -, ⟨t, t1, t2, t3⟩, ⟨u, u1, u2, u3⟩⟩ := getBasePoint_spec
  refine ⟨g, h1, h2, h3, ⟨B_y, B_x_even, by rw [addOrderOf_B, L_eq]⟩, ⟨t, t1, t2, fun i hi => ?_⟩,
    ⟨u, u1, u2, fun i hi => ?_⟩⟩
  · obtain ⟨row, r1, r2, r3⟩ := t3 i hi
    refine ⟨row, r1, r2, fun j hj => ?_⟩
    obtain ⟨e, e1, e2, e3⟩ := r3 j hj
    unfold GC.Repr at e3; rw [e2] at e3
    exact ⟨e, e1, e2, e3⟩
  · obtain ⟨e, e1, e2, e3⟩ := u3 i hi
    unfold GC.Repr at e3; rw [e2] at e3
    exact ⟨e, e1, e2, e3⟩

/-- The constants of the code: d with 121666 d = -121665, 2d, and a square root of -1. -/
theorem C17_constants : dFE.toF * 121666 = -121665 ∧ d2FE.toF = 2 * dFE.toF ∧ iFE.toF * iFE.toF = -1 ∧
    Reduced dFE ∧ Reduced d2FE ∧ Reduced iFE := by
  refine ⟨?_, ?_, ?_, dFE_spec.1, d2FE_spec.1, iFE_spec.1⟩
  · rw [dFE_spec.2, d_eq]
    have : ((dN * 121666 + 121665 : ℕ) : F) = 0 := by rw [F_natCast_eq_zero]; decide +kernel
    push_cast at this
    linear_combination this
  · rw [dFE_spec.2, d2FE_spec.2]
  · rw [iFE_spec.2]; exact sqrtm1_sq

end Ed

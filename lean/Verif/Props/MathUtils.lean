import Verif.Proofs.MathUtils
import Verif.Proofs.AffineX
import Verif.Proofs.Dsa
import Verif.Proofs.Cipher
import Verif.Props.Group
import Verif.Props.Text

/-!
# C44, C45, C49: the big-integer helpers

`U : Utils` and `G : Big` are arbitrary implementations of the library functions that meet their contracts.
-/

namespace Ed
open FE

set_option autoImplicit false

variable (U : Utils) (G : Big)

/-! ## A concrete big-integer library -/

/-- An inverse by the extended Euclidean algorithm; by-value arguments that never do harm. -/
def Big.toy : Big where
  modInverse a n := if Int.gcd a n = 1 then some (Int.gcdA a n % n) else none
  inv_some := by
    intro a n x hn h
    split at h
    · rename_i hg
      injection h with h
      subst h
      refine ⟨Int.emod_nonneg _ (by omega), Int.emod_lt_of_pos _ (by omega), ?_⟩
      have h1 := Int.gcd_eq_gcd_ab a n
      rw [hg] at h1
      rw [Int.mul_emod, Int.emod_emod_of_dvd _ (dvd_refl n), ← Int.mul_emod]
      have h2 : a * Int.gcdA a n = 1 + n * (-Int.gcdB a n) := by push_cast at h1; linarith
      rw [h2, Int.add_mul_emod_self_left, Int.emod_eq_of_lt (by omega) hn]
    · cases h
  inv_none := by
    intro a n hn h x hx
    split at h
    · cases h
    · rename_i hg
      apply hg
      have h1 : (Int.gcd a n : ℤ) ∣ 1 := by
        have h2 : a * x = 1 + n * (a * x / n) := by rw [← hx]; exact (Int.emod_add_mul_ediv _ _).symm
        have h3 : (Int.gcd a n : ℤ) ∣ a * x - n * (a * x / n) :=
          dvd_sub (dvd_mul_of_dvd_left (Int.gcd_dvd_left ..) _) (dvd_mul_of_dvd_left (Int.gcd_dvd_right ..) _)
        have h4 : a * x - n * (a * x / n) = 1 := by linarith
        rwa [h4] at h3
      exact_mod_cast Int.eq_one_of_dvd_one (by positivity) h1
  xAfter g1x _ _ _ := g1x
  resAfter _ _ _ _ x3 := x3
  keeps _ _ _ _ _ := rfl
  keeps' _ _ _ _ _ _ := rfl
  words _ _ _ _ _ _ _ _ _ _ _ _ _ h1 h2 := ⟨h1, h2⟩

/-- As `Big.toy`, but a product with the one-word number 1 is written over the shared memory, as math/big does: after the
second call of `XMulY_Plus_ZMulT_DelD` with g2 = (0, 1), the memory of x3 holds g1y. -/
def Big.inPlace : Big :=
  { Big.toy with
    resAfter := fun g1x g1y g2x g2y x3 =>
      if g2x = 0 ∧ g2y = 1 ∧ 2 ^ 192 ≤ g1x ∧ 2 ^ 192 ≤ g1y then g1y else x3
    keeps' := by
      intro g1x g1y g2x g2y x3 h
      apply if_neg
      rintro ⟨_, h2, h3, _⟩
      rcases h with h | h
      · rw [h] at h3; norm_num at h3
      · rw [h2] at h; norm_num at h
    words := by
      intro g1x g1y g2x g2y x3 _ _ h1 h2 _ _ _ _ h3 h4
      split
      · exact ⟨h1, h2⟩
      · exact ⟨h3, h4⟩ }

/-! ## C44: conversions and scalars -/

/-- `BytesToBigInteger` is the little-endian value. -/
theorem C44_bytesToBigInteger (b : Bytes) : bytesToBigInteger b = (leVal b : ℤ) := bytesToBigInteger_eq b

/-- `IntsToBigInteger` is the value of the ten limbs. -/
theorem C44_intsToBigInteger (f : FE) : intsToBigInteger f = f.val := intsToBigInteger_eq f

/-- `FieldToBigInteger` is the value modulo p. -/
theorem C44_fieldToBigInteger {f : FE} (hf : Encodable f) : fieldToBigInteger f = f.val % (2 ^ 255 - 19) := by
  rw [fieldToBigInteger_eq hf, show (2 ^ 255 - 19 : ℤ) = fieldP from rfl, emod_fieldP]
  rfl

/-- `ReduceModGroupOrder` reduces byte strings of any length. -/
theorem C44_reduceModGroupOrder (b : Bytes) : reduceModGroupOrder U b = .ok (leBytes 32 (leVal b % L)) := by
  have hL : leVal b % L < 2 ^ 256 := lt_trans (Nat.mod_lt _ L_pos) (by rw [L_eq]; norm_num)
  unfold reduceModGroupOrder toEncodedFieldElement
  rw [bytesToBigInteger_eq, groupOrder_eq, ← Int.natCast_emod, toByteArray_nat U hL, Out.ok_bind,
    if_pos (Or.inr (leBytes_length _ _))]

/-- ... and agrees with the limb reduction on every byte string of at most 64 bytes. -/
theorem C44_reduce_agrees {b : Bytes} (h : b.length ≤ 64) : reduceModGroupOrder U b = .ok (modQ b) := by
  rw [C44_reduceModGroupOrder, modQ_spec, Nat.mod_eq_of_lt (a := leVal b) (b := 2 ^ 512)]
  refine lt_of_lt_of_le (leVal_lt b) ?_
  rw [show (2 : ℕ) ^ 512 = 256 ^ 64 by rw [show (256 : ℕ) = 2 ^ 8 by norm_num, ← pow_mul]]
  exact Nat.pow_le_pow_right (by norm_num) h

set_option exponentiation.threshold 600 in
/-- The hypothesis is needed: on 65 bytes the two differ. -/
theorem C44_reduce_differs : ∃ b : Bytes, b.length = 65 ∧ reduceModGroupOrder U b ≠ .ok (modQ b) := by
  refine ⟨List.replicate 64 0 ++ [1], rfl, ?_⟩
  rw [C44_reduceModGroupOrder, modQ_spec]
  intro h
  injection h with h
  have h2 := congrArg leVal h
  clear h
  have hv : leVal (List.replicate 64 0 ++ [1]) = 2 ^ 512 := by decide +kernel
  rw [hv, leVal_leBytes_of_lt, leVal_leBytes_of_lt, L_eq] at h2
  · revert h2
    generalize hx : (2 : ℕ) ^ 512 = x
    rw [Nat.mod_self, Nat.zero_mod]
    subst hx
    decide +kernel
  · exact lt_trans (Nat.mod_lt _ L_pos) (by rw [L_eq]; norm_num)
  · exact lt_trans (Nat.mod_lt _ L_pos) (by rw [L_eq]; norm_num)

/-- `multiplyAndAddModGroupOrder` is a * b + c modulo the group order, whatever the lengths. -/
theorem C44_multiplyAndAdd (a b c : Bytes) :
    multiplyAndAddModGroupOrder U a b c = .ok (leBytes 32 ((leVal a * leVal b + leVal c) % L)) := by
  have hL : (leVal a * leVal b + leVal c) % L < 2 ^ 256 := lt_trans (Nat.mod_lt _ L_pos) (by rw [L_eq]; norm_num)
  unfold multiplyAndAddModGroupOrder toEncodedFieldElement
  rw [bytesToBigInteger_eq, bytesToBigInteger_eq, bytesToBigInteger_eq, groupOrder_eq, ← Nat.cast_mul, ← Nat.cast_add,
    ← Int.natCast_emod, toByteArray_nat U hL, Out.ok_bind, if_pos (Or.inr (leBytes_length _ _))]

/-- ... and agrees with the limb version on all 32-byte strings. -/
theorem C44_multiplyAndAdd_agrees {a b c : Bytes} (ha : a.length = 32) (hb : b.length = 32) (hc : c.length = 32) :
    multiplyAndAddModGroupOrder U a b c = .ok (multiplyAndAddModQ a b c) := by
  have key : ∀ {x : Bytes}, x.length = 32 → leVal x % 2 ^ 256 = leVal x := by
    intro x hx
    apply Nat.mod_eq_of_lt
    have := leVal_lt x
    rw [hx] at this
    exact lt_of_lt_of_eq this (by norm_num)
  rw [C44_multiplyAndAdd, multiplyAndAddModQ_spec, key ha, key hb, key hc]

/-- `ToFieldElement` of a number below 2^255: a reduced field element with that residue. -/
theorem C44_toFieldElement {n : ℕ} (h : n < 2 ^ 255) :
    ∃ f, toFieldElement U (n : ℤ) = .ok f ∧ Reduced f ∧ f.toF = (n : F) := by
  unfold toFieldElement
  rw [toByteArray_nat U (by omega), Out.ok_bind]
  obtain ⟨h1, h2⟩ := decode_spec (leBytes 32 n)
  refine ⟨_, rfl, h1, ?_⟩
  rw [h2, List.take_of_length_le (by rw [leBytes_length]), leVal_leBytes_of_lt (by
    rw [show (256 : ℕ) ^ 32 = 2 ^ 256 by norm_num]; omega), Nat.mod_eq_of_lt h]

/-- `ToByteArray`, `ToEncodedFieldElement` and `toEncodedFieldElement` of a number below 2^256: its 32 bytes. -/
theorem C44_bytes {n : ℕ} (h : n < 2 ^ 256) : toByteArray U (n : ℤ) = .ok (leBytes 32 n) ∧
    toEncodedFieldElement U (n : ℤ) = .ok (leBytes 32 n) ∧ toEncodedFieldElement' U (n : ℤ) = .ok (leBytes 32 n) := by
  have e := toByteArray_nat U h
  unfold toEncodedFieldElement toEncodedFieldElement' newEncodedFieldElement
  rw [e, Out.ok_bind, Out.ok_bind, if_pos (Or.inr (leBytes_length _ _)), if_pos (Or.inl (leBytes_length _ _))]
  exact ⟨rfl, rfl, rfl⟩

/-- `ToByteArray` and `ToFieldElement` panic from 2^256 on. -/
theorem C44_tooLarge {n : ℤ} (h : 2 ^ 256 ≤ n) : toByteArray U n = .panic ∧ toFieldElement U n = .panic ∧
    toEncodedFieldElement U n = .panic ∧ toEncodedFieldElement' U n = .panic := by
  have e : toByteArray U n = .panic := if_pos h
  unfold toFieldElement toEncodedFieldElement toEncodedFieldElement'
  rw [e]
  exact ⟨rfl, rfl, rfl, rfl⟩

/-- `ToFieldElement` and `FieldToBigInteger` are inverse to each other on 0..p-1. -/
theorem C44_roundTrip {n : ℕ} (h : n < 2 ^ 255 - 19) :
    ∃ f, toFieldElement U (n : ℤ) = .ok f ∧ fieldToBigInteger f = (n : ℤ) := by
  obtain ⟨f, h1, h2, h3⟩ := C44_toFieldElement U (n := n) (by omega)
  refine ⟨f, h1, ?_⟩
  rw [fieldToBigInteger_eq h2.small.encodable, h3, ZMod.val_natCast, P_eq, Nat.mod_eq_of_lt h]

/-! ## C44: group elements -/

/-- `AddGroupElements` on any two points: it always returns a P3 element with Z = 1, and this is the sum exactly if what
the shared memory leaves in the two numbers `*g1x` (after the first call) and `*x3` (after the second call) is still what
it should be: `*g1x` is the x-coordinate of the first point, or does not matter because the second point has x = 0, and
`*x3` is the x-coordinate of the sum. -/
theorem C44_addGroupElements_exact {g1 g2 : GC} {q1 q2 : Pt} (h1 : g1.sys = .p2 ∨ g1.sys = .p3) (r1 : g1.Repr q1)
    (h2 : g2.sys = .p2 ∨ g2.sys = .p3) (r2 : g2.Repr q2) {x1' x3' : ℤ}
    (hx1 : G.xAfter q1.x.val q1.y.val q2.x.val q2.y.val = x1')
    (hx3 : G.resAfter q1.x.val q1.y.val q2.x.val q2.y.val (q1 + q2).x.val = x3') :
    ∃ r, addGroupElements U G g1 g2 = .ok r ∧ r.sys = .p3 ∧ r.Z = .one ∧
      (r.Repr (q1 + q2) ↔ ((x1' : F) = q1.x ∨ q2.x = 0) ∧ ((x3' % 2 ^ 255 : ℤ) : F) = (q1 + q2).x ∧
        ((x3' : F) = (q1 + q2).x ∨ (q1 + q2).y = 0)) := by
  obtain ⟨r, X, Y, T, e1, e2, e3, e4, e5, e6, e7, e8⟩ := addGroupElements_general U G h1 r1 h2 r2 x1' hx1 x3' hx3
  have hm := Pt.dm_ne q1 q2
  have hy : Y.toF = (q1 + q2).y ↔ (x1' : F) = q1.x ∨ q2.x = 0 := by
    rw [e7, Pt.add_y, div_left_inj' hm]
    constructor
    · intro h
      have h3 : ((x1' : F) - q1.x) * q2.x = 0 := by linear_combination h
      rcases mul_eq_zero.1 h3 with h4 | h4
      · left; linear_combination h4
      · right; exact h4
    · rintro (h | h)
      · rw [h]; ring
      · rw [h]; ring
  refine ⟨r, e1, by rw [e2]; rfl, by rw [e2]; rfl, ?_, ?_⟩
  · intro hr
    rw [e2] at hr
    obtain ⟨_, _, _, _, k5, k6, t, k7, _, k9⟩ := hr
    have k5' : X.toF = (q1 + q2).x * FE.one.toF := k5
    have k6' : Y.toF = (q1 + q2).y * FE.one.toF := k6
    have k7' : T = t := Option.some.inj k7
    have k9' : t.toF = (q1 + q2).x * (q1 + q2).y * FE.one.toF := k9
    rw [one_toF, mul_one] at k5' k6' k9'
    refine ⟨hy.1 k6', by rw [← e6]; exact k5', ?_⟩
    rw [← k7', e8, k6'] at k9'
    have h3 : ((x3' : F) - (q1 + q2).x) * (q1 + q2).y = 0 := by linear_combination k9'
    rcases mul_eq_zero.1 h3 with h4 | h4
    · left; linear_combination h4
    · right; exact h4
  · rintro ⟨k1, k2, k3⟩
    have hY := hy.2 k1
    rw [e2]
    refine GC.repr_affineP3 e3 e4 e5 (by rw [e6]; exact k2) hY ?_
    rw [e8, hY]
    rcases k3 with k3 | k3
    · rw [k3]
    · rw [k3, mul_zero, mul_zero]

/-- In particular it adds, if the affine x of the first and the affine y of the second argument are at least 2^64, or
the affine x of the first is 0.  For other points see `C44_add_neutral_wrong`. -/
theorem C44_addGroupElements {g1 g2 : GC} {q1 q2 : Pt} (h1 : g1.sys = .p2 ∨ g1.sys = .p3) (r1 : g1.Repr q1)
    (h2 : g2.sys = .p2 ∨ g2.sys = .p3) (r2 : g2.Repr q2)
    (hs : q1.x.val = 0 ∨ (2 ^ 64 ≤ q1.x.val ∧ 2 ^ 64 ≤ q2.y.val)) :
    ∃ r, addGroupElements U G g1 g2 = .ok r ∧ r.sys = .p3 ∧ r.Repr (q1 + q2) :=
  addGroupElements_ok U G h1 r1 h2 r2 (by
    rcases hs with hs | hs
    · left; exact_mod_cast hs
    · right; exact_mod_cast hs)

/-- `DoubleGroupElement` doubles, under the same condition. -/
theorem C44_doubleGroupElement {g : GC} {q : Pt} (h : g.sys = .p2 ∨ g.sys = .p3) (r : g.Repr q)
    (hs : q.x.val = 0 ∨ (2 ^ 64 ≤ q.x.val ∧ 2 ^ 64 ≤ q.y.val)) :
    ∃ r, doubleGroupElement U G g = .ok r ∧ r.sys = .p3 ∧ r.Repr (q + q) :=
  C44_addGroupElements U G h r h r hs

/-- Any other coordinate system panics. -/
theorem C44_add_panics {g1 g2 : GC} (h : (g1.sys ≠ .p2 ∧ g1.sys ≠ .p3) ∨ (g2.sys ≠ .p2 ∧ g2.sys ≠ .p3)) :
    addGroupElements U G g1 g2 = .panic := if_pos h

/-- `NegateGroupElement` negates every P3 element. -/
theorem C44_negateGroupElement {g : GC} {q : Pt} (h : g.sys = .p3) (r : g.Repr q) :
    ∃ n, negateGroupElement g = .ok n ∧ n.sys = .p3 ∧ n.Repr (-q) := by
  unfold GC.Repr at r
  rw [h] at r
  obtain ⟨h1, h2, h3, h4, h5, h6, t, h7, h8, h9⟩ := r
  refine ⟨.newP3 g.X.negate g.Y g.Z (some t.negate), ?_, rfl, (negate_val h1 (by norm_num) (by norm_num)).1, h2, h3, h4, ?_,
    h6, t.negate, rfl, (negate_val h8 (by norm_num) (by norm_num)).1, ?_⟩
  · unfold negateGroupElement
    rw [if_neg (by rw [h]; simp), h7]
    rfl
  · show g.X.negate.toF = -q.x * g.Z.toF
    rw [negate_toF h1 (by norm_num) (by norm_num), h5]; ring
  · show t.negate.toF = -q.x * q.y * g.Z.toF
    rw [negate_toF h8 (by norm_num) (by norm_num), h9]; ring

/-- Any other coordinate system panics. -/
theorem C44_negate_panics {g : GC} (h : g.sys ≠ .p3) : negateGroupElement g = .panic := if_pos h

/-- `ScalarMultiplyGroupElement` is the multiple by the encoded value of the field element, if all additions of the
binary method meet the condition of `C44_addGroupElements`. -/
theorem C44_scalarMultiply {g : GC} {q : Pt} (hs : g.sys = .p2 ∨ g.sys = .p3) (hr : g.Repr q) {f : FE}
    (hf : Encodable f) (hsafe : SafeMul q f.toF.val) :
    ∃ r, scalarMultiplyGroupElement U G g f = .ok r ∧ r.sys = .p3 ∧ r.Repr (f.toF.val • q) :=
  scalarMultiplyGroupElement_ok U G hs hr hf hsafe

/-- The condition holds for 2 * B. -/
example : SafeMul B 2 := by
  have hx : B.x.val = BxN := val_natCast_F (by decide +kernel)
  have hy : B.y.val = ByN := val_natCast_F (by decide +kernel)
  have h0 : ((0 : Pt).x.val : ℤ) = 0 := by
    show ((ZMod.val (0 : F) : ℕ) : ℤ) = 0
    rw [ZMod.val_zero]; rfl
  intro m _
  cases m with
  | zero =>
    refine ⟨Or.inr ?_, fun h => absurd h (by decide)⟩
    rw [show 2 / 2 ^ (0 + 1) = 1 from rfl, one_smul, hx, hy]
    exact ⟨by decide +kernel, by decide +kernel⟩
  | succ m =>
    have e : 2 / 2 ^ (m + 1 + 1) = 0 := Nat.div_eq_of_lt (by
      have : 1 ≤ 2 ^ m := Nat.one_le_two_pow
      rw [pow_succ, pow_succ]; omega)
    rw [e, Nat.mul_zero, zero_smul]
    exact ⟨Or.inl h0, fun _ => Or.inl h0⟩

/-- Multiplication by zero gives the neutral element for every point and library. -/
theorem C44_scalarMultiply_zero {g : GC} {q : Pt} (hs : g.sys = .p2 ∨ g.sys = .p3) (hr : g.Repr q) {f : FE}
    (hf : Encodable f) (h0 : f.toF = 0) :
    ∃ r, scalarMultiplyGroupElement U G g f = .ok r ∧ r.sys = .p3 ∧ r.Repr 0 := by
  have hv : f.toF.val = 0 := by rw [h0]; exact ZMod.val_zero
  have := C44_scalarMultiply U G hs hr hf (by
    intro m _
    rw [hv]
    refine ⟨Or.inl ?_, fun h => ?_⟩
    · rw [Nat.zero_div, zero_smul]
      show ((ZMod.val (0 : F) : ℕ) : ℤ) = 0
      rw [ZMod.val_zero]; rfl
    · rw [Nat.zero_testBit] at h; cases h)
  rwa [hv, zero_smul] at this

/-- `doubleScalarMultiplyGroupElements` is f1 * g1 - f2 * g2, if all additions meet the condition. -/
theorem C44_doubleScalarMultiply {g1 g2 : GC} {q1 q2 : Pt} (h1 : g1.sys = .p2 ∨ g1.sys = .p3) (r1 : g1.Repr q1)
    (h2 : g2.sys = .p2 ∨ g2.sys = .p3) (r2 : g2.Repr q2) {f1 f2 : FE} (e1 : Encodable f1) (e2 : Encodable f2)
    (s1 : SafeMul q1 f1.toF.val) (s2 : SafeMul q2 f2.toF.val)
    (s3 : SafeArgs (f1.toF.val • q1).x.val (f2.toF.val • q2).y.val) :
    ∃ r, doubleScalarMultiplyGroupElements U G g1 f1 g2 f2 = .ok r ∧ r.sys = .p3 ∧
      r.Repr (f1.toF.val • q1 - f2.toF.val • q2) := by
  obtain ⟨a, a1, a2, a3⟩ := scalarMultiplyGroupElement_ok U G h1 r1 e1 s1
  obtain ⟨b, b1, b2, b3⟩ := scalarMultiplyGroupElement_ok U G h2 r2 e2 s2
  obtain ⟨n, n1, n2, n3⟩ := GC.negate_repr b2 b3
  obtain ⟨r, c1, c2, c3⟩ := addGroupElements_ok U G (Or.inr a2) a3 (Or.inr n2) n3 (by exact s3)
  refine ⟨r, ?_, c2, by rw [sub_eq_add_neg]; exact c3⟩
  unfold doubleScalarMultiplyGroupElements
  rw [a1, Out.ok_bind, b1, Out.ok_bind, n1]
  exact c1

/-- `ToRepresentation` keeps the point, from every coordinate system but PRECOMPUTED to every coordinate system. -/
theorem C44_toRepresentation {g : GC} {q : Pt} (hs : g.sys ≠ .precomputed) (hr : g.ReprA q) (sys : Sys) :
    ∃ r, toRepresentation U G g sys = .ok r ∧ r.sys = sys ∧ r.ReprA q :=
  toRepresentation_ok U G hs hr sys

/-- A P1XP1 source without T is refused with an error, not with a panic. -/
theorem C44_toRepresentation_nilT {g : GC} (hs : g.sys = .p1xp1) (ht : g.T = none) (sys : Sys) :
    ∃ m, toRepresentation U G g sys = .err m := by
  unfold toRepresentation
  rw [hs, ht]
  exact ⟨_, rfl⟩

/-- From PRECOMPUTED it does not: the division is replaced by the inverse of the product.  A neutral x or y panics; in all
other cases the result has y-coordinate 1/(4y), x-coordinate 1/(8 d x^2 y). -/
theorem C44_fromPrecomputed {g : GC} {q : Pt} (hs : g.sys = .precomputed) (hr : g.Repr q) :
    if q.x * q.y = 0 then ∀ sys, toRepresentation U G g sys = .panic
    else ∃ r, toRepresentation U G g .p2 = .ok r ∧ r.sys = .p2 ∧ r.Z = .one ∧ r.X.toF * (8 * d * q.x ^ 2 * q.y) = 1 ∧
      r.Y.toF * (4 * q.y) = 1 := by
  unfold GC.Repr at hr
  rw [hs] at hr
  obtain ⟨h1, h2, h3, h4, h5, h6⟩ := hr
  have eX : ((fieldToBigInteger g.X : ℤ) : F) = q.y + q.x := by rw [fieldToBigInteger_eq h1.encodable, cast_val, h4]
  have eY : ((fieldToBigInteger g.Y : ℤ) : F) = q.y - q.x := by rw [fieldToBigInteger_eq h2.encodable, cast_val, h5]
  have eZ : ((fieldToBigInteger g.Z : ℤ) : F) = 2 * d * q.x * q.y := by
    rw [fieldToBigInteger_eq h3.encodable, cast_val, h6]
  have e1 : (((fieldToBigInteger g.X - fieldToBigInteger g.Y) * (fieldToBigInteger g.Z * 2) : ℤ) : F) =
      8 * d * q.x ^ 2 * q.y := by push_cast; rw [eX, eY, eZ]; ring
  have e2 : (((fieldToBigInteger g.X + fieldToBigInteger g.Y) * 2 : ℤ) : F) = 4 * q.y := by
    push_cast; rw [eX, eY]; ring
  split
  · rename_i h0
    intro sys
    unfold toRepresentation
    rw [hs]
    dsimp only
    rw [invP_zero G (by
      rw [e1, show 8 * d * q.x ^ 2 * q.y = 8 * d * q.x * (q.x * q.y) by ring, h0, mul_zero])]
    rfl
  · rename_i h0
    have hx : q.x ≠ 0 := fun h => h0 (by rw [h, zero_mul])
    have hy : q.y ≠ 0 := fun h => h0 (by rw [h, mul_zero])
    have h2' : (2 : F) ≠ 0 := two_ne
    have n2 : 4 * q.y ≠ 0 := mul_ne_zero (by rw [show (4 : F) = 2 * 2 by norm_num]; exact mul_ne_zero h2' h2') hy
    have n1 : 8 * d * q.x ^ 2 * q.y ≠ 0 := by
      refine mul_ne_zero (mul_ne_zero (mul_ne_zero ?_ ?_) (pow_ne_zero 2 hx)) hy
      · rw [show (8 : F) = 2 * 2 * 2 by norm_num]; exact mul_ne_zero (mul_ne_zero h2' h2') h2'
      · intro h; exact d_nonsq 0 (by rw [h]; ring)
    obtain ⟨X, X1, X2, X3⟩ := toFieldElement_val U (8 * d * q.x ^ 2 * q.y)⁻¹
    obtain ⟨Y, Y1, Y2, Y3⟩ := toFieldElement_val U (4 * q.y)⁻¹
    refine ⟨.newP2 X Y .one, ?_, rfl, rfl, ?_, ?_⟩
    · unfold toRepresentation
      rw [hs]
      dsimp only
      rw [invP_ok G (by rw [e1]; exact n1), Out.ok_bind, invP_ok G (by rw [e2]; exact n2), Out.ok_bind, e1, e2,
        emod_fieldP, cast_val, emod_fieldP, cast_val]
      unfold getNeeCoor
      rw [X1, Out.ok_bind, Y1, Out.ok_bind]
    · show X.toF * _ = 1
      rw [X3, inv_mul_cancel₀ n1]
    · show Y.toF * _ = 1
      rw [Y3, inv_mul_cancel₀ n2]

/-- So a PRECOMPUTED source is converted wrongly whatever the point is: the result, if there is one, does not represent
it. -/
theorem C44_fromPrecomputed_wrong {g : GC} {q : Pt} (hs : g.sys = .precomputed) (hr : g.Repr q) :
    ¬ ∃ r, toRepresentation U G g .p2 = .ok r ∧ r.Repr q := by
  have h := C44_fromPrecomputed U G hs hr
  rintro ⟨r, h1, hq⟩
  split at h
  · rw [h .p2] at h1; cases h1
  · obtain ⟨r', k1, k2, k3, k4, k5⟩ := h
    obtain rfl : r' = r := Out.ok.inj (k1.symm.trans h1)
    obtain ⟨_, _, _, _, h5, h6⟩ := hq.projective (Or.inl k2)
    rw [k3, one_toF, mul_one] at h5 h6
    rw [h5] at k4
    rw [h6] at k5
    have hd : d * 121666 = -121665 := by
      have h0 := ofNat_ne_zero_F (n := 121666) (by decide)
      unfold d
      exact div_mul_cancel₀ _ (by exact_mod_cast h0)
    have hc := q.on
    unfold OnCurve at hc
    have h2 : q.x ^ 2 * (d + 4) = -3 := by linear_combination (1 - d * q.x ^ 2) * k5 - 4 * hc
    have h3 : 16 * d ^ 2 * q.x ^ 6 = 1 := by
      linear_combination (8 * d * q.x ^ 2 * q.y * q.x + 1) * k4 - 16 * d ^ 2 * q.x ^ 6 * k5
    have h4 : (d + 4) ^ 3 + 432 * d ^ 2 = 0 := by
      have e : 16 * d ^ 2 * (q.x ^ 2 * (d + 4)) ^ 3 = 16 * d ^ 2 * (-3) ^ 3 := by rw [h2]
      linear_combination e - (d + 4) ^ 3 * h3
    apply ofNat_ne_zero_F (n := 826635146388894199) (by decide)
    have h7 : (121666 : F) ^ 3 * ((d + 4) ^ 3 + 432 * d ^ 2) = 0 := by rw [h4, mul_zero]
    have h8 : (121666 : F) ^ 3 * ((d + 4) ^ 3 + 432 * d ^ 2) =
        (d * 121666 + 4 * 121666) ^ 3 + 432 * 121666 * (d * 121666) ^ 2 := by ring
    rw [h8, hd] at h7
    push_cast
    linear_combination h7

/-- What math/big does with numbers of four words when the second operand of a product is the number 1: the product is
written over the memory of the first operand, also when this memory is shared with another `big.Int`. -/
def Big.WritesInPlace (G : Big) : Prop := ∀ x y r : ℤ, 2 ^ 192 ≤ x → 2 ^ 192 ≤ y → G.resAfter x y 0 1 r = y

example : Big.inPlace.WritesInPlace := fun _ _ _ hx hy => if_pos ⟨rfl, rfl, hx, hy⟩

/-- With such a library, adding the neutral element to a point (x, y) with coordinates of four words gives an element with
both coordinates y, which is never that point.  So the full claim about `AddGroupElements` is false unless math/big never
multiplies in place. -/
theorem C44_add_neutral_wrong (hG : G.WritesInPlace) {g : GC} {q : Pt} (hs : g.sys = .p2 ∨ g.sys = .p3) (hr : g.Repr q)
    (hx : 2 ^ 192 ≤ q.x.val) (hy : 2 ^ 192 ≤ q.y.val) :
    ∃ r, addGroupElements U G g .zeroP3 = .ok r ∧ r.Z = .one ∧ r.X.toF = q.y ∧ ¬ r.Repr q := by
  obtain ⟨r, X, Y, T, e1, e2, e3, e4, e5, e6, e7, e8⟩ := addGroupElements_general U G hs hr (Or.inr rfl)
    GC.zeroP3_repr _ rfl (q.y.val : ℤ) (by
      have h0 : (0 : Pt).x.val = 0 := ZMod.val_zero
      have h1 : (0 : Pt).y.val = 1 := by
        have := one_val
        exact_mod_cast this
      rw [h0, h1]
      exact hG _ _ _ (by exact_mod_cast hx) (by exact_mod_cast hy))
  rw [cast_val_mod] at e6
  refine ⟨r, e1, by rw [e2]; rfl, by rw [e2]; exact e6, fun h => ?_⟩
  obtain ⟨_, _, _, _, h5, _⟩ := h.projective (Or.inr (by rw [e2]; rfl))
  rw [e2] at h5
  have h6 : X.toF = q.x * FE.one.toF := h5
  rw [one_toF, mul_one, e6] at h6
  have hc := q.on
  unfold OnCurve at hc
  apply Pt.dp_ne q q
  linear_combination (q.y + q.x) * h6 - hc

/-- The base point is such a point. -/
example {g : GC} (hs : g.sys = .p2 ∨ g.sys = .p3) (hr : g.Repr B) :
    ∃ r, addGroupElements U Big.inPlace g .zeroP3 = .ok r ∧ ¬ r.Repr B := by
  have hx : B.x.val = BxN := val_natCast_F (by decide +kernel)
  have hy : B.y.val = ByN := val_natCast_F (by decide +kernel)
  obtain ⟨r, h1, _, _, h2⟩ := C44_add_neutral_wrong U Big.inPlace (fun _ _ _ hx hy => if_pos ⟨rfl, rfl, hx, hy⟩) hs hr
    (by rw [hx]; decide +kernel) (by rw [hy]; decide +kernel)
  exact ⟨r, h1, h2⟩

/-- The base point meets the hypotheses of the theorems above; the condition on the coordinates holds for it. -/
example : ∃ r, addGroupElements Utils.toy Big.toy (GC.newP3 (FE.decode (leBytes 32 BxN)) (FE.decode (leBytes 32 ByN)) .one
    (some (FE.decode (leBytes 32 (BxN * ByN % (2 ^ 255 - 19)))))) (GC.newP3 (FE.decode (leBytes 32 BxN))
    (FE.decode (leBytes 32 ByN)) .one (some (FE.decode (leBytes 32 (BxN * ByN % (2 ^ 255 - 19)))))) = .ok r ∧
    r.sys = .p3 ∧ r.Repr (B + B) := by
  have key : ∀ n : ℕ, n < 2 ^ 255 - 19 → Reduced (FE.decode (leBytes 32 n)) ∧ (FE.decode (leBytes 32 n)).toF = (n : F) := by
    intro n hn
    obtain ⟨h1, h2⟩ := decode_spec (leBytes 32 n)
    refine ⟨h1, ?_⟩
    rw [h2, List.take_of_length_le (by rw [leBytes_length]), leVal_leBytes_of_lt (by
      rw [show (256 : ℕ) ^ 32 = 2 ^ 256 by norm_num]; omega), Nat.mod_eq_of_lt (by omega)]
  obtain ⟨a1, a2⟩ := key BxN (by decide +kernel)
  obtain ⟨b1, b2⟩ := key ByN (by decide +kernel)
  obtain ⟨c1, c2⟩ := key (BxN * ByN % (2 ^ 255 - 19)) (Nat.mod_lt _ (by norm_num))
  have hr := GC.repr_affineP3 (q := B) a1 b1 c1 a2 b2 (by
    rw [c2]
    show _ = ((BxN : ℕ) : F) * ((ByN : ℕ) : F)
    rw [← Nat.cast_mul]
    exact cast_eq (by rw [Nat.mod_mod]))
  refine C44_addGroupElements Utils.toy Big.toy (Or.inr rfl) hr (Or.inr rfl) hr (Or.inr ⟨?_, ?_⟩)
  · rw [show B.x.val = BxN from val_natCast_F (by decide +kernel)]; decide +kernel
  · rw [show B.y.val = ByN from val_natCast_F (by decide +kernel)]; decide +kernel

/-! ## C45: recovering a point from its y-coordinate -/

/-- What `GetAffineXFromAffineY` does for every y and sign: it returns 0 for y = 0, 1, -1 modulo p and fails for all
other y. -/
theorem C45_getAffineX (y : ℤ) (s : Bool) :
    getAffineXFromAffineY G y s =
      if (y : F) = 0 ∨ (y : F) ^ 2 = 1 then .ok 0 else .err "not a valid Ed25519GroupElement" :=
  getAffineX_exact G y s

/-- So it never returns a correct x for a point with x ≠ 0, with whichever sign. -/
theorem C45_never_correct (q : Pt) (s : Bool) (h : q.x ≠ 0) : getAffineXFromAffineY G (q.y.val : ℤ) s ≠ .ok (q.x.val : ℤ) := by
  rw [getAffineX_exact]
  split
  · intro e
    injection e with e
    apply h
    have : q.x.val = 0 := by exact_mod_cast e.symm
    exact (ZMod.val_eq_zero _).1 this
  · intro e; cases e

theorem leVal_clearTop {b : Bytes} (hb : b.length = 32) :
    b.set 31 (b[31] &&& 0x7f) = leBytes 32 (leVal b % 2 ^ 255) := by
  obtain ⟨l, x, rfl, hl⟩ : ∃ l x, b = l ++ [x] ∧ l.length = 31 := by
    refine ⟨b.take 31, b[31], ?_, by rw [List.length_take]; omega⟩
    have h := List.take_concat_get' b 31 (by omega)
    rw [List.take_of_length_le (show b.length ≤ 31 + 1 by omega)] at h
    exact h.symm
  have e1 : (l ++ [x])[31] = x := by
    rw [List.getElem_append_right (by omega)]; simp [hl]
  have e2 : (l ++ [x]).set 31 ((l ++ [x])[31] &&& 0x7f) = l ++ [x &&& 0x7f] := by
    rw [e1, List.set_append_right _ _ (by omega), hl]; rfl
  rw [e2]
  have hm : (x &&& 0x7f).toNat = x.toNat % 128 := by
    rw [UInt8.toNat_and]
    exact Nat.and_two_pow_sub_one_eq_mod x.toNat 7
  have hx := x.toNat_lt
  have hlt := leVal_lt l
  rw [hl] at hlt
  have e3 : leVal (l ++ [x]) % 2 ^ 255 = leVal (l ++ [x &&& 0x7f]) := by
    rw [leVal_append, leVal_append, hl]
    simp only [leVal, hm]
    generalize leVal l = v at hlt ⊢
    rw [show (256 : ℕ) ^ 31 = 2 ^ 248 by norm_num] at hlt ⊢
    omega
  rw [e3]
  have := leBytes_leVal (l ++ [x &&& 0x7f])
  rw [List.length_append, hl] at this
  exact this.symm

/-- What `ToGroupElement` does with every 32-byte string: it clears the top bit of the caller's bytes, accepts exactly
y = 0, 1, -1 modulo p, and then returns (0, y). -/
theorem C45_toGroupElement {b : Bytes} (hb : b.length = 32) :
    (toGroupElement U G b).1 = leBytes 32 (leVal b % 2 ^ 255) ∧
    (if ((leVal b % 2 ^ 255 : ℕ) : F) = 0 ∨ ((leVal b % 2 ^ 255 : ℕ) : F) ^ 2 = 1 then
      ∃ g t, (toGroupElement U G b).2 = .ok g ∧ g.sys = .p3 ∧ g.Z = .one ∧ g.T = some t ∧ Reduced g.X ∧ Reduced g.Y ∧
        Reduced t ∧ g.X.toF = 0 ∧ g.Y.toF = ((leVal b % 2 ^ 255 : ℕ) : F) ∧ t.toF = 0
    else (toGroupElement U G b).2 = .err "not a valid Ed25519GroupElement") := by
  have h31 : b[31]? = some (b[31]'(by omega)) := List.getElem?_eq_getElem (by omega)
  have hlt : leVal b % 2 ^ 255 < 2 ^ 255 := Nat.mod_lt _ (by norm_num)
  unfold toGroupElement
  dsimp only
  rw [h31]
  dsimp only
  rw [leVal_clearTop hb, bytesToBigInteger_eq, leVal_leBytes_of_lt (by
    rw [show (256 : ℕ) ^ 32 = 2 ^ 256 by norm_num]; omega), getAffineX_exact, Int.cast_natCast]
  generalize leVal b % 2 ^ 255 = y at hlt ⊢
  refine ⟨rfl, ?_⟩
  split
  · obtain ⟨f, f1, f2, f3⟩ := C44_toFieldElement U hlt
    obtain ⟨z, z1, z2, z3⟩ := C44_toFieldElement U (n := 0) (by norm_num)
    rw [Nat.cast_zero] at z1 z3
    refine ⟨.newP3 z f .one (some z), z, ?_, rfl, rfl, rfl, z2, f2, z2, z3, f3, z3⟩
    rw [Out.ok_bind, zero_mul, show (0 : ℤ) % fieldP = 0 from rfl, z1, Out.ok_bind, f1, Out.ok_bind, Out.ok_bind]
  · rfl

/-- Shorter byte strings panic. -/
theorem C45_short {b : Bytes} (hb : b.length < 32) : (toGroupElement U G b).2 = .panic := by
  have h31 : b[31]? = none := List.getElem?_eq_none (by omega)
  unfold toGroupElement
  dsimp only
  rw [h31]

/-- The encodings accepted with a correct result are exactly those with y = 1 or y = -1. -/
theorem C45_correct_iff {b : Bytes} (hb : b.length = 32) :
    (∃ g q, (toGroupElement U G b).2 = .ok g ∧ g.Repr q) ↔ ((leVal b % 2 ^ 255 : ℕ) : F) ^ 2 = 1 := by
  obtain ⟨-, h⟩ := C45_toGroupElement U G hb
  generalize ((leVal b % 2 ^ 255 : ℕ) : F) = y at h ⊢
  constructor
  · rintro ⟨g, q, h1, h2⟩
    split at h
    · obtain ⟨g', t, e1, e2, e3, e4, e5, e6, e7, e8, e9, e10⟩ := h
      rw [h1] at e1
      injection e1 with e1
      subst e1
      obtain ⟨_, _, _, _, hx, hy⟩ := h2.projective (Or.inr e2)
      rw [e3, one_toF, mul_one] at hx hy
      have hq := q.on
      unfold OnCurve at hq
      rw [← hx, ← hy, e8, e9] at hq
      linear_combination hq
    · rw [h1] at h; cases h
  · intro hy
    rw [if_pos (Or.inr hy)] at h
    obtain ⟨g, t, e1, e2, e3, e4, e5, e6, e7, e8, e9, e10⟩ := h
    refine ⟨g, ⟨0, y, by unfold OnCurve; linear_combination hy⟩, e1, ?_⟩
    unfold GC.Repr
    rw [e2]
    refine ⟨e5.small, e6.small, by rw [e3]; exact one_red.small, by rw [e3, one_toF]; exact one_ne_zero, ?_, ?_, t, e4,
      e7.small, ?_⟩
    · rw [e8]; exact (zero_mul _).symm
    · rw [e9, e3, one_toF, mul_one]
    · rw [e10]; show 0 = 0 * y * g.Z.toF; ring

/-- Every point with x ≠ 0 is rejected or decoded wrongly, although `Decode` decodes it. -/
theorem C45_rejects {q : Pt} (h : q.x ≠ 0) :
    (∃ g, GC.decode (encodePoint q) = .ok g ∧ g.Repr q) ∧
    ∀ g, (toGroupElement U G (encodePoint q)).2 = .ok g → ¬ ∃ r, g.Repr r := by
  have ht : (encodePoint q).take 32 = encodePoint q := List.take_of_length_le (by rw [encodePoint_length])
  constructor
  · obtain ⟨g, h1, h2, h3, -⟩ := GC.decode_ok (raw := encodePoint q) (Or.inl (encodePoint_length q)) (q := q)
      (by rw [ht]; exact decodes_encodePoint q)
    exact ⟨g, h1, h3⟩
  · rintro g hg ⟨r, hr⟩
    have h1 := (C45_correct_iff U G (encodePoint_length q)).1 ⟨g, r, hg, hr⟩
    rw [← (decodes_encodePoint q).1] at h1
    have hq := q.on
    unfold OnCurve at hq
    rw [h1] at hq
    have h2 : q.x ^ 2 * (1 + d) = 0 := by linear_combination -hq
    rcases mul_eq_zero.1 h2 with h3 | h3
    · exact h (pow_eq_zero_iff (by norm_num) |>.1 h3)
    · exact one_add_d h3

/-- The base point has x ≠ 0. -/
example : B.x ≠ 0 := by have := ofNat_ne_zero_F (n := BxN) (by decide +kernel); exact this

/-! ## C49: random test data -/

/-- `GetRandomByteArray` delivers the first n bytes of the random source, or panics if there are fewer before an
error. -/
theorem C49_byteArray (n : ℕ) (w : World) :
    (n ≤ (avail (w 0)).length → (getRandomByteArray n w).1 = .ok ((content (w 0)).take n) ∧
      content ((getRandomByteArray n w).2 0) = (content (w 0)).drop n) ∧
    ((avail (w 0)).length < n → (getRandomByteArray n w).1 = .panic) := by
  constructor
  · intro h
    obtain ⟨h1, h2, _⟩ := read_ok (seed := 0) h
    refine ⟨?_, h2⟩
    unfold getRandomByteArray
    dsimp only
    rw [h1]; rfl
  · intro h
    obtain ⟨e, h1⟩ := read_short (seed := 0) h
    unfold getRandomByteArray
    dsimp only
    rw [h1]; rfl

theorem randomLimbs_ok : ∀ (n : ℕ) (w : World) (l : List Int64), (randomLimbs n w).1 = .ok l →
    l = List.replicate n 16777216
  | 0, w, l, h => by
    injection h with h; exact h.symm
  | n + 1, w, l, h => by
    unfold randomLimbs at h
    rcases hr : readTwo w with ⟨r, w'⟩
    cases r with
    | ok v =>
      rw [Act.bind_ok hr] at h
      rcases hn : randomLimbs n w' with ⟨r2, w2⟩
      cases r2 with
      | ok l' =>
        rw [Act.bind_ok hn] at h
        have := randomLimbs_ok n w' l' (by rw [hn])
        injection h with h
        rw [← h, this]
        rfl
      | err e => rw [Act.bind_err (by rw [hn])] at h; cases h
      | panic => rw [Act.bind_panic (by rw [hn])] at h; cases h
    | err e => rw [Act.bind_err (by rw [hr])] at h; cases h
    | panic => rw [Act.bind_panic (by rw [hr])] at h; cases h

/-- `GetRandomFieldElement` is not random: whatever the random source delivers, every limb is 2^24. -/
theorem C49_fieldElement_constant (w : World) (f : FE) (h : (getRandomFieldElement w).1 = .ok f) :
    f = ⟨16777216, 16777216, 16777216, 16777216, 16777216, 16777216, 16777216, 16777216, 16777216, 16777216⟩ := by
  unfold getRandomFieldElement at h
  rcases hn : randomLimbs 10 w with ⟨r, w'⟩
  cases r with
  | ok l =>
    rw [Act.bind_ok hn] at h
    have := randomLimbs_ok 10 w l (by rw [hn])
    injection h with h
    rw [← h, this]
    rfl
  | err e => rw [Act.bind_err (by rw [hn])] at h; cases h
  | panic => rw [Act.bind_panic (by rw [hn])] at h; cases h

/-- The answers of a reader that is asked for two bytes at a time: an answer with more bytes is delivered in pieces, its error with the
last piece. -/
def pieces (d : Bytes) (err : Option String) : Reader :=
  if 2 < d.length then ⟨d.take 2, none⟩ :: pieces (d.drop 2) err else [⟨d, err⟩]
termination_by d.length
decreasing_by rw [List.length_drop]; omega

def answers (r : Reader) : Reader := r.flatMap fun e => pieces e.data e.err

theorem answers_cons (e : Ev) (r : Reader) : answers (e :: r) =
    if 2 < e.data.length then ⟨e.data.take 2, none⟩ :: answers (⟨e.data.drop 2, e.err⟩ :: r) else e :: answers r := by
  unfold answers
  rw [List.flatMap_cons, pieces]
  split
  · rw [List.flatMap_cons]; rfl
  · rfl

theorem readTwo_spec (w : World) :
    ((∃ a t, answers (w 0) = a :: t ∧ a.err = none ∧ (readTwo w).1 = .ok a.data ∧ answers ((readTwo w).2 0) = t) ∨
     ((∀ a, (answers (w 0)).head? = some a → a.err ≠ none) ∧ (readTwo w).1 = .panic ∧ answers ((readTwo w).2 0) = (answers (w 0)).drop 1)) ∧
    ∀ i, i ≠ 0 → (readTwo w).2 i = w i := by
  unfold readTwo
  cases hw : w 0 with
  | nil => exact ⟨.inr ⟨fun a h => (by simp [answers] at h), rfl, (congrArg answers hw).trans rfl⟩, fun i _ => rfl⟩
  | cons e r =>
    dsimp only
    rw [answers_cons]
    generalize hA : answers = A
    by_cases h2 : 2 < e.data.length
    · have hn : ¬ (e.err.isSome ∧ ¬ 2 < e.data.length) := fun h => h.2 h2
      simp only [if_pos h2, if_neg hn]
      exact ⟨.inl ⟨_, _, rfl, rfl, rfl, by simp⟩, fun i hi => by simp [hi]⟩
    · simp only [if_neg h2]
      cases he : e.err with
      | none =>
        simp only [Option.isSome_none, Bool.false_eq_true, false_and, if_false]
        exact ⟨.inl ⟨_, _, rfl, he, by simp only [Out.ok.injEq]; exact List.take_of_length_le (by omega), by simp⟩, fun i hi => by simp [hi]⟩
      | some x =>
        simp only [Option.isSome_some, true_and, if_pos h2]
        refine ⟨.inr ⟨fun a h => ?_, ?_⟩, fun i hi => by simp [hi]⟩
        rotate_left
        · simp
        injection h with h
        rw [← h, he]
        exact nofun

theorem randomLimbs_spec : ∀ (n : ℕ) (w : World),
    (n ≤ (answers (w 0)).length ∧ (∀ a ∈ (answers (w 0)).take n, a.err = none) →
      (∃ l, (randomLimbs n w).1 = .ok l) ∧ answers ((randomLimbs n w).2 0) = (answers (w 0)).drop n) ∧
    (¬ (n ≤ (answers (w 0)).length ∧ ∀ a ∈ (answers (w 0)).take n, a.err = none) → (randomLimbs n w).1 = .panic ∧
      ∃ j < n, answers ((randomLimbs n w).2 0) = (answers (w 0)).drop (j + 1) ∧ (∀ a ∈ (answers (w 0)).take j, a.err = none) ∧
        ∀ a, (answers (w 0))[j]? = some a → a.err ≠ none) ∧
    ∀ i, i ≠ 0 → (randomLimbs n w).2 i = w i
  | 0, w => ⟨fun _ => ⟨⟨_, rfl⟩, rfl⟩, fun h => absurd ⟨Nat.zero_le _, fun a ha => by simp at ha⟩ h, fun _ _ => rfl⟩
  | n + 1, w => by
    obtain ⟨h, hi⟩ := readTwo_spec w
    rcases hr : readTwo w with ⟨r, w'⟩
    rw [hr] at h hi
    dsimp only at h hi
    unfold randomLimbs
    rcases h with ⟨a, t, h1, h2, h3, h4⟩ | ⟨h1, h3, h4⟩
    · subst h3
      rw [Act.bind_ok hr]
      obtain ⟨k1, k2, k3⟩ := randomLimbs_spec n w'
      rw [h4] at k1 k2
      rw [h1]
      rcases hn : randomLimbs n w' with ⟨r2, w2⟩
      rw [hn] at k1 k2 k3
      dsimp only at k1 k2 k3
      have hiff : (n + 1 ≤ (a :: t).length ∧ ∀ b ∈ (a :: t).take (n + 1), b.err = none) ↔ (n ≤ t.length ∧ ∀ b ∈ t.take n, b.err = none) := by
        rw [List.take_succ_cons, List.length_cons]
        simp only [List.mem_cons, forall_eq_or_imp, h2, true_and, Nat.add_le_add_iff_right]
      rw [hiff]
      refine ⟨fun h => ?_, fun h => ?_, fun i h0 => ?_⟩
      · obtain ⟨⟨l, hl⟩, k⟩ := k1 h
        subst hl
        rw [Act.bind_ok hn]
        exact ⟨⟨_, rfl⟩, k⟩
      · obtain ⟨hp, j, hj, j1, j2, j3⟩ := k2 h
        subst hp
        have e : (randomLimbs n).bind (fun l => Act.lift (.ok (randomLimb a.data :: l))) w' = (.panic, w2) := by
          unfold Act.bind; rw [hn]
        rw [e]
        refine ⟨rfl, j + 1, by omega, j1, fun b hb => ?_, fun b hb => ?_⟩
        · rw [List.take_succ_cons, List.mem_cons] at hb
          rcases hb with rfl | hb
          · exact h2
          · exact j2 b hb
        · exact j3 b (by simpa using hb)
      · rw [← hi i h0, ← k3 i h0]
        unfold Act.bind
        rw [hn]
        cases r2 <;> rfl
    · subst h3
      have e : readTwo.bind (fun v => (randomLimbs n).bind fun l => Act.lift (.ok (randomLimb v :: l))) w = (.panic, w') := by
        unfold Act.bind; rw [hr]
      rw [e]
      refine ⟨fun h => ?_, fun _ => ⟨rfl, 0, by omega, h4, fun b hb => by simp at hb, fun b hb => h1 b (by rwa [List.head?_eq_getElem?])⟩, hi⟩
      exfalso
      cases ha : answers (w 0) with
      | nil => rw [ha] at h; exact absurd h.1 (by simp)
      | cons b t =>
        rw [ha] at h h1
        exact h1 b rfl (h.2 b (by simp))

/-- `GetRandomFieldElement` asks ten times for two bytes (it does not insist on getting two) and panics at the first error. -/
theorem C49_fieldElement_reads (w : World) :
    (10 ≤ (answers (w 0)).length ∧ (∀ a ∈ (answers (w 0)).take 10, a.err = none) →
      (∃ f, (getRandomFieldElement w).1 = .ok f) ∧ answers ((getRandomFieldElement w).2 0) = (answers (w 0)).drop 10) ∧
    (¬ (10 ≤ (answers (w 0)).length ∧ ∀ a ∈ (answers (w 0)).take 10, a.err = none) → (getRandomFieldElement w).1 = .panic ∧
      ∃ j < 10, answers ((getRandomFieldElement w).2 0) = (answers (w 0)).drop (j + 1) ∧ (∀ a ∈ (answers (w 0)).take j, a.err = none) ∧
        ∀ a, (answers (w 0))[j]? = some a → a.err ≠ none) ∧
    ∀ i, i ≠ 0 → (getRandomFieldElement w).2 i = w i := by
  obtain ⟨k1, k2, k3⟩ := randomLimbs_spec 10 w
  rcases hn : randomLimbs 10 w with ⟨r, w'⟩
  rw [hn] at k1 k2 k3
  have e : getRandomFieldElement w = (match (generalizing := false) r with
      | .ok l => (.ok (.ofLimbs fun i => l.getD i 0), w') | .err x => (.err x, w') | .panic => (.panic, w')) := by
    unfold getRandomFieldElement Act.bind
    rw [hn]
    cases r <;> rfl
  rw [e]
  dsimp only at k1 k2 k3
  refine ⟨fun h => ?_, fun h => ?_, fun i hi => ?_⟩
  · obtain ⟨⟨l, hl⟩, k⟩ := k1 h
    subst hl
    exact ⟨⟨_, rfl⟩, k⟩
  · obtain ⟨hp, k⟩ := k2 h
    subst hp
    exact ⟨rfl, k⟩
  · rw [← k3 i hi]
    cases r <;> rfl

/-- Both cases: 30 bytes in answers of three (each is delivered as two and one), and a source that fails at once. -/
example : (10 ≤ (answers (List.replicate 10 ⟨[7, 8, 9], none⟩)).length ∧
      ∀ a ∈ (answers (List.replicate 10 ⟨[7, 8, 9], none⟩)).take 10, a.err = none) ∧
    ¬ 10 ≤ (answers [⟨[1], some "broken"⟩]).length := by
  have e : answers (List.replicate 10 ⟨[7, 8, 9], none⟩) = (List.replicate 10 [⟨[7, 8], none⟩, ⟨[9], none⟩]).flatten := by
    have h3 : pieces [7, 8, 9] none = [⟨[7, 8], none⟩, ⟨[9], none⟩] := by rw [pieces, if_pos (by decide), pieces, if_neg (by decide)]; rfl
    unfold answers
    rw [List.flatMap_replicate, h3]
  have e' : answers [⟨[1], some "broken"⟩] = [⟨[1], some "broken"⟩] := by
    rw [answers_cons, if_neg (by decide)]; rfl
  rw [e, e']
  decide

/-- A source that delivers two bytes per call: the function returns. -/
example : (getRandomFieldElement (fun _ => List.replicate 10 ⟨[7, 9], none⟩)).1 =
    .ok ⟨16777216, 16777216, 16777216, 16777216, 16777216, 16777216, 16777216, 16777216, 16777216, 16777216⟩ := by
  decide +kernel

/-- `GetRandomEncodedFieldElement`: with 32 or 64 the random bytes with bit 255 cleared, otherwise a panic. -/
theorem C49_encodedFieldElement (n : ℕ) (w : World) (hn : n ≤ (avail (w 0)).length) :
    (getRandomEncodedFieldElement n w).1 =
      if n = 64 ∨ n = 32 then
        .ok (leBytes 32 (leVal ((content (w 0)).take 32) % 2 ^ 255) ++ ((content (w 0)).take n).drop 32)
      else .panic := by
  obtain ⟨h1, _⟩ := (C49_byteArray n w).1 hn
  have hc : n ≤ (content (w 0)).length := by
    obtain ⟨t, ht⟩ := avail_prefix (w 0)
    rw [ht, List.length_append]; omega
  unfold getRandomEncodedFieldElement
  rw [Act.bind_ok' h1]
  generalize content (w 0) = c at hc ⊢
  unfold Act.lift
  dsimp only
  split
  · rename_i h2
    rw [List.getElem?_eq_none_iff, List.length_take] at h2
    rw [if_neg (by omega)]
  · rename_i b h2
    by_cases h : n = 64 ∨ n = 32
    · rw [if_pos h, if_pos h]
      have hl : (c.take 32).length = 32 := by rw [List.length_take]; omega
      have e1 : c.take n = c.take 32 ++ (c.take n).drop 32 := by
        conv_lhs => rw [← List.take_append_drop 32 (c.take n)]
        rw [List.take_take, Nat.min_eq_left (by omega)]
      have hb : (c.take 32)[31]'(by omega) = b := by
        have h3 : (c.take n)[31]? = (c.take 32)[31]? := by
          rw [e1, List.getElem?_append_left (by omega)]
        rw [h3, List.getElem?_eq_getElem (by omega)] at h2
        injection h2
      rw [← leVal_clearTop hl, hb]
      congr 1
      conv_lhs => rw [e1]
      rw [List.set_append_left _ _ (by omega)]
    · rw [if_neg h, if_neg h]

theorem getRandomGroupElementN_ok : ∀ (k n : ℕ) (w : World), k < n → ErrorFree (w 0) → 32 * (k + 1) ≤ (content (w 0)).length →
    (∀ i < k, ∀ q, ¬ Decodes (((content (w 0)).drop (32 * i)).take 32) q) → ∀ q, Decodes (((content (w 0)).drop (32 * k)).take 32) q →
    ∃ g, (getRandomGroupElementN n w).1 = .ok g ∧ g.sys = .p3 ∧ g.Repr q
  | k, 0, w, hk, _, _, _, _, _ => absurd hk (by omega)
  | k, n + 1, w, hk, hf, hl, hbad, q, hq => by
    have hav : 32 ≤ (avail (w 0)).length := by rw [avail_errorFree _ hf]; omega
    obtain ⟨h1, h2⟩ := (C49_byteArray 32 w).1 hav
    have hf' : ErrorFree ((getRandomByteArray 32 w).2 0) := (read_ok (seed := 0) hav).2.2 hf
    have hlen : ((content (w 0)).take 32).length = 32 := by rw [List.length_take]; omega
    have htt : ((content (w 0)).take 32).take 32 = (content (w 0)).take 32 := by rw [List.take_take]; rfl
    unfold getRandomGroupElementN
    rw [Act.bind_ok' h1]
    cases k with
    | zero =>
      rw [Nat.mul_zero, List.drop_zero] at hq
      obtain ⟨g, g1, g2, g3, -⟩ := GC.decode_ok (raw := (content (w 0)).take 32) (Or.inl hlen) (q := q) (by rw [htt]; exact hq)
      refine ⟨g, ?_, g2, g3⟩
      rw [g1]; rfl
    | succ k =>
      rcases GC.decode_cases (raw := (content (w 0)).take 32) (Or.inl hlen) with ⟨r, hr⟩ | ⟨⟨m, hm⟩, -⟩
      · rw [htt] at hr
        exact absurd hr (by have := hbad 0 (by omega) r; rwa [Nat.mul_zero, List.drop_zero] at this)
      · rw [hm]
        dsimp only
        refine getRandomGroupElementN_ok k n _ (by omega) hf' (by rw [h2, List.length_drop]; omega) ?_ q ?_
        · intro i hi r
          rw [h2, List.drop_drop, show 32 + 32 * i = 32 * (i + 1) by ring]
          exact hbad (i + 1) (by omega) r
        · rw [h2, List.drop_drop, show 32 + 32 * k = 32 * (k + 1) by ring]
          exact hq

/-- `GetRandomGroupElement` is the first block of 32 random bytes that is the encoding of a curve point. -/
theorem C49_groupElement (w : World) (hf : ErrorFree (w 0)) (k : ℕ) (hk : k < 100000000)
    (hl : 32 * (k + 1) ≤ (content (w 0)).length)
    (hbad : ∀ i < k, ∀ q, ¬ Decodes (((content (w 0)).drop (32 * i)).take 32) q) (q : Pt)
    (hq : Decodes (((content (w 0)).drop (32 * k)).take 32) q) :
    ∃ g, (getRandomGroupElement w).1 = .ok g ∧ g.sys = .p3 ∧ g.Repr q := by
  unfold getRandomGroupElement
  exact getRandomGroupElementN_ok k _ w hk hf hl hbad q hq

/-- `GetRandomEncodedGroupElement` is the canonical encoding of that point. -/
theorem C49_encodedGroupElement (w : World) (hf : ErrorFree (w 0)) (k : ℕ) (hk : k < 100000000)
    (hl : 32 * (k + 1) ≤ (content (w 0)).length)
    (hbad : ∀ i < k, ∀ q, ¬ Decodes (((content (w 0)).drop (32 * i)).take 32) q) (q : Pt)
    (hq : Decodes (((content (w 0)).drop (32 * k)).take 32) q) :
    (getRandomEncodedGroupElement w).1 = .ok (encodePoint q) := by
  obtain ⟨g, h1, h2, h3⟩ := C49_groupElement w hf k hk hl hbad q hq
  unfold getRandomEncodedGroupElement
  obtain ⟨n, hn⟩ : ∃ n, 100000000 = n + 1 := ⟨_, rfl⟩
  rw [hn]
  unfold getRandomEncodedGroupElementN
  rw [Act.bind_ok' h1, GC.encode_repr (Or.inr (Or.inl h2)) h3]
  rfl

/-- A source that delivers the encoding of the base point. -/
example : ∃ g, (getRandomGroupElement (fun _ => [⟨encodePoint B, none⟩])).1 = .ok g ∧ g.sys = .p3 ∧ g.Repr B := by
  have hc : content [⟨encodePoint B, none⟩] = encodePoint B := by unfold content; simp
  refine C49_groupElement _ ?_ 0 (by norm_num) ?_ (fun i hi => absurd hi (by omega)) B ?_
  · intro e he
    simp only [List.mem_singleton] at he
    rw [he]
  · rw [hc, encodePoint_length]
  · rw [hc, Nat.mul_zero, List.drop_zero, List.take_of_length_le (by rw [encodePoint_length])]
    exact decodes_encodePoint B

/-- `GetRandomInt64` reads eight bytes, little-endian, two's complement. -/
theorem C49_int64 (w : World) (h : 8 ≤ (avail (w 0)).length) :
    ∃ v : Int64, (getRandomInt64 w).1 = .ok v ∧ v.toInt % 2 ^ 64 = leVal ((content (w 0)).take 8) := by
  obtain ⟨h1, _⟩ := (C49_byteArray 8 w).1 h
  refine ⟨Int64.ofInt (leVal ((content (w 0)).take 8)), ?_, ?_⟩
  · unfold getRandomInt64
    rw [Act.bind_ok' h1]
    rfl
  · rw [Int64.toInt_ofInt]
    have hv := leVal_lt ((content (w 0)).take 8)
    have hl : ((content (w 0)).take 8).length ≤ 8 := by rw [List.length_take]; omega
    have h2 : leVal ((content (w 0)).take 8) < 2 ^ 64 :=
      lt_of_lt_of_le hv (le_trans (Nat.pow_le_pow_right (by norm_num) hl) (by norm_num))
    generalize leVal ((content (w 0)).take 8) = v at h2 ⊢
    have e : (2 : ℤ) ^ 64 = ((Int64.size : ℕ) : ℤ) := rfl
    rw [e, Int.bmod_emod, ← e]
    omega

end Ed

import Verif.Model.MathUtils
import Verif.Proofs.PointCodec
import Verif.Proofs.ScalarIO
import Verif.Spec.Base

/-! # The big-integer helpers -/

namespace Ed
open FE

theorem bytesToBigLoop_eq : ∀ (bs : Bytes) (i : ℕ) (b : ℤ), bytesToBigLoop bs i b = b + (leVal bs : ℤ) * 2 ^ (i * 8)
  | [], i, b => by simp [bytesToBigLoop, leVal]
  | v :: bs, i, b => by
    rw [bytesToBigLoop, bytesToBigLoop_eq bs, leVal, Nat.add_mul, pow_add]
    push_cast
    ring

theorem bytesToBigInteger_eq (bs : Bytes) : bytesToBigInteger bs = (leVal bs : ℤ) := by
  rw [bytesToBigInteger, bytesToBigLoop_eq]; ring

theorem intsToBigInteger_eq (t : FE) : intsToBigInteger t = t.val := by
  unfold intsToBigInteger FE.val exponents
  simp only [List.range_succ, List.range_zero, List.nil_append, List.foldl_append, List.foldl_cons, List.foldl_nil,
    List.getD_cons_zero, List.getD_cons_succ, limbs]
  ring

theorem fieldP_eq : fieldP = (P : ℤ) := by rw [P_eq]; unfold fieldP; norm_num

theorem emod_fieldP (n : ℤ) : n % fieldP = ((n : F).val : ℤ) := by rw [fieldP_eq, ZMod.val_intCast]

theorem cast_val (z : F) : (((z.val : ℕ) : ℤ) : F) = z := by rw [Int.cast_natCast, ZMod.natCast_zmod_val]

theorem val_lt_256 (z : F) : z.val < 256 ^ 32 := by
  have h := ZMod.val_lt z
  have e : P = 2 ^ 255 - 19 := P_eq
  rw [show (256 : ℕ) ^ 32 = 2 ^ 256 by norm_num]
  omega

theorem fieldToBigInteger_eq {f : FE} (hf : Encodable f) : fieldToBigInteger f = (f.toF.val : ℤ) := by
  rw [fieldToBigInteger, bytesToBigInteger_eq, encode_spec hf, leVal_leBytes_of_lt (val_lt_256 _)]

variable (U : Utils) (G : Big)

theorem toByteArray_nat {n : ℕ} (h : n < 2 ^ 256) : toByteArray U (n : ℤ) = .ok (leBytes 32 n) := by
  unfold toByteArray
  rw [if_neg (by push_cast; omega), U.fits n 32 (by rw [show (256 : ℕ) ^ 32 = 2 ^ 256 by norm_num]; exact h)]

theorem toFieldElement_val (z : F) : ∃ f, toFieldElement U (z.val : ℤ) = .ok f ∧ Reduced f ∧ f.toF = z := by
  have hz := ZMod.val_lt z
  have e : P = 2 ^ 255 - 19 := P_eq
  unfold toFieldElement
  rw [toByteArray_nat U (by omega), Out.ok_bind]
  obtain ⟨h1, h2⟩ := decode_spec (leBytes 32 z.val)
  refine ⟨_, rfl, h1, ?_⟩
  rw [h2, List.take_of_length_le (by rw [leBytes_length]), leVal_leBytes_of_lt (val_lt_256 z),
    Nat.mod_eq_of_lt (by omega), ZMod.natCast_zmod_val]

theorem fieldP_gt : 1 < fieldP := by unfold fieldP; norm_num

theorem invP_ok {a : ℤ} (h : (a : F) ≠ 0) : invP G a = .ok (((a : F)⁻¹).val : ℤ) := by
  unfold invP
  cases hm : G.modInverse a fieldP with
  | none =>
    exfalso
    apply G.inv_none a fieldP fieldP_gt hm (((a : F)⁻¹).val : ℤ)
    rw [emod_fieldP, Int.cast_mul, cast_val, mul_inv_cancel₀ h]
    have : Fact (1 < P) := ⟨by rw [P_eq]; norm_num⟩
    rw [ZMod.val_one]; rfl
  | some i =>
    obtain ⟨h1, h2, h3⟩ := G.inv_some a fieldP i fieldP_gt hm
    refine congrArg Out.ok ?_
    have h4 : (a : F) * (i : F) = 1 := by
      have : (((a * i % fieldP : ℤ)) : F) = 1 := by rw [h3]; simp
      rw [emod_fieldP, cast_val] at this
      rw [← Int.cast_mul]; exact this
    have h5 : (i : F) = (a : F)⁻¹ := eq_inv_of_mul_eq_one_right h4
    rw [← h5, ← emod_fieldP, Int.emod_eq_of_lt h1 h2]

theorem invP_zero {a : ℤ} (h : (a : F) = 0) : invP G a = .panic := by
  unfold invP
  cases hm : G.modInverse a fieldP with
  | none => rfl
  | some i =>
    exfalso
    obtain ⟨-, -, h3⟩ := G.inv_some a fieldP i fieldP_gt hm
    rw [emod_fieldP, Int.cast_mul, h, zero_mul] at h3
    rw [ZMod.val_zero] at h3
    simp at h3

theorem ofNat_ne_zero_F {n : ℕ} (h : n % (2 ^ 255 - 19) ≠ 0) : (n : F) ≠ 0 := by rw [Ne, F_natCast_eq_zero]; exact h

theorem mathD_ok : ∃ D : ℤ, mathD G = .ok D ∧ (D : F) = d := by
  unfold mathD
  have h : ((121666 : ℤ) : F) ≠ 0 := by
    have := ofNat_ne_zero_F (n := 121666) (by decide)
    exact_mod_cast this
  rw [invP_ok G h, Out.ok_bind]
  refine ⟨_, rfl, ?_⟩
  rw [Int.cast_mul, cast_val, d]
  push_cast
  rw [div_eq_mul_inv]

theorem coorModify_ok {g b : ℤ} (h : (b : F) ≠ 0) : coorModify G g b = .ok ((((g : F) / (b : F)).val : ℕ) : ℤ) := by
  unfold coorModify
  rw [invP_ok G h, Out.ok_bind, emod_fieldP, Int.cast_mul, cast_val, div_eq_mul_inv]

theorem coorModify_zero {g b : ℤ} (h : (b : F) = 0) : coorModify G g b = .panic := by
  unfold coorModify
  rw [invP_zero G h]; rfl

theorem xMulY_ok {x y z t e : ℤ} (h : (e : F) ≠ 0) :
    xMulYPlusZMulTDelD G x y z t e = .ok (((((x : F) * y + z * t) / e).val : ℕ) : ℤ) := by
  unfold xMulYPlusZMulTDelD
  rw [invP_ok G h, Out.ok_bind, emod_fieldP, Int.cast_mul, cast_val, div_eq_mul_inv]
  push_cast
  rfl

theorem FE.Small.encodable {f : FE} (h : FE.Small f) : Encodable f :=
  Loose.encodable (Bd.mono h (by norm_num) (by norm_num))

/-- The coordinates of a P2 or P3 element. -/
theorem GC.Repr.projective {g : GC} {q : Pt} (hs : g.sys = .p2 ∨ g.sys = .p3) (h : g.Repr q) :
    Small g.X ∧ Small g.Y ∧ Small g.Z ∧ g.Z.toF ≠ 0 ∧ g.X.toF = q.x * g.Z.toF ∧ g.Y.toF = q.y * g.Z.toF := by
  unfold GC.Repr at h
  rcases hs with hs | hs <;> rw [hs] at h
  · exact h
  · exact ⟨h.1, h.2.1, h.2.2.1, h.2.2.2.1, h.2.2.2.2.1, h.2.2.2.2.2.1⟩

/-- The affine coordinates computed by `coorModify`. -/
theorem affine_ok {X Z : FE} (hX : Small X) (hZ : Small Z) (h0 : Z.toF ≠ 0) {a : F} (h : X.toF = a * Z.toF) :
    coorModify G (fieldToBigInteger X) (fieldToBigInteger Z) = .ok (a.val : ℤ) := by
  rw [fieldToBigInteger_eq hX.encodable, fieldToBigInteger_eq hZ.encodable, coorModify_ok G (by rwa [cast_val]),
    cast_val, cast_val, h, mul_div_assoc, div_self h0, mul_one]

theorem toFieldElement_any {n : ℤ} (h0 : 0 ≤ n) (h1 : n < 2 ^ 256) :
    ∃ f, toFieldElement U n = .ok f ∧ Reduced f ∧ f.toF = ((n % 2 ^ 255 : ℤ) : F) := by
  obtain ⟨m, rfl⟩ := Int.eq_ofNat_of_zero_le h0
  have h2 : m < 2 ^ 256 := by exact_mod_cast h1
  unfold toFieldElement
  rw [toByteArray_nat U h2, Out.ok_bind]
  obtain ⟨h3, h4⟩ := decode_spec (leBytes 32 m)
  refine ⟨_, rfl, h3, ?_⟩
  rw [h4, List.take_of_length_le (by rw [leBytes_length]), leVal_leBytes_of_lt (by
    rw [show (256 : ℕ) ^ 32 = 2 ^ 256 by norm_num]; exact h2)]
  have e : ((m : ℤ) % 2 ^ 255) = ((m % 2 ^ 255 : ℕ) : ℤ) := by push_cast; rfl
  rw [e, Int.cast_natCast]

theorem addGroupElements_general {g1 g2 : GC} {q1 q2 : Pt} (h1 : g1.sys = .p2 ∨ g1.sys = .p3) (r1 : g1.Repr q1)
    (h2 : g2.sys = .p2 ∨ g2.sys = .p3) (r2 : g2.Repr q2) (x' : ℤ) (hx' : G.xAfter q1.x.val q1.y.val q2.x.val q2.y.val = x')
    (x3 : ℤ) (hx3 : G.resAfter q1.x.val q1.y.val q2.x.val q2.y.val (q1 + q2).x.val = x3) :
    ∃ r X Y T, addGroupElements U G g1 g2 = .ok r ∧ r = .newP3 X Y .one (some T) ∧ Reduced X ∧ Reduced Y ∧ Reduced T ∧
      X.toF = ((x3 % 2 ^ 255 : ℤ) : F) ∧
      Y.toF = (x' * q2.x + q1.y * q2.y) / (1 - d * q1.x * q2.x * q1.y * q2.y) ∧ T.toF = (x3 : F) * Y.toF := by
  obtain ⟨a1, a2, a3, a4, a5, a6⟩ := r1.projective h1
  obtain ⟨b1, b2, b3, b4, b5, b6⟩ := r2.projective h2
  obtain ⟨D, hD, hDd⟩ := mathD_ok G
  have hrange : 0 ≤ x3 ∧ x3 < 2 ^ 256 := by
    have key : ∀ z : F, ((z.val : ℕ) : ℤ) < 2 ^ 256 := by
      intro z
      have := val_lt_256 z
      rw [show (256 : ℕ) ^ 32 = 2 ^ 256 by norm_num] at this
      exact_mod_cast this
    rw [← hx3]
    exact G.words _ _ _ _ _ (Int.natCast_nonneg _) (key _) (Int.natCast_nonneg _) (key _) (Int.natCast_nonneg _) (key _)
      (Int.natCast_nonneg _) (key _) (Int.natCast_nonneg _) (key _)
  unfold addGroupElements
  rw [if_neg (by
    rintro (h | h)
    · rcases h1 with h1 | h1
      · exact h.1 h1
      · exact h.2 h1
    · rcases h2 with h2 | h2
      · exact h.1 h2
      · exact h.2 h2)]
  rw [affine_ok G a1 a3 a4 a5, Out.ok_bind, affine_ok G a2 a3 a4 a6, Out.ok_bind, affine_ok G b1 b3 b4 b5, Out.ok_bind,
    affine_ok G b2 b3 b4 b6, Out.ok_bind, hD, Out.ok_bind]
  have hdd : ((D * (q1.x.val : ℤ) * (q2.x.val : ℤ) * (q1.y.val : ℤ) * (q2.y.val : ℤ) % fieldP : ℤ) : F) =
      d * q1.x * q2.x * q1.y * q2.y := by
    rw [emod_fieldP, cast_val]
    simp only [Int.cast_mul, cast_val, hDd]
  generalize D * (q1.x.val : ℤ) * (q2.x.val : ℤ) * (q1.y.val : ℤ) * (q2.y.val : ℤ) % fieldP = dd at hdd ⊢
  dsimp only
  have hp : ((1 + dd : ℤ) : F) ≠ 0 := by
    rw [Int.cast_add, hdd, Int.cast_one]; exact Pt.dp_ne q1 q2
  have hm : ((1 - dd : ℤ) : F) ≠ 0 := by
    rw [Int.cast_sub, hdd, Int.cast_one]; exact Pt.dm_ne q1 q2
  rw [xMulY_ok G hp, Out.ok_bind, hx', xMulY_ok G hm, Out.ok_bind]
  have e1 : (((q1.x.val : ℤ) : F) * ((q2.y.val : ℤ) : F) + ((q2.x.val : ℤ) : F) * ((q1.y.val : ℤ) : F)) / ((1 + dd : ℤ) : F) =
      (q1 + q2).x := by
    simp only [cast_val, Int.cast_add, Int.cast_one, hdd]
    rw [Pt.add_x]
  rw [e1, hx3]
  simp only [cast_val, Int.cast_sub, Int.cast_one, hdd]
  generalize ((x' : F) * q2.x + q1.y * q2.y) / (1 - d * q1.x * q2.x * q1.y * q2.y) = y3
  rw [emod_fieldP, Int.cast_mul, cast_val]
  obtain ⟨X, X1, X2, X3⟩ := toFieldElement_any U hrange.1 hrange.2
  obtain ⟨Y, Y1, Y2, Y3⟩ := toFieldElement_val U y3
  obtain ⟨T, T1, T2, T3⟩ := toFieldElement_val U (x3 * y3)
  rw [X1, Out.ok_bind, Y1, Out.ok_bind, T1, Out.ok_bind]
  exact ⟨_, X, Y, T, rfl, rfl, X2, Y2, T2, X3, Y3, by rw [T3, Y3]⟩

/-- A number that is the representative of a field element is below 2^255. -/
theorem cast_val_mod (z : F) : ((((z.val : ℕ) : ℤ) % 2 ^ 255 : ℤ) : F) = z := by
  have hz := ZMod.val_lt z
  have e : P = 2 ^ 255 - 19 := P_eq
  rw [Int.emod_eq_of_lt (Int.natCast_nonneg _) (by have : z.val < 2 ^ 255 := by omega
                                                   exact_mod_cast this), cast_val]

theorem GC.repr_affineP3 {X Y T : FE} {q : Pt} (hX : Reduced X) (hY : Reduced Y) (hT : Reduced T) (x1 : X.toF = q.x)
    (y1 : Y.toF = q.y) (t1 : T.toF = q.x * q.y) : (GC.newP3 X Y .one (some T)).Repr q := by
  refine ⟨hX.small, hY.small, one_red.small, ?_, ?_, ?_, T, rfl, hT.small, ?_⟩
  · rw [show (GC.newP3 X Y .one (some T)).Z = .one from rfl, one_toF]; exact one_ne_zero
  · show X.toF = _ * FE.one.toF
    rw [one_toF, mul_one, x1]
  · show Y.toF = _ * FE.one.toF
    rw [one_toF, mul_one, y1]
  · show T.toF = _ * FE.one.toF
    rw [one_toF, mul_one, t1]

/-- The sum, when the by-value argument does no harm. -/
theorem addGroupElements_ok {g1 g2 : GC} {q1 q2 : Pt} (h1 : g1.sys = .p2 ∨ g1.sys = .p3) (r1 : g1.Repr q1)
    (h2 : g2.sys = .p2 ∨ g2.sys = .p3) (r2 : g2.Repr q2) (hs : SafeArgs q1.x.val q2.y.val) :
    ∃ r, addGroupElements U G g1 g2 = .ok r ∧ r.sys = .p3 ∧ r.Repr (q1 + q2) := by
  obtain ⟨r, X, Y, T, e1, e2, e3, e4, e5, e6, e7, e8⟩ := addGroupElements_general U G h1 r1 h2 r2 _
    (G.keeps _ _ _ _ hs) _ (G.keeps' _ _ _ _ _ hs)
  rw [cast_val_mod] at e6
  rw [cast_val] at e8
  have hY : Y.toF = (q1 + q2).y := by
    rw [e7, cast_val, Pt.add_y]
    congr 1
    ring
  refine ⟨r, e1, by rw [e2]; rfl, ?_⟩
  rw [e2]
  exact GC.repr_affineP3 e3 e4 e5 e6 hY (by rw [e8, hY])

/-! ## Scalar multiplication -/

theorem getBitToBool_eq : ∀ (raw : Bytes) (i : ℕ), getBitToBool raw i = (leVal raw).testBit i
  | [], i => by simp [getBitToBool, leVal]
  | b :: raw, i => by
    rw [leVal]
    have hb := b.toNat_lt
    by_cases hi : i < 8
    · have h1 : i / 8 = 0 := by omega
      have h2 : i % 8 = i := by omega
      unfold getBitToBool
      rw [h1, h2, List.getD_cons_zero, show (256 : ℕ) = 2 ^ 8 by norm_num, Nat.add_comm, Nat.testBit_two_pow_mul_add _ hb]
      simp [hi]
    · obtain ⟨j, rfl⟩ : ∃ j, i = j + 8 := ⟨i - 8, by omega⟩
      have h1 : (j + 8) / 8 = j / 8 + 1 := by omega
      have h2 : (j + 8) % 8 = j % 8 := by omega
      have ih := getBitToBool_eq raw j
      unfold getBitToBool at ih ⊢
      rw [h1, h2, List.getD_cons_succ, ih, show (256 : ℕ) = 2 ^ 8 by norm_num, Nat.add_comm,
        Nat.testBit_two_pow_mul_add _ hb]
      simp

/-- All group additions of the binary method for `n * q` have harmless arguments. -/
def SafeMul (q : Pt) (n : ℕ) : Prop :=
  ∀ m < 255, SafeArgs ((n / 2 ^ (m + 1)) • q).x.val ((n / 2 ^ (m + 1)) • q).y.val ∧
    (n.testBit m = true → SafeArgs ((2 * (n / 2 ^ (m + 1))) • q).x.val q.y.val)

theorem scalarLoop_ok {g : GC} {q : Pt} (hs : g.sys = .p2 ∨ g.sys = .p3) (hr : g.Repr q) (bytes : Bytes)
    (hsafe : SafeMul q (leVal bytes)) : ∀ (n : ℕ) (h : GC), n ≤ 255 → h.sys = .p3 → h.Repr ((leVal bytes / 2 ^ n) • q) →
    ∃ r, scalarLoop U G g bytes n h = .ok r ∧ r.sys = .p3 ∧ r.Repr (leVal bytes • q)
  | 0, h, _, h1, h2 => ⟨h, rfl, h1, by simpa using h2⟩
  | n + 1, h, hn, h1, h2 => by
    obtain ⟨s1, s2⟩ := hsafe n (by omega)
    rw [scalarLoop]
    unfold doubleGroupElement
    obtain ⟨e, e1, e2, e3⟩ := addGroupElements_ok U G (Or.inr h1) h2 (Or.inr h1) h2 s1
    rw [e1, Out.ok_bind, getBitToBool_eq]
    have hdec : leVal bytes / 2 ^ n = 2 * (leVal bytes / 2 ^ (n + 1)) + leVal bytes / 2 ^ n % 2 := by
      rw [pow_succ, ← Nat.div_div_eq_div_mul]; omega
    have e3' : e.Repr ((2 * (leVal bytes / 2 ^ (n + 1))) • q) := by
      rw [two_mul, add_smul]; exact e3
    by_cases hb : (leVal bytes).testBit n = true
    · rw [if_pos hb]
      obtain ⟨f, f1, f2, f3⟩ := addGroupElements_ok U G (Or.inr e2) e3' hs hr (s2 hb)
      rw [f1, Out.ok_bind]
      refine scalarLoop_ok hs hr bytes hsafe n f (by omega) f2 ?_
      have hbit : leVal bytes / 2 ^ n % 2 = 1 := by
        have := hb
        rw [Nat.testBit_eq_decide_div_mod_eq, decide_eq_true_eq] at this
        exact this
      rw [hdec, hbit, add_smul, one_smul]
      exact f3
    · rw [if_neg hb]
      refine scalarLoop_ok hs hr bytes hsafe n e (by omega) e2 ?_
      have hbit : leVal bytes / 2 ^ n % 2 = 0 := by
        rw [Nat.testBit_eq_decide_div_mod_eq, decide_eq_true_eq] at hb
        omega
      rw [hdec, hbit, add_zero]
      exact e3'

theorem scalarMultiplyGroupElement_ok {g : GC} {q : Pt} (hs : g.sys = .p2 ∨ g.sys = .p3) (hr : g.Repr q) {f : FE}
    (hf : Encodable f) (hsafe : SafeMul q f.toF.val) :
    ∃ r, scalarMultiplyGroupElement U G g f = .ok r ∧ r.sys = .p3 ∧ r.Repr (f.toF.val • q) := by
  have e : leVal f.encode = f.toF.val := by rw [encode_spec hf, leVal_leBytes_of_lt (val_lt_256 _)]
  unfold scalarMultiplyGroupElement
  rw [← e]
  refine scalarLoop_ok U G hs hr _ (by rw [e]; exact hsafe) 255 _ le_rfl rfl ?_
  have h0 : leVal f.encode / 2 ^ 255 = 0 := by
    rw [e]
    have := ZMod.val_lt f.toF
    have e : P = 2 ^ 255 - 19 := P_eq
    exact Nat.div_eq_of_lt (by omega)
  rw [h0, zero_smul]
  exact GC.zeroP3_repr

/-! ## Changing the coordinate system -/

theorem getNeeCoor_ok (q : Pt) (sys : Sys) :
    ∃ r, getNeeCoor U G q.x.val q.y.val sys = .ok r ∧ r.sys = sys ∧ r.ReprA q := by
  obtain ⟨X, X1, X2, X3⟩ := toFieldElement_val U q.x
  obtain ⟨Y, Y1, Y2, Y3⟩ := toFieldElement_val U q.y
  obtain ⟨T, T1, T2, T3⟩ := toFieldElement_val U (q.x * q.y)
  obtain ⟨A, A1, A2, A3⟩ := toFieldElement_val U (q.y + q.x)
  obtain ⟨S, S1, S2, S3⟩ := toFieldElement_val U (q.y - q.x)
  obtain ⟨Z, Z1, Z2, Z3⟩ := toFieldElement_val U (d * 2 * q.x * q.y)
  obtain ⟨D, hD, hDd⟩ := mathD_ok G
  have e1 : (q.x.val : ℤ) * (q.y.val : ℤ) % fieldP = ((q.x * q.y).val : ℤ) := by
    rw [emod_fieldP, Int.cast_mul, cast_val, cast_val]
  have e2 : ((q.y.val : ℤ) + (q.x.val : ℤ)) % fieldP = ((q.y + q.x).val : ℤ) := by
    rw [emod_fieldP, Int.cast_add, cast_val, cast_val]
  have e3 : ((q.y.val : ℤ) - (q.x.val : ℤ)) % fieldP = ((q.y - q.x).val : ℤ) := by
    rw [emod_fieldP, Int.cast_sub, cast_val, cast_val]
  have e4 : D * 2 * (q.x.val : ℤ) * (q.y.val : ℤ) % fieldP = ((d * 2 * q.x * q.y).val : ℤ) := by
    rw [emod_fieldP, Int.cast_mul, Int.cast_mul, Int.cast_mul, cast_val, cast_val, hDd]; norm_num
  unfold getNeeCoor
  rw [X1, Out.ok_bind, Y1, Out.ok_bind]
  cases sys with
  | affine => exact ⟨_, rfl, rfl, by rw [GC.ReprA, if_pos (show (GC.newAffine X Y one).sys = .affine from by rfl)]; exact ⟨X2.small, Y2.small, X3, Y3⟩⟩
  | p2 =>
    refine ⟨_, rfl, rfl, ?_⟩
    rw [GC.ReprA, if_neg (by intro h; cases h)]
    refine ⟨X2.small, Y2.small, one_red.small, ?_, ?_, ?_⟩
    · show FE.one.toF ≠ 0
      rw [one_toF]; exact one_ne_zero
    · show X.toF = _ * FE.one.toF
      rw [one_toF, mul_one, X3]
    · show Y.toF = _ * FE.one.toF
      rw [one_toF, mul_one, Y3]
  | p3 =>
    dsimp only
    rw [e1, T1, Out.ok_bind]
    refine ⟨_, rfl, rfl, ?_⟩
    rw [GC.ReprA, if_neg (by intro h; cases h)]
    exact GC.repr_affineP3 X2 Y2 T2 X3 Y3 T3
  | p1xp1 =>
    refine ⟨_, rfl, rfl, ?_⟩
    rw [GC.ReprA, if_neg (by intro h; cases h)]
    refine ⟨X2.loose, Y2.loose, one_red.loose, ?_, _, rfl, one_red.loose, ?_, ?_, ?_⟩
    · show FE.one.toF ≠ 0
      rw [one_toF]; exact one_ne_zero
    · rw [one_toF]; exact one_ne_zero
    · show X.toF = _ * FE.one.toF
      rw [one_toF, mul_one, X3]
    · show Y.toF = _ * FE.one.toF
      rw [one_toF, mul_one, Y3]
  | cached =>
    dsimp only
    rw [e2, A1, Out.ok_bind, e3, S1, Out.ok_bind, hD, Out.ok_bind, e4, Z1, Out.ok_bind]
    refine ⟨_, rfl, rfl, ?_⟩
    rw [GC.ReprA, if_neg (by intro h; cases h)]
    refine ⟨A2.loose, S2.loose, one_red.loose, ?_, ?_, ?_, _, rfl, Z2.loose, ?_⟩
    · show FE.one.toF ≠ 0
      rw [one_toF]; exact one_ne_zero
    · show A.toF = _ * FE.one.toF
      rw [one_toF, mul_one, A3]
    · show S.toF = _ * FE.one.toF
      rw [one_toF, mul_one, S3]
    · show Z.toF = _ * FE.one.toF
      rw [one_toF, mul_one, Z3]; ring
  | precomputed =>
    dsimp only
    rw [e2, A1, Out.ok_bind, e3, S1, Out.ok_bind, hD, Out.ok_bind, e4, Z1, Out.ok_bind]
    refine ⟨_, rfl, rfl, ?_⟩
    rw [GC.ReprA, if_neg (by intro h; cases h)]
    refine ⟨A2.loose, S2.loose, Z2.loose, A3, S3, ?_⟩
    show Z.toF = _
    rw [Z3]; ring

theorem two_ne : (2 : F) ≠ 0 := two_ne_zero_F

theorem toRepresentation_ok {g : GC} {q : Pt} (hs : g.sys ≠ .precomputed) (hr : g.ReprA q) (sys : Sys) :
    ∃ r, toRepresentation U G g sys = .ok r ∧ r.sys = sys ∧ r.ReprA q := by
  have hk := getNeeCoor_ok U G q sys
  unfold GC.ReprA at hr
  unfold toRepresentation
  dsimp only
  cases hg : g.sys with
  | affine =>
    rw [hg, if_pos rfl] at hr
    obtain ⟨h1, h2, h3, h4⟩ := hr
    dsimp only
    rw [fieldToBigInteger_eq h1.encodable, fieldToBigInteger_eq h2.encodable, h3, h4]
    exact hk
  | p2 =>
    rw [hg, if_neg (by decide)] at hr
    obtain ⟨h1, h2, h3, h4, h5, h6⟩ := hr.projective (Or.inl hg)
    dsimp only
    rw [affine_ok G h1 h3 h4 h5, Out.ok_bind, affine_ok G h2 h3 h4 h6, Out.ok_bind]
    exact hk
  | p3 =>
    rw [hg, if_neg (by decide)] at hr
    obtain ⟨h1, h2, h3, h4, h5, h6⟩ := hr.projective (Or.inr hg)
    dsimp only
    rw [affine_ok G h1 h3 h4 h5, Out.ok_bind, affine_ok G h2 h3 h4 h6, Out.ok_bind]
    exact hk
  | p1xp1 =>
    rw [hg, if_neg (by decide)] at hr
    unfold GC.Repr at hr
    rw [hg] at hr
    obtain ⟨h1, h2, h3, h4, t, h5, h6, h7, h8, h9⟩ := hr
    rw [h5]
    dsimp only [Option.map]
    rw [fieldToBigInteger_eq h1.encodable, fieldToBigInteger_eq h2.encodable, fieldToBigInteger_eq h3.encodable,
      fieldToBigInteger_eq h6.encodable, coorModify_ok G (by rwa [cast_val]), Out.ok_bind,
      coorModify_ok G (by rwa [cast_val]), Out.ok_bind, cast_val, cast_val, cast_val, cast_val, h8, h9,
      mul_div_assoc, div_self h4, mul_one, mul_div_assoc, div_self h7, mul_one]
    exact hk
  | cached =>
    rw [hg, if_neg (by decide)] at hr
    unfold GC.Repr at hr
    rw [hg] at hr
    obtain ⟨h1, h2, h3, h4, h5, h6, -⟩ := hr
    dsimp only
    have hz : ((((g.Z.toF.val : ℕ) : ℤ) * 2 : ℤ) : F) ≠ 0 := by
      rw [Int.cast_mul, cast_val]; exact mul_ne_zero h4 (by exact_mod_cast two_ne)
    rw [fieldToBigInteger_eq h1.encodable, fieldToBigInteger_eq h2.encodable, fieldToBigInteger_eq h3.encodable,
      coorModify_ok G hz, Out.ok_bind, coorModify_ok G hz, Out.ok_bind]
    have a1 : (((g.X.toF.val : ℤ) - (g.Y.toF.val : ℤ) : ℤ) : F) / (((g.Z.toF.val : ℤ) * 2 : ℤ) : F) = q.x := by
      rw [div_eq_iff hz, Int.cast_sub, Int.cast_mul, cast_val, cast_val, cast_val, h5, h6]; push_cast; ring
    have a2 : (((g.X.toF.val : ℤ) + (g.Y.toF.val : ℤ) : ℤ) : F) / (((g.Z.toF.val : ℤ) * 2 : ℤ) : F) = q.y := by
      rw [div_eq_iff hz, Int.cast_add, Int.cast_mul, cast_val, cast_val, cast_val, h5, h6]; push_cast; ring
    rw [a1, a2]
    exact hk
  | precomputed => exact absurd hg hs

end Ed

import Verif.Proofs.FieldMul

/-!
# The field operations are exact
-/

namespace Ed

theorem InB_nil (s : Limbs) : InB s [] ↔ True := by
  simp [InB]

theorem InB_cons (s : Limbs) (lo hi : Int) (b : Bnds) :
    InB s ((lo, hi) :: b) ↔ (lo ≤ (s 0).toInt ∧ (s 0).toInt ≤ hi) ∧ InB (fun i => s (i + 1)) b := by
  constructor
  · intro h
    exact ⟨h 0 lo hi (by simp), fun i l u hb => h (i + 1) l u (by simpa using hb)⟩
  · rintro ⟨h1, h2⟩ i l u hb
    cases i with
    | zero => simp at hb; obtain ⟨rfl, rfl⟩ := hb; exact h1
    | succ i => exact h2 i l u (by simpa using hb)

theorem P_int : ((P : ℕ) : ℤ) = 2 ^ 255 - 19 := by rw [P_eq]; norm_num

theorem F_intCast_eq {a b : ℤ} (h : (2 ^ 255 - 19 : ℤ) ∣ a - b) : (a : F) = (b : F) := by
  rw [eq_comm, ZMod.intCast_eq_intCast_iff_dvd_sub, P_int]
  exact h

theorem F_intCast_eq_iff {a b : ℤ} : (a : F) = (b : F) ↔ (2 ^ 255 - 19 : ℤ) ∣ a - b := by
  rw [eq_comm, ZMod.intCast_eq_intCast_iff_dvd_sub, P_int]

/-- Bit positions of the ten limbs. -/
def pos10 (i : Nat) : Nat := [0, 26, 51, 77, 102, 128, 153, 179, 204, 230].getD i 0

namespace FE

theorem V_limbs (f : FE) : V pos10 f.limbs 10 = f.val := by
  simp only [V, pos10, limbs, val, List.getD_eq_getElem?_getD]
  simp only [List.getElem?_cons_zero, List.getElem?_cons_succ, Option.getD_some]
  ring

theorem V_ofLimbs (s : Limbs) : (ofLimbs s).val = V pos10 s 10 := by
  simp only [V, pos10, ofLimbs, val, List.getD_eq_getElem?_getD]
  simp only [List.getElem?_cons_zero, List.getElem?_cons_succ, Option.getD_some]
  ring

/-- Reduced bounds as intervals. -/
def redB : Bnds := [(-33889976, 33889976), (-16944988, 16944988), (-33889976, 33889976), (-16944988, 16944988),
  (-33889976, 33889976), (-16944988, 16944988), (-33889976, 33889976), (-16944988, 16944988),
  (-33889976, 33889976), (-16944988, 16944988)]

theorem reduced_of_inB {s : Limbs} (h : InB s redB) : Reduced (ofLimbs s) := by
  simp only [redB, InB_cons] at h
  obtain ⟨h0, h1, h2, h3, h4, h5, h6, h7, h8, h9, -⟩ := h
  exact ⟨abs_le.2 h0, abs_le.2 h1, abs_le.2 h2, abs_le.2 h3, abs_le.2 h4, abs_le.2 h5, abs_le.2 h6,
    abs_le.2 h7, abs_le.2 h8, abs_le.2 h9⟩

theorem mulCarries_check :
    checkRun pos10 (2 ^ 255 - 19) mulCarries (10, prodB) 10 redB = true := by decide +kernel

/-- twice the products -/
def prodB2 : Bnds := prodB.map fun q => (2 * q.1, 2 * q.2)

theorem mulCarries_check2 :
    checkRun pos10 (2 ^ 255 - 19) mulCarries (10, prodB2) 10 redB = true := by decide +kernel

theorem carries_spec {h : FE} {b : Bnds} {ops : List Op}
    (hc : checkRun pos10 (2 ^ 255 - 19) ops (10, b) 10 redB = true)
    (hb : InB h.limbs b) :
    Reduced (ofLimbs (run ops h.limbs)) ∧ (ofLimbs (run ops h.limbs)).toF = h.toF := by
  obtain ⟨h1, h2⟩ := checkRun_sound hc hb
  refine ⟨reduced_of_inB h1, ?_⟩
  unfold toF
  apply F_intCast_eq
  rw [V_ofLimbs, ← V_limbs h]
  exact h2

theorem mul_inB {f g : FE} (hf : Loose f) (hg : Loose g) : InB (mulProducts f g).limbs prodB := by
  simp only [prodB, InB_cons, InB_nil, and_true]
  exact ⟨abs_le.1 (mulProducts_0 hf hg).2, abs_le.1 (mulProducts_1 hf hg).2, abs_le.1 (mulProducts_2 hf hg).2,
    abs_le.1 (mulProducts_3 hf hg).2, abs_le.1 (mulProducts_4 hf hg).2, abs_le.1 (mulProducts_5 hf hg).2,
    abs_le.1 (mulProducts_6 hf hg).2, abs_le.1 (mulProducts_7 hf hg).2, abs_le.1 (mulProducts_8 hf hg).2,
    abs_le.1 (mulProducts_9 hf hg).2⟩

theorem sq_inB {f : FE} (hf : Loose f) : InB (sqProducts f).limbs prodB := by
  simp only [prodB, InB_cons, InB_nil, and_true]
  exact ⟨abs_le.1 (sqProducts_0 hf).2, abs_le.1 (sqProducts_1 hf).2, abs_le.1 (sqProducts_2 hf).2,
    abs_le.1 (sqProducts_3 hf).2, abs_le.1 (sqProducts_4 hf).2, abs_le.1 (sqProducts_5 hf).2,
    abs_le.1 (sqProducts_6 hf).2, abs_le.1 (sqProducts_7 hf).2, abs_le.1 (sqProducts_8 hf).2,
    abs_le.1 (sqProducts_9 hf).2⟩

theorem multiply_spec {f g : FE} (hf : Loose f) (hg : Loose g) :
    Reduced (multiply f g) ∧ (multiply f g).toF = f.toF * g.toF := by
  obtain ⟨h1, h2⟩ := carries_spec mulCarries_check (mul_inB hf hg)
  refine ⟨h1, ?_⟩
  unfold multiply
  rw [h2]
  obtain ⟨q, hq⟩ := mulProducts_val hf hg
  unfold toF
  rw [← Int.cast_mul]
  exact F_intCast_eq ⟨-q, by rw [hq]; ring⟩

theorem square_spec {f : FE} (hf : Loose f) :
    Reduced (square f) ∧ (square f).toF = f.toF * f.toF := by
  obtain ⟨h1, h2⟩ := carries_spec mulCarries_check (sq_inB hf)
  refine ⟨h1, ?_⟩
  have e : square f = ofLimbs (run mulCarries (sqProducts f).limbs) := rfl
  rw [e, h2]
  obtain ⟨q, hq⟩ := sqProducts_val hf
  unfold toF
  rw [← Int.cast_mul]
  exact F_intCast_eq ⟨-q, by rw [hq]; ring⟩

/-- `add` does not wrap when the limbs are below 2^62. -/
theorem add_val {f g : FE} {e o e' o' : ℤ} (hf : Bd e o f) (hg : Bd e' o' g)
    (he : e + e' < 2 ^ 63) (ho : o + o' < 2 ^ 63) :
    Bd (e + e') (o + o') (add f g) ∧ (add f g).val = f.val + g.val := by
  obtain ⟨f0, f1, f2, f3, f4, f5, f6, f7, f8, f9⟩ := hf
  obtain ⟨g0, g1, g2, g3, g4, g5, g6, g7, g8, g9⟩ := hg
  rw [abs_le] at *
  have k : ∀ {a b : Int64} {x y : ℤ}, (-x ≤ a.toInt ∧ a.toInt ≤ x) → (-y ≤ b.toInt ∧ b.toInt ≤ y) →
      x + y < 2 ^ 63 → (a + b).toInt = a.toInt + b.toInt := by
    intro a b x y h1 h2 h3
    exact toInt_add_of_fits ⟨by omega, by omega⟩
  have e0 := k f0 g0 he
  have e1 := k f1 g1 ho
  have e2 := k f2 g2 he
  have e3 := k f3 g3 ho
  have e4 := k f4 g4 he
  have e5 := k f5 g5 ho
  have e6 := k f6 g6 he
  have e7 := k f7 g7 ho
  have e8 := k f8 g8 he
  have e9 := k f9 g9 ho
  constructor
  · simp only [Bd, add, e0, e1, e2, e3, e4, e5, e6, e7, e8, e9, abs_le]
    refine ⟨?_, ?_, ?_, ?_, ?_, ?_, ?_, ?_, ?_, ?_⟩ <;> omega
  · simp only [val, add, e0, e1, e2, e3, e4, e5, e6, e7, e8, e9]
    ring

theorem subtract_val {f g : FE} {e o e' o' : ℤ} (hf : Bd e o f) (hg : Bd e' o' g)
    (he : e + e' < 2 ^ 63) (ho : o + o' < 2 ^ 63) :
    Bd (e + e') (o + o') (subtract f g) ∧ (subtract f g).val = f.val - g.val := by
  obtain ⟨f0, f1, f2, f3, f4, f5, f6, f7, f8, f9⟩ := hf
  obtain ⟨g0, g1, g2, g3, g4, g5, g6, g7, g8, g9⟩ := hg
  rw [abs_le] at *
  have k : ∀ {a b : Int64} {x y : ℤ}, (-x ≤ a.toInt ∧ a.toInt ≤ x) → (-y ≤ b.toInt ∧ b.toInt ≤ y) →
      x + y < 2 ^ 63 → (a - b).toInt = a.toInt - b.toInt := by
    intro a b x y h1 h2 h3
    exact toInt_sub_of_fits ⟨by omega, by omega⟩
  have e0 := k f0 g0 he
  have e1 := k f1 g1 ho
  have e2 := k f2 g2 he
  have e3 := k f3 g3 ho
  have e4 := k f4 g4 he
  have e5 := k f5 g5 ho
  have e6 := k f6 g6 he
  have e7 := k f7 g7 ho
  have e8 := k f8 g8 he
  have e9 := k f9 g9 ho
  constructor
  · simp only [Bd, subtract, e0, e1, e2, e3, e4, e5, e6, e7, e8, e9, abs_le]
    refine ⟨?_, ?_, ?_, ?_, ?_, ?_, ?_, ?_, ?_, ?_⟩ <;> omega
  · simp only [val, subtract, e0, e1, e2, e3, e4, e5, e6, e7, e8, e9]
    ring

theorem negate_val {f : FE} {e o : ℤ} (hf : Bd e o f) (he : e < 2 ^ 63) (ho : o < 2 ^ 63) :
    Bd e o (negate f) ∧ (negate f).val = -f.val := by
  obtain ⟨f0, f1, f2, f3, f4, f5, f6, f7, f8, f9⟩ := hf
  rw [abs_le] at *
  have k : ∀ {a : Int64} {x : ℤ}, (-x ≤ a.toInt ∧ a.toInt ≤ x) → x < 2 ^ 63 → (-a).toInt = -a.toInt := by
    intro a x h1 h3
    exact toInt_neg_of_fits ⟨by omega, by omega⟩
  have e0 := k f0 he
  have e1 := k f1 ho
  have e2 := k f2 he
  have e3 := k f3 ho
  have e4 := k f4 he
  have e5 := k f5 ho
  have e6 := k f6 he
  have e7 := k f7 ho
  have e8 := k f8 he
  have e9 := k f9 ho
  constructor
  · simp only [Bd, negate, e0, e1, e2, e3, e4, e5, e6, e7, e8, e9, abs_le]
    refine ⟨?_, ?_, ?_, ?_, ?_, ?_, ?_, ?_, ?_, ?_⟩ <;> omega
  · simp only [val, negate, e0, e1, e2, e3, e4, e5, e6, e7, e8, e9]
    ring

theorem add_toF {f g : FE} {e o e' o' : ℤ} (hf : Bd e o f) (hg : Bd e' o' g)
    (he : e + e' < 2 ^ 63) (ho : o + o' < 2 ^ 63) : (add f g).toF = f.toF + g.toF := by
  unfold toF; rw [(add_val hf hg he ho).2]; push_cast; rfl

theorem subtract_toF {f g : FE} {e o e' o' : ℤ} (hf : Bd e o f) (hg : Bd e' o' g)
    (he : e + e' < 2 ^ 63) (ho : o + o' < 2 ^ 63) : (subtract f g).toF = f.toF - g.toF := by
  unfold toF; rw [(subtract_val hf hg he ho).2]; push_cast; rfl

theorem negate_toF {f : FE} {e o : ℤ} (hf : Bd e o f) (he : e < 2 ^ 63) (ho : o < 2 ^ 63) :
    (negate f).toF = -f.toF := by
  unfold toF; rw [(negate_val hf he ho).2]; push_cast; rfl

theorem Bd.mono {f : FE} {e o e' o' : ℤ} (h : Bd e o f) (he : e ≤ e') (ho : o ≤ o') : Bd e' o' f := by
  obtain ⟨f0, f1, f2, f3, f4, f5, f6, f7, f8, f9⟩ := h
  exact ⟨f0.trans he, f1.trans ho, f2.trans he, f3.trans ho, f4.trans he, f5.trans ho, f6.trans he,
    f7.trans ho, f8.trans he, f9.trans ho⟩

theorem Reduced.loose {f : FE} (h : Reduced f) : Loose f := Bd.mono h (by norm_num) (by norm_num)

theorem squareAndDouble_spec {f : FE} (hf : Loose f) :
    Reduced (squareAndDouble f) ∧ (squareAndDouble f).toF = 2 * (f.toF * f.toF) := by
  have hb := sq_inB hf
  have hbd : ∀ {h : FE}, InB h.limbs prodB → InB (add h h).limbs prodB2 ∧ (add h h).val = 2 * h.val := by
    intro h hh
    simp only [prodB, InB_cons, InB_nil, and_true, limbs] at hh
    obtain ⟨h0, h1, h2, h3, h4, h5, h6, h7, h8, h9⟩ := hh
    have k : ∀ {a : Int64} {x : ℤ}, (-x ≤ a.toInt ∧ a.toInt ≤ x) → x < 2 ^ 62 →
        (a + a).toInt = a.toInt + a.toInt := by
      intro a x h1 h3
      exact toInt_add_of_fits ⟨by omega, by omega⟩
    have e0 := k h0 (by norm_num)
    have e1 := k h1 (by norm_num)
    have e2 := k h2 (by norm_num)
    have e3 := k h3 (by norm_num)
    have e4 := k h4 (by norm_num)
    have e5 := k h5 (by norm_num)
    have e6 := k h6 (by norm_num)
    have e7 := k h7 (by norm_num)
    have e8 := k h8 (by norm_num)
    have e9 := k h9 (by norm_num)
    constructor
    · simp only [prodB2, prodB, List.map_cons, List.map_nil, InB_cons, InB_nil, and_true, limbs, add,
        e0, e1, e2, e3, e4, e5, e6, e7, e8, e9]
      omega
    · simp only [val, add, e0, e1, e2, e3, e4, e5, e6, e7, e8, e9]
      ring
  obtain ⟨hb2, hv⟩ := hbd hb
  obtain ⟨h1, h2⟩ := carries_spec mulCarries_check2 hb2
  refine ⟨h1, ?_⟩
  have e : squareAndDouble f = ofLimbs (run mulCarries (add (sqProducts f) (sqProducts f)).limbs) := rfl
  rw [e, h2]
  obtain ⟨q, hq⟩ := sqProducts_val hf
  unfold toF
  rw [hv, ← Int.cast_mul]
  have : (2 : F) = ((2 : ℤ) : F) := by norm_num
  rw [this, ← Int.cast_mul]
  exact F_intCast_eq ⟨-(2 * q), by rw [hq]; ring⟩

theorem squareN_succ (n : ℕ) (f : FE) : squareN (n + 1) f = squareN n f.square := by
  unfold squareN; rw [iter]

theorem squareN_spec (n : ℕ) : ∀ {f : FE}, Reduced f →
    Reduced (squareN n f) ∧ (squareN n f).toF = f.toF ^ 2 ^ n := by
  induction n with
  | zero => intro f h; exact ⟨by unfold squareN; rw [iter]; exact h, by rw [pow_zero, pow_one]; unfold squareN; rw [iter]⟩
  | succ n ih =>
      intro f h
      obtain ⟨h1, h2⟩ := square_spec h.loose
      obtain ⟨h3, h4⟩ := ih h1
      rw [squareN_succ]
      refine ⟨h3, ?_⟩
      rw [h4, h2, pow_succ' 2 n, pow_mul, sq]

theorem pow2to9_spec {f : FE} (hf : Loose f) : Reduced (pow2to9 f) ∧ (pow2to9 f).toF = f.toF ^ 9 := by
  obtain ⟨h1, e1⟩ := square_spec hf
  obtain ⟨h2, e2⟩ := square_spec h1.loose
  obtain ⟨h3, e3⟩ := square_spec h2.loose
  obtain ⟨h4, e4⟩ := multiply_spec hf h3.loose
  have e : pow2to9 f = f.multiply f.square.square.square := rfl
  rw [e]
  refine ⟨h4, ?_⟩
  rw [e4, e3, e2, e1]; ring

/-- A reduced element with value `x ^ n`. -/
def IsPow (x : F) (n : ℕ) (f : FE) : Prop := Reduced f ∧ f.toF = x ^ n

theorem IsPow.mul {x : F} {m n : ℕ} {f g : FE} (hf : IsPow x m f) (hg : IsPow x n g) :
    IsPow x (m + n) (f.multiply g) := by
  obtain ⟨h1, h2⟩ := multiply_spec hf.1.loose hg.1.loose
  exact ⟨h1, by rw [h2, hf.2, hg.2, pow_add]⟩

theorem IsPow.sq {x : F} {m : ℕ} {f : FE} (hf : IsPow x m f) : IsPow x (2 * m) f.square := by
  obtain ⟨h1, h2⟩ := square_spec hf.1.loose
  exact ⟨h1, by rw [h2, hf.2, ← pow_add, two_mul]⟩

theorem IsPow.sqN {x : F} {m : ℕ} {f : FE} (hf : IsPow x m f) (n : ℕ) :
    IsPow x (2 ^ n * m) (squareN n f) := by
  obtain ⟨h1, h2⟩ := squareN_spec n hf.1
  exact ⟨h1, by rw [h2, hf.2, ← pow_mul, mul_comm]⟩

theorem IsPow.cast {x : F} {m n : ℕ} {f : FE} (hf : IsPow x m f) (h : m = n) : IsPow x n f := h ▸ hf

theorem pow2to252sub4_isPow {f : FE} (hf : Loose f) : IsPow f.toF (2 ^ 252 - 4) (pow2to252sub4 f) := by
  have a0 : IsPow f.toF 2 f.square := by
    obtain ⟨h1, h2⟩ := square_spec hf
    exact ⟨h1, by rw [h2, sq]⟩
  have a1 : IsPow f.toF 9 f.pow2to9 := pow2to9_spec hf
  have a2 := a0.mul a1
  have a3 := a2.sq
  have a4 := a1.mul a3
  have a5 := (a4.sq).sqN 4
  have a6 := a5.mul a4
  have a7 := (a6.sq).sqN 9
  have a8 := a7.mul a6
  have a9 := (a8.sq).sqN 19
  have a10 := a9.mul a8
  have a11 := (a10.sq).sqN 9
  have a12 := a11.mul a6
  have a13 := (a12.sq).sqN 49
  have a14 := a13.mul a12
  have a15 := (a14.sq).sqN 99
  have a16 := a15.mul a14
  have a17 := (a16.sq).sqN 49
  have a18 := a17.mul a12
  have a19 := (a18.sq).sq
  exact a19.cast (by norm_num)

theorem invert_isPow {f : FE} (hf : Loose f) : IsPow f.toF (P - 2) (invert f) := by
  have a0 : IsPow f.toF 2 f.square := by
    obtain ⟨h1, h2⟩ := square_spec hf
    exact ⟨h1, by rw [h2, sq]⟩
  have a1 : IsPow f.toF 9 f.pow2to9 := pow2to9_spec hf
  have a2 := a0.mul a1
  have a3 := (pow2to252sub4_isPow hf).sqN 3
  have a4 := a3.mul a2
  exact a4.cast (by rw [P_eq]; norm_num)

theorem invert_spec {f : FE} (hf : Loose f) : Reduced (invert f) ∧ (invert f).toF = f.toF⁻¹ := by
  obtain ⟨h1, h2⟩ := invert_isPow hf
  refine ⟨h1, ?_⟩
  rw [h2]
  by_cases h0 : f.toF = 0
  · rw [h0, inv_zero, zero_pow]
    rw [P_eq]; norm_num
  · apply eq_inv_of_mul_eq_one_left
    rw [← pow_succ]
    have : P - 2 + 1 = P - 1 := by rw [P_eq]; norm_num
    rw [this]
    exact ZMod.pow_card_sub_one_eq_one h0

/-- Value of the square-root candidate. -/
theorem sqrt_spec {u v : FE} (hu : Loose u) (hv : Loose v) :
    Reduced (sqrt u v) ∧
      (sqrt u v).toF = u.toF * v.toF ^ 3 * (u.toF * v.toF ^ 7) ^ (2 ^ 252 - 3) := by
  obtain ⟨a1, e1⟩ := square_spec hv
  obtain ⟨a2, e2⟩ := multiply_spec a1.loose hv
  obtain ⟨a3, e3⟩ := square_spec a2.loose
  obtain ⟨a4, e4⟩ := multiply_spec a3.loose hv
  obtain ⟨a5, e5⟩ := multiply_spec a4.loose hu
  obtain ⟨a6, e6⟩ := pow2to252sub4_isPow a5.loose
  obtain ⟨a7, e7⟩ := multiply_spec a6.loose a5.loose
  obtain ⟨a8, e8⟩ := multiply_spec a2.loose hu
  obtain ⟨a9, e9⟩ := multiply_spec a8.loose a7.loose
  have e : sqrt u v = ((v.square.multiply v).multiply u).multiply
    (((((v.square.multiply v).square.multiply v).multiply u).pow2to252sub4).multiply
      (((v.square.multiply v).square.multiply v).multiply u)) := rfl
  rw [e]
  refine ⟨a9, ?_⟩
  rw [e9, e8, e7, e6, e2, e1]
  have e5' : ((v.square.multiply v).square.multiply v |>.multiply u).toF = u.toF * v.toF ^ 7 := by
    rw [e5, e4, e3, e2, e1]; ring
  rw [e5', ← pow_succ, show 2 ^ 252 - 4 + 1 = 2 ^ 252 - 3 from by norm_num]
  generalize (u.toF * v.toF ^ 7) ^ (2 ^ 252 - 3) = w
  ring

end FE
end Ed

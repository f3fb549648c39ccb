import Verif.Model.IntWidth
import Verif.Proofs.CT
import Verif.Proofs.Recode
import Verif.Proofs.Cipher
import Mathlib.Tactic.Linarith
import Mathlib.Tactic.Ring
import Mathlib.Tactic.NormNum

/-! # The width of `int`: the results do not depend on it -/

set_option autoImplicit false

namespace Ed

/-! ## The helpers look at the low bits only -/

theorem getLsbD_foldlW {w : ℕ} (x : BitVec w) (l : List ℕ) (hl : ∀ i ∈ l, i < w) (r : BitVec w) :
    (l.foldl (fun r i => r ||| x.sshiftRight i) r).getLsbD 0 = (r.getLsbD 0 || l.any fun i => x.getLsbD i) := by
  induction l generalizing r with
  | nil => simp
  | cons i l ih =>
    have hi : i < w := hl i (by simp)
    have hs : (x.sshiftRight i).getLsbD 0 = x.getLsbD i := by
      rw [BitVec.getLsbD_sshiftRight]
      have h0 : ¬ w ≤ 0 := by omega
      simp [hi, h0]
    rw [List.foldl_cons, ih (fun j hj => hl j (by simp [hj])), BitVec.getLsbD_or, hs, List.any_cons, Bool.or_assoc]

theorem and_oneW {w : ℕ} (x : BitVec w) : x &&& 1#w = if x.getLsbD 0 then 1#w else 0#w := by
  apply BitVec.eq_of_getLsbD_eq
  intro i hi
  rw [BitVec.getLsbD_and, BitVec.getLsbD_one]
  by_cases h : i = 0
  · subst h
    by_cases hx : x.getLsbD 0 = true
    · rw [if_pos hx, hx, BitVec.getLsbD_one]; simp
    · rw [if_neg hx]
      have : x.getLsbD 0 = false := by simpa using hx
      rw [this]; simp
  · by_cases hx : x.getLsbD 0 = true
    · rw [if_pos hx, BitVec.getLsbD_one]; simp [h]
    · rw [if_neg hx]; simp [h]

theorem isNegativeConstantTimeW_eq {w : ℕ} (hw : 10 ≤ w) (b : BitVec w) :
    isNegativeConstantTimeW b = if b.getLsbD 8 then 1#w else 0#w := by
  unfold isNegativeConstantTimeW
  rw [and_oneW]
  have : (b.sshiftRight 8).getLsbD 0 = b.getLsbD 8 := by
    rw [BitVec.getLsbD_sshiftRight]
    have h0 : ¬ w ≤ 0 := by omega
    have h8 : 8 < w := by omega
    simp [h0, h8]
  rw [this]

theorem setWidth_eq_iff {m n k : ℕ} (b : BitVec m) (c : BitVec n) :
    b.setWidth k = c.setWidth k ↔ ∀ i < k, b.getLsbD i = c.getLsbD i := by
  constructor
  · intro h i hi
    have := congrArg (fun x => x.getLsbD i) h
    simpa [BitVec.getLsbD_setWidth, hi] using this
  · intro h
    apply BitVec.eq_of_getLsbD_eq
    intro i hi
    simp [BitVec.getLsbD_setWidth, hi, h i hi]

theorem isConstantTimeByteEqW_eq {w : ℕ} (hw : 10 ≤ w) (b c : BitVec w) :
    isConstantTimeByteEqW b c = if b.setWidth 8 = c.setWidth 8 then 1#w else 0#w := by
  unfold isConstantTimeByteEqW
  dsimp only
  rw [and_oneW, BitVec.getLsbD_xor, getLsbD_foldlW _ _ (fun i hi => by simp at hi; omega), BitVec.getLsbD_one]
  have key : ((((0#w).getLsbD 0 || (List.range 8).any fun i => (b ^^^ c).getLsbD i) ^^ (decide (0 < w) && decide (0 = 0))) = true) ↔
      b.setWidth 8 = c.setWidth 8 := by
    have h0 : 0 < w := by omega
    rw [setWidth_eq_iff]
    simp only [BitVec.getLsbD_zero, Bool.false_or, h0, decide_true, Bool.and_self, Bool.xor_true, Bool.not_eq_true', List.any_eq_false,
      List.mem_range, BitVec.getLsbD_xor]
    constructor
    · intro h i hi; have := h i hi; simpa using this
    · intro h i hi; simpa using h i hi
  by_cases h : b.setWidth 8 = c.setWidth 8
  · rw [if_pos h, if_pos (key.2 h)]
  · rw [if_neg h, if_neg (fun hh => h (key.1 hh))]

theorem isNegative_bit (b : Int64) : isNegativeConstantTime b = if b.toBitVec.getLsbD 8 then 1 else 0 := by
  rw [isNegativeConstantTime_eq]
  have := bit_iff b 8 (by norm_num)
  norm_num at this
  by_cases h : b.toBitVec.getLsbD 8 = true
  · rw [if_pos h, if_pos (this.1 h)]
  · rw [if_neg h, if_neg (fun hh => h (this.2 hh))]

theorem isByteEq_bits (b c : Int64) :
    isConstantTimeByteEq b c = if b.toBitVec.setWidth 8 = c.toBitVec.setWidth 8 then 1 else 0 := by
  rw [isConstantTimeByteEq_eq]
  have := (mod256_iff b c).trans (setWidth_eq_iff (k := 8) b.toBitVec c.toBitVec).symm
  by_cases h : b.toBitVec.setWidth 8 = c.toBitVec.setWidth 8
  · rw [if_pos h, if_pos (this.2 h)]
  · rw [if_neg h, if_neg (fun hh => h (this.1 hh))]

/-! ## `Select` -/

theorem one_ne_zeroW {w : ℕ} (hw : 10 ≤ w) : (0#w) ≠ 1#w := by
  intro h
  have := congrArg BitVec.toNat h
  rw [BitVec.toNat_ofNat, BitVec.toNat_ofNat, Nat.mod_eq_of_lt (by positivity), Nat.mod_eq_of_lt (by
    have : 2 ^ 1 ≤ 2 ^ w := Nat.pow_le_pow_right (by norm_num) (by omega)
    omega)] at this
  omega

/-- `cmov` with a condition as 0 or 1, for both widths. -/
theorem GC.cmovW_ite {w : ℕ} (hw : 10 ≤ w) (r u : GC) (p : Prop) [Decidable p] :
    r.cmovW u (if p then 1#w else 0#w) = r.cmov u (if p then 1 else 0) := by
  by_cases h : p
  · rw [if_pos h, if_pos h]; unfold GC.cmovW; rw [if_pos rfl]; rfl
  · rw [if_neg h, if_neg h]; unfold GC.cmovW; rw [if_neg (one_ne_zeroW hw), if_pos rfl]; rfl

theorem GE.selectLoopW_eq {w : ℕ} (hw : 10 ≤ w) (x : BitVec w) (y : Int64) (h : x.setWidth 8 = y.toBitVec.setWidth 8) :
    ∀ (row : List GC) (i : ℕ) (t : GC), GE.selectLoopW x row i t = GE.selectLoop y row i t
  | [], _, _ => rfl
  | el :: row, i, t => by
    have hc : (BitVec.ofNat w (i + 1)).setWidth 8 = (Int64.ofInt ((i : ℤ) + 1)).toBitVec.setWidth 8 := by
      have e : (Int64.ofInt ((i : ℤ) + 1)).toBitVec = BitVec.ofNat 64 (i + 1) := by
        show BitVec.ofInt 64 ((i : ℤ) + 1) = _
        rw [← BitVec.ofInt_natCast]; rfl
      rw [e, BitVec.setWidth_ofNat_of_le (by omega), BitVec.setWidth_ofNat_of_le (by omega)]
    rw [GE.selectLoopW, GE.selectLoop, isConstantTimeByteEqW_eq hw, isByteEq_bits, h, hc, GC.cmovW_ite hw]
    congr 1
    funext t
    exact GE.selectLoopW_eq hw x y h row (i + 1) t

theorem neg_and_self64 (b : Int64) : b - shl ((-(1 : Int64)) &&& b) 1 = -b := by
  have e1 : (-(1 : Int64)) &&& b = b := by
    apply Int64.toBitVec_inj.1
    have h1 : (-(1 : Int64)).toBitVec = BitVec.allOnes 64 := by decide
    rw [Int64.toBitVec_and, h1, BitVec.allOnes_and]
  rw [e1]
  unfold shl
  have hb : b = Int64.ofInt b.toInt := (Int64.ofInt_toInt b).symm
  calc b - Int64.ofInt (b.toInt * 2 ^ 1) = Int64.ofInt b.toInt - Int64.ofInt (b.toInt * 2 ^ 1) := by rw [← hb]
    _ = Int64.ofInt (b.toInt - b.toInt * 2 ^ 1) := (Int64.ofInt_sub _ _).symm
    _ = Int64.ofInt (-b.toInt) := by congr 1; ring
    _ = -b := by rw [Int64.ofInt_neg, Int64.ofInt_toInt]

theorem neg_and_selfW {w : ℕ} (b : BitVec w) : b - (((-(1#w)) &&& b) <<< 1) = -b := by
  rw [BitVec.neg_one_eq_allOnes, BitVec.allOnes_and]
  have e : b <<< 1 = b + b := by
    apply BitVec.eq_of_toNat_eq
    rw [BitVec.toNat_shiftLeft, BitVec.toNat_add, Nat.shiftLeft_eq]
    congr 1; ring
  rw [e]
  grind

theorem GE.selectW_eq {w : ℕ} (hw : 10 ≤ w) (g : GE) (pos : ℕ) (b : BitVec w) (b' : Int64) (h : b.setWidth 9 = b'.toBitVec.setWidth 9) :
    g.selectW pos b = g.select pos b' := by
  have h8 : b.setWidth 8 = b'.toBitVec.setWidth 8 := by
    rw [setWidth_eq_iff] at h ⊢
    exact fun i hi => h i (by omega)
  have hbit : b.getLsbD 8 = b'.toBitVec.getLsbD 8 := (setWidth_eq_iff _ _).1 h 8 (by omega)
  have habs : (b - (((-(isNegativeConstantTimeW b)) &&& b) <<< 1)).setWidth 8 =
      (b' - shl ((-(isNegativeConstantTime b')) &&& b') 1).toBitVec.setWidth 8 := by
    rw [isNegativeConstantTimeW_eq hw, isNegative_bit, hbit]
    by_cases hn : b'.toBitVec.getLsbD 8 = true
    · rw [if_pos hn, if_pos hn, neg_and_selfW, neg_and_self64, Int64.toBitVec_neg, BitVec.setWidth_neg_of_le (by omega),
        BitVec.setWidth_neg_of_le (by omega), h8]
    · rw [if_neg hn, if_neg hn]
      have e0 : b - (((-(0#w)) &&& b) <<< 1) = b := by simp
      have e1 : b' - shl ((-(0 : Int64)) &&& b') 1 = b' := by
        have : shl ((-(0 : Int64)) &&& b') 1 = 0 := by
          have z : (-(0 : Int64)) &&& b' = 0 := by simp
          rw [z]; decide
        rw [this]; simp
      rw [e0, e1, h8]
  unfold GE.selectW GE.select
  dsimp only
  generalize b - (((-(isNegativeConstantTimeW b)) &&& b) <<< 1) = x at *
  generalize b' - shl ((-(isNegativeConstantTime b')) &&& b') 1 = y at *
  congr 1
  funext row
  rw [GE.selectLoopW_eq hw x y habs]
  congr 1
  funext t
  rw [isNegativeConstantTimeW_eq hw, isNegative_bit, hbit, GC.cmovW_ite hw]

/-! ## The recoding and the products -/

theorem toInt_eq_toNatW {w : ℕ} (x : BitVec w) : ∃ k : ℤ, x.toInt = (x.toNat : ℤ) + k * 2 ^ w := by
  rw [BitVec.toInt_eq_toNat_cond]
  split
  · exact ⟨0, by simp⟩
  · exact ⟨-1, by push_cast; ring⟩

theorem ofInt_toIntW {w n : ℕ} (hn : n ≤ w) (c : BitVec w) : BitVec.ofInt n c.toInt = c.setWidth n := by
  obtain ⟨k, hk⟩ := toInt_eq_toNatW c
  apply BitVec.eq_of_toNat_eq
  rw [BitVec.toNat_ofInt, BitVec.toNat_setWidth, hk]
  obtain ⟨m, rfl⟩ := Nat.exists_eq_add_of_le hn
  have : (c.toNat : ℤ) + k * 2 ^ (n + m) = (c.toNat : ℤ) + ((2 ^ n : ℕ) : ℤ) * (k * 2 ^ m) := by
    push_cast; rw [pow_add]; ring
  rw [this, Int.add_mul_emod_self_left]
  norm_cast

theorem Int8.ofBitVec_setWidth {w : ℕ} (hw : 10 ≤ w) (c : BitVec w) : Int8.ofBitVec (c.setWidth 8) = Int8.ofInt c.toInt := by
  apply Int8.toBitVec_inj.1
  show c.setWidth 8 = BitVec.ofInt 8 c.toInt
  rw [ofInt_toIntW (by omega)]

theorem radix16StepW_eq {w : ℕ} (hw : 10 ≤ w) (e : Digits) (c : BitVec w) (i : ℕ) :
    (radix16StepW (e, c) i).1 = (radix16Step (e, c.toInt) i).1 ∧ (radix16StepW (e, c) i).2.toInt = (radix16Step (e, c.toInt) i).2 := by
  have hcar : ∀ x : Int8, ((x.toBitVec.signExtend w + 8#w).sshiftRight 4).toInt = (x.toInt + 8) / 2 ^ 4 := by
    intro x
    have hx : x.toBitVec.toInt = x.toInt := rfl
    have h1 := x.toInt_lt
    have h2 := x.le_toInt
    have hp : (2 : ℤ) ^ 9 ≤ 2 ^ (w - 1) := pow_le_pow_right₀ (by norm_num) (by omega)
    have hpw : (2 : ℤ) ^ w = 2 * 2 ^ (w - 1) := by
      conv_lhs => rw [show w = (w - 1) + 1 by omega, pow_succ]
      ring
    have h8 : (8#w).toInt = 8 := by
      show (BitVec.ofNat w 8).toInt = 8
      rw [BitVec.toInt_ofNat', Int.bmod_eq_of_le] <;> push_cast <;> first | rfl | (rw [hpw]; omega)
    rw [BitVec.toInt_sshiftRight, BitVec.toInt_add, BitVec.toInt_signExtend_of_le (by omega), hx, h8, Int.shiftRight_eq_div_pow]
    rw [Int.bmod_eq_of_le] <;> push_cast <;> first | rfl | (rw [hpw]; omega)
  unfold radix16StepW radix16Step
  dsimp only
  rw [Int8.ofBitVec_setWidth hw, Int8.ofBitVec_setWidth hw, hcar]
  exact ⟨rfl, rfl⟩

theorem radix16_foldW {w : ℕ} (hw : 10 ≤ w) (l : List ℕ) : ∀ (e : Digits) (c : BitVec w),
    (l.foldl radix16StepW (e, c)).1 = (l.foldl radix16Step (e, c.toInt)).1 ∧
    (l.foldl radix16StepW (e, c)).2.toInt = (l.foldl radix16Step (e, c.toInt)).2 := by
  induction l with
  | nil => intro e c; exact ⟨rfl, rfl⟩
  | cons i l ih =>
    intro e c
    obtain ⟨h1, h2⟩ := radix16StepW_eq hw e c i
    rw [List.foldl_cons, List.foldl_cons]
    have e1 : radix16StepW (e, c) i = ((radix16StepW (e, c) i).1, (radix16StepW (e, c) i).2) := rfl
    have e2 : radix16Step (e, c.toInt) i = ((radix16Step (e, c.toInt) i).1, (radix16Step (e, c.toInt) i).2) := rfl
    rw [e1, e2, ← h1, ← h2]
    exact ih _ _

theorem toRadix16W_eq {w : ℕ} (hw : 10 ≤ w) (a : Bytes) : toRadix16W w a = toRadix16 a := by
  unfold toRadix16W toRadix16
  obtain ⟨h1, h2⟩ := radix16_foldW hw (List.range 63) (radix16Nibbles a) 0#w
  have h0 : (0#w).toInt = 0 := by simp
  rw [h0] at h1 h2
  dsimp only
  rw [Int8.ofBitVec_setWidth hw, h1, h2]

theorem signExtend_low {w : ℕ} (hw : 10 ≤ w) (x : Int8) :
    (x.toBitVec.signExtend w).setWidth 9 = (GE.int8ToInt x).toBitVec.setWidth 9 := by
  rw [← ofInt_toIntW (by omega), BitVec.toInt_signExtend_of_le (by omega)]
  show _ = (BitVec.ofInt 64 x.toInt).setWidth 9
  rw [← ofInt_toIntW (by omega)]
  have h1 := x.toInt_lt
  have h2 := x.le_toInt
  have : (BitVec.ofInt 64 x.toInt).toInt = x.toInt := by
    rw [BitVec.toInt_ofInt, Int.bmod_eq_of_le] <;> norm_num <;> omega
  rw [this]; rfl

theorem GE.scalarStepW_eq {w : ℕ} (hw : 10 ≤ w) (g : GE) (e : Digits) : GE.scalarStepW w g e = GE.scalarStep g e := by
  funext h i
  unfold GE.scalarStepW GE.scalarStep
  rw [GE.selectW_eq hw g (i / 2) _ _ (signExtend_low hw (e i))]

theorem GE.scalarMultiplyW_eq {w : ℕ} (hw : 10 ≤ w) (g : GE) (a : Bytes) : g.scalarMultiplyW w a = g.scalarMultiply a := by
  unfold GE.scalarMultiplyW GE.scalarMultiply
  rw [toRadix16W_eq hw, GE.scalarStepW_eq hw]

/-! ## The API -/

variable (E : Env)

theorem scalarMultiplyW_fun {w : ℕ} (hw : 10 ≤ w) : (GE.scalarMultiplyW w) = GE.scalarMultiply := by
  funext g a; exact GE.scalarMultiplyW_eq hw g a

theorem derivePublicKeyW_eq {w : ℕ} (hw : 10 ≤ w) (key : Option PrivateKey) : derivePublicKeyW w E key = derivePublicKey E key := by
  unfold derivePublicKeyW derivePublicKey
  rw [scalarMultiplyW_fun hw]

theorem signW_eq {w : ℕ} (hw : 10 ≤ w) (kp : KeyPair) (mess : Bytes) : signW w E kp mess = sign E kp mess := by
  unfold signW sign
  rw [scalarMultiplyW_fun hw]

theorem getSharedKeyW_eq {w : ℕ} (hw : 10 ≤ w) (n : ℕ) (priv : Option PrivateKey) (pub : PublicKey) (salt : Bytes) :
    getSharedKeyW w E n priv pub salt = getSharedKey E n priv pub salt := by
  unfold getSharedKeyW getSharedKey
  rw [scalarMultiplyW_fun hw]

theorem newKeyPairW_eq {w : ℕ} (hw : 10 ≤ w) (priv : Option PrivateKey) (pub : Option PublicKey) :
    newKeyPairW w E priv pub = newKeyPair E priv pub := by
  unfold newKeyPairW newKeyPair
  cases pub with
  | none => simp only [derivePublicKeyW_eq E hw]
  | some p => rfl

theorem generateKeyPairW_eq {w : ℕ} (hw : 10 ≤ w) (seed : ℕ) : generateKeyPairW w E seed = generateKeyPair E seed := by
  unfold generateKeyPairW generateKeyPair
  simp only [derivePublicKeyW_eq E hw, newKeyPairW_eq E hw]

/-! ## The padding -/

theorem powW {w : ℕ} (hw : 10 ≤ w) : 2 ^ w = 2 * 2 ^ (w - 1) ∧ 512 ≤ 2 ^ (w - 1) := by
  constructor
  · conv_lhs => rw [show w = (w - 1) + 1 by omega, pow_succ]
    ring
  · calc 512 = 2 ^ 9 := by norm_num
      _ ≤ 2 ^ (w - 1) := Nat.pow_le_pow_right (by norm_num) (by omega)

theorem sltW {w : ℕ} (hw : 10 ≤ w) (x y : BitVec w) (hy : y.toNat < 2 ^ (w - 1)) :
    x.slt y = true ↔ (2 ^ (w - 1) ≤ x.toNat ∨ x.toNat < y.toNat) := by
  obtain ⟨hp, -⟩ := powW hw
  have hx := x.isLt
  rw [BitVec.slt_eq_decide, decide_eq_true_iff, BitVec.toInt_eq_toNat_cond, BitVec.toInt_eq_toNat_cond]
  rw [hp] at *
  generalize 2 ^ (w - 1) = T at *
  push_cast
  split <;> split <;> omega

theorem sremW {w : ℕ} (hw : 10 ≤ w) (x : BitVec w) (hx : x.toNat < 2 ^ (w - 1)) : (x.srem 16#w).toNat = x.toNat % 16 := by
  obtain ⟨hp, h5⟩ := powW hw
  have h16 : (16#w).toNat = 16 := by
    show (BitVec.ofNat w 16).toNat = 16
    rw [BitVec.toNat_ofNat, Nat.mod_eq_of_lt (by omega)]
  have hm : ∀ y : BitVec w, y.toNat < 2 ^ (w - 1) → y.msb = false := by
    intro y hy
    rw [BitVec.msb_eq_decide, decide_eq_false_iff_not]; omega
  rw [BitVec.srem_eq, hm x hx, hm _ (by rw [h16]; omega)]
  dsimp only
  rw [BitVec.toNat_umod, h16]

theorem toNat_ofNatW {w n : ℕ} (hw : 10 ≤ w) (hn : n < 2 ^ (w - 1)) : (BitVec.ofNat w n).toNat = n := by
  obtain ⟨hp, -⟩ := powW hw
  rw [BitVec.toNat_ofNat, Nat.mod_eq_of_lt (by omega)]

theorem padMessageW_eq {w : ℕ} (hw : 10 ≤ w) (m : Bytes) (hm : m.length < 2 ^ (w - 1)) :
    padMessageW w m = if m.length + (16 - m.length % 16) < 2 ^ (w - 1) then .ok (padMessage m) else .panic := by
  obtain ⟨hp, h5⟩ := powW hw
  unfold padMessageW padMessage
  dsimp only
  have hs : (BitVec.ofNat w m.length).toNat = m.length := toNat_ofNatW hw hm
  have hr := sremW hw (BitVec.ofNat w m.length) (by rw [hs]; exact hm)
  rw [hs] at hr
  have hpad : 16#w - (BitVec.ofNat w m.length).srem 16#w = BitVec.ofNat w (16 - m.length % 16) := by
    apply BitVec.eq_of_toNat_eq
    have h16 : (16#w).toNat = 16 := toNat_ofNatW hw (by omega)
    rw [BitVec.toNat_sub, hr, h16, BitVec.toNat_ofNat]
    have : 2 ^ w - m.length % 16 + 16 = (16 - m.length % 16) + 2 ^ w := by omega
    rw [this, Nat.add_mod_right]
  have hlt : m.length % 16 < 16 := Nat.mod_lt _ (by norm_num)
  rw [hpad]
  have hk1 : 16 - m.length % 16 ≤ 16 := by omega
  generalize 16 - m.length % 16 = k at *
  have hkn : (BitVec.ofNat w k).toNat = k := toNat_ofNatW hw (by omega)
  have hsum : (BitVec.ofNat w m.length + BitVec.ofNat w k).toNat = m.length + k := by
    rw [BitVec.toNat_add, hs, hkn, Nat.mod_eq_of_lt (by omega)]
  have hz : (0#w).toNat = 0 := toNat_ofNatW hw (by omega)
  have hb : UInt8.ofBitVec ((BitVec.ofNat w k).setWidth 8) = UInt8.ofNat k := by
    rw [BitVec.setWidth_ofNat_of_le (by omega)]; rfl
  by_cases h : m.length + k < 2 ^ (w - 1)
  · rw [if_pos h, if_neg, hkn, hb]
    rw [sltW hw _ _ (by rw [hz]; omega), hsum, hz]; omega
  · rw [if_neg h, if_pos]
    rw [sltW hw _ _ (by rw [hz]; omega), hsum]; omega

theorem unpadW_eq {w : ℕ} (hw : 10 ≤ w) (buf : Bytes) (hb : buf.length < 2 ^ (w - 1)) : unpadW w buf = unpad buf := by
  obtain ⟨hp, h5⟩ := powW hw
  unfold unpadW unpad
  dsimp only
  by_cases h0 : buf.length = 0
  · rw [if_pos h0, if_pos h0]
  rw [if_neg h0, if_neg h0]
  have hbyte : ∀ x : UInt8, (x.toBitVec.setWidth w).toNat = x.toNat := by
    intro x
    have := x.toNat_lt
    show (x.toBitVec.setWidth w).toNat = x.toBitVec.toNat
    rw [BitVec.toNat_setWidth]
    exact Nat.mod_eq_of_lt (by have : x.toBitVec.toNat < 256 := this; omega)
  have hff : ∀ x : UInt8, x.toBitVec &&& 0xFF#8 = x.toBitVec := by
    intro x
    have : (0xFF#8) = BitVec.allOnes 8 := rfl
    rw [this, BitVec.and_allOnes]
  rw [hff]
  generalize buf.getD (buf.length - 1) 0 = last
  have hl := last.toNat_lt
  have hz : (0#w).toNat = 0 := toNat_ofNatW hw (by omega)
  have h16 : (16#w).toNat = 16 := toNat_ofNatW hw (by omega)
  have hn : (BitVec.ofNat w buf.length).toNat = buf.length := toNat_ofNatW hw hb
  have hc1 : (last.toBitVec.setWidth w = 0#w ∨ (16#w).slt (last.toBitVec.setWidth w) = true) ↔ (last.toNat = 0 ∨ last.toNat > 16) := by
    rw [sltW hw _ _ (by rw [hbyte]; omega), h16, hbyte, ← BitVec.toNat_inj, hbyte, hz]; omega
  simp only [hc1]
  by_cases h1 : last.toNat = 0 ∨ last.toNat > 16
  · rw [if_pos h1, if_pos h1]
  rw [if_neg h1, if_neg h1]
  have hsub : (BitVec.ofNat w buf.length - last.toBitVec.setWidth w).toNat = (2 ^ w - last.toNat + buf.length) % 2 ^ w := by
    rw [BitVec.toNat_sub, hbyte, hn]
  by_cases h2 : last.toNat > buf.length
  · rw [if_pos h2, if_pos]
    rw [sltW hw _ _ (by rw [hz]; omega), hsub, Nat.mod_eq_of_lt (by omega)]; omega
  · have e : 2 ^ w - last.toNat + buf.length = (buf.length - last.toNat) + 2 ^ w := by omega
    rw [e, Nat.add_mod_right, Nat.mod_eq_of_lt (by omega)] at hsub
    rw [if_neg h2, if_neg (by rw [sltW hw _ _ (by rw [hz]; omega), hsub, hz]; omega), hsub]
    have hany : ∀ l : Bytes, l.any (fun b => b.toBitVec.setWidth w != last.toBitVec.setWidth w) = l.any fun b => b.toNat != last.toNat := by
      intro l
      congr 1
      funext b
      rw [Bool.eq_iff_iff, bne_iff_ne, bne_iff_ne, Ne, ← BitVec.toNat_inj, hbyte, hbyte]
    rw [hany]

theorem encodeW_eq {w : ℕ} (hw : 10 ≤ w) (m k iv : Bytes) (hm : m.length + (16 - m.length % 16) < 2 ^ (w - 1)) :
    encodeW w E m k iv = encode E m k iv := by
  unfold encodeW encode
  rw [padMessageW_eq hw m (by omega), if_pos hm]
  rfl

theorem encodeW_large {w : ℕ} (hw : 10 ≤ w) (m k iv : Bytes) (hm : m.length < 2 ^ (w - 1)) (hk : k.length = 32)
    (hl : 2 ^ (w - 1) ≤ m.length + (16 - m.length % 16)) : encodeW w E m k iv = .panic := by
  unfold encodeW
  rw [padMessageW_eq hw m hm, if_neg (by omega)]
  unfold aesNewCipher
  rw [if_pos (Or.inr (Or.inr hk))]
  rfl

theorem decodeW_eq {w : ℕ} (hw : 10 ≤ w) (c k iv : Bytes) (hc : c.length < 2 ^ (w - 1)) : decodeW w E c k iv = decode E c k iv := by
  unfold decodeW decode
  congr 1
  funext _
  by_cases hiv : iv.length = 16
  · by_cases h16 : c.length % 16 = 0
    · rw [unpadW_eq hw _ (by
        have := cbcPlain_length E (k := k) hiv h16
        unfold cbcPlain at this
        rw [this]; exact hc)]
    · unfold cbcChecks
      rw [if_neg (by simp [hiv]), if_pos h16]; rfl
  · unfold cbcChecks
    rw [if_pos hiv]; rfl

theorem encryptW_eq {w : ℕ} (hw : 10 ≤ w) (c : BlockCipher) (m : Bytes) (hm : m.length + (16 - m.length % 16) < 2 ^ (w - 1)) :
    c.encryptW w E m = c.encrypt E m := by
  unfold BlockCipher.encryptW BlockCipher.encrypt
  simp only [getSharedKeyW_eq E hw, encodeW_eq E hw m _ _ hm]

theorem decryptW_eq {w : ℕ} (hw : 10 ≤ w) (c : BlockCipher) (b : Bytes) (hb : b.length < 2 ^ (w - 1)) :
    c.decryptW w E b = c.decrypt E b := by
  unfold BlockCipher.decryptW BlockCipher.decrypt
  simp only [getSharedKeyW_eq E hw, decodeW_eq E hw (b.drop 48) _ _ (by rw [List.length_drop]; omega)]

end Ed

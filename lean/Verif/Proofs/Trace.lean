import Verif.Model.Trace
import Verif.Spec.Trace
import Verif.Proofs.Cipher
import Verif.Proofs.Leak

/-!
# Traces of the scalar multiplication
-/

set_option autoImplicit false

namespace Ed
open Finset

namespace Traced

theorem bind_out {α β : Type} (x : Traced α) (f : α → Traced β) : (x.bind f).out = (x.out >>= fun a => (f a).out) := by
  unfold bind
  cases x.out <;> rfl

theorem lift_out {α : Type} (o : Out α) : (lift o).out = o := rfl

theorem bind_tests {α β : Type} {x : Traced α} {a : α} (h : x.out = .ok a) (f : α → Traced β) :
    (x.bind f).tests = x.tests ++ (f a).tests := by
  unfold bind; rw [h]

theorem lift_bind_tests {α β : Type} {o : Out α} {a : α} (h : o = .ok a) (f : α → Traced β) :
    ((lift o).bind f).tests = (f a).tests := by
  rw [h]; rfl

theorem fold_out {α : Type} (f : α → ℕ → Traced α) (g : α → ℕ → Out α) (h : ∀ a i, (f a i).out = g a i) :
    ∀ (l : List ℕ) (a : α), (fold f a l).out = l.foldlM g a
  | [], _ => rfl
  | i :: l, a => by
    rw [fold, bind_out, List.foldlM_cons, h]
    congr 1
    funext a'
    exact fold_out f g h l a'

end Traced
open Traced

theorem GC.cmovT_out (r u : GC) (b : Int64) : (r.cmovT u b).out = r.cmov u b := by
  unfold cmovT cmov
  split
  · rfl
  · split <;> rfl

namespace GE

theorem selectLoopT_out (bAbs : Int64) : ∀ (row : List GC) (i : ℕ) (t : GC), (selectLoopT bAbs row i t).out = selectLoop bAbs row i t
  | [], _, _ => rfl
  | el :: row, i, t => by
    rw [selectLoopT, selectLoop, bind_out, GC.cmovT_out]
    congr 1
    funext t'
    exact selectLoopT_out bAbs row (i + 1) t'

theorem selectT_out (g : GE) (pos : ℕ) (b : Int64) : (g.selectT pos b).out = g.select pos b := by
  unfold selectT select
  simp only [bind_out, lift_out, selectLoopT_out, GC.cmovT_out]

theorem scalarStepT_out (g : GE) (e : Digits) (h : GC) (i : ℕ) : (scalarStepT g e h i).out = scalarStep g e h i := by
  unfold scalarStepT scalarStep
  simp only [bind_out, lift_out, selectT_out]

theorem scalarMultiplyT_out (g : GE) (a : Bytes) : (g.scalarMultiplyT a).out = g.scalarMultiply a := by
  unfold scalarMultiplyT scalarMultiply
  simp only [bind_out, lift_out, fold_out _ _ (scalarStepT_out g (toRadix16 a))]

end GE

/-! ## Reading -/

/-- The tests of one move. -/
def moveTests (b : Bool) : List Bool := if b then [true] else [false, true]

theorem readMove_moveTests (b : Bool) (t : List Bool) : readMove (moveTests b ++ t) = (b, t) := by
  cases b <;> rfl

theorem GC.cmovT_tests (r u : GC) (p : Prop) [Decidable p] : (r.cmovT u (if p then 1 else 0)).tests = moveTests (decide p) := by
  unfold cmovT
  by_cases h : p
  · rw [if_pos h, if_pos rfl, decide_eq_true h]; rfl
  · rw [if_neg h, if_neg (by decide), if_pos rfl, decide_eq_false h]; rfl

namespace GE

theorem selectLoopT_read (bAbs : Int64) (m : ℕ) (hm : m ≤ 128) (hb : bAbs.toInt = m) : ∀ (row : List GC) (i : ℕ) (t : GC) (rest : List Bool),
    i + row.length < 128 → readIndex row.length i ((selectLoopT bAbs row i t).tests ++ rest) =
      (if i < m ∧ m ≤ i + row.length then (m : ℤ) else 0, rest)
  | [], i, t, rest, _ => by
    rw [List.length_nil, readIndex, if_neg (by omega)]
    rfl
  | el :: row, i, t, rest, hi => by
    rw [List.length_cons] at hi ⊢
    have hf : (Int64.ofInt ((i : ℤ) + 1)).toInt = (i : ℤ) + 1 := toInt_ofInt_of_fits ⟨by omega, by omega⟩
    have hq : isConstantTimeByteEq bAbs (Int64.ofInt ((i : ℤ) + 1)) = if m = i + 1 then 1 else 0 := by
      rw [isConstantTimeByteEq_eq, hb, hf]
      by_cases h : m = i + 1
      · rw [if_pos h, if_pos (by omega)]
      · rw [if_neg h, if_neg (by omega)]
    have ho : ∃ t', (t.cmovT el (isConstantTimeByteEq bAbs (Int64.ofInt ((i : ℤ) + 1)))).out = .ok t' := by
      rw [GC.cmovT_out, hq]
      by_cases h : m = i + 1
      · rw [if_pos h, GC.cmov_one]; exact ⟨_, rfl⟩
      · rw [if_neg h, GC.cmov_zero]; exact ⟨_, rfl⟩
    obtain ⟨t', ht'⟩ := ho
    rw [selectLoopT, bind_tests ht', hq, GC.cmovT_tests, List.append_assoc, readIndex]
    rw [readMove_moveTests]
    dsimp only
    rw [selectLoopT_read bAbs m hm hb row (i + 1) t' rest (by omega)]
    refine Prod.ext ?_ rfl
    show (if decide (m = i + 1) = true then (i : ℤ) + 1 else if i + 1 < m ∧ m ≤ i + 1 + row.length then (m : ℤ) else 0) =
      if i < m ∧ m ≤ i + (row.length + 1) then (m : ℤ) else 0
    simp only [decide_eq_true_eq]
    split_ifs <;> omega

theorem selectT_read {g : GE} {q : Pt} (ht : g.SingleTable q) (pos : ℕ) (hpos : pos < 32) (b : Int64) (hb : |b.toInt| ≤ 8)
    (rest : List Bool) : readDigit ((g.selectT pos b).tests ++ rest) = (b.toInt, rest) := by
  obtain ⟨t, ht1, ht2, ht3⟩ := ht
  obtain ⟨row, hr1, hr2, hr3⟩ := ht3 pos hpos
  have hb2 := abs_le.1 hb
  have hb' : -128 ≤ b.toInt ∧ b.toInt < 128 := by omega
  unfold selectT
  rw [ht1, isNegativeConstantTime_eq]
  dsimp only [Option.getD]
  have hidx : Out.index t pos = .ok row := by unfold Out.index; rw [hr1]; rfl
  have habs := abs_digit b hb'
  obtain ⟨m, hm⟩ := Int.eq_ofNat_of_zero_le (abs_nonneg b.toInt)
  have hm8 : m ≤ 8 := by omega
  obtain ⟨t', ho⟩ : ∃ t', (selectLoopT (b - shl ((-(if b.toInt / 256 % 2 = 1 then (1 : Int64) else 0)) &&& b) 1) row 0 .zeroPrecomputed).out
      = .ok t' := by
    rw [selectLoopT_out, selectLoop_spec _ m (by omega) (habs.trans hm) row 0 _ (by omega)]
    exact ⟨_, rfl⟩
  rw [bind_tests (x := Traced.lift (Out.index t pos)) hidx, bind_tests ho, GC.cmovT_tests]
  rw [show (Traced.lift (Out.index t pos)).tests = [] from rfl, List.nil_append, List.append_assoc, readDigit]
  have := selectLoopT_read _ m (by omega) (habs.trans hm) row 0 .zeroPrecomputed
    (moveTests (decide (b.toInt / 256 % 2 = 1)) ++ rest) (by omega)
  rw [hr2] at this
  rw [this]
  dsimp only
  rw [readMove_moveTests]
  dsimp only
  congr 1
  have hx : (if 0 < m ∧ m ≤ 0 + 8 then (m : ℤ) else 0) = m := by
    by_cases h0 : 0 < m
    · rw [if_pos (by omega)]
    · rw [if_neg (by omega)]; omega
  rw [hx]
  by_cases hn : b.toInt < 0
  · rw [if_pos (by simp only [decide_eq_true_eq]; omega)]
    rw [abs_of_neg hn] at hm; omega
  · rw [if_neg (by simp only [decide_eq_true_eq]; omega)]
    rw [abs_of_nonneg (by omega)] at hm; omega

theorem fold_read {g : GE} {q : Pt} (ht : g.SingleTable q) (e : Digits) (p : ℕ) (hp : p < 2)
    (he : ∀ j < 64, |(e j).toInt| ≤ 8) : ∀ (n k : ℕ) (h : GC) (r : Pt) (rest : List Bool), k + n ≤ 32 → h.sys = .p3 → h.Repr r →
    readHalf n k ((Traced.fold (scalarStepT g e) h ((List.range' k n).map fun k => 2 * k + p)).tests ++ rest) =
      (((List.range' k n).map fun k => (e (2 * k + p)).toInt * 256 ^ k).sum, rest)
  | 0, k, h, r, rest, _, _, _ => rfl
  | n + 1, k, h, r, rest, hk, hs, hr => by
    obtain ⟨h1, e1, e2, e3⟩ := scalarStep_spec ht hs hr e (2 * k + p) (by omega)
    have ih := fold_read ht e p hp he n (k + 1) h1 _ rest (by omega) e2 e3
    rw [List.range'_succ, List.map_cons, Traced.fold, bind_tests ((scalarStepT_out g e h _).trans e1), List.append_assoc, readHalf]
    have b1 := (e (2 * k + p)).le_toInt
    have b2 := (e (2 * k + p)).toInt_lt
    have hd : (int8ToInt (e (2 * k + p))).toInt = (e (2 * k + p)).toInt := toInt_ofInt_of_fits ⟨by omega, by omega⟩
    have h8 := he (2 * k + p) (by omega)
    obtain ⟨s, s1, -, -⟩ := select_spec ht ((2 * k + p) / 2) (by omega) (int8ToInt (e (2 * k + p))) (by rw [hd]; omega)
    have hst : (scalarStepT g e h (2 * k + p)).tests = (g.selectT ((2 * k + p) / 2) (int8ToInt (e (2 * k + p)))).tests := by
      unfold scalarStepT
      rw [bind_tests ((selectT_out _ _ _).trans s1)]
      exact List.append_nil _
    rw [hst, selectT_read ht _ (by omega) _ (by rw [hd]; exact h8)]
    dsimp only
    rw [ih, hd, List.map_cons, List.sum_cons]

theorem radix16_abs (a : Bytes) (ha : leVal a < 2 ^ 255) (j : ℕ) (hj : j < 64) : |(toRadix16 a j).toInt| ≤ 8 := by
  obtain ⟨d1, d2, d3⟩ := toRadix16_spec a
  rw [Nat.mod_eq_of_lt (by omega)] at d3
  by_cases h : j < 63
  · have := d1 j h
    exact abs_le.2 ⟨by omega, by omega⟩
  · have : j = 63 := by omega
    subst this
    refine abs_le.2 ⟨by omega, ?_⟩
    have hs := (digits16_bounds d1).1
    rw [sum_range_succ] at d3
    generalize ∑ j ∈ range 63, (toRadix16 a j).toInt * 16 ^ j = s at *
    generalize (toRadix16 a 63).toInt = x at *
    by_contra hx
    have : (9 : ℤ) * 16 ^ 63 ≤ x * 16 ^ 63 := by nlinarith [pow_pos (by norm_num : (0:ℤ) < 16) 63]
    norm_num at *
    omega

theorem scalarMultiplyT_read {g : GE} {q : Pt} (ht : g.SingleTable q) (a : Bytes) (ha : leVal a < 2 ^ 255) (rest : List Bool) :
    readScalar ((g.scalarMultiplyT a).tests ++ rest) = leVal a := by
  have he := radix16_abs a ha
  obtain ⟨d1, d2, d3⟩ := toRadix16_spec a
  rw [Nat.mod_eq_of_lt (by omega)] at d3
  unfold scalarMultiplyT
  generalize toRadix16 a = e at *
  obtain ⟨h1, a1, a2, a3⟩ := foldlM_spec ht e ((List.range 32).map fun k => 2 * k + 1)
    (by intro i hi; simp at hi; obtain ⟨k, hk, rfl⟩ := hi; omega) _ _ rfl GC.zeroP3_repr
  obtain ⟨h2, b1, b2, b3⟩ := times16_spec a2 a3
  rw [bind_tests ((fold_out _ _ (scalarStepT_out g e) _ _).trans a1), bind_tests (x := Traced.lift (times16 h1)) b1]
  rw [show (Traced.lift (times16 h1)).tests = [] from rfl, List.nil_append, List.append_assoc, readScalar]
  rw [List.range_eq_range']
  rw [fold_read ht e 1 (by omega) he 32 0 _ _ _ (by omega) rfl GC.zeroP3_repr]
  dsimp only
  have f0 := fold_read ht e 0 (by omega) he 32 0 h2 _ rest (by omega) b2 b3
  simp only [Nat.add_zero] at f0
  rw [f0]
  dsimp only
  rw [← d3, ← List.range_eq_range', map_range_sum, map_range_sum]
  have hs := sum_even_odd (fun j => (e j).toInt) 32
  rw [show (64 : ℕ) = 2 * 32 from rfl, hs]
  ring

end GE

theorem deriveT_aux (E : Env) (k : Option PrivateKey) (bp : Out GE) :
    ((Traced.lift (prepareForScalarMultiply E k)).bind fun a =>
      (Traced.lift bp).bind fun b =>
      (Traced.mk (b.scalarMultiplyT a).out.orPanic (b.scalarMultiplyT a).tests).bind fun pubKey =>
      .lift (pubKey.encode.orPanic >>= fun el => .ok (newPublicKey el))).out =
    (prepareForScalarMultiply E k >>= fun a => bp >>= fun b => (b.scalarMultiply a).orPanic >>= fun pubKey =>
      pubKey.encode.orPanic >>= fun el => .ok (newPublicKey el)) := by
  simp only [bind_out, GE.scalarMultiplyT_out]
  rfl

theorem derivePublicKeyT_out (E : Env) (k : Option PrivateKey) : (derivePublicKeyT E k).out = derivePublicKey E k :=
  deriveT_aux E k basePoint

theorem signT_aux (E : Env) (kp : KeyPair) (m : Bytes) (bp : Out GE) :
    ((Traced.lift (Out.deref kp.priv)).bind fun k =>
    (Traced.lift (newEncodedFieldElement (hashesSha3_512 E [(hashesSha3_512 E [k.raw]).drop 32, m]))).bind fun r =>
    (Traced.lift bp).bind fun b =>
    (b.scalarMultiplyT (modQ r)).bind fun R =>
    .lift (signRest E kp m (modQ r) R)).out =
    (Out.deref kp.priv >>= fun k => newEncodedFieldElement (hashesSha3_512 E [(hashesSha3_512 E [k.raw]).drop 32, m]) >>= fun r =>
      bp >>= fun b => b.scalarMultiply (modQ r) >>= fun R => signRest E kp m (modQ r) R) := by
  simp only [bind_out, GE.scalarMultiplyT_out]
  rfl

theorem signT_out (E : Env) (kp : KeyPair) (m : Bytes) : (signT E kp m).out = sign E kp m := by
  unfold signT sign
  split
  · rfl
  · exact signT_aux E kp m basePoint

theorem getSharedKeyT_out (E : Env) (kl : ℕ) (k : Option PrivateKey) (pub : PublicKey) (salt : Bytes) :
    (getSharedKeyT E kl k pub salt).out = getSharedKey E kl k pub salt := by
  unfold getSharedKeyT getSharedKey
  simp only [bind_out, lift_out, GE.scalarMultiplyT_out]

theorem deriveT_tests_aux (E : Env) (k : Option PrivateKey) (bp : Out GE) (g : GE) (a : Bytes) (h : GC) (hk : prepareForScalarMultiply E k = .ok a)
    (hb : bp = .ok g) (hs : g.scalarMultiply a = .ok h) :
    ((Traced.lift (prepareForScalarMultiply E k)).bind fun a =>
      (Traced.lift bp).bind fun b =>
      (Traced.mk (b.scalarMultiplyT a).out.orPanic (b.scalarMultiplyT a).tests).bind fun pubKey =>
      .lift (pubKey.encode.orPanic >>= fun el => .ok (newPublicKey el))).tests = (g.scalarMultiplyT a).tests := by
  rw [lift_bind_tests hk, lift_bind_tests hb, bind_tests (a := h) (by rw [GE.scalarMultiplyT_out, hs]; rfl)]
  exact List.append_nil _

theorem derivePublicKeyT_tests {E : Env} {k : Option PrivateKey} {g : GE} {a : Bytes} {h : GC}
    (hk : prepareForScalarMultiply E k = .ok a) (hb : basePoint = .ok g) (hs : g.scalarMultiply a = .ok h) :
    (derivePublicKeyT E k).tests = (g.scalarMultiplyT a).tests := deriveT_tests_aux E k basePoint g a h hk hb hs

theorem signT_tests_aux (E : Env) (k : PrivateKey) (pub : PublicKey) (m r : Bytes) (bp : Out GE) (g : GE) (h : GC)
    (hr : newEncodedFieldElement (hashesSha3_512 E [(hashesSha3_512 E [k.raw]).drop 32, m]) = .ok r)
    (hb : bp = .ok g) (hs : g.scalarMultiply (modQ r) = .ok h) :
    ((Traced.lift (Out.deref (some k))).bind fun k' =>
    (Traced.lift (newEncodedFieldElement (hashesSha3_512 E [(hashesSha3_512 E [k'.raw]).drop 32, m]))).bind fun r =>
    (Traced.lift bp).bind fun b =>
    (b.scalarMultiplyT (modQ r)).bind fun R =>
    .lift (signRest E ⟨some k, pub⟩ m (modQ r) R)).tests = (g.scalarMultiplyT (modQ r)).tests := by
  have hd : Out.deref (some k) = .ok k := rfl
  rw [lift_bind_tests hd, lift_bind_tests hr, lift_bind_tests hb, bind_tests ((GE.scalarMultiplyT_out _ _).trans hs)]
  exact List.append_nil _

theorem signT_tests {E : Env} {k : PrivateKey} {pub : PublicKey} {m r : Bytes} {g : GE} {h : GC}
    (hr : newEncodedFieldElement (hashesSha3_512 E [(hashesSha3_512 E [k.raw]).drop 32, m]) = .ok r)
    (hb : basePoint = .ok g) (hs : g.scalarMultiply (modQ r) = .ok h) :
    (signT E ⟨some k, pub⟩ m).tests = (g.scalarMultiplyT (modQ r)).tests := by
  unfold signT
  rw [if_neg (by simp [KeyPair.hasPrivateKey])]
  exact signT_tests_aux E k pub m r basePoint g h hr hb hs

end Ed

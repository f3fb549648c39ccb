import Verif.Proofs.CostCalls

/-!
# The exact work of `Verify` and of the decoding of a public key
-/

set_option autoImplicit false

namespace Ed
open Finset Cost

/-- If the call returns a value, its price is this. -/
def Costs (w : Step → ℕ) {α : Type} (x : Cost α) (n : ℕ) : Prop := ∀ a, x.out = .ok a → price w x.steps = n

variable {w : Step → ℕ}

theorem Cost.Takes.costs {α : Type} {x : Cost α} {l : List Step} (h : Takes x l) : Costs w x (price w l) := fun a ha => by rw [h a ha]

theorem Costs.bind {α β : Type} {x : Cost α} {f : α → Cost β} {n m : ℕ} (h : Costs w x n) (h' : ∀ a, x.out = .ok a → Costs w (f a) m) :
    Costs w (x >>= f) (n + m) := by
  intro b hb
  rw [bind_out] at hb
  obtain ⟨a, ha, hb⟩ := bind_eq_ok hb
  rw [bind_steps ha, price_append, h a ha, h' a ha b hb]

namespace GE
open GC

theorem precSub_takes (r g : GC) : Takes (r.precomputedSubtractC g) sPrecSub := by
  unfold precomputedSubtractC FE.addC FE.subC FE.mulC
  split
  · exact takes_fail fun a => nofun
  · split
    · exact takes_fail fun a => nofun
    · exact Takes.tick (Takes.tick (Takes.tick (Takes.tick (Takes.lift fun _ _ => Takes.tick (Takes.tick (Takes.tick (Takes.tick (Takes.tick
        (Takes.tick (takes_pure _)))))))))) 

theorem subDigit_costs (A : GE) (a : Int8) {t : GC} (ht : t.sys = .p1xp1) :
    Costs w (subDigitC A a t) ((if a ≠ 0 then 1 else 0) * price w (sToP3 ++ sPrecAdd)) := by
  unfold subDigitC
  split
  · next h =>
    rw [if_pos (fun e => by subst e; exact absurd h (by decide)), Nat.one_mul, price_append, ← price_sPrecSub]
    exact (toP3_takes ht).costs.bind fun t _ => (Takes.lift fun q _ => precSub_takes t q).costs
  · split
    · next h =>
      rw [if_pos (fun e => by subst e; exact absurd h (by decide)), Nat.one_mul, price_append]
      exact (toP3_takes ht).costs.bind fun t _ => (Takes.lift fun q _ => precAdd_takes t q).costs
    · next h1 h2 =>
      have : a = 0 := by
        by_contra h0
        have := (int8_ne_zero a).1 h0
        rw [gt_iff_lt, Int8.lt_iff_toInt_lt] at h1
        rw [Int8.lt_iff_toInt_lt] at h2
        have e : (0 : Int8).toInt = 0 := rfl
        omega
      rw [if_neg (not_not.2 this), Nat.zero_mul]
      exact (takes_pure _).costs

theorem addDigit_costs (A : GE) (a : Int8) {t : GC} (ht : t.sys = .p1xp1) :
    Costs w (addDigitC A a t) ((if a ≠ 0 then 1 else 0) * price w (sToP3 ++ sPrecAdd)) := by
  unfold addDigitC
  split
  · next h =>
    rw [if_pos (fun e => by subst e; exact absurd h (by decide)), Nat.one_mul, price_append]
    exact (toP3_takes ht).costs.bind fun t _ => (Takes.lift fun q _ => precAdd_takes t q).costs
  · split
    · next h =>
      rw [if_pos (fun e => by subst e; exact absurd h (by decide)), Nat.one_mul, price_append, ← price_sPrecSub]
      exact (toP3_takes ht).costs.bind fun t _ => (Takes.lift fun q _ => precSub_takes t q).costs
    · next h1 h2 =>
      have : a = 0 := by
        by_contra h0
        have := (int8_ne_zero a).1 h0
        rw [gt_iff_lt, Int8.lt_iff_toInt_lt] at h1
        rw [Int8.lt_iff_toInt_lt] at h2
        have e : (0 : Int8).toInt = 0 := rfl
        omega
      rw [if_neg (not_not.2 this), Nat.zero_mul]
      exact (takes_pure _).costs

theorem subDigit_sys {A : GE} {a : Int8} {t t' : GC} (ht : t.sys = .p1xp1) (e : subDigit A a t = .ok t') : t'.sys = .p1xp1 := by
  unfold subDigit at e
  split at e
  · obtain ⟨_, -, e⟩ := bind_eq_ok e
    obtain ⟨_, -, e⟩ := bind_eq_ok e
    exact sys_precSub e
  · split at e
    · obtain ⟨_, -, e⟩ := bind_eq_ok e
      obtain ⟨_, -, e⟩ := bind_eq_ok e
      exact sys_precAdd e
    · rw [← Out.ok.inj e]; exact ht

theorem addDigit_sys {A : GE} {a : Int8} {t t' : GC} (ht : t.sys = .p1xp1) (e : addDigit A a t = .ok t') : t'.sys = .p1xp1 := by
  unfold addDigit at e
  split at e
  · obtain ⟨_, -, e⟩ := bind_eq_ok e
    obtain ⟨_, -, e⟩ := bind_eq_ok e
    exact sys_precAdd e
  · split at e
    · obtain ⟨_, -, e⟩ := bind_eq_ok e
      obtain ⟨_, -, e⟩ := bind_eq_ok e
      exact sys_precSub e
    · rw [← Out.ok.inj e]; exact ht

theorem doubleStep_costs (g A : GE) (a b : Int8) {r : GC} (hr : r.sys = .p2) :
    Costs w (doubleStepC g A a b r) (price w (sDbl ++ sToP2) + ((if a ≠ 0 then 1 else 0) + if b ≠ 0 then 1 else 0) * price w (sToP3 ++ sPrecAdd)) := by
  have key : Costs w (doubleStepC g A a b r) (price w sDbl + ((if a ≠ 0 then 1 else 0) * price w (sToP3 ++ sPrecAdd) +
      ((if b ≠ 0 then 1 else 0) * price w (sToP3 ++ sPrecAdd) + price w sToP2))) := by
    unfold doubleStepC
    refine (dbl_takes (Or.inl hr)).costs.bind fun t ht => ?_
    rw [dblC_out] at ht
    have ht := sys_dbl ht
    refine (subDigit_costs A a ht).bind fun t' ht' => ?_
    rw [subDigitC_out] at ht'
    have ht' := subDigit_sys ht ht'
    refine (addDigit_costs g b ht').bind fun t'' ht'' => ?_
    rw [addDigitC_out] at ht''
    exact (toP2_takes (addDigit_sys ht' ht'')).costs
  have e : ∀ p q s t x : ℕ, p + (s * x + (t * x + q)) = p + q + (s + t) * x := by intros; ring
  rw [e, ← price_append] at key
  exact key

/-- The number of rounds that do something: 0 if all digits below `n` are zero, else one more than the position of the highest one that is not. -/
def rounds (a b : Digits) : ℕ → ℕ
  | 0 => 0
  | n + 1 => if a n ≠ 0 ∨ b n ≠ 0 then n + 1 else rounds a b n

theorem loop_costs (g A : GE) (aS bS : Digits) : ∀ (n : ℕ) (flag : Bool) (r : GC), r.sys = .p2 →
    Costs w (doubleLoopC g A aS bS n flag r) ((if flag then n else rounds aS bS n) * price w (sDbl ++ sToP2) +
      (nz aS n + nz bS n) * price w (sToP3 ++ sPrecAdd))
  | 0, flag, r, _ => by
    have e : (if flag then 0 else rounds aS bS 0) * price w (sDbl ++ sToP2) + (nz aS 0 + nz bS 0) * price w (sToP3 ++ sPrecAdd) = price w [] := by
      have : (if flag then 0 else rounds aS bS 0) = 0 := by split <;> rfl
      rw [this]; simp [nz, price_nil]
    rw [e]; exact (takes_pure _).costs
  | n + 1, flag, r, hr => by
    rw [doubleLoopC, nz_succ, nz_succ]
    split
    · next hf =>
      have h1 := doubleStep_costs (w := w) g A (aS n) (bS n) hr
      have h2 := h1.bind (f := fun r => doubleLoopC g A aS bS n (flag || aS n != 0 || bS n != 0) r) fun r' hr' =>
        loop_costs g A aS bS n (flag || aS n != 0 || bS n != 0) r' (doubleStep_sys (by rwa [doubleStepC_out] at hr'))
      rw [hf, if_pos rfl] at h2
      have er : (if flag = true then n + 1 else rounds aS bS (n + 1)) = n + 1 := by
        cases flag with
        | true => rfl
        | false =>
          rw [if_neg (by simp), rounds, if_pos]
          simpa using hf
      rw [er]
      have e : ∀ p q s t u v : ℕ, p + (s + t) * q + (n * p + (u + v) * q) = (n + 1) * p + (u + s + (v + t)) * q := by intros; ring
      rw [e] at h2
      rw [hf]
      exact h2
    · next hf =>
      have hf' : flag = false ∧ aS n = 0 ∧ bS n = 0 := by
        rw [Bool.not_eq_true, Bool.or_eq_false_iff, Bool.or_eq_false_iff] at hf
        refine ⟨hf.1.1, ?_, ?_⟩
        · simpa using hf.1.2
        · simpa using hf.2
      obtain ⟨f1, f2, f3⟩ := hf'
      have h2 := loop_costs g A aS bS n (flag || aS n != 0 || bS n != 0) r hr
      rw [f1, f2, f3] at h2 ⊢
      simp only [Bool.false_eq_true, if_false] at h2 ⊢
      rw [rounds, if_neg (by simp [f2, f3])]
      simpa using h2

end GE

/-! ## Decoding -/

/-- The price is `c`, perhaps with what the second candidate for the root takes, perhaps with one negation. -/
def Shape {α : Type} (c : (Step → ℕ) → ℕ) (x : Cost α) : Prop :=
  ∀ a, x.out = .ok a → ∃ i ≤ 1, ∃ j ≤ 1, ∀ w, price w x.steps = c w + i * (w .add + w .enc + w .mul) + j * w .neg

theorem Shape.bind {α β : Type} {c : (Step → ℕ) → ℕ} {x : Cost α} {f : α → Cost β} {l : List Step} (h : Takes x l)
    (h' : ∀ a, x.out = .ok a → Shape c (f a)) : Shape (fun w => price w l + c w) (x >>= f) := by
  intro b hb
  rw [bind_out] at hb
  obtain ⟨a, ha, hb⟩ := bind_eq_ok hb
  obtain ⟨i, hi, j, hj, e⟩ := h' a ha b hb
  refine ⟨i, hi, j, hj, fun w => ?_⟩
  rw [bind_steps ha, price_append, h a ha, e]
  ring

theorem Shape.tick {α β : Type} {c : (Step → ℕ) → ℕ} {s : Step} {a : α} {f : α → Cost β} (h : Shape c (f a)) :
    Shape (fun w => w s + c w) (Cost.tick s a >>= f) := by
  have := Shape.bind (takes_tick s a) (f := f) (c := c) fun b hb => by rw [← Out.ok.inj hb]; exact h
  intro b hb
  obtain ⟨i, hi, j, hj, e⟩ := this b hb
  refine ⟨i, hi, j, hj, fun w => ?_⟩
  rw [e]
  dsimp only
  rw [price_cons, price_nil]
  ring

/-- Steps after a part of this shape. -/
theorem Shape.then {α β : Type} {c : (Step → ℕ) → ℕ} {x : Cost α} {f : α → Cost β} {l : List Step} (h : Shape c x)
    (h' : ∀ a, Takes (f a) l) : Shape (fun w => c w + price w l) (x >>= f) := by
  intro b hb
  rw [bind_out] at hb
  obtain ⟨a, ha, hb⟩ := bind_eq_ok hb
  obtain ⟨i, hi, j, hj, e⟩ := h a ha
  refine ⟨i, hi, j, hj, fun w => ?_⟩
  rw [bind_steps ha, price_append, h' a b hb, e]
  ring

theorem Shape.eq {α : Type} {c c' : (Step → ℕ) → ℕ} {x : Cost α} (h : Shape c x) (e : ∀ w, c w = c' w) : Shape c' x := by
  rwa [← funext e]

namespace GC
open FE

theorem getAffineY_takes (raw : Bytes) : Takes (getAffineYC raw) [.dec] := by
  unfold getAffineYC decC
  exact Takes.lift fun _ _ => takes_tick _ _

theorem getAffineX_shape (raw : Bytes) :
    Shape (fun w => w .dec + 2 * w .sub + 18 * w .mul + w .add + 256 * w .sq + 2 * w .enc) (getAffineXC raw) := by
  have hs := sqrt_takes
  have hy := getAffineY_takes raw
  have hp := price_sSqrt
  unfold getAffineXC sqC mulC subC FE.addC isNonZeroC isNegativeC negC
  generalize FE.multiply = m, FE.square = q, FE.subtract = sb, FE.add = ad, FE.isNonZero = nzf, FE.isNegative = ng, FE.negate = nt,
    FE.one = o, dFE = d, iFE = i', sSqrt = l, sqrtC = sq, getAffineYC raw = ay at *
  as_aux_lemma =>
    have ht : ∀ x : FE, ∃ j ≤ 1, ∀ w, ∀ a, (do
        let n ← Cost.tick .enc (ng x)
        if (n != getBitToBool raw 255) = true then Cost.tick .neg (nt x) else pure x).out = .ok a → price w (do
        let n ← Cost.tick .enc (ng x)
        if (n != getBitToBool raw 255) = true then Cost.tick .neg (nt x) else pure x).steps = w .enc + j * w .neg := by
      intro x
      by_cases hc : (ng x != getBitToBool raw 255) = true
      · refine ⟨1, le_refl _, fun w a _ => ?_⟩
        rw [bind_steps_tick, if_pos hc, price_cons, Nat.one_mul]
        rfl
      · refine ⟨0, Nat.zero_le _, fun w a _ => ?_⟩
        rw [bind_steps_tick, if_neg hc, price_cons, Nat.zero_mul]
        rfl
    refine Shape.eq (c := fun w => price w [.dec] + (w .sq + (w .sub + (w .mul + (w .add + (price w l + (w .sq + (w .mul + (w .sub + (w .enc +
      w .enc)))))))))) ?_ ?_
    · refine Shape.bind hy fun y _ => Shape.tick (Shape.tick (Shape.tick (Shape.tick (Shape.bind (hs _ _) fun x _ => Shape.tick (Shape.tick
        (Shape.tick (Shape.tick ?_))))))) 
      dsimp only
      split
      · intro b hb
        rw [bind_out, tick_out, Out.ok_bind, bind_out, tick_out, Out.ok_bind] at hb
        split at hb
        · exact nomatch hb
        · next hn =>
          rw [bind_out, tick_out, Out.ok_bind] at hb
          obtain ⟨j, hj, e⟩ := ht (m x i')
          refine ⟨1, le_refl _, j, hj, fun w => ?_⟩
          rw [bind_steps_tick, bind_steps_tick, if_neg hn, bind_steps_tick, price_cons, price_cons, price_cons, e w b hb]
          ring
      · intro b hb
        obtain ⟨j, hj, e⟩ := ht x
        have hb' := hb
        rw [bind_out, pure_out, Out.ok_bind] at hb'
        refine ⟨0, Nat.zero_le _, j, hj, fun w => ?_⟩
        rw [bind_steps (pure_out x), price_append, e w b hb']
        change 0 + _ = _
        ring
    · intro w
      rw [hp, price_cons, price_nil]
      ring

theorem decode_shape (raw : Bytes) :
    Shape (fun w => 2 * w .dec + 2 * w .sub + 19 * w .mul + w .add + 256 * w .sq + 2 * w .enc) (GC.decodeC raw) := by
  have hx := getAffineX_shape raw
  have hy := getAffineY_takes raw
  unfold GC.decodeC mulC
  generalize FE.multiply = m, getAffineYC raw = ay, getAffineXC raw = ax, FE.one = o at *
  as_aux_lemma =>
    refine (hx.then (l := [.dec, .mul]) fun x => Takes.bind (l := [.dec]) hy fun y _ => Takes.tick (takes_pure _)).eq fun w => ?_
    simp only [price_cons, price_nil]
    ring

end GC

end Ed

namespace Ed
open Finset Cost

/-! ## `Verify` -/

theorem rounds_spec (a b : Digits) : ∀ n, GE.rounds a b n ≤ n ∧ (∀ j, GE.rounds a b n ≤ j → j < n → a j = 0 ∧ b j = 0) ∧
    (GE.rounds a b n = 0 ∨ a (GE.rounds a b n - 1) ≠ 0 ∨ b (GE.rounds a b n - 1) ≠ 0)
  | 0 => ⟨le_refl _, fun j _ h => absurd h (by omega), Or.inl rfl⟩
  | n + 1 => by
    obtain ⟨h1, h2, h3⟩ := rounds_spec a b n
    rw [GE.rounds]
    split
    · next h => exact ⟨le_refl _, fun j h1 h2 => absurd h2 (by omega), Or.inr h⟩
    · next h =>
      rw [not_or, not_not, not_not] at h
      refine ⟨by omega, fun j hj hj' => ?_, h3⟩
      by_cases e : j = n
      · rw [e]; exact h
      · exact h2 j hj (by omega)

theorem doubleScalar_costs (g A : GE) (a b : Bytes) (w : Step → ℕ) : Costs w (g.doubleScalarMultiplyVariableTimeC A a b)
    (GE.rounds (slide a) (slide b) 256 * price w (sDbl ++ sToP2) + (GE.nz (slide a) 256 + GE.nz (slide b) 256) * price w (sToP3 ++ sPrecAdd)) := by
  have h : ∀ n, Costs w (GE.doubleLoopC g A (slide a) (slide b) n false .zeroP2)
      (GE.rounds (slide a) (slide b) n * price w (sDbl ++ sToP2) + (GE.nz (slide a) n + GE.nz (slide b) n) * price w (sToP3 ++ sPrecAdd)) := by
    intro n
    have := GE.loop_costs (w := w) g A (slide a) (slide b) n false GC.zeroP2 rfl
    rwa [if_neg (by simp)] at this
  unfold GE.doubleScalarMultiplyVariableTimeC
  exact h 256

variable (E : Env)

theorem verifyEquation_costs_aux (pub : PublicKey) (m : Bytes) (sig : Signature) (bp : Out GE) (w : Step → ℕ) (D : ℕ)
    (hs : List Bytes → Bytes) (hn : ∀ l, newEncodedFieldElement (hs l) = .ok (hs l)) (hD : Costs w (GC.decodeC pub.raw) D)
    (h3 : ∀ A, GC.decode pub.raw = .ok A → A.sys = .p3) (mq : Bytes → Bytes) :
    Costs w (do
      let hashR ← Cost.tick (.sha512 ([sig.R, pub.raw, m].map List.length)) (hs [sig.R, pub.raw, m])
      let h ← Cost.lift (newEncodedFieldElement hashR)
      let hModQ ← Cost.tick .modQ (mq h)
      let A ← GC.decodeC pub.raw
      let A ← (GE.ofGC A).precomputeForDoubleScalarMultiplicationC
      let b ← Cost.lift bp
      Cost.lift (checkSlide hModQ)
      Cost.lift (checkSlide sig.S)
      let calculatedR ← b.doubleScalarMultiplyVariableTimeC A hModQ sig.S
      let encodedCalculatedR ← calculatedR.encodeC
      (pure (isEqualConstantTime encodedCalculatedR sig.R) : Cost Bool))
    (w (.sha512 [sig.R.length, pub.raw.length, m.length]) + (w .modQ + (D + (price w sDouble + ((GE.rounds (slide (mq (hs [sig.R, pub.raw, m]))) (slide sig.S) 256 *
      price w (sDbl ++ sToP2) + (GE.nz (slide (mq (hs [sig.R, pub.raw, m]))) 256 + GE.nz (slide sig.S) 256) * price w (sToP3 ++ sPrecAdd)) +
      price w sEncode))))) := by
  have tickc : ∀ {α β : Type} {s : Step} {a : α} {f : α → Cost β} {n : ℕ}, Costs w (f a) n → Costs w (Cost.tick s a >>= f) (w s + n) := by
    intro α β s a f n h
    have := Costs.bind (x := Cost.tick s a) (f := f) (w := w) (n := w s) (m := n) (fun _ _ => by rw [show (Cost.tick s a).steps = [s] from rfl, price_cons, price_nil]; rfl)
      fun b hb => by rw [← Out.ok.inj hb]; exact h
    exact this
  have liftc : ∀ {α β : Type} {o : Out α} {f : α → Cost β} {n : ℕ}, (∀ a, o = .ok a → Costs w (f a) n) → Costs w (Cost.lift o >>= f) n := by
    intro α β o f n h
    have := Costs.bind (x := Cost.lift o) (f := f) (w := w) (n := 0) (m := n) (fun _ _ => rfl) h
    rwa [Nat.zero_add] at this
  rw [show ([sig.R, pub.raw, m].map List.length) = [sig.R.length, pub.raw.length, m.length] from rfl]
  refine tickc ?_
  rw [hn]
  refine liftc fun h hh => ?_
  have e := Out.ok.inj hh
  subst e
  refine tickc (hD.bind fun A hA => ?_)
  rw [GC.decodeC_out] at hA
  refine (GE.double_takes (h3 A hA) rfl).costs.bind fun A' _ => liftc fun b _ => liftc fun _ _ => liftc fun _ _ => ?_
  refine (doubleScalar_costs b A' _ _ w).bind fun R hR => ?_
  rw [GE.doubleScalarC_out] at hR
  exact (Takes.bind' (GC.encode_takes (Or.inl (GE.doubleScalar_sys hR))) fun _ => takes_pure _).costs

end Ed

namespace Ed
open Finset Cost

variable (E : Env)

theorem verify_costs {pub : PublicKey} {m : Bytes} {sig : Signature} {A : Pt} (hl : pub.raw.length = 32 ∨ pub.raw.length = 64)
    (hA : Decodes (pub.raw.take 32) A) (hS : 32 ≤ sig.S.length) (hc : LowBitsOk (leVal sig.S)) (hz : pub.raw ≠ List.replicate 32 0) :
    ∃ i ≤ 1, ∃ j ≤ 1, ∀ w, price w (verifyC E pub m sig).steps =
    w (.sha512 [sig.R.length, pub.raw.length, m.length]) + (w .modQ + ((2 * w .dec + 2 * w .sub + 19 * w .mul + w .add + 256 * w .sq + 2 * w .enc +
      i * (w .add + w .enc + w .mul) + j * w .neg) + (price w sDouble + ((GE.rounds (slide (modQ (hashesSha3_512 E [sig.R, pub.raw, m]))) (slide sig.S) 256 *
      price w (sDbl ++ sToP2) + (GE.nz (slide (modQ (hashesSha3_512 E [sig.R, pub.raw, m]))) 256 + GE.nz (slide sig.S) 256) * price w (sToP3 ++ sPrecAdd)) +
      price w sEncode)))) := by
  obtain ⟨g, g1, g2, g3, -⟩ := GC.decode_ok hl hA
  have hgo := GC.decodeC_out pub.raw
  rw [g1] at hgo
  obtain ⟨i, hi, j, hj, hd⟩ := GC.decode_shape pub.raw g hgo
  refine ⟨i, hi, j, hj, fun w => ?_⟩
  have hv := verifyEquation_spec E (m := m) hl hA hS
  have ho : (verifyEquationC E pub m sig).out = verifyEquation E pub m sig := verifyEquationC_out E pub m sig
  rw [hv] at ho
  have hc' : isCanonicalSignature sig = true := by rw [isCanonical_eq]; exact decide_eq_true hc
  have hz' : isEqualConstantTime pub.raw (List.replicate 32 0) = false := by rw [isEqualConstantTime_eq]; simpa using hz
  have key : Costs w (verifyEquationC E pub m sig) _ := verifyEquation_costs_aux pub m sig basePoint w
    (2 * w .dec + 2 * w .sub + 19 * w .mul + w .add + 256 * w .sq + 2 * w .enc + i * (w .add + w .enc + w .mul) + j * w .neg) (hashesSha3_512 E)
    (fun l => if_pos (Or.inr (by rw [hashes_flatten]; exact Hash_length E _)))
    (fun a ha => hd w) (fun A' hA' => by rw [g1] at hA'; rw [← Out.ok.inj hA']; exact g2) modQ
  have hk := key _ ho
  unfold verifyC
  clear key ho hv hgo
  generalize verifyEquationC E pub m sig = x at *
  rw [hc', hz']
  exact hk

end Ed

import Verif.Model.Cost
import Verif.Proofs.Cipher
import Verif.Proofs.Naf

/-!
# The work of a call: results, and the steps of each part
-/

set_option autoImplicit false

namespace Ed
open Finset

namespace Cost

theorem bind_out {α β : Type} (x : Cost α) (f : α → Cost β) : (x >>= f).out = (x.out >>= fun a => (f a).out) := by
  change (match x.out with | .ok a => (⟨(f a).out, x.steps ++ (f a).steps⟩ : Cost β) | .err m => ⟨.err m, x.steps⟩ | .panic => ⟨.panic, x.steps⟩).out = _
  cases x.out <;> rfl

theorem pure_out {α : Type} (a : α) : (pure a : Cost α).out = .ok a := rfl
theorem lift_out {α : Type} (o : Out α) : (lift o).out = o := rfl
theorem tick_out {α : Type} (s : Step) (a : α) : (tick s a).out = .ok a := rfl

theorem bind_steps {α β : Type} {x : Cost α} {a : α} (h : x.out = .ok a) (f : α → Cost β) : (x >>= f).steps = x.steps ++ (f a).steps := by
  change (match x.out with | .ok a => (⟨(f a).out, x.steps ++ (f a).steps⟩ : Cost β) | .err m => ⟨.err m, x.steps⟩ | .panic => ⟨.panic, x.steps⟩).steps = _
  rw [h]

theorem bind_steps_err {α β : Type} {x : Cost α} (h : ∀ a, x.out ≠ .ok a) (f : α → Cost β) : (x >>= f).steps = x.steps := by
  change (match x.out with | .ok a => (⟨(f a).out, x.steps ++ (f a).steps⟩ : Cost β) | .err m => ⟨.err m, x.steps⟩ | .panic => ⟨.panic, x.steps⟩).steps = _
  cases hx : x.out with
  | ok a => exact absurd hx (h a)
  | err m => rfl
  | panic => rfl

/-- If the call returns a value, its steps are these. -/
def Takes {α : Type} (x : Cost α) (l : List Step) : Prop := ∀ a, x.out = .ok a → x.steps = l

theorem Takes.bind {α β : Type} {x : Cost α} {f : α → Cost β} {l l' : List Step} (h : Takes x l) (h' : ∀ a, x.out = .ok a → Takes (f a) l') :
    Takes (x >>= f) (l ++ l') := by
  intro b hb
  rw [bind_out] at hb
  cases hx : x.out with
  | ok a =>
    rw [hx] at hb
    rw [bind_steps hx, h a hx, h' a hx b hb]
  | err m => rw [hx] at hb; exact nomatch hb
  | panic => rw [hx] at hb; exact nomatch hb

theorem Takes.tick {α β : Type} {s : Step} {a : α} {f : α → Cost β} {l : List Step} (h : Takes (f a) l) : Takes (Cost.tick s a >>= f) (s :: l) :=
  Takes.bind (l := [s]) (fun _ _ => rfl) fun b hb => by rw [Out.ok.inj hb] at h; exact h

theorem Takes.lift {α β : Type} {o : Out α} {f : α → Cost β} {l : List Step} (h : ∀ a, o = .ok a → Takes (f a) l) : Takes (Cost.lift o >>= f) l :=
  Takes.bind (l := []) (fun _ _ => rfl) h

theorem Takes.bind' {α β : Type} {x : Cost α} {f : α → Cost β} {l : List Step} (h : Takes x l) (h' : ∀ a, Takes (f a) []) : Takes (x >>= f) l := by
  have := Takes.bind h fun a _ => h' a
  rwa [List.append_nil] at this

theorem takes_tick {α : Type} (s : Step) (a : α) : Takes (Cost.tick s a) [s] := fun _ _ => rfl
theorem takes_lift {α : Type} (o : Out α) : Takes (Cost.lift o) [] := fun _ _ => rfl
theorem takes_pure {α : Type} (a : α) : Takes (pure a : Cost α) [] := fun _ _ => rfl
theorem takes_fail {α : Type} {x : Cost α} {l : List Step} (h : ∀ a, x.out ≠ .ok a) : Takes x l := fun a ha => absurd ha (h a)

end Cost
open Cost

/-! ## The results are those of the other model -/

namespace FE

theorem squareNC_out : ∀ (n : ℕ) (f : FE), (squareNC n f).out = .ok (squareN n f)
  | 0, _ => rfl
  | n + 1, f => by
    rw [squareNC, bind_out, sqC, tick_out, Out.ok_bind, squareNC_out n, squareN, squareN, iter]

theorem pow2to9C_out (f : FE) : f.pow2to9C.out = .ok f.pow2to9 := by
  unfold pow2to9C pow2to9 sqC mulC
  simp only [bind_out, tick_out, Out.ok_bind]

theorem pow2to252sub4C_out (f : FE) : f.pow2to252sub4C.out = .ok f.pow2to252sub4 := by
  unfold pow2to252sub4C pow2to252sub4 sqC mulC
  simp only [bind_out, tick_out, Out.ok_bind, pow2to9C_out, squareNC_out]

theorem invertC_out (f : FE) : f.invertC.out = .ok f.invert := by
  unfold invertC invert sqC mulC
  simp only [bind_out, tick_out, Out.ok_bind, pow2to9C_out, pow2to252sub4C_out, squareNC_out]

theorem sqrtC_out (u v : FE) : (sqrtC u v).out = .ok (sqrt u v) := by
  unfold sqrtC sqrt sqC mulC
  simp only [bind_out, tick_out, Out.ok_bind, pow2to252sub4C_out]

end FE

namespace GC
open FE

theorem toP2C_out (g : GC) : g.toP2C.out = g.toP2 := by
  unfold toP2C toP2 toCoordinateSystem mulC
  cases g.sys <;> simp only [bind_out, tick_out, lift_out, pure_out, Out.ok_bind]

theorem toP3C_out (g : GC) : g.toP3C.out = g.toP3 := by
  unfold toP3C toP3 toCoordinateSystem mulC
  cases g.sys <;> simp only [bind_out, tick_out, lift_out, pure_out, Out.ok_bind]

theorem toCachedC_out (g : GC) : g.toCachedC.out = g.toCached := by
  unfold toCachedC toCached toCoordinateSystem mulC FE.addC subC
  cases g.sys <;> simp only [bind_out, tick_out, lift_out, pure_out, Out.ok_bind]

theorem encodePC_out (g : GC) : g.encodePC.out = .ok g.encodeP := by
  unfold encodePC encodeP mulC encC isNegativeC
  simp only [bind_out, tick_out, lift_out, pure_out, Out.ok_bind, invertC_out]

theorem encodeC_out (g : GC) : g.encodeC.out = g.encode := by
  unfold encodeC encode
  cases g.sys <;> simp only [bind_out, encodePC_out, toP2C_out]

theorem getAffineYC_out (raw : Bytes) : (getAffineYC raw).out = getAffineY raw := by
  unfold getAffineYC getAffineY decC
  simp only [bind_out, tick_out, lift_out]

theorem getAffineXC_out (raw : Bytes) : (getAffineXC raw).out = getAffineX raw := by
  have h1 := getAffineYC_out raw
  have h2 := sqrtC_out
  unfold getAffineXC getAffineX sqC subC mulC FE.addC isNonZeroC isNegativeC negC
  generalize FE.sqrtC = qc, FE.sqrt = q, FE.square = s, FE.subtract = su, FE.multiply = mu, FE.add = ad, FE.isNonZero = nz, FE.isNegative = ng,
    FE.negate = ne, dFE = d, iFE = i, FE.one = o, getAffineY raw = gy, getAffineYC raw = gyc at *
  as_aux_lemma =>
    simp only [bind_out, tick_out, Out.ok_bind, h1, h2]
    cases gy with
    | err m => rfl
    | panic => rfl
    | ok y =>
      rw [Out.ok_bind, Out.ok_bind]
      generalize ad (mu (s y) d) o = v
      generalize su (s y) o = u
      generalize q u v = x
      generalize mu (s x) v = w
      cases nz (su w u) with
      | true =>
        simp only [if_true, bind_out, tick_out, Out.ok_bind]
        cases nz (ad w u) with
        | true => simp only [if_true, bind_out, lift_out, Out.err_bind]
        | false =>
          simp only [Bool.false_eq_true, if_false, bind_out, tick_out, Out.ok_bind]
          split <;> rfl
      | false =>
        simp only [Bool.false_eq_true, if_false, bind_out, tick_out, pure_out, Out.ok_bind]
        split <;> rfl

theorem decodeC_out (raw : Bytes) : (decodeC raw).out = decode raw := by
  unfold decodeC decode mulC
  simp only [bind_out, tick_out, lift_out, pure_out, Out.ok_bind, getAffineXC_out, getAffineYC_out]

theorem dblC_out (g : GC) : g.dblC.out = g.dbl := by
  unfold dblC dbl sqC sqdC FE.addC subC
  cases g.sys <;> simp only [bind_out, tick_out, lift_out, pure_out, Out.ok_bind]

theorem precomputedAddC_out (r g : GC) : (r.precomputedAddC g).out = r.precomputedAdd g := by
  unfold precomputedAddC precomputedAdd FE.addC subC mulC
  split
  · rfl
  · split
    · rfl
    · simp only [bind_out, tick_out, lift_out, pure_out, Out.ok_bind]

theorem precomputedSubtractC_out (r g : GC) : (r.precomputedSubtractC g).out = r.precomputedSubtract g := by
  unfold precomputedSubtractC precomputedSubtract FE.addC subC mulC
  split
  · rfl
  · split
    · rfl
    · simp only [bind_out, tick_out, lift_out, pure_out, Out.ok_bind]

theorem addC_out (r g : GC) : (r.addC g).out = r.add g := by
  unfold GC.addC GC.add FE.addC subC mulC
  split
  · rfl
  · split
    · rfl
    · simp only [bind_out, tick_out, lift_out, pure_out, Out.ok_bind]

theorem precEntryC_out (b : GC) : b.precEntryC.out = .ok b.precEntry := by
  unfold precEntryC precEntry FE.addC subC mulC
  simp only [bind_out, tick_out, lift_out, pure_out, Out.ok_bind, invertC_out]

theorem addP3C_out (b c : GC) : (b.addP3C c).out = b.addP3 c := by
  unfold addP3C addP3
  simp only [bind_out, toCachedC_out, addC_out, toP3C_out]

theorem precRowC_out (bi : GC) : ∀ (n : ℕ) (b : GC), (precRowC bi n b).out = precRow bi n b
  | 0, _ => rfl
  | n + 1, b => by
    rw [precRowC, precRow]
    simp only [bind_out, precEntryC_out, addP3C_out, precRowC_out bi n, pure_out, Out.ok_bind]

theorem doubleNC_out : ∀ (n : ℕ) (b : GC), (doubleNC n b).out = doubleN n b
  | 0, _ => rfl
  | n + 1, b => by
    rw [doubleNC, doubleN]
    simp only [bind_out, addP3C_out, doubleNC_out n]

theorem precRowsC_out : ∀ (n : ℕ) (b : GC), (precRowsC n b).out = precRows n b
  | 0, _ => rfl
  | n + 1, b => by
    rw [precRowsC, precRows]
    simp only [bind_out, precRowC_out, doubleNC_out, precRowsC_out n, pure_out]

theorem precOddC_out (r : GC) : ∀ (n : ℕ) (b : GC), (precOddC r n b).out = precOdd r n b
  | 0, _ => rfl
  | n + 1, b => by
    rw [precOddC, precOdd]
    simp only [bind_out, precEntryC_out, addP3C_out, precOddC_out r n, pure_out, Out.ok_bind]

end GC

namespace GE
open FE GC

theorem precomputeSingleC_out (g : GE) : g.precomputeForScalarMultiplicationC.out = g.precomputeForScalarMultiplication := by
  unfold precomputeForScalarMultiplicationC precomputeForScalarMultiplication
  split
  · rfl
  · simp only [bind_out, precRowsC_out, pure_out]

theorem precomputeDoubleC_out (g : GE) : g.precomputeForDoubleScalarMultiplicationC.out = g.precomputeForDoubleScalarMultiplication := by
  unfold precomputeForDoubleScalarMultiplicationC precomputeForDoubleScalarMultiplication
  split
  · rfl
  · simp only [bind_out, precOddC_out, pure_out]

theorem selectC_out (g : GE) (pos : ℕ) (b : Int64) : (g.selectC pos b).out = g.select pos b := by
  unfold selectC select negC
  simp only [bind_out, lift_out, tick_out, Out.ok_bind]

theorem scalarStepC_out (g : GE) (e : Digits) (h : GC) (i : ℕ) : (scalarStepC g e h i).out = scalarStep g e h i := by
  unfold scalarStepC scalarStep
  simp only [bind_out, selectC_out, precomputedAddC_out, toP3C_out]

theorem times16C_out (h : GC) : (times16C h).out = times16 h := by
  unfold times16C times16
  simp only [bind_out, dblC_out, toP2C_out, toP3C_out]

theorem foldC_out {α : Type} (f : α → ℕ → Cost α) (g : α → ℕ → Out α) (h : ∀ a i, (f a i).out = g a i) :
    ∀ (l : List ℕ) (a : α), (foldC f a l).out = l.foldlM g a
  | [], _ => rfl
  | i :: l, a => by
    rw [foldC, bind_out, List.foldlM_cons, h]
    congr 1
    funext a'
    exact foldC_out f g h l a'

theorem scalarMultiplyC_out (g : GE) (a : Bytes) : (g.scalarMultiplyC a).out = g.scalarMultiply a := by
  unfold scalarMultiplyC scalarMultiply
  simp only [bind_out, times16C_out, foldC_out _ _ (scalarStepC_out g (toRadix16 a))]

theorem subDigitC_out (A : GE) (a : Int8) (t : GC) : (subDigitC A a t).out = subDigit A a t := by
  unfold subDigitC subDigit
  split
  · simp only [bind_out, toP3C_out, lift_out, precomputedSubtractC_out]
  · split
    · simp only [bind_out, toP3C_out, lift_out, precomputedAddC_out]
    · rfl

theorem addDigitC_out (A : GE) (a : Int8) (t : GC) : (addDigitC A a t).out = addDigit A a t := by
  unfold addDigitC addDigit
  split
  · simp only [bind_out, toP3C_out, lift_out, precomputedAddC_out]
  · split
    · simp only [bind_out, toP3C_out, lift_out, precomputedSubtractC_out]
    · rfl

theorem doubleStepC_out (g A : GE) (a b : Int8) (r : GC) : (doubleStepC g A a b r).out = doubleStep g A a b r := by
  unfold doubleStepC doubleStep
  simp only [bind_out, dblC_out, subDigitC_out, addDigitC_out, toP2C_out]

theorem doubleLoopC_out (g A : GE) (aS bS : Digits) : ∀ (n : ℕ) (flag : Bool) (r : GC),
    (doubleLoopC g A aS bS n flag r).out = doubleLoop g A aS bS n flag r
  | 0, _, _ => rfl
  | n + 1, flag, r => by
    rw [doubleLoopC, doubleLoop]
    split
    · simp only [bind_out, doubleStepC_out, doubleLoopC_out g A aS bS n]
    · exact doubleLoopC_out g A aS bS n _ r

theorem doubleScalarC_out (g A : GE) (a b : Bytes) :
    (g.doubleScalarMultiplyVariableTimeC A a b).out = g.doubleScalarMultiplyVariableTime A a b := doubleLoopC_out _ _ _ _ _ _ _

end GE

variable (E : Env)

theorem prepareC_out (key : Option PrivateKey) : (prepareForScalarMultiplyC E key).out = prepareForScalarMultiply E key := by
  unfold prepareForScalarMultiplyC prepareForScalarMultiply sha512C
  simp only [bind_out, lift_out, tick_out, pure_out, Out.ok_bind]

theorem derive_aux (a : Cost Bytes) (a' : Out Bytes) (b : Out GE) (sc : GE → Bytes → Cost GC) (sc' : GE → Bytes → Out GC)
    (en : GC → Cost Bytes) (en' : GC → Out Bytes) (h1 : a.out = a') (h2 : ∀ g x, (sc g x).out = sc' g x) (h3 : ∀ g, (en g).out = en' g) :
    (a >>= fun a => Cost.lift b >>= fun b => (sc b a).orPanic >>= fun p => (en p).orPanic >>= fun el => (pure (newPublicKey el) : Cost PublicKey)).out =
    (a' >>= fun a => b >>= fun b => Out.orPanic (sc' b a) >>= fun p => Out.orPanic (en' p) >>= fun el => Out.ok (newPublicKey el)) := by
  unfold Cost.orPanic Cost.mapOut
  simp only [bind_out, lift_out, h1, h2, h3, pure_out]

theorem derivePublicKeyC_out (key : Option PrivateKey) : (derivePublicKeyC E key).out = derivePublicKey E key := by
  rw [derivePublicKeyC, derivePublicKey]
  exact derive_aux _ _ _ _ _ _ _ (prepareC_out E key) GE.scalarMultiplyC_out GC.encodeC_out

theorem sign_aux (kp : KeyPair) (m : Bytes) (bp : Out GE) :
    (do
      let k ← Cost.lift (Out.deref kp.priv)
      let hash ← sha512C E [k.raw]
      let hashR ← sha512C E [hash.drop 32, m]
      let r ← Cost.lift (newEncodedFieldElement hashR)
      let rModQ ← modQC r
      let b ← Cost.lift bp
      let R ← b.scalarMultiplyC rModQ
      let encodedR ← R.encodeC
      let hashH ← sha512C E [encodedR, kp.pub.raw, m]
      let h ← Cost.lift (newEncodedFieldElement hashH)
      let hModQ ← modQC h
      let a ← prepareForScalarMultiplyC E kp.priv
      let encodedS ← Cost.tick .mulAddModQ (multiplyAndAddModQ hModQ a rModQ)
      let signature ← Cost.lift (newSignature encodedR encodedS)
      Cost.lift (if !isCanonicalSignature signature then .err "Generated signature is not canonical" else .ok signature) : Cost Signature).out =
    (do
      let k ← Out.deref kp.priv
      let hash := hashesSha3_512 E [k.raw]
      let hashR := hashesSha3_512 E [hash.drop 32, m]
      let r ← newEncodedFieldElement hashR
      let rModQ := modQ r
      let b ← bp
      let R ← b.scalarMultiply rModQ
      let encodedR ← R.encode
      let hashH := hashesSha3_512 E [encodedR, kp.pub.raw, m]
      let h ← newEncodedFieldElement hashH
      let hModQ := modQ h
      let a ← prepareForScalarMultiply E kp.priv
      let encodedS := multiplyAndAddModQ hModQ a rModQ
      let signature ← newSignature encodedR encodedS
      if !isCanonicalSignature signature then .err "Generated signature is not canonical" else .ok signature) := by
  have h1 := prepareC_out E kp.priv
  have h2 := GE.scalarMultiplyC_out
  have h3 := GC.encodeC_out
  unfold sha512C modQC
  generalize prepareForScalarMultiplyC E kp.priv = a, prepareForScalarMultiply E kp.priv = a', GE.scalarMultiplyC = sc,
    GE.scalarMultiply = sc', GC.encodeC = en, GC.encode = en', modQ = q, multiplyAndAddModQ = mq, isCanonicalSignature = ic at *
  as_aux_lemma => simp only [bind_out, lift_out, tick_out, Out.ok_bind, h1, h2, h3]

theorem signC_out (kp : KeyPair) (m : Bytes) : (signC E kp m).out = sign E kp m := by
  unfold signC sign
  split
  · rfl
  · exact sign_aux E kp m basePoint

theorem verifyEquationC_out (pub : PublicKey) (m : Bytes) (sig : Signature) : (verifyEquationC E pub m sig).out = verifyEquation E pub m sig := by
  have h1 := GC.decodeC_out
  have h2 := GE.precomputeDoubleC_out
  have h3 := GC.encodeC_out
  have h4 := GE.doubleScalarC_out
  unfold verifyEquationC verifyEquation sha512C modQC
  generalize GC.decodeC = d, GC.decode = d', basePoint = b, GE.precomputeForDoubleScalarMultiplicationC = p,
    GE.precomputeForDoubleScalarMultiplication = p', GE.doubleScalarMultiplyVariableTimeC = ds, GE.doubleScalarMultiplyVariableTime = ds',
    GC.encodeC = en, GC.encode = en', modQ = q at *
  as_aux_lemma => simp only [bind_out, lift_out, tick_out, pure_out, Out.ok_bind, h1, h2, h3, h4]

theorem verifyC_out (pub : PublicKey) (m : Bytes) (sig : Signature) : (verifyC E pub m sig).out = verify E pub m sig := by
  have h5 := verifyEquationC_out E pub m sig
  unfold verifyC verify
  generalize verifyEquationC E pub m sig = x, verifyEquation E pub m sig = y at *
  as_aux_lemma =>
    split
    · rfl
    · split
      · rfl
      · rw [← h5]; rfl

theorem getSharedKeyC_out (kl : ℕ) (priv : Option PrivateKey) (pub : PublicKey) (salt : Bytes) :
    (getSharedKeyC E kl priv pub salt).out = getSharedKey E kl priv pub salt := by
  unfold getSharedKeyC getSharedKey
  simp only [bind_out, lift_out, tick_out, pure_out, GC.decodeC_out, GE.precomputeSingleC_out, prepareC_out, GE.scalarMultiplyC_out,
    GC.encodeC_out]

theorem decodeC_out (ct key iv : Bytes) : (decodeC E ct key iv).out = decode E ct key iv := by
  unfold decodeC decode
  simp only [bind_out, lift_out, Out.ok_bind]

theorem decryptC_out (c : BlockCipher) (b : Bytes) : (c.decryptC E b).out = c.decrypt E b := by
  unfold BlockCipher.decryptC BlockCipher.decrypt
  split
  · rfl
  · split
    · rfl
    · simp only [bind_out, getSharedKeyC_out, decodeC_out]

theorem encodeC_out (m key iv : Bytes) : (encodeC E m key iv).out = encode E m key iv := by
  unfold encodeC encode
  simp only [bind_out, lift_out]

theorem encryptC_out (c : BlockCipher) (b : Bytes) (w : World) : (c.encryptC E b w).out = (c.encrypt E b w).1 := by
  unfold BlockCipher.encryptC BlockCipher.encrypt Act.bind Act.lift
  simp only [bind_out, lift_out, getSharedKeyC_out, encodeC_out, pure_out]
  generalize Act.read c.seed c.keyLength w = r
  obtain ⟨o, w1⟩ := r
  cases o with
  | err m => rfl
  | panic => rfl
  | ok salt =>
  dsimp only
  rw [Out.ok_bind]
  cases getSharedKey E c.keyLength c.sender.priv c.recipient.pub salt with
  | err m => rfl
  | panic => rfl
  | ok k =>
  dsimp only
  rw [Out.ok_bind]
  generalize Act.read c.seed 16 w1 = r
  obtain ⟨o, w2⟩ := r
  cases o with
  | err m => rfl
  | panic => rfl
  | ok iv =>
  dsimp only
  rw [Out.ok_bind]
  cases encode E b k iv with
  | err m => rfl
  | panic => rfl
  | ok buf => rfl

end Ed

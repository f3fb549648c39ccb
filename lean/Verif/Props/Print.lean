import Verif.Model.Print
import Verif.Props.Dsa
import Verif.Props.NilGroup

/-!
# Property C91: what the library prints
-/

set_option autoImplicit false

namespace Ed
open FE

/-! ## Calls that print nothing -/

theorem Pr.bind_silent {α β : Type} (o : Out α) (f : α → Pr β) (k : α → Out β) (h : ∀ a, f a = Pr.silent (k a)) :
    Pr.bind (Pr.silent o) f = Pr.silent (o >>= k) := by
  cases o with
  | ok a => simp [Pr.bind, Pr.silent, h]
  | err m => rfl
  | panic => rfl

theorem Pr.silent_ok_bind {α β : Type} (a : α) (f : α → Pr β) : Pr.bind (Pr.silent (.ok a)) f = f a := by
  simp [Pr.bind, Pr.silent]

theorem ActPr.bind_silent {α β : Type} (x : Act α) (f : α → ActPr β) (k : α → Act β) (h : ∀ a, f a = ActPr.silent (k a)) :
    ActPr.bind (ActPr.silent x) f = ActPr.silent (Act.bind x k) := by
  funext w
  unfold ActPr.bind ActPr.silent Act.bind Pr.silent
  rcases hx : x w with ⟨o, w'⟩
  cases o with
  | ok a => simp [h, ActPr.silent, Pr.silent]
  | err m => rfl
  | panic => rfl

theorem ActPr.lift_silent {α : Type} (o : Out α) : ActPr.lift (Pr.silent o) = ActPr.silent (Act.lift o) := rfl

variable (E : Env)

theorem prepare_silent (key : Option PrivateKey) :
    prepareForScalarMultiplyPr E key = Pr.silent (prepareForScalarMultiply E key) :=
  Pr.bind_silent _ _ _ fun _ => rfl

theorem derive_silent (key : Option PrivateKey) : derivePublicKeyPr E key = Pr.silent (derivePublicKey E key) := by
  unfold derivePublicKeyPr derivePublicKey
  rw [prepare_silent]
  exact Pr.bind_silent _ _ _ fun _ => rfl

theorem sign_silent (kp : KeyPair) (m : Bytes) : signPr E kp m = Pr.silent (sign E kp m) := by
  unfold signPr sign
  split
  · rfl
  · simp only [prepare_silent, hashesSha3_512Err, Pr.silent_ok_bind]
    refine Pr.bind_silent _ _ _ fun k => ?_
    refine Pr.bind_silent _ _ _ fun r => ?_
    refine Pr.bind_silent _ _ _ fun b => ?_
    refine Pr.bind_silent _ _ _ fun R => ?_
    refine Pr.bind_silent _ _ _ fun encodedR => ?_
    refine Pr.bind_silent _ _ _ fun h => ?_
    refine Pr.bind_silent _ _ _ fun a => ?_
    exact Pr.bind_silent _ _ _ fun s => rfl

theorem shared_silent (n : ℕ) (priv : Option PrivateKey) (pub : PublicKey) (salt : Bytes) :
    getSharedKeyPr E n priv pub salt = Pr.silent (getSharedKey E n priv pub salt) := by
  unfold getSharedKeyPr getSharedKey
  simp only [prepare_silent]
  refine Pr.bind_silent _ _ _ fun grA => ?_
  refine Pr.bind_silent _ _ _ fun A => ?_
  refine Pr.bind_silent _ _ _ fun A => ?_
  refine Pr.bind_silent _ _ _ fun a => ?_
  refine Pr.bind_silent _ _ _ fun el => ?_
  refine Pr.bind_silent _ _ _ fun k => ?_
  exact Pr.bind_silent _ _ _ fun k => rfl

theorem decrypt_silent (c : BlockCipher) (m : Bytes) : c.decryptPr E m = Pr.silent (c.decrypt E m) := by
  unfold BlockCipher.decryptPr BlockCipher.decrypt
  split
  · rfl
  · split
    · rfl
    · rw [shared_silent]
      exact Pr.bind_silent _ _ _ fun k => rfl

theorem encrypt_silent (c : BlockCipher) (m : Bytes) : c.encryptPr E m = ActPr.silent (c.encrypt E m) := by
  unfold BlockCipher.encryptPr BlockCipher.encrypt
  simp only [shared_silent, ActPr.lift_silent]
  refine ActPr.bind_silent _ _ _ fun salt => ?_
  refine ActPr.bind_silent _ _ _ fun k => ?_
  refine ActPr.bind_silent _ _ _ fun iv => ?_
  exact ActPr.bind_silent _ _ _ fun buf => rfl

theorem newKeyPair_silent (priv : Option PrivateKey) (pub : Option PublicKey) :
    newKeyPairPr E priv pub = Pr.silent (newKeyPair E priv pub) := by
  unfold newKeyPairPr newKeyPair
  cases pub with
  | none =>
    simp only [derive_silent]
    exact Pr.bind_silent _ _ _ fun k => rfl
  | some p => rfl

theorem generate_silent (seed : ℕ) : generateKeyPairPr E seed = ActPr.silent (generateKeyPair E seed) := by
  unfold generateKeyPairPr generateKeyPair
  simp only [derive_silent, newKeyPair_silent, ActPr.lift_silent]
  refine ActPr.bind_silent _ _ _ fun raw => ?_
  exact ActPr.bind_silent _ _ _ fun p => rfl

/-- **C91.** Deriving, generating and building keys, signing, key agreement, encryption and decryption print nothing, whatever the
arguments and however the call ends. -/
theorem C91_silent (priv : Option PrivateKey) (pub : PublicKey) (opub : Option PublicKey) (kp : KeyPair) (c : BlockCipher) (n seed : ℕ)
    (m salt : Bytes) (w : World) :
    (derivePublicKeyPr E priv).text = "" ∧ (newKeyPairPr E priv opub).text = "" ∧ (generateKeyPairPr E seed w).1.text = "" ∧
    (signPr E kp m).text = "" ∧ (getSharedKeyPr E n priv pub salt).text = "" ∧ (c.encryptPr E m w).1.text = "" ∧
    (c.decryptPr E m).text = "" := by
  rw [derive_silent, newKeyPair_silent, generate_silent, sign_silent, shared_silent, encrypt_silent, decrypt_silent]
  exact ⟨rfl, rfl, rfl, rfl, rfl, rfl, rfl⟩

/-- The printing model computes the results of the other one. -/
theorem C91_same_results (priv : Option PrivateKey) (pub : PublicKey) (opub : Option PublicKey) (kp : KeyPair) (c : BlockCipher)
    (n seed : ℕ) (m salt : Bytes) (w : World) :
    (derivePublicKeyPr E priv).res = derivePublicKey E priv ∧ (newKeyPairPr E priv opub).res = newKeyPair E priv opub ∧
    ((generateKeyPairPr E seed w).1.res, (generateKeyPairPr E seed w).2) = generateKeyPair E seed w ∧
    (signPr E kp m).res = sign E kp m ∧ (getSharedKeyPr E n priv pub salt).res = getSharedKey E n priv pub salt ∧
    ((c.encryptPr E m w).1.res, (c.encryptPr E m w).2) = c.encrypt E m w ∧ (c.decryptPr E m).res = c.decrypt E m := by
  rw [derive_silent, newKeyPair_silent, generate_silent, sign_silent, shared_silent, encrypt_silent, decrypt_silent]
  exact ⟨rfl, rfl, rfl, rfl, rfl, rfl, rfl⟩

/-! ## Verify -/

/-- Why a public key is refused by `Decode`: its length, or that no point has its y coordinate. -/
def KeyComplaint (raw : Bytes) (line : String) : Prop :=
  (¬ (raw.length = 32 ∨ raw.length = 64) ∧ line = "Invalid 2^8 bit representation.\n") ∨
  ((raw.length = 32 ∨ raw.length = 64) ∧ (¬ ∃ A, Decodes (raw.take 32) A) ∧
    line = "not a valid Ed25519EncodedGroupElement.\n")

theorem GC.getAffineX_err_msg {raw : Bytes} (hl : raw.length = 32 ∨ raw.length = 64) {m : String} (h : GC.getAffineX raw = .err m) :
    m = "not a valid Ed25519EncodedGroupElement." := by
  have e : GC.getAffineY raw = .ok (FE.decode raw) := by
    unfold GC.getAffineY newEncodedFieldElement
    rw [if_pos hl]; rfl
  revert h
  unfold GC.getAffineX
  rw [e, Out.ok_bind]
  dsimp only
  generalize FE.decode raw = y
  generalize y.square.subtract .one = u
  generalize (y.square.multiply dFE).add .one = v
  generalize FE.sqrt u v = x
  generalize getBitToBool raw 255 = bit
  generalize ((x.square.multiply v).subtract u).isNonZero = c1
  generalize ((x.square.multiply v).add u).isNonZero = c2
  generalize x.multiply iFE = x2
  generalize FE.negate = ng, FE.isNegative = isn
  as_aux_lemma =>
    intro h
    cases c1
    · rw [if_neg (by decide), Out.ok_bind] at h
      split at h <;> cases h
    · rw [if_pos rfl] at h
      cases c2
      · rw [if_neg (by decide), Out.ok_bind] at h
        split at h <;> cases h
      · rw [if_pos rfl, Out.err_bind] at h
        exact (Out.err.inj h).symm

theorem GC.decode_err_msg {raw : Bytes} (hl : raw.length = 32 ∨ raw.length = 64) {m : String} (h : GC.decode raw = .err m) :
    m = "not a valid Ed25519EncodedGroupElement." := by
  have e : GC.getAffineY raw = .ok (FE.decode raw) := by
    unfold GC.getAffineY newEncodedFieldElement
    rw [if_pos hl]; rfl
  unfold GC.decode at h
  cases hx : GC.getAffineX raw with
  | ok x => rw [hx, Out.ok_bind, e, Out.ok_bind] at h; exact nomatch h
  | panic => rw [hx] at h; exact nomatch h
  | err m' =>
    rw [hx, Out.err_bind] at h
    rw [← Out.err.inj h]
    exact GC.getAffineX_err_msg hl hx

theorem GC.decode_not_panic' {raw : Bytes} : GC.decode raw ≠ .panic := by
  by_cases hl : raw.length = 32 ∨ raw.length = 64
  · rcases GC.decode_cases hl with ⟨q, hq⟩ | ⟨⟨m, hm⟩, -⟩
    · obtain ⟨g, hg, -⟩ := GC.decode_ok hl hq
      rw [hg]; exact nofun
    · rw [hm]; exact nofun
  · rw [GC.decode_badlen hl]; exact nofun

theorem decode_complaint {raw : Bytes} {m : String} (h : GC.decode raw = .err m) : KeyComplaint raw (printlnErr m) := by
  by_cases hl : raw.length = 32 ∨ raw.length = 64
  · right
    refine ⟨hl, ?_, ?_⟩
    · rintro ⟨A, hA⟩
      obtain ⟨g, hg, -⟩ := GC.decode_ok hl hA
      rw [hg] at h; cases h
    · rw [GC.decode_err_msg hl h]; rfl
  · left
    rw [GC.decode_badlen hl] at h
    cases h
    exact ⟨hl, rfl⟩

/-- The line printed for an error. -/
def errText {α : Type} : Out α → String
  | .err e => printlnErr e
  | _ => ""

/-- The text that `Decode` leaves to print. -/
def decodeText (raw : Bytes) : String := errText (GC.decode raw)

theorem verify_chain {α β γ δ : Type} (o0 o1 : Out α) (dec : Out β) (pre : β → Out γ) (o2 : α → γ → Out δ) (enc : δ → Out Bytes)
    (f : Bytes → Bool) (a0 a1 : α) (h0 : o0 = .ok a0) (h1 : o1 = .ok a1) (hd : dec ≠ .panic)
    (hne : ∀ g, dec = .ok g → ∀ e, (do let A ← pre g; let r ← o2 a1 A; let x ← enc r; Out.ok (f x)) ≠ .err e) :
    (orPrintFalse o0 fun _ => orPrintFalse o1 fun h => orPrintFalse dec fun g => orPrintFalse (pre g) fun A =>
      orPrintFalse (o2 h A) fun r => orPrintFalse (enc r) fun x => Pr.silent (.ok (f x))).res =
        Out.orFalse (do let g ← dec; let A ← pre g; let r ← o2 a1 A; let x ← enc r; Out.ok (f x)) ∧
    (orPrintFalse o0 fun _ => orPrintFalse o1 fun h => orPrintFalse dec fun g => orPrintFalse (pre g) fun A =>
      orPrintFalse (o2 h A) fun r => orPrintFalse (enc r) fun x => Pr.silent (.ok (f x))).text =
        errText dec := by
  subst h0; subst h1
  cases dec with
  | panic => exact absurd rfl hd
  | err e => exact ⟨rfl, rfl⟩
  | ok g =>
    have hne := hne g rfl
    cases h1 : pre g with
    | err e => rw [h1] at hne; exact absurd rfl (hne e)
    | panic => simp only [orPrintFalse, Out.ok_bind, h1]; exact ⟨rfl, rfl⟩
    | ok A =>
      rw [h1, Out.ok_bind] at hne
      cases h2 : o2 a1 A with
      | err e => rw [h2] at hne; exact absurd rfl (hne e)
      | panic => simp only [orPrintFalse, Out.ok_bind, h1, h2]; exact ⟨rfl, rfl⟩
      | ok r =>
        rw [h2, Out.ok_bind] at hne
        cases h3 : enc r with
        | err e => rw [h3] at hne; exact absurd rfl (hne e)
        | panic => simp only [orPrintFalse, Out.ok_bind, h1, h2, h3]; exact ⟨rfl, rfl⟩
        | ok x => simp only [orPrintFalse, Out.ok_bind, h1, h2, h3]; exact ⟨rfl, rfl⟩

theorem bind_chain {α β γ : Type} (bp : Out α) (c1 c2 : Out Unit) (d : α → Out β) (k : β → Out γ) :
    (do let b ← bp; c1; c2; let r ← d b; k r) = (do let r ← (do let b ← bp; c1; c2; d b); k r) := by
  cases bp with
  | ok b => cases c1 with
    | ok _ => cases c2 <;> rfl
    | err _ => rfl
    | panic => rfl
  | err _ => rfl
  | panic => rfl

theorem verifyPr_parts (pub : PublicKey) (m : Bytes) (sig : Signature) :
    (verifyPr E pub m sig).res = verify E pub m sig ∧
    (verifyPr E pub m sig).text =
      if isCanonicalSignature sig = true ∧ pub.raw ≠ List.replicate 32 0 then decodeText pub.raw else "" := by
  have hch : newEncodedFieldElement (hashesSha3_512 E [sig.R, pub.raw, m]) = .ok (hashesSha3_512 E [sig.R, pub.raw, m]) := by
    rw [hashes_flatten]; exact newEncoded_64 (Hash_length E _)
  have hdp := GC.decode_not_panic' (raw := pub.raw)
  have hne : ∀ g, GC.decode pub.raw = .ok g → ∀ e, verifyEquation E pub m sig ≠ .err e := by
    intro g hd
    obtain ⟨hl, q, hq⟩ : ∃ _ : pub.raw.length = 32 ∨ pub.raw.length = 64, ∃ q, Decodes (pub.raw.take 32) q := by
      by_cases hl : pub.raw.length = 32 ∨ pub.raw.length = 64
      · refine ⟨hl, ?_⟩
        rcases GC.decode_cases hl with hq | ⟨⟨e, he⟩, -⟩
        · exact hq
        · rw [he] at hd; exact nomatch hd
      · rw [GC.decode_badlen hl] at hd; exact nomatch hd
    intro e
    by_cases hS : 32 ≤ sig.S.length
    · rw [verifyEquation_spec E hl hq hS]; exact nofun
    · rw [verifyEquation_short E hl hq (by omega)]; exact nofun
  have heq : verifyEquation E pub m sig = (do
      let g ← GC.decode pub.raw
      let A ← (GE.ofGC g).precomputeForDoubleScalarMultiplication
      let r ← (do
        let b ← basePoint
        checkSlide (modQ (hashesSha3_512 E [sig.R, pub.raw, m]))
        checkSlide sig.S
        b.doubleScalarMultiplyVariableTime A (modQ (hashesSha3_512 E [sig.R, pub.raw, m])) sig.S)
      let x ← r.encode
      Out.ok (isEqualConstantTime x sig.R)) := by
    unfold verifyEquation
    dsimp only
    rw [hch, Out.ok_bind]
    refine congrArg _ (funext fun g => congrArg _ (funext fun A => ?_))
    exact bind_chain _ _ _ _ _
  rw [heq] at hne
  unfold verifyPr verify decodeText
  rw [heq]
  clear heq
  unfold hashesSha3_512Err
  have hzz := isEqualConstantTime_iff pub.raw (List.replicate 32 0)
  generalize (List.replicate 32 0 : Bytes) = z at hzz ⊢
  generalize hashesSha3_512 E [sig.R, pub.raw, m] = hh at hch hne ⊢
  generalize GC.decode pub.raw = dec at hdp hne ⊢
  generalize basePoint = bp at hne ⊢
  generalize checkSlide = cs at hne ⊢
  generalize modQ = mq at hne ⊢
  generalize GE.doubleScalarMultiplyVariableTime = dsm at hne ⊢
  generalize GC.encode = enc at hne ⊢
  generalize isEqualConstantTime = ct at hne hzz ⊢
  generalize GE.precomputeForDoubleScalarMultiplication = pre at hne ⊢
  generalize newEncodedFieldElement = nef at hch ⊢
  generalize isCanonicalSignature sig = can
  as_aux_lemma =>
    cases can
    · exact ⟨rfl, rfl⟩
    have hnot : ¬ ((!true) = true) := by decide
    rw [if_neg hnot, if_neg hnot]
    by_cases hz : pub.raw = z
    · have hz' := hzz.2 hz
      rw [if_pos hz', if_pos hz', if_neg (fun h => h.2 hz)]; exact ⟨rfl, rfl⟩
    have hz' : ¬ ct pub.raw z = true := fun h => hz (hzz.1 h)
    rw [if_neg hz', if_neg hz', if_pos ⟨rfl, hz⟩]
    exact verify_chain (.ok hh) (nef hh) dec (fun g => pre (GE.ofGC g))
      (fun h A => do let b ← bp; cs (mq h); cs sig.S; dsm b A (mq h) sig.S) enc (fun x => ct x sig.R) hh hh rfl hch hdp
      (fun g hg e => by have := hne g hg e; rw [hg] at this; exact this)

/-- **C91.** What `Verify` prints: exactly when the low bits of S pass the canonical check and the public key is not the 32 zero bytes but
denotes no point, one line that says whether its length or its content is wrong; otherwise nothing. The result is that of `Verify`. -/
theorem C91_verify (pub : PublicKey) (m : Bytes) (sig : Signature) :
    (verifyPr E pub m sig).res = verify E pub m sig ∧
    (∀ line, KeyComplaint pub.raw line → isCanonicalSignature sig = true → (verifyPr E pub m sig).text =
      if pub.raw = List.replicate 32 0 then "" else line) ∧
    (isCanonicalSignature sig = false → (verifyPr E pub m sig).text = "") ∧
    ((∃ A, (pub.raw.length = 32 ∨ pub.raw.length = 64) ∧ Decodes (pub.raw.take 32) A) → (verifyPr E pub m sig).text = "") := by
  obtain ⟨h1, h2⟩ := verifyPr_parts E pub m sig
  refine ⟨h1, ?_, ?_, ?_⟩
  · intro line hc hcan
    by_cases hz : pub.raw = List.replicate 32 0
    · rw [if_pos hz, h2, if_neg (by rintro ⟨-, h⟩; exact h hz)]
    · rw [if_neg hz, h2, if_pos ⟨hcan, hz⟩]
      cases hd : GC.decode pub.raw with
      | ok g =>
        exfalso
        rcases hc with ⟨hl, -⟩ | ⟨hl, hn, -⟩
        · rw [GC.decode_badlen hl] at hd; cases hd
        · rcases GC.decode_cases hl with hq | ⟨⟨e, he⟩, -⟩
          · exact hn hq
          · rw [he] at hd; cases hd
      | err e =>
        have := decode_complaint hd
        unfold decodeText
        rw [hd]
        show printlnErr e = line
        rcases hc with ⟨hl, e1⟩ | ⟨hl, hn, e1⟩
        · rcases this with ⟨-, e2⟩ | ⟨hl2, -⟩
          · rw [e1, e2]
          · exact absurd hl2 hl
        · rcases this with ⟨hl2, -⟩ | ⟨-, -, e2⟩
          · exact absurd hl hl2
          · rw [e1, e2]
      | panic => exact absurd hd GC.decode_not_panic'
  · intro hcan
    rw [h2, if_neg (by rw [hcan]; simp)]
  · rintro ⟨A, hl, hA⟩
    rw [h2]
    obtain ⟨g, hg, -⟩ := GC.decode_ok hl hA
    unfold decodeText
    rw [hg]
    split <;> rfl

/-- Neither the message nor R nor, beyond the canonical check, S has any influence on what `Verify` prints. -/
theorem C91_verify_public (pub : PublicKey) (m m' : Bytes) (sig sig' : Signature)
    (hc : isCanonicalSignature sig = isCanonicalSignature sig') : (verifyPr E pub m sig).text = (verifyPr E pub m' sig').text := by
  rw [(verifyPr_parts E pub m sig).2, (verifyPr_parts E pub m' sig').2, hc]

/-- A key that makes `Verify` print: 32 bytes with y = 7. -/
example : ∃ sig : Signature, isCanonicalSignature sig = true ∧
    KeyComplaint (7 :: List.replicate 31 0) "not a valid Ed25519EncodedGroupElement.\n" := by
  refine ⟨⟨[], [1]⟩, by decide, Or.inr ⟨Or.inl (by decide), ?_, rfl⟩⟩
  rintro ⟨A, hA⟩
  have hy : A.y = ((leVal ((7 :: List.replicate 31 0 : Bytes).take 32) % 2 ^ 255 : ℕ) : F) := hA.1
  have e : leVal ((7 :: List.replicate 31 0 : Bytes).take 32) % 2 ^ 255 = 7 := by decide +kernel
  rw [e] at hy
  have hx := A.on
  rw [hy] at hx
  apply not_sq_48_d A.x
  unfold OnCurve at hx
  push_cast at hx
  linear_combination (1 + 49 * d) * -hx

/-! ## Equals -/

/-- A call without error result. -/
def ofExcept {α : Type} : Except String α → Out α
  | .ok a => .ok a
  | .error _ => .panic

theorem ofExcept_bind {α β : Type} (x : Except String α) (f : α → Except String β) :
    ofExcept (x >>= f) = (ofExcept x >>= fun a => ofExcept (f a)) := by cases x <;> rfl

namespace GCN

theorem opV_out (f : FE → FE → FE) (x y : Option FE) : ofExcept (opV f x y) = op f x y := by
  cases x <;> cases y <;> rfl

theorem eqV_out (x y : Option FE) : ofExcept (eqV x y) = eq x y := by
  cases x <;> cases y <;> rfl

theorem andThenV_out (x y : Except String Bool) : ofExcept (andThenV x y) = andThen (ofExcept x) (ofExcept y) := by
  cases x with
  | error v => rfl
  | ok b => cases b <;> rfl

theorem ofExcept_ok {α : Type} (a : α) : ofExcept (.ok a) = .ok a := rfl
theorem ofExcept_error {α : Type} (v : String) : ofExcept (.error v : Except String α) = .panic := rfl
theorem ofExcept_ite {α : Type} (c : Prop) [Decidable c] (x y : Except String α) :
    ofExcept (if c then x else y) = if c then ofExcept x else ofExcept y := by split <;> rfl

theorem toCSV_out (g : GCN) (n : Int) : ofExcept (g.toCoordinateSystemV n) = g.toCoordinateSystem n := by
  unfold toCoordinateSystemV toCoordinateSystem
  generalize FE.add = f1, FE.subtract = f2, FE.multiply = f3, d2FE = d2
  as_aux_lemma =>
    simp only [ofExcept_ite, ofExcept_bind, opV_out, ofExcept_ok, ofExcept_error]

theorem equalsPV_out (r g : GCN) : ofExcept (equalsPV r g) = equalsP r g := by
  unfold equalsPV equalsP
  generalize FE.multiply = f3, FE.equals = f4
  as_aux_lemma =>
    simp only [ofExcept_ite, ofExcept_bind, opV_out, eqV_out, andThenV_out, ofExcept_ok]

theorem convertV_out (r g : GCN) (rest : GCN → Except String Bool × String) :
    ofExcept (convertV r g rest).1 = recoverFalse (do
      let g' ← g.toCoordinateSystem r.sys
      ofExcept (rest g').1) := by
  unfold convertV
  rw [← toCSV_out]
  cases g.toCoordinateSystemV r.sys with
  | error v => rfl
  | ok g' =>
    show ofExcept (match rest g' with | (.error v, t) => _ | x => x).1 = recoverFalse (ofExcept (rest g').1)
    rcases rest g' with ⟨x, t⟩
    cases x <;> rfl

theorem equalsToP2V_out (r g : GCN) (hr : r.sys = 1) : ofExcept (equalsToP2V r g).1 = equalsToP2 r g := by
  unfold equalsToP2V equalsToP2
  rw [hr]
  by_cases h : g.sys = 1
  · rw [if_neg (by omega), if_neg (by omega)]; exact equalsPV_out r g
  · rw [if_pos (by omega), if_pos (by omega), convertV_out, hr]
    simp only [equalsPV_out]

theorem toCSV_sys {g g' : GCN} {n : Int} (h : g.toCoordinateSystemV n = .ok g') : g'.sys = n := by
  have := toCSV_out g n
  rw [h] at this
  exact ((toCS_parts g n).2 g' this.symm).1

theorem equalsSameV_out (r g : GCN) : ofExcept (equalsSameV r g).1 = equalsSame r g := by
  unfold equalsSameV equalsSame
  by_cases h12 : r.sys = 1 ∨ r.sys = 2
  · rw [if_pos h12, if_pos h12]; exact equalsPV_out r g
  rw [if_neg h12, if_neg h12]
  by_cases h3 : r.sys = 3
  · rw [if_pos h3, if_pos h3, ← toCSV_out]
    cases h : r.toCoordinateSystemV 1 with
    | error v => rfl
    | ok r' => exact equalsToP2V_out r' g (toCSV_sys h)
  rw [if_neg h3, if_neg h3]
  by_cases h4 : r.sys = 4
  · rw [if_pos h4, if_pos h4]
    simp only [andThenV_out, eqV_out]
  rw [if_neg h4, if_neg h4]
  by_cases h5 : r.sys = 5
  · rw [if_pos h5, if_pos h5]
    generalize FE.multiply = f3, FE.equals = f4
    as_aux_lemma =>
      simp only [ofExcept_ite, ofExcept_bind, opV_out, eqV_out, andThenV_out, ofExcept_ok]
  rw [if_neg h5, if_neg h5]; rfl

end GCN

/-- The printing model of `Equals` gives the answers of the other one. -/
theorem C91_equals_same_results (r g : GCN) : ofExcept (GCN.equalsV r g).1 = GCN.equals r g := by
  unfold GCN.equalsV GCN.equals
  by_cases h : r.sys ≠ g.sys
  · rw [if_pos h, if_pos h, GCN.convertV_out]
    simp only [GCN.equalsSameV_out]
  · rw [if_neg h, if_neg h]; exact GCN.equalsSameV_out r g

/-- The texts of the panics inside `Equals`. -/
def PanicText (g : Int) (v : String) : Prop :=
  v = "NewIllegalArgumentException P2" ∨ v = "NewIllegalArgumentException P3" ∨ v = "NewIllegalArgumentException P1xP1" ∨
  v = "NewIllegalArgumentException PRECOMPUTED" ∨ v = "NewIllegalArgumentException CACHED" ∨
  v = "NewIllegalArgumentException(" ++ toString g ++ ")" ∨ v = "not supportet coor type" ∨
  v = "runtime error: invalid memory address or nil pointer dereference"

namespace GCN

theorem bind_panicText {α β : Type} {n : Int} {x : Except String α} {f : α → Except String β} {v : String}
    (hx : ∀ v, x = .error v → PanicText n v) (hf : ∀ a v, f a = .error v → PanicText n v) (h : (x >>= f) = .error v) :
    PanicText n v := by
  cases x with
  | ok a => exact hf a v h
  | error w =>
    have h : Except.error w = (Except.error v : Except String β) := h
    cases h
    exact hx _ rfl

theorem opV_panicText {n : Int} (f : FE → FE → FE) (x y : Option FE) (v : String) (h : opV f x y = .error v) : PanicText n v := by
  unfold PanicText
  cases x <;> cases y <;> unfold opV at h <;> cases h <;> simp [nilPanic]

theorem eqV_panicText {n : Int} (x y : Option FE) (v : String) (h : eqV x y = .error v) : PanicText n v := by
  unfold PanicText
  cases x <;> cases y <;> unfold eqV at h <;> cases h <;> simp [nilPanic]

theorem andThenV_panicText {n : Int} {x y : Except String Bool} {v : String} (hx : ∀ v, x = .error v → PanicText n v)
    (hy : ∀ v, y = .error v → PanicText n v) (h : andThenV x y = .error v) : PanicText n v := by
  cases x with
  | error w => exact hx v h
  | ok b => cases b with
    | true => exact hy v h
    | false => exact nomatch h

theorem toCSV_panicText (g : GCN) (n : Int) (v : String) (h : g.toCoordinateSystemV n = .error v) : PanicText g.sys v := by
  unfold toCoordinateSystemV at h
  generalize FE.add = f1, FE.subtract = f2, FE.multiply = f3, d2FE = d2 at h
  as_aux_lemma =>
    split at h
    · split at h
      · exact nomatch h
      · cases h; exact Or.inl rfl
    split at h
    · split at h
      · exact nomatch h
      split at h
      · exact nomatch h
      split at h
      · exact bind_panicText (opV_panicText _ _ _) (fun _ v => bind_panicText (opV_panicText _ _ _)
          (fun _ v => bind_panicText (opV_panicText _ _ _) (fun _ v h => by cases h))) h
      · cases h; exact Or.inr (Or.inl rfl)
    split at h
    · split at h
      · exact bind_panicText (opV_panicText _ _ _) (fun _ v => bind_panicText (opV_panicText _ _ _)
          (fun _ v => bind_panicText (opV_panicText _ _ _) (fun _ v h => by cases h))) h
      split at h
      · exact bind_panicText (opV_panicText _ _ _) (fun _ v => bind_panicText (opV_panicText _ _ _)
          (fun _ v => bind_panicText (opV_panicText _ _ _) (fun _ v => bind_panicText (opV_panicText _ _ _) (fun _ v h => by cases h)))) h
      split at h
      · exact nomatch h
      · cases h; exact Or.inr (Or.inr (Or.inl rfl))
    split at h
    · split at h
      · exact nomatch h
      · cases h; exact Or.inr (Or.inr (Or.inr (Or.inl rfl)))
    split at h
    · split at h
      · exact nomatch h
      · cases h; exact Or.inr (Or.inr (Or.inr (Or.inr (Or.inl rfl))))
    · cases h; exact Or.inr (Or.inr (Or.inr (Or.inr (Or.inr (Or.inl rfl)))))

theorem equalsPV_panicText (n : Int) (r g : GCN) (v : String) (h : equalsPV r g = .error v) : PanicText n v := by
  unfold equalsPV at h
  generalize FE.multiply = f3, FE.equals = f4 at h
  as_aux_lemma =>
    refine bind_panicText (eqV_panicText _ _) (fun b v h => ?_) h
    split at h
    · exact andThenV_panicText (eqV_panicText _ _) (eqV_panicText _ _) h
    · exact bind_panicText (opV_panicText _ _ _) (fun _ v => bind_panicText (opV_panicText _ _ _)
          (fun _ v => bind_panicText (opV_panicText _ _ _) (fun _ v => bind_panicText (opV_panicText _ _ _) (fun _ v h => by cases h)))) h

/-- What a call of `Equals` may have printed: nothing, or one line, and then the answer is false. -/
def TextOk (g : Int) (sys : Int → Prop) (x : Except String Bool × String) : Prop :=
  x.2 = "" ∨ (x.1 = .ok false ∧ ∃ v a b, PanicText g v ∧ sys a ∧ sys b ∧ x.2 = v ++ ", " ++ toString a ++ ", " ++ toString b)

theorem convertV_text (r g : GCN) (sys : Int → Prop) (hr : sys r.sys) (hg : sys g.sys) (rest : GCN → Except String Bool × String)
    (h : ∀ g', g'.sys = r.sys → (rest g').2 = "" ∧ ∀ v, (rest g').1 = .error v → PanicText g.sys v) :
    TextOk g.sys sys (convertV r g rest) := by
  unfold convertV
  cases hc : g.toCoordinateSystemV r.sys with
  | error v => exact Or.inr ⟨rfl, v, _, _, toCSV_panicText g _ v hc, hr, hg, rfl⟩
  | ok g' =>
    have hs := toCSV_sys hc
    obtain ⟨h1, h2⟩ := h g' hs
    show TextOk g.sys sys (match rest g' with | (.error v, t) => (.ok false, t ++ printfLine v r.sys g'.sys) | x => x)
    rcases hx : rest g' with ⟨x, t⟩
    rw [hx] at h1 h2
    cases x with
    | ok b => exact Or.inl h1
    | error v =>
      refine Or.inr ⟨rfl, v, r.sys, g'.sys, h2 v rfl, hr, by rw [hs]; exact hr, ?_⟩
      show t ++ printfLine v r.sys g'.sys = _
      rw [show t = "" from h1]
      show "" ++ (v ++ ", " ++ toString r.sys ++ ", " ++ toString g'.sys) = _
      simp

theorem equalsSameV_text (r g : GCN) (hs : r.sys = g.sys) : TextOk g.sys (fun a => a = r.sys ∨ a = g.sys ∨ a = 1) (equalsSameV r g) ∧
    (r.sys ≠ 3 → (equalsSameV r g).2 = "" ∧ ∀ n v, (equalsSameV r g).1 = .error v → PanicText n v) := by
  unfold equalsSameV
  generalize FE.multiply = f3, FE.equals = f4
  as_aux_lemma =>
    by_cases h12 : r.sys = 1 ∨ r.sys = 2
    · rw [if_pos h12]
      exact ⟨Or.inl rfl, fun _ => ⟨rfl, fun n v => equalsPV_panicText n r g v⟩⟩
    rw [if_neg h12]
    by_cases h3 : r.sys = 3
    · rw [if_pos h3]
      refine ⟨?_, fun h => absurd h3 h⟩
      cases h : r.toCoordinateSystemV 1 with
      | error v => exact Or.inl rfl
      | ok r' =>
        have hs' := toCSV_sys h
        show TextOk _ _ (equalsToP2V r' g)
        unfold equalsToP2V
        rw [if_pos (by omega)]
        exact convertV_text r' g _ (Or.inr (Or.inr hs')) (Or.inr (Or.inl rfl)) _
          (fun g' _ => ⟨rfl, fun v => equalsPV_panicText _ r' g' v⟩)
    rw [if_neg h3]
    by_cases h4 : r.sys = 4
    · rw [if_pos h4]
      exact ⟨Or.inl rfl, fun _ => ⟨rfl, fun n v h => andThenV_panicText
        (fun v h => andThenV_panicText (eqV_panicText _ _) (eqV_panicText _ _) h) (eqV_panicText _ _) h⟩⟩
    rw [if_neg h4]
    by_cases h5 : r.sys = 5
    · rw [if_pos h5]
      refine ⟨Or.inl rfl, fun _ => ⟨rfl, fun n v h => ?_⟩⟩
      refine bind_panicText (eqV_panicText _ _) (fun b v h => ?_) h
      split at h
      · exact andThenV_panicText (fun v h => andThenV_panicText (eqV_panicText _ _) (eqV_panicText _ _) h) (eqV_panicText _ _) h
      · exact bind_panicText (opV_panicText _ _ _) (fun _ v => bind_panicText (opV_panicText _ _ _)
          (fun _ v => bind_panicText (opV_panicText _ _ _) (fun _ v => bind_panicText (opV_panicText _ _ _)
            (fun _ v => bind_panicText (opV_panicText _ _ _) (fun _ v => bind_panicText (opV_panicText _ _ _)
              (fun _ v h => by cases h)))))) h
    rw [if_neg h5]
    refine ⟨Or.inl rfl, fun _ => ⟨rfl, fun n v h => ?_⟩⟩
    cases h
    exact Or.inr (Or.inr (Or.inr (Or.inr (Or.inr (Or.inr (Or.inl rfl))))))

end GCN

/-- **C91.** What `Equals` prints, for all elements, also with nil coordinates and unknown systems: nothing, or one line
"reason, a, b" with one of eight fixed reasons and two coordinate system numbers - never a coordinate - and in that case the answer is
false. -/
theorem C91_equals_text (r g : GCN) :
    (GCN.equalsV r g).2 = "" ∨ ((GCN.equalsV r g).1 = .ok false ∧ ∃ v a b, PanicText g.sys v ∧ (a = r.sys ∨ a = g.sys ∨ a = 1) ∧
      (b = r.sys ∨ b = g.sys ∨ b = 1) ∧ (GCN.equalsV r g).2 = v ++ ", " ++ toString a ++ ", " ++ toString b) := by
  show GCN.TextOk g.sys (fun a => a = r.sys ∨ a = g.sys ∨ a = 1) (GCN.equalsV r g)
  unfold GCN.equalsV
  by_cases h : r.sys ≠ g.sys
  · rw [if_pos h]
    by_cases h3 : r.sys = 3
    · -- nothing but P1xP1 can be converted to P1xP1
      unfold GCN.convertV
      cases hc : g.toCoordinateSystemV r.sys with
      | error v => exact Or.inr ⟨rfl, v, _, _, GCN.toCSV_panicText g _ v hc, Or.inl rfl, Or.inr (Or.inl rfl), rfl⟩
      | ok g' =>
        exfalso
        unfold GCN.toCoordinateSystemV at hc
        rw [h3] at hc h
        generalize FE.add = f1, FE.subtract = f2, FE.multiply = f3, d2FE = d2 at hc
        as_aux_lemma =>
          have h' : ¬ g.sys = 3 := fun e => h e.symm
          simp [h'] at hc
          repeat' split at hc
          all_goals cases hc
    · refine GCN.convertV_text r g _ (Or.inl rfl) (Or.inr (Or.inl rfl)) _ fun g' hg' => ?_
      obtain ⟨h1, h2⟩ := (GCN.equalsSameV_text r g' hg'.symm).2 h3
      exact ⟨h1, h2 _⟩
  · rw [if_neg h]
    exact (GCN.equalsSameV_text r g (not_not.1 h)).1

/-- The coordinate systems `toCoordinateSystem` can convert to. -/
def Convertible : Sys → Sys → Prop
  | .p3, s => s = .p3 ∨ s = .p2 ∨ s = .cached
  | .p1xp1, s => s = .p1xp1 ∨ s = .p2 ∨ s = .p3
  | g, s => s = g

/-- The reason `Equals` gives for an element it cannot convert. -/
def Sys.reason : Sys → String
  | .affine => "NewIllegalArgumentException(0)"
  | .p2 => "NewIllegalArgumentException P2"
  | .p3 => "NewIllegalArgumentException P3"
  | .p1xp1 => "NewIllegalArgumentException P1xP1"
  | .precomputed => "NewIllegalArgumentException PRECOMPUTED"
  | .cached => "NewIllegalArgumentException CACHED"

/-- The line with the numbers of the two systems. -/
def Sys.line (r g : Sys) : String := g.reason ++ ", " ++ toString r.num ++ ", " ++ toString g.num

theorem GCN.eqV_some (a b : FE) : GCN.eqV (some a) (some b) = .ok (a.equals b) := rfl
theorem GCN.opV_some (f : FE → FE → FE) (a b : FE) : GCN.opV f (some a) (some b) = .ok (f a b) := rfl
theorem except_ok_bind {α β : Type} (a : α) (f : α → Except String β) : (Except.ok a >>= f) = f a := rfl

/-- Ends without panic. -/
def Fine {α : Type} (x : Except String α) : Prop := ∃ a, x = .ok a

theorem Fine.bind {α β : Type} {x : Except String α} {f : α → Except String β} (hx : Fine x) (hf : ∀ a, Fine (f a)) : Fine (x >>= f) := by
  obtain ⟨a, rfl⟩ := hx
  exact hf a

theorem fine_op (f : FE → FE → FE) (a b : FE) : Fine (GCN.opV f (some a) (some b)) := ⟨_, rfl⟩
theorem fine_eq (a b : FE) : Fine (GCN.eqV (some a) (some b)) := ⟨_, rfl⟩
theorem fine_and {x y : Except String Bool} (hx : Fine x) (hy : Fine y) : Fine (GCN.andThenV x y) := by
  obtain ⟨a, rfl⟩ := hx
  cases a
  · exact ⟨_, rfl⟩
  · exact hy
theorem fine_ite {α : Type} (c : Bool) {x y : Except String α} (hx : Fine x) (hy : Fine y) : Fine (if c then x else y) := by
  cases c
  · exact hy
  · exact hx

theorem GCN.equalsPV_some (s s' : Int) (x y z x' y' z' : FE) (t t' : Option FE) :
    Fine (GCN.equalsPV ⟨s, some x, some y, some z, t⟩ ⟨s', some x', some y', some z', t'⟩) := by
  unfold GCN.equalsPV
  generalize FE.multiply = f3, FE.equals = f4
  as_aux_lemma =>
    exact Fine.bind (fine_eq _ _) fun b => fine_ite b (fine_and (fine_eq _ _) (fine_eq _ _))
      (Fine.bind (fine_op _ _ _) fun _ => Fine.bind (fine_op _ _ _) fun _ => Fine.bind (fine_op _ _ _) fun _ =>
        Fine.bind (fine_op _ _ _) fun _ => ⟨_, rfl⟩)

theorem GCN.equalsCachedV_some (x y z x' y' z' t t' : FE) :
    ∃ b, GCN.equalsSameV ⟨5, some x, some y, some z, some t⟩ ⟨5, some x', some y', some z', some t'⟩ = (.ok b, "") := by
  unfold GCN.equalsSameV
  generalize FE.multiply = f3, FE.equals = f4
  as_aux_lemma =>
    obtain ⟨b, hb⟩ : Fine (do
        let b ← GCN.eqV (some z) (some z')
        if b then GCN.andThenV (GCN.andThenV (GCN.eqV (some x) (some x')) (GCN.eqV (some y) (some y'))) (GCN.eqV (some t) (some t'))
        else do
          let x3 ← GCN.opV f3 (some x) (some z')
          let y3 ← GCN.opV f3 (some y) (some z')
          let t3 ← GCN.opV f3 (some t) (some z')
          let x4 ← GCN.opV f3 (some x') (some z)
          let y4 ← GCN.opV f3 (some y') (some z)
          let t4 ← GCN.opV f3 (some t') (some z)
          .ok (f4 x3 x4 && f4 y3 y4 && f4 t3 t4)) :=
      Fine.bind (fine_eq _ _) fun b => fine_ite b (fine_and (fine_and (fine_eq _ _) (fine_eq _ _)) (fine_eq _ _))
        (Fine.bind (fine_op _ _ _) fun _ => Fine.bind (fine_op _ _ _) fun _ => Fine.bind (fine_op _ _ _) fun _ =>
          Fine.bind (fine_op _ _ _) fun _ => Fine.bind (fine_op _ _ _) fun _ => Fine.bind (fine_op _ _ _) fun _ => ⟨_, rfl⟩)
    refine ⟨b, ?_⟩
    rw [if_neg (by dsimp only [Sys.num]; decide), if_neg (by dsimp only [Sys.num]; decide), if_neg (by dsimp only [Sys.num]; decide), if_pos (by first | rfl | (dsimp only [Sys.num]; decide))]
    exact congrArg (fun x => (x, "")) hb

theorem GCN.equalsPrecV_some (x y z x' y' z' : FE) (t t' : Option FE) :
    ∃ b, GCN.equalsSameV ⟨4, some x, some y, some z, t⟩ ⟨4, some x', some y', some z', t'⟩ = (.ok b, "") := by
  unfold GCN.equalsSameV
  generalize FE.multiply = f3, FE.equals = f4
  as_aux_lemma =>
    obtain ⟨b, hb⟩ := fine_and (fine_and (fine_eq x x') (fine_eq y y')) (fine_eq z z')
    refine ⟨b, ?_⟩
    rw [if_neg (by dsimp only [Sys.num]; decide), if_neg (by dsimp only [Sys.num]; decide), if_pos (by first | rfl | (dsimp only [Sys.num]; decide))]
    exact congrArg (fun x => (x, "")) hb

theorem GCN.toCSV_p1p2 (x y z t : FE) : GCN.toCoordinateSystemV ⟨3, some x, some y, some z, some t⟩ 1 =
    .ok ⟨1, some (x.multiply t), some (y.multiply z), some (z.multiply t), none⟩ := by
  unfold GCN.toCoordinateSystemV
  simp only [GCN.opV_some, except_ok_bind]
  rfl

theorem GCN.toCSV_p3p2 (x y z : FE) (t : Option FE) : GCN.toCoordinateSystemV ⟨2, some x, some y, some z, t⟩ 1 =
    .ok ⟨1, some x, some y, some z, none⟩ := by
  unfold GCN.toCoordinateSystemV
  rw [if_neg (by dsimp only [Sys.num]; decide), if_pos (by first | rfl | (dsimp only [Sys.num]; decide)), if_pos (by first | rfl | (dsimp only [Sys.num]; decide))]
  rfl

theorem GCN.toCSV_p1p3 (x y z t : FE) : GCN.toCoordinateSystemV ⟨3, some x, some y, some z, some t⟩ 2 =
    .ok ⟨2, some (x.multiply t), some (y.multiply z), some (z.multiply t), some (x.multiply y)⟩ := by
  unfold GCN.toCoordinateSystemV
  simp only [GCN.opV_some, except_ok_bind]
  rfl

theorem GCN.toCSV_p3c (x y z t : FE) : GCN.toCoordinateSystemV ⟨2, some x, some y, some z, some t⟩ 5 =
    .ok ⟨5, some (y.add x), some (y.subtract x), some z, some (t.multiply d2FE)⟩ := by
  unfold GCN.toCoordinateSystemV
  simp only [GCN.opV_some, except_ok_bind]
  rfl

theorem GCN.convertV_ok {r g g' : GCN} {rest : GCN → Except String Bool × String} {b : Bool} (h1 : g.toCoordinateSystemV r.sys = .ok g')
    (h2 : rest g' = (.ok b, "")) : (GCN.convertV r g rest).2 = "" := by
  unfold GCN.convertV
  rw [h1]
  show (match rest g' with | (.error v, t) => ((Except.ok false : Except String Bool), t ++ printfLine v r.sys g'.sys) | x => x).2 = ""
  rw [h2]

theorem GCN.convertV_no {r g : GCN} {v : String} (rest : GCN → Except String Bool × String)
    (h1 : g.toCoordinateSystemV r.sys = .error v) : GCN.convertV r g rest = (.ok false, printfLine v r.sys g.sys) := by
  unfold GCN.convertV
  rw [h1]

theorem GCN.toCSV_no (g : GC) (r : Sys) (h : ¬ Convertible g.sys r) : g.toN.toCoordinateSystemV r.num = .error g.sys.reason := by
  rcases g with ⟨gs, gX, gY, gZ, gT⟩
  unfold GC.toN GCN.toCoordinateSystemV
  generalize FE.add = f1, FE.subtract = f2, FE.multiply = f3, d2FE = d2
  as_aux_lemma =>
    cases gs <;> cases r <;> first | rfl | exact absurd (by simp [Convertible]) h

/-- **C91.** For elements with all the coordinates their system has (all that the library makes): what `Equals` prints is determined by the two systems.
Nothing, if they are equal or the argument can be converted; else the reason and the two numbers. -/
theorem C91_equals_complete (r g : GC) (hr : r.sys = .p3 ∨ r.sys = .p1xp1 ∨ r.sys = .cached → r.T ≠ none)
    (hg : g.sys = .p3 ∨ g.sys = .p1xp1 ∨ g.sys = .cached → g.T ≠ none) :
    (Convertible g.sys r.sys → (GCN.equalsV r.toN g.toN).2 = "") ∧
    (¬ Convertible g.sys r.sys → GCN.equalsV r.toN g.toN = (.ok false, Sys.line r.sys g.sys)) := by
  constructor
  · intro hc
    rcases r with ⟨rs, rX, rY, rZ, rT⟩
    rcases g with ⟨gs, gX, gY, gZ, gT⟩
    have hT : ∀ o : Option FE, o ≠ none → ∃ t, o = some t := fun o => Option.ne_none_iff_exists'.1
    dsimp only at hr hg hc
    show (GCN.equalsV ⟨rs.num, some rX, some rY, some rZ, rT⟩ ⟨gs.num, some gX, some gY, some gZ, gT⟩).2 = ""
    unfold GCN.equalsV
    have key : ∀ {s : Int} {g' : GCN}, (∃ b, GCN.equalsSameV ⟨s, some rX, some rY, some rZ, rT⟩ g' = (.ok b, "")) →
        GCN.toCoordinateSystemV ⟨gs.num, some gX, some gY, some gZ, gT⟩ s = .ok g' →
        (GCN.convertV ⟨s, some rX, some rY, some rZ, rT⟩ ⟨gs.num, some gX, some gY, some gZ, gT⟩
          (fun g' => GCN.equalsSameV ⟨s, some rX, some rY, some rZ, rT⟩ g')).2 = "" := by
      intro s g' ⟨b, hb⟩ h
      exact GCN.convertV_ok (b := b) (g' := g') h hb
    have p2 : ∀ (x y z : FE) (t : Option FE), ∃ b, GCN.equalsSameV ⟨1, some rX, some rY, some rZ, rT⟩ ⟨1, some x, some y, some z, t⟩ = (.ok b, "") := by
      intro x y z t
      obtain ⟨b, hb⟩ := GCN.equalsPV_some 1 1 rX rY rZ x y z rT t
      refine ⟨b, ?_⟩
      unfold GCN.equalsSameV
      rw [if_pos (Or.inl rfl)]
      exact congrArg (fun x => (x, "")) hb
    have p3 : ∀ (x y z : FE) (t : Option FE), ∃ b, GCN.equalsSameV ⟨2, some rX, some rY, some rZ, rT⟩ ⟨2, some x, some y, some z, t⟩ = (.ok b, "") := by
      intro x y z t
      obtain ⟨b, hb⟩ := GCN.equalsPV_some 2 2 rX rY rZ x y z rT t
      refine ⟨b, ?_⟩
      unfold GCN.equalsSameV
      rw [if_pos (Or.inr rfl)]
      exact congrArg (fun x => (x, "")) hb
    cases gs with
    | affine =>
      have hc : rs = .affine := hc
      subst hc
      rw [if_neg (not_not.2 rfl)]
      unfold GCN.equalsSameV
      rw [if_neg (by dsimp only [Sys.num]; decide), if_neg (by dsimp only [Sys.num]; decide), if_neg (by dsimp only [Sys.num]; decide), if_neg (by dsimp only [Sys.num]; decide)]
    | p2 =>
      have hc : rs = .p2 := hc
      subst hc
      rw [if_neg (not_not.2 rfl)]
      obtain ⟨b, hb⟩ := p2 gX gY gZ gT
      exact congrArg Prod.snd hb
    | p3 =>
      obtain ⟨t, rfl⟩ := hT _ (hg (Or.inl rfl))
      rcases hc with rfl | rfl | rfl
      · rw [if_neg (not_not.2 rfl)]
        obtain ⟨b, hb⟩ := p3 gX gY gZ (some t)
        exact congrArg Prod.snd hb
      · rw [if_pos (by first | rfl | (dsimp only [Sys.num]; decide))]
        exact key (p2 gX gY gZ none) (GCN.toCSV_p3p2 gX gY gZ (some t))
      · rw [if_pos (by first | rfl | (dsimp only [Sys.num]; decide))]
        obtain ⟨u, rfl⟩ := hT _ (hr (Or.inr (Or.inr rfl)))
        exact key (GCN.equalsCachedV_some rX rY rZ (gY.add gX) (gY.subtract gX) gZ u (t.multiply d2FE))
          (GCN.toCSV_p3c gX gY gZ t)
    | p1xp1 =>
      obtain ⟨t, rfl⟩ := hT _ (hg (Or.inr (Or.inl rfl)))
      rcases hc with rfl | rfl | rfl
      · rw [if_neg (not_not.2 rfl)]
        obtain ⟨u, rfl⟩ := hT _ (hr (Or.inr (Or.inl rfl)))
        have h1 := GCN.toCSV_p1p2 rX rY rZ u
        have h2 := GCN.toCSV_p1p2 gX gY gZ t
        unfold GCN.equalsSameV
        rw [if_neg (by dsimp only [Sys.num]; decide), if_pos (by first | rfl | (dsimp only [Sys.num]; decide))]
        show (match GCN.toCoordinateSystemV ⟨3, some rX, some rY, some rZ, some u⟩ 1 with
          | Except.error v => ((Except.error v : Except String Bool), "")
          | Except.ok r' => GCN.equalsToP2V r' ⟨3, some gX, some gY, some gZ, some t⟩).2 = ""
        rw [h1]
        show (GCN.equalsToP2V _ _).2 = ""
        generalize rX.multiply u = x, rY.multiply rZ = y, rZ.multiply u = z
        generalize gX.multiply t = x', gY.multiply gZ = y', gZ.multiply t = z' at h2
        obtain ⟨b, hb⟩ := GCN.equalsPV_some 1 1 x y z x' y' z' none none
        unfold GCN.equalsToP2V
        rw [if_pos (show (1 : Int) ≠ 3 by decide)]
        exact GCN.convertV_ok (b := b) h2 (by rw [hb])
      · rw [if_pos (by first | rfl | (dsimp only [Sys.num]; decide))]
        have h2 := GCN.toCSV_p1p2 gX gY gZ t
        generalize gX.multiply t = x', gY.multiply gZ = y', gZ.multiply t = z' at h2
        exact key (p2 x' y' z' none) h2
      · rw [if_pos (by first | rfl | (dsimp only [Sys.num]; decide))]
        have h2 := GCN.toCSV_p1p3 gX gY gZ t
        generalize gX.multiply t = x', gY.multiply gZ = y', gZ.multiply t = z', gX.multiply gY = t' at h2
        exact key (p3 x' y' z' (some t')) h2
    | precomputed =>
      have hc : rs = .precomputed := hc
      subst hc
      rw [if_neg (not_not.2 rfl)]
      obtain ⟨b, hb⟩ := GCN.equalsPrecV_some rX rY rZ gX gY gZ rT gT
      exact congrArg Prod.snd hb
    | cached =>
      have hc : rs = .cached := hc
      subst hc
      rw [if_neg (not_not.2 rfl)]
      obtain ⟨t, rfl⟩ := hT _ (hg (Or.inr (Or.inr rfl)))
      obtain ⟨u, rfl⟩ := hT _ (hr (Or.inr (Or.inr rfl)))
      obtain ⟨b, hb⟩ := GCN.equalsCachedV_some rX rY rZ gX gY gZ u t
      exact congrArg Prod.snd hb
  · intro hc
    have hne : r.toN.sys ≠ g.toN.sys := by
      intro h
      apply hc
      have : r.sys = g.sys := Sys.num_inj h
      rw [this]
      cases g.sys <;> simp [Convertible]
    unfold GCN.equalsV
    rw [if_pos hne, GCN.convertV_no _ (GCN.toCSV_no g r.sys hc)]
    rfl

/-- Elements the library makes, one of each kind, and the two outcomes: P1xP1 cannot be converted to CACHED, but to P3. -/
example : ∃ r g : GC, r.sys = .cached ∧ g.sys = .p1xp1 ∧ r.T ≠ none ∧ g.T ≠ none ∧ ¬ Convertible g.sys r.sys ∧
    Sys.line r.sys g.sys = "NewIllegalArgumentException P1xP1, 5, 3" ∧ Convertible .p1xp1 .p3 :=
  ⟨GC.newCached .one .one .one (some .one), GC.newP1xP1 .one .one .one (some .one), rfl, rfl, nofun, nofun,
    by simp [Convertible, GC.newCached, GC.newP1xP1], rfl, Or.inr (Or.inr rfl)⟩

end Ed

import Verif.Proofs.CostBounds
import Verif.Proofs.Dsa

/-!
# The work of the exported calls
-/

set_option autoImplicit false

namespace Ed
open Finset Cost

variable (E : Env)

theorem bind_eq_ok {α β : Type} {x : Out α} {f : α → Out β} {b : β} (h : (x >>= f) = .ok b) : ∃ a, x = .ok a ∧ f a = .ok b := by
  cases x with
  | ok a => exact ⟨a, rfl, h⟩
  | err m => exact nomatch h
  | panic => exact nomatch h

theorem bind_steps_lift {α β : Type} {a : α} (f : α → Cost β) : (Cost.lift (.ok a) >>= f).steps = (f a).steps := by
  rw [bind_steps (lift_out _)]; rfl

theorem bind_steps_tick {α β : Type} {s : Step} {a : α} (f : α → Cost β) : (Cost.tick s a >>= f).steps = s :: (f a).steps := by
  rw [bind_steps (tick_out s a)]; rfl

theorem prepare_steps (k : PrivateKey) : (prepareForScalarMultiplyC E (some k)).steps = [.sha512 [k.raw.length]] := by
  unfold prepareForScalarMultiplyC sha512C Out.deref
  rw [bind_steps_lift, bind_steps_tick]
  rfl

/-! ## `DerivePublicKey` -/

theorem derive_steps_aux (x : Cost Bytes) (bp : Out GE) (sc : GE → Bytes → Cost GC) (en : GC → Cost Bytes) (l1 l2 l3 : List Step) {a : Bytes} {g : GE}
    {h : GC} {r : Bytes} (ha : x.out = .ok a) (ha' : x.steps = l1) (hg : bp = .ok g) (hh : (sc g a).out = .ok h) (hh' : (sc g a).steps = l2)
    (hr : (en h).out = .ok r) (hr' : (en h).steps = l3) :
    (x >>= fun a => Cost.lift bp >>= fun b => (sc b a).orPanic >>= fun p => (en p).orPanic >>= fun el => (pure (newPublicKey el) : Cost PublicKey)).steps =
      l1 ++ (l2 ++ l3) := by
  have e1 : (sc g a).orPanic.out = .ok h := by unfold Cost.orPanic Cost.mapOut; dsimp only; rw [hh]; rfl
  have e2 : (en h).orPanic.out = .ok r := by unfold Cost.orPanic Cost.mapOut; dsimp only; rw [hr]; rfl
  have e3 : (sc g a).orPanic.steps = (sc g a).steps := rfl
  have e4 : (en h).orPanic.steps = (en h).steps := rfl
  rw [bind_steps ha, ha', hg, bind_steps_lift, bind_steps e1, e3, hh', bind_steps e2, e4, hr']
  congr 2
  exact List.append_nil _

theorem derive_steps (k : PrivateKey) : (derivePublicKeyC E (some k)).steps = .sha512 [k.raw.length] :: (sScalar ++ sEncode) := by
  obtain ⟨a, a1, a2, a3⟩ := prepare_spec E k
  obtain ⟨g, g1, g2, g3, g4, g5⟩ := basePoint_spec
  obtain ⟨h, h1, h2, h3⟩ := GE.scalarMultiply_digits g4 a
  have he := GC.encode_repr (Or.inr (Or.inl h2)) h3
  have k1 := prepareC_out E (some k)
  have k2 := GE.scalarMultiplyC_out g a
  have k3 := GC.encodeC_out h
  rw [a1] at k1
  rw [h1] at k2
  rw [he] at k3
  rw [derivePublicKeyC]
  exact derive_steps_aux _ _ _ _ _ _ _ k1 (prepare_steps E k) g1 k2 (GE.scalar_takes g a _ k2) k3 (GC.encode_takes (Or.inr h2) _ k3)

/-! ## `Sign` -/

theorem sign_steps_aux (k : PrivateKey) (pub : PublicKey) (m : Bytes) (bp : Out GE) (hs : List Bytes → Bytes) (hl : ∀ l, (hs l).length = 64)
    (q : Bytes → Bytes) (mq : Bytes → Bytes → Bytes → Bytes) (sc : GE → Bytes → Cost GC) (en : GC → Cost Bytes) (pr : Cost Bytes)
    (tl : Bytes → Bytes → Cost Signature) (l1 l2 l3 : List Step) {a : Bytes} {g : GE} {h : GC} {r : Bytes} (hg : bp = .ok g)
    (hh : (sc g (q (hs [(hs [k.raw]).drop 32, m]))).out = .ok h) (hh' : (sc g (q (hs [(hs [k.raw]).drop 32, m]))).steps = l2)
    (hr : (en h).out = .ok r) (hr' : (en h).steps = l3) (hrl : r.length = 32) (ha : pr.out = .ok a) (ha' : pr.steps = l1)
    (ht : ∀ a b, (tl a b).steps = []) :
    (do
      let k ← Cost.lift (Out.deref (some k))
      let hash ← Cost.tick (.sha512 ([k.raw].map List.length)) (hs [k.raw])
      let hashR ← Cost.tick (.sha512 ([hash.drop 32, m].map List.length)) (hs [hash.drop 32, m])
      let r ← Cost.lift (newEncodedFieldElement hashR)
      let rModQ ← Cost.tick .modQ (q r)
      let b ← Cost.lift bp
      let R ← sc b rModQ
      let encodedR ← en R
      let hashH ← Cost.tick (.sha512 ([encodedR, pub.raw, m].map List.length)) (hs [encodedR, pub.raw, m])
      let h ← Cost.lift (newEncodedFieldElement hashH)
      let hModQ ← Cost.tick .modQ (q h)
      let a ← pr
      let encodedS ← Cost.tick .mulAddModQ (mq hModQ a rModQ)
      tl encodedR encodedS).steps =
    .sha512 [k.raw.length] :: .sha512 [32, m.length] :: .modQ :: (l2 ++ (l3 ++ .sha512 [32, pub.raw.length, m.length] :: .modQ ::
      (l1 ++ [.mulAddModQ]))) := by
  have hn : ∀ l, newEncodedFieldElement (hs l) = .ok (hs l) := fun l => if_pos (Or.inr (hl l))
  have hd : ((hs [k.raw]).drop 32).length = 32 := by rw [List.length_drop, hl]
  unfold Out.deref
  rw [bind_steps_lift, bind_steps_tick, bind_steps_tick, hn, bind_steps_lift, bind_steps_tick, hg, bind_steps_lift, bind_steps hh, hh', bind_steps hr,
    hr', bind_steps_tick, hn, bind_steps_lift, bind_steps_tick, bind_steps ha, ha', bind_steps_tick, ht]
  simp only [List.map_cons, List.map_nil, hd, hrl]

theorem sign_steps_aux2 (k : PrivateKey) (kp : KeyPair) (hk : kp.priv = some k) (m : Bytes) (bp : Out GE) {g : GE} (g1 : bp = .ok g) (g4 : g.SingleTable B) :
    (do
      let k ← Cost.lift (Out.deref kp.priv)
      let hash ← sha512C E [k.raw]
      let hashR ← sha512C E [hash.drop 32, m]
      let r ← Cost.lift (newEncodedFieldElement hashR)
      let rModQ ← modQC r
      let b ← Cost.lift bp
      let R ← b.scalarMultiplyC rModQ
      let encodedR ← R.encodeC
      let hashH ← sha512C E [encodedR, kp.pub.raw, m]
      let h ← Cost.lift (newEncodedFieldElement hashH)
      let hModQ ← modQC h
      let a ← prepareForScalarMultiplyC E kp.priv
      let encodedS ← Cost.tick .mulAddModQ (multiplyAndAddModQ hModQ a rModQ)
      let signature ← Cost.lift (newSignature encodedR encodedS)
      Cost.lift (if !isCanonicalSignature signature then .err "Generated signature is not canonical" else .ok signature)).steps =
    .sha512 [k.raw.length] :: .sha512 [32, m.length] :: .modQ :: (sScalar ++ (sEncode ++ .sha512 [32, kp.pub.raw.length, m.length] :: .modQ ::
      ([.sha512 [k.raw.length]] ++ [.mulAddModQ]))) := by
  obtain ⟨a, a1, a2, a3⟩ := prepare_spec E k
  obtain ⟨h, h1, h2, h3⟩ := GE.scalarMultiply_digits g4 (modQ (hashesSha3_512 E [(hashesSha3_512 E [k.raw]).drop 32, m]))
  obtain ⟨r, he, k8⟩ : ∃ r, h.encode = .ok r ∧ r.length = 32 := ⟨_, GC.encode_repr (Or.inr (Or.inl h2)) h3, encodePoint_length _⟩
  have k1 := prepareC_out E (some k)
  have k2 := GE.scalarMultiplyC_out g (modQ (hashesSha3_512 E [(hashesSha3_512 E [k.raw]).drop 32, m]))
  have k3 := GC.encodeC_out h
  have k4 : ∀ l, (hashesSha3_512 E l).length = 64 := fun l => by rw [hashes_flatten]; exact Hash_length E _
  rw [a1] at k1
  rw [h1] at k2
  rw [he] at k3
  have k5 := GE.scalar_takes g _ _ k2
  have k6 := GC.encode_takes (Or.inr h2) _ k3
  have k7 := prepare_steps E k
  have ht : ∀ x y : Bytes, (Cost.lift (newSignature x y) >>= fun signature =>
      Cost.lift (if !isCanonicalSignature signature then .err "Generated signature is not canonical" else .ok signature)).steps = [] := by
    intro x y
    cases newSignature x y with
    | ok s => rw [bind_steps_lift]; rfl
    | err e => rfl
    | panic => rfl
  clear h1 h2 h3 he g4 a1 a2 a3
  rw [hk]
  unfold sha512C modQC
  generalize modQ = q, multiplyAndAddModQ = mq, GE.scalarMultiplyC = sc, GC.encodeC = en, prepareForScalarMultiplyC E (some k) = pr,
    hashesSha3_512 E = hs, sScalar = l2, sEncode = l3, isCanonicalSignature = ic at *
  as_aux_lemma =>
    exact sign_steps_aux k kp.pub m bp hs k4 q mq sc en pr _ _ _ _ g1 k2 k5 k3 k6 k8 k1 k7 ht

theorem sign_steps (k : PrivateKey) (pub : PublicKey) (m : Bytes) : (signC E ⟨some k, pub⟩ m).steps =
    .sha512 [k.raw.length] :: .sha512 [32, m.length] :: .modQ :: (sScalar ++ (sEncode ++ .sha512 [32, pub.raw.length, m.length] :: .modQ ::
      ([.sha512 [k.raw.length]] ++ [.mulAddModQ]))) := by
  obtain ⟨g, g1, g2, g3, g4, g5⟩ := basePoint_spec
  unfold signC
  split
  · next h => exact absurd h (by simp [KeyPair.hasPrivateKey])
  · exact sign_steps_aux2 E k ⟨some k, pub⟩ rfl m basePoint g1 g4

theorem sign_steps_nokey (pub : PublicKey) (m : Bytes) : (signC E ⟨none, pub⟩ m).steps = [] := rfl

/-! ## `GetSharedKey` -/

theorem fold_within {α : Type} (f : α → ℕ → Cost α) (s : List Step) (h : ∀ a i, Within (f a i) s) :
    ∀ (l : List ℕ) (a : α), Within (GE.foldC f a l) (List.replicate l.length s).flatten
  | [], _ => within_pure _ _
  | i :: l, a => by
    rw [GE.foldC, List.length_cons, List.replicate_succ, List.flatten_cons]
    exact Within.bind (h a i) fun h' _ => fold_within f s h l h'

theorem select_within (g : GE) (pos : ℕ) (b : Int64) : Within (g.selectC pos b) [.neg] := by
  unfold GE.selectC FE.negC
  exact Within.lift fun _ _ => Within.lift fun _ _ => Within.tick (within_lift _ _)

theorem scalarStep_within (g : GE) (e : Digits) (h : GC) (i : ℕ) : Within (GE.scalarStepC g e h i) sScalarStep := by
  unfold GE.scalarStepC
  exact Within.bind (select_within _ _ _) fun s _ => Within.bind (GC.precAdd_within _ _) fun h' hh => GC.toP3_within _

theorem times16_within (h : GC) : Within (GE.times16C h) sTimes16 := by
  unfold GE.times16C
  exact Within.bind (GC.dbl_within _) fun a _ => Within.bind (GC.toP2_within _) fun a _ => Within.bind (GC.dbl_within _) fun a _ =>
    Within.bind (GC.toP2_within _) fun a _ => Within.bind (GC.dbl_within _) fun a _ => Within.bind (GC.toP2_within _) fun a _ =>
    Within.bind (GC.dbl_within _) fun a _ => GC.toP3_within _

theorem scalar_within (g : GE) (a : Bytes) : Within (g.scalarMultiplyC a) sScalar := by
  unfold GE.scalarMultiplyC
  have e1 : ∀ f : ℕ → ℕ, ((List.range 32).map f).length = 32 := fun f => by rw [List.length_map, List.length_range]
  have k1 := fold_within _ _ (scalarStep_within g (toRadix16 a)) ((List.range 32).map fun k => 2 * k + 1) GC.zeroP3
  have k2 := fun h => fold_within _ _ (scalarStep_within g (toRadix16 a)) ((List.range 32).map fun k => 2 * k) h
  rw [e1] at k1
  refine Within.bind k1 fun h hh => Within.bind (times16_within h) fun h' _ => ?_
  have := k2 h'
  rwa [e1] at this

theorem xorSalt_length {salt : Bytes} : ∀ (l : List ℕ) (raw r : Bytes), l.foldlM (xorSaltStep salt) raw = .ok r → r.length = raw.length
  | [], raw, r, h => by rw [← Out.ok.inj h]
  | i :: l, raw, r, h => by
    rw [List.foldlM_cons] at h
    cases hx : xorSaltStep salt raw i with
    | ok s =>
      rw [hx, Out.ok_bind] at h
      rw [xorSalt_length l s r h]
      unfold xorSaltStep at hx
      cases h1 : Out.index raw i with
      | ok x =>
        rw [h1, Out.ok_bind] at hx
        cases h2 : Out.index salt i with
        | ok y => rw [h2, Out.ok_bind] at hx; rw [← Out.ok.inj hx, List.length_set]
        | err m => rw [h2] at hx; exact nomatch hx
        | panic => rw [h2] at hx; exact nomatch hx
      | err m => rw [h1] at hx; exact nomatch hx
      | panic => rw [h1] at hx; exact nomatch hx
    | err m => rw [hx] at h; exact nomatch h
    | panic => rw [hx] at h; exact nomatch h

/-- What the recipient's part of `GetSharedKey` starts from. -/
theorem decoded_repr {raw grA : Bytes} {A : GC} (h : newEncodedGroupElement raw = .ok grA) (hA : GC.decode grA = .ok A) :
    grA = raw ∧ A.sys = .p3 ∧ ∃ q, A.Repr q := by
  unfold newEncodedGroupElement at h
  split at h
  · exact nomatch h
  · next hl =>
    have e := Out.ok.inj h
    subst e
    have hl : raw.length = 32 ∨ raw.length = 64 := by omega
    rcases GC.decode_cases hl with ⟨q, hq⟩ | ⟨⟨m, hm⟩, -⟩
    · obtain ⟨g, g1, g2, g3, -⟩ := GC.decode_ok hl hq
      rw [g1] at hA
      rw [← Out.ok.inj hA]
      exact ⟨rfl, g2, q, g3⟩
    · rw [hm] at hA; exact nomatch hA

theorem shared_takes (kl : ℕ) (k : PrivateKey) (pub : PublicKey) (salt : Bytes) :
    Takes (getSharedKeyC E kl (some k) pub salt)
      ((GC.decodeC pub.raw).steps ++ (sSingle ++ ([.sha512 [k.raw.length]] ++ (sScalar ++ (sEncode ++ [.sha256 32]))))) := by
  unfold getSharedKeyC
  refine Takes.lift fun grA hgr => ?_
  have hd := GC.decodeC_out grA
  cases hA : GC.decode grA with
  | err m => rw [hA] at hd; exact takes_fail (by rw [bind_out, hd]; nofun)
  | panic => rw [hA] at hd; exact takes_fail (by rw [bind_out, hd]; nofun)
  | ok A =>
  rw [hA] at hd
  obtain ⟨e, hs, q, hq⟩ := decoded_repr hgr hA
  subst e
  refine Takes.bind (l := (GC.decodeC pub.raw).steps) (fun _ _ => rfl) fun A' hA' => ?_
  rw [hd] at hA'
  have e := Out.ok.inj hA'
  subst e
  obtain ⟨g', p1, p2, p3, p4⟩ := GE.precomputeSingle_spec (g := GE.ofGC A) hs hq rfl
  refine Takes.bind (GE.single_takes hs rfl) fun g hg => ?_
  rw [GE.precomputeSingleC_out, p1] at hg
  have e := Out.ok.inj hg
  subst e
  refine Takes.bind (fun _ _ => prepare_steps E k) fun a _ => Takes.bind (GE.scalar_takes _ _) fun h hh => ?_
  obtain ⟨h', h1, h2, h3⟩ := GE.scalarMultiply_digits p4 a
  rw [GE.scalarMultiplyC_out, h1] at hh
  have e := Out.ok.inj hh
  subst e
  refine Takes.bind (GC.encode_takes (Or.inr h2)) fun r hr => Takes.lift fun r' hr' => ?_
  rw [GC.encodeC_out, GC.encode_repr (Or.inr (Or.inl h2)) h3] at hr
  have hl := xorSalt_length _ _ _ hr'
  rw [← Out.ok.inj hr, encodePoint_length] at hl
  rw [hl]
  exact takes_tick _ _

def sShared (n : ℕ) : List Step := GC.sDecode ++ (sSingle ++ ([.sha512 [n]] ++ (sScalar ++ (sEncode ++ [.sha256 32]))))

theorem shared_within (kl n : ℕ) (priv : Option PrivateKey) (hn : ∀ k, priv = some k → k.raw.length = n) (pub : PublicKey) (salt : Bytes) :
    Within (getSharedKeyC E kl priv pub salt) (sShared n) := by
  unfold getSharedKeyC sShared
  refine Within.lift fun grA hgr => Within.bind (GC.decode_within _) fun A hA => ?_
  rw [GC.decodeC_out] at hA
  obtain ⟨e, hs, q, hq⟩ := decoded_repr hgr hA
  obtain ⟨g', p1, p2, p3, p4⟩ := GE.precomputeSingle_spec (g := GE.ofGC A) hs hq rfl
  refine Within.bind (GE.single_within _) fun g hg => ?_
  rw [GE.precomputeSingleC_out, p1] at hg
  have e := Out.ok.inj hg
  subst e
  refine Within.bind ?_ fun a _ => Within.bind (scalar_within _ _) fun h hh => ?_
  · cases priv with
    | none => exact fun w => Nat.zero_le _
    | some k => intro w; rw [prepare_steps, hn k rfl]
  obtain ⟨h', h1, h2, h3⟩ := GE.scalarMultiply_digits p4 a
  rw [GE.scalarMultiplyC_out, h1] at hh
  have e := Out.ok.inj hh
  subst e
  have he := GC.encodeC_out h'
  rw [GC.encode_repr (Or.inr (Or.inl h2)) h3] at he
  refine Within.bind ((GC.encode_takes (Or.inr h2)).within he) fun r hr => Within.lift fun r' hr' => ?_
  have hl := xorSalt_length _ _ _ hr'
  rw [he] at hr
  rw [← Out.ok.inj hr, encodePoint_length] at hl
  rw [hl]
  exact within_tick _ _

theorem price_sShared (w : Step → ℕ) (n : ℕ) : price w (sShared n) = w (.sha512 [n]) + w (.sha256 32) + 3082 * w .add + 2510 * w .sub + 65 * w .neg +
    9456 * w .mul + 66831 * w .sq + 4 * w .sqd + 5 * w .enc + 2 * w .dec := by
  unfold sShared
  simp only [price_append, price_cons, price_nil, GC.price_sDecode, price_sSingle, price_sScalar, price_sEncode]
  ring

/-! ## `Verify` -/

def sVerify (a b c : ℕ) : List Step := .sha512 [a, b, c] :: .modQ :: (GC.sDecode ++ (sDouble ++ (GE.sLoop ++ sEncode)))

theorem price_sVerify (w : Step → ℕ) (a b c : ℕ) : price w (sVerify a b c) = w (.sha512 [a, b, c]) + w .modQ + 1018 * w .add + 1154 * w .sub + w .neg +
    1811 * w .mul + 3355 * w .sq + 256 * w .sqd + 5 * w .enc + 2 * w .dec := by
  unfold sVerify
  simp only [price_append, price_cons, GC.price_sDecode, price_sDouble, GE.price_sLoop, price_sEncode]
  ring

theorem verifyEquation_within_aux (pub : PublicKey) (m : Bytes) (sig : Signature) (bp : Out GE) :
    Within (do
      let hashR ← sha512C E [sig.R, pub.raw, m]
      let h ← Cost.lift (newEncodedFieldElement hashR)
      let hModQ ← modQC h
      let A ← GC.decodeC pub.raw
      let A ← (GE.ofGC A).precomputeForDoubleScalarMultiplicationC
      let b ← Cost.lift bp
      Cost.lift (checkSlide hModQ)
      Cost.lift (checkSlide sig.S)
      let calculatedR ← b.doubleScalarMultiplyVariableTimeC A hModQ sig.S
      let encodedCalculatedR ← calculatedR.encodeC
      (pure (isEqualConstantTime encodedCalculatedR sig.R) : Cost Bool)) (sVerify sig.R.length pub.raw.length m.length) := by
  have hd := GC.decode_within pub.raw
  have hp := GE.double_within
  have hs := GE.doubleScalar_within
  have he : ∀ (g A : GE) (a b : Bytes) (h : GC), (g.doubleScalarMultiplyVariableTimeC A a b).out = .ok h → Within h.encodeC sEncode := by
    intro g A a b h hh
    rw [GE.doubleScalarC_out] at hh
    have hs := GE.doubleScalar_sys hh
    have ho : h.encodeC.out = .ok h.encodeP := by rw [GC.encodeC_out]; unfold GC.encode; rw [hs]
    exact (GC.encode_takes (Or.inl hs)).within ho
  unfold sha512C modQC sVerify
  generalize GC.decodeC pub.raw = d, GE.precomputeForDoubleScalarMultiplicationC = p, GE.doubleScalarMultiplyVariableTimeC = ds,
      GC.encodeC = en, modQ = q, GC.sDecode = l1, sDouble = l2, GE.sLoop = l3, sEncode = l4 at *
  as_aux_lemma =>
    refine Within.tick (Within.lift fun h _ => Within.tick (Within.bind hd fun A _ => Within.bind (hp _) fun A _ => Within.lift fun b _ =>
      Within.lift fun _ _ => Within.lift fun _ _ => Within.bind (hs _ _ _ _) fun R hR => Within.bind' (he _ _ _ _ _ hR) fun _ => within_pure _ _))

theorem verify_within (pub : PublicKey) (m : Bytes) (sig : Signature) :
    Within (verifyC E pub m sig) (sVerify sig.R.length pub.raw.length m.length) := by
  have h : Within (verifyEquationC E pub m sig) (sVerify sig.R.length pub.raw.length m.length) := verifyEquation_within_aux E pub m sig basePoint
  unfold verifyC
  generalize verifyEquationC E pub m sig = x at *
  split
  · exact within_pure _ _
  · split
    · exact within_pure _ _
    · exact h.mapOut

/-! ## `Decrypt` -/

theorem chunks_count : ∀ (n : ℕ) (b : Bytes), b.length ≤ 16 * n → (chunks16 b).length ≤ n
  | 0, b, h => by
    have : b = [] := List.eq_nil_of_length_eq_zero (by omega)
    subst this; rw [chunks16]; simp
  | n + 1, b, h => by
    by_cases h0 : b.length = 0
    · have : b = [] := List.eq_nil_of_length_eq_zero h0
      subst this; rw [chunks16]; simp
    · rw [chunks16_cons h0, List.length_cons]
      have := chunks_count n (b.drop 16) (by rw [List.length_drop]; omega)
      omega

theorem decrypt_within (c : BlockCipher) (b : Bytes) (n : ℕ) (hn : ∀ k, c.recipient.priv = some k → k.raw.length = n) :
    Within (c.decryptC E b) (sShared n ++ List.replicate (b.length / 16 - 3) .aes) := by
  unfold BlockCipher.decryptC
  split
  · exact within_lift _ _
  · split
    · exact within_lift _ _
    · refine Within.bind (shared_within E _ n _ hn _ _) fun sk _ => ?_
      unfold decodeC
      refine Within.lift fun _ _ => Within.lift fun _ hc => ?_
      have hm : (b.drop 48).length % 16 = 0 := by
        unfold cbcChecks at hc
        split at hc
        · exact nomatch hc
        · split at hc
          · exact nomatch hc
          · omega
      refine Within.bind' ?_ fun _ => within_lift _ _
      intro w
      rw [price_replicate, price_replicate]
      rw [List.length_drop] at hm
      refine Nat.mul_le_mul_right _ (chunks_count _ _ ?_)
      rw [List.length_drop]
      omega

/-! ## `Encrypt` -/

theorem encode_takes (m key iv : Bytes) : Takes (encodeC E m key iv) (List.replicate (m.length / 16 + 1) .aes) := by
  unfold encodeC
  refine Takes.lift fun _ _ => Takes.lift fun _ _ => fun _ _ => ?_
  dsimp only
  rw [(chunks16_spec _ _ (padMessage_length m)).2.1]

theorem encode_within (m key iv : Bytes) : Within (encodeC E m key iv) (List.replicate (m.length / 16 + 1) .aes) := by
  unfold encodeC
  refine Within.lift fun _ _ => Within.lift fun _ _ => fun w => le_of_eq ?_
  dsimp only
  rw [(chunks16_spec _ _ (padMessage_length m)).2.1]

theorem encrypt_within (c : BlockCipher) (m : Bytes) (s : World) (n : ℕ) (hn : ∀ k, c.sender.priv = some k → k.raw.length = n) :
    Within (c.encryptC E m s) (sShared n ++ List.replicate (m.length / 16 + 1) .aes) := by
  unfold BlockCipher.encryptC
  exact Within.lift fun salt _ => Within.bind (shared_within E _ n _ hn _ _) fun sk _ => Within.lift fun iv _ =>
    Within.bind' (encode_within E _ _ _) fun _ => within_pure _ _

theorem encrypt_takes (c : BlockCipher) (m : Bytes) (s : World) (k : PrivateKey) (hk : c.sender.priv = some k) :
    Takes (c.encryptC E m s) (((GC.decodeC c.recipient.pub.raw).steps ++ (sSingle ++ ([.sha512 [k.raw.length]] ++ (sScalar ++ (sEncode ++ [.sha256 32]))))) ++
      List.replicate (m.length / 16 + 1) .aes) := by
  unfold BlockCipher.encryptC
  rw [hk]
  exact Takes.lift fun salt _ => Takes.bind (shared_takes E _ _ _ _) fun sk _ => Takes.lift fun iv _ =>
    Takes.bind' (encode_takes E _ _ _) fun _ => takes_pure _

theorem decrypt_takes (c : BlockCipher) (b : Bytes) (k : PrivateKey) (hk : c.recipient.priv = some k) :
    Takes (c.decryptC E b) (((GC.decodeC c.sender.pub.raw).steps ++ (sSingle ++ ([.sha512 [k.raw.length]] ++ (sScalar ++ (sEncode ++ [.sha256 32]))))) ++
      List.replicate (b.length / 16 - 3) .aes) := by
  unfold BlockCipher.decryptC
  split
  · exact takes_fail fun a => nofun
  · split
    · exact takes_fail fun a => nofun
    · rw [hk]
      refine Takes.bind (shared_takes E _ _ _ _) fun sk _ => ?_
      unfold decodeC
      refine Takes.lift fun _ _ => Takes.lift fun _ hc => ?_
      have hm : (b.drop 48).length % 16 = 0 := by
        unfold cbcChecks at hc
        split at hc
        · exact nomatch hc
        · split at hc
          · exact nomatch hc
          · omega
      refine Takes.bind' (fun _ _ => ?_) fun _ => takes_lift _
      dsimp only
      rw [(chunks16_spec ((b.drop 48).length / 16) _ (by omega)).2.1]
      rw [List.length_drop] at hm ⊢
      congr 1
      omega

/-- The steps of `Decrypt` do not depend on the plaintext or on whether the padding is right. -/
theorem decrypt_steps (c : BlockCipher) (b : Bytes) (k : PrivateKey) (hk : c.recipient.priv = some k) (sk : Bytes) (hc : c.keyLength = 32)
    (hb : 64 ≤ b.length) (hb' : b.length % 16 = 0) (hs : getSharedKey E c.keyLength (some k) c.sender.pub (b.take c.keyLength) = .ok sk) :
    (c.decryptC E b).steps = ((GC.decodeC c.sender.pub.raw).steps ++ (sSingle ++ ([.sha512 [k.raw.length]] ++ (sScalar ++ (sEncode ++ [.sha256 32]))))) ++
      List.replicate (b.length / 16 - 3) .aes := by
  have h1 := getSharedKeyC_out E c.keyLength (some k) c.sender.pub (b.take c.keyLength)
  rw [hs] at h1
  have hl : sk.length = 32 := by
    obtain ⟨x, hx⟩ : ∃ x, sk = hashesSha3_256 E x := by
      unfold getSharedKey at hs
      rcases bind_eq_ok hs with ⟨_, -, hs⟩
      rcases bind_eq_ok hs with ⟨_, -, hs⟩
      rcases bind_eq_ok hs with ⟨_, -, hs⟩
      rcases bind_eq_ok hs with ⟨_, -, hs⟩
      rcases bind_eq_ok hs with ⟨_, -, hs⟩
      rcases bind_eq_ok hs with ⟨_, -, hs⟩
      rcases bind_eq_ok hs with ⟨x, -, hs⟩
      exact ⟨x, (Out.ok.inj hs).symm⟩
    rw [hx]; exact sha256_length E x
  unfold BlockCipher.decryptC
  rw [if_neg (by omega), if_neg (by omega), hk]
  dsimp only
  rw [bind_steps h1, shared_takes E _ _ _ _ _ h1]
  congr 1
  unfold decodeC
  have e1 : aesNewCipher sk = .ok () := aesNewCipher_32 hl
  have e2 : cbcChecks ((b.take 48).drop c.keyLength) (b.drop 48) = .ok () := by
    refine cbcChecks_ok ?_ ?_
    · rw [List.length_drop, List.length_take]; omega
    · rw [List.length_drop]; omega
  rw [e1, bind_steps_lift, e2, bind_steps_lift]
  rw [bind_steps (a := (cbcDecBlocks E sk ((b.take 48).drop c.keyLength) (chunks16 (b.drop 48))).flatten) rfl]
  dsimp only
  rw [(chunks16_spec ((b.drop 48).length / 16) _ (by rw [List.length_drop]; omega)).2.1, List.length_drop]
  refine Eq.trans (List.append_nil _) ?_
  congr 1
  omega

end Ed

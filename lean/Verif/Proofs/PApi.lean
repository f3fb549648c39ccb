import Verif.Proofs.PTables
import Verif.Proofs.Solo
import Verif.Proofs.Keys
import Verif.Spec.Calls

/-!
# The API as goroutines computes what the API computes without concurrency
-/

set_option autoImplicit false

namespace Ed
namespace PG
open Prog

attribute [local irreducible] PG.doubleScalarMultiplyVariableTime PG.scalarMultiply

section
variable {g : Nat} {h : PHeap} {α β : Type}

/-- The program computes the outcome `v` and only allocates. -/
def RefV (g : Nat) (h : PHeap) (p : Prog α) (v : Out α) : Prop := wp g h p fun r h' => Fr g Nothing h h' ∧ r = v

theorem RefV.bind {p : Prog α} {v : Out α} {f : α → Prog β} {fv : α → Out β} (hp : RefV g h p v)
    (hf : ∀ x h', Fr g Nothing h h' → RefV g h' (f x) (fv x)) : RefV g h (p.bind f) (v >>= fv) := by
  refine wp_seq hp fun r h' ⟨h1, h2⟩ => ?_
  subst h2
  cases r with
  | err m => exact ⟨h1, rfl⟩
  | panic => exact ⟨h1, rfl⟩
  | ok x => exact wp_mono (hf x h' h1) fun _ _ k => ⟨h1.comp k.1, k.2⟩

theorem Ref.bindV {p : Prog Addr} {v : Out GC} {f : Addr → Prog β} {fv : GC → Out β} (hp : Ref g h p v)
    (hf : ∀ a x h', Fr g Nothing h h' → ShowsGC g h' a x → RefV g h' (f a) (fv x)) : RefV g h (p.bind f) (v >>= fv) := by
  refine wp_seq hp fun r h' ⟨h1, h2⟩ => ?_
  cases v with
  | err m => cases (show r = _ from h2); exact ⟨h1, rfl⟩
  | panic => cases (show r = _ from h2); exact ⟨h1, rfl⟩
  | ok x =>
    obtain ⟨a, rfl, h3⟩ := h2
    exact wp_mono (hf a x h' h1 h3) fun _ _ k => ⟨h1.comp k.1, k.2⟩

theorem RefV.lift (v : Out α) : RefV g h (Prog.lift v) v := ⟨Fr.refl _ _ _, rfl⟩

theorem RefV.ok (v : α) : RefV g h (.ret (.ok v)) (.ok v) := ⟨Fr.refl _ _ _, rfl⟩

theorem liftOk {a : α} {r : Out α} {f : α → Prog β} {v : Out β} (hr : r = .ok a) (hf : RefV g h (f a) v) :
    RefV g h ((Prog.lift r).bind f) v := wp_lift_ok hr hf

theorem RefV.mapOut {p : Prog α} {v : Out α} (u : Out α → Out β) (hp : RefV g h p v) : RefV g h (p.mapOut u) (u v) :=
  wp_mapOut (wp_mono hp fun _ _ k => ⟨k.1, by rw [k.2]⟩)

theorem Ref.orPanic {p : Prog Addr} {v : Out GC} (hp : Ref g h p v) : Ref g h (p.mapOut Out.orPanic) v.orPanic := by
  refine wp_mapOut (wp_mono hp fun r h' k => ⟨k.1, ?_⟩)
  have := k.2
  cases v with
  | ok x => obtain ⟨a, rfl, k1⟩ := this; exact ⟨a, rfl, k1⟩
  | err m => cases (show r = _ from this); rfl
  | panic => cases (show r = _ from this); rfl

/-- The argument array `a` has the content `b`. -/
def ShowsB (g : Nat) (h : PHeap) (a : Addr) (b : Bytes) : Prop := Own g a ∧ h.get a = some (.bytes b)

theorem ShowsB.grow {h' : PHeap} {a : Addr} {b : Bytes} (s : ShowsB g h a b) (f : Fr g Nothing h h') : ShowsB g h' a b := ⟨s.1, f.grow s.2⟩

theorem loadBytes_bind {a : Addr} {b : Bytes} {f : Bytes → Prog β} {v : Out β} (hs : ShowsB g h a b) (hf : RefV g h (f b) v) :
    RefV g h ((loadBytes a).bind f) v := wp_loadBytes hs.1 hs.2 hf

/-- The possibly nil key array `a`. -/
def ShowsK (g : Nat) (h : PHeap) : Option Addr → Option PrivateKey → Prop
  | none, none => True
  | some a, some k => ShowsB g h a k.raw
  | _, _ => False

theorem ShowsK.grow {h' : PHeap} {a : Option Addr} {k : Option PrivateKey} (s : ShowsK g h a k) (f : Fr g Nothing h h') : ShowsK g h' a k := by
  cases a <;> cases k
  · trivial
  · exact s
  · exact s
  · exact ShowsB.grow s f

variable (E : Env)

theorem prepare_refV {a : Option Addr} {k : Option PrivateKey} (hs : ShowsK g h a k) :
    RefV g h (prepareForScalarMultiply E a) (Ed.prepareForScalarMultiply E k) := by
  unfold prepareForScalarMultiply Ed.prepareForScalarMultiply
  simp only [Prog.bind_eq]
  cases a <;> cases k
  · exact ⟨Fr.refl _ _ _, rfl⟩
  · exact hs.elim
  · exact hs.elim
  · exact loadBytes_bind hs (RefV.ok _)

theorem IsBase.grow {h' : PHeap} {bp : Addr} (s : IsBase g h bp) (f : Fr g Nothing h h') : IsBase g h' bp := by
  obtain ⟨v, h1, h2⟩ := s
  exact ⟨v, h1, h2.grow f⟩

theorem wp_basePoint {bp : Addr} (hb : IsBase g h bp) {f : Addr → Prog β} {fv : GE → Out β}
    (hf : ∀ b x h', Fr g Nothing h h' → ShowsGE g h' b x → RefV g h' (f b) (fv x)) : RefV g h ((basePoint bp).bind f) (Ed.basePoint >>= fv) := by
  obtain ⟨v, h1, h2⟩ := hb
  obtain ⟨v', h1', -, -, -, h3, -⟩ := getBasePoint_spec
  rw [h1] at h1'
  cases h1'
  have hv : Ed.basePoint = .ok v.copy := by unfold Ed.basePoint; rw [h1]; rfl
  rw [hv, Out.ok_bind]
  refine wp_copyGE h2 (fun r hr => ?_) fun b h' f1 b1 b2 => wp_mono (hf b _ h' f1 b2) fun _ _ k => ⟨f1.comp k.1, k.2⟩
  obtain ⟨t, t1, t2, t3⟩ := h3
  rw [t1] at hr
  have hr : r ∈ t := hr
  obtain ⟨i, hi, rfl⟩ := List.getElem_of_mem hr
  obtain ⟨row, r1, r2, -⟩ := t3 i (by rw [← t2]; exact hi)
  rw [List.getElem?_eq_getElem hi] at r1
  cases r1; exact r2

variable {E}

theorem derive_refV {bp : Addr} (hb : IsBase g h bp) {a : Option Addr} {k : Option PrivateKey} (hs : ShowsK g h a k) :
    RefV g h (derivePublicKey E bp a) (Ed.derivePublicKey E k) := by
  unfold derivePublicKey Ed.derivePublicKey
  simp only [Prog.bind_eq]
  refine RefV.bind (prepare_refV E hs) fun s h1 f1 => ?_
  refine wp_basePoint (hb.grow f1) fun b v h2 f2 k2 => ?_
  refine Ref.bindV (scalarMultiply_ref k2 s).orPanic fun p x h3 f3 k3 => ?_
  refine RefV.bind (RefV.mapOut Out.orPanic (encode_ref k3)) fun el h4 f4 => ?_
  exact RefV.ok _

theorem sign_refV {bp : Addr} (hb : IsBase g h bp) {a : Option Addr} {kp : KeyPair} {pub mess : Addr} {m : Bytes} (hs : ShowsK g h a kp.priv)
    (hp : ShowsB g h pub kp.pub.raw) (hm : ShowsB g h mess m) : RefV g h (sign E bp a pub mess) (Ed.sign E kp m) := by
  unfold sign Ed.sign KeyPair.hasPrivateKey
  simp only [Prog.bind_eq]
  cases a with
  | none =>
    cases hk : kp.priv with
    | some k => rw [hk] at hs; exact hs.elim
    | none => exact ⟨Fr.refl _ _ _, rfl⟩
  | some a =>
    cases hk : kp.priv with
    | none => rw [hk] at hs; exact hs.elim
    | some k =>
      rw [hk] at hs
      rw [if_neg (by simp), if_neg (by simp)]
      refine liftOk (a := a) rfl ?_
      rw [show Out.deref (some k) = .ok k from rfl, Out.ok_bind]
      refine loadBytes_bind hs ?_
      refine loadBytes_bind hm ?_
      refine RefV.bind (RefV.lift _) fun r h1 f1 => ?_
      refine wp_basePoint (hb.grow f1) fun b v h2 f2 k2 => ?_
      refine Ref.bindV (scalarMultiply_ref k2 _) fun R x h3 f3 k3 => ?_
      have f13 := (f1.comp f2).comp f3
      refine RefV.bind (encode_ref k3) fun encR h4 f4 => ?_
      have f14 := f13.comp f4
      refine loadBytes_bind (hp.grow f14) ?_
      refine loadBytes_bind (hm.grow f14) ?_
      refine RefV.bind (RefV.lift _) fun hh h5 f5 => ?_
      have hs5 : ShowsK g h5 (some a) (some k) := (show ShowsK g h (some a) (some k) from hs).grow (f14.comp f5)
      refine RefV.bind (prepare_refV E hs5) fun s h6 f6 => ?_
      refine RefV.bind (RefV.lift _) fun sg h7 f7 => ?_
      split
      · exact RefV.lift _
      · exact RefV.ok _

/-- Decoding a point and building a table of the new element. -/
theorem wp_decodePre {raw : Bytes} {pre : Addr → Prog Unit} {preV : GE → Out GE} {f : Addr → Prog β} {fv : GE → Out β}
    (hpre : ∀ (h' : PHeap) (a : Addr) (v : GC), a.region = g → ShowsGE g h' a (GE.ofGC v) →
      wp g h' (pre a) fun r h'' => Fr g (fun x => x = a) h' h'' ∧ Mt (fun _ v' => ShowsGE g h'' a v') r (preV (GE.ofGC v)))
    (hf : ∀ a x h', Fr g Nothing h h' → ShowsGE g h' a x → RefV g h' (f a) (fv x)) :
    RefV g h ((PG.decode raw).bind fun a => (pre a).bind fun _ => f a) (GC.decode raw >>= fun A => preV (GE.ofGC A) >>= fv) := by
  unfold PG.decode
  simp only [Prog.bind_eq]
  refine wp_bind ?_
  cases hd : GC.decode raw with
  | err m => exact ⟨Fr.refl _ _ _, rfl⟩
  | panic => exact ⟨Fr.refl _ _ _, rfl⟩
  | ok v =>
    refine wp_lift_ok rfl ?_
    rw [Out.ok_bind]
    have e : PG.newGC v = (PG.newGC v).bind fun a => ret (.ok a) := by
      unfold PG.newGC
      cases v.T <;> rfl
    rw [e]
    refine wp_newGC fun a h1 f1 a1 a2 a3 a4 => ?_
    show wp g h1 ((pre a).bind fun _ => f a) _
    refine wp_seq (hpre h1 a v a1 (a3.plain a4)) fun r h2 ⟨f2, k2⟩ => ?_
    have f12 : Fr g Nothing h h2 := f1.trans f2 (fun _ _ => id) fun x hx e => by subst e; exact hx a2
    cases hv : preV (GE.ofGC v) with
    | err m => rw [hv] at k2; cases (show r = _ from k2); exact ⟨f12, rfl⟩
    | panic => rw [hv] at k2; cases (show r = _ from k2); exact ⟨f12, rfl⟩
    | ok v' =>
      rw [hv] at k2
      obtain ⟨_, rfl, k3⟩ := k2
      exact wp_mono (hf a v' h2 f12 k3) fun _ _ k => ⟨f12.comp k.1, k.2⟩

theorem obind_assoc {α β γ : Type} (x : Out α) (f : α → Out β) (k : β → Out γ) : ((x >>= f) >>= k) = (x >>= fun a => f a >>= k) := by
  cases x <;> rfl

theorem ite_obind {α β : Type} (c d : Prop) [Decidable c] [Decidable d] (e a b : Out α) (k : α → Out β) :
    (if c then if d then e >>= k else a >>= k else b >>= k) = ((if c then if d then e else a else b) >>= k) := by
  by_cases hc : c
  · rw [if_pos hc, if_pos hc]
    by_cases hd : d
    · rw [if_pos hd, if_pos hd]
    · rw [if_neg hd, if_neg hd]
  · rw [if_neg hc, if_neg hc]

attribute [local irreducible] FE.multiply FE.square FE.sqrt FE.subtract FE.add FE.isNonZero FE.isNegative FE.negate GC.getAffineY getBitToBool in
theorem getAffineX_parts (raw : Bytes) : GC.getAffineX raw = (affineRoot raw >>= fun x => .ok (withSign x raw)) := by
  have h : GC.getAffineX raw = (affineRoot raw >>= fun x => if x.isNegative != getBitToBool raw 255 then .ok x.negate else .ok x) := by
    unfold GC.getAffineX affineRoot
    rw [obind_assoc]
    congr 1
    funext y
    exact ite_obind ..
  rw [h]
  congr 1
  funext x
  unfold withSign
  exact (apply_ite Out.ok _ _ _).symm

theorem decode_parts (raw : Bytes) : PG.decode raw = (lift (affineRoot raw)).bind fun x => (lift (GC.getAffineY raw)).bind fun y =>
    newGC (GC.newP3 (withSign x raw) y .one (some ((withSign x raw).multiply y))) := by
  unfold PG.decode GC.decode
  simp only [Prog.bind_eq]
  rw [getAffineX_parts]
  cases affineRoot raw with
  | err m => rfl
  | panic => rfl
  | ok x =>
    simp only [Out.ok_bind]
    cases GC.getAffineY raw <;> rfl

/-- `Decode` of an array that does not change is `Decode` of its bytes. -/
theorem wp_decodeAt {a : Addr} {A : Bytes} (hs : ShowsB g h a A) {f : Addr → Prog β} {Q : Out β → PHeap → Prop}
    (hq : wp g h ((PG.decode A).bind f) Q) : wp g h ((decodeAt a).bind f) Q := by
  unfold decodeAt
  simp only [Prog.bind_eq, bind_bind]
  refine wp_loadBytes hs.1 hs.2 ?_
  rw [decode_parts, bind_bind] at hq
  cases hx : affineRoot A with
  | err m => rw [hx] at hq; exact hq
  | panic => rw [hx] at hq; exact hq
  | ok x =>
    rw [hx] at hq
    refine wp_lift_ok rfl ?_
    refine wp_loadBytes hs.1 hs.2 ?_
    refine wp_loadBytes hs.1 hs.2 ?_
    have hq : wp g h (((lift (GC.getAffineY A)).bind fun y =>
      newGC (GC.newP3 (withSign x A) y .one (some ((withSign x A).multiply y)))).bind f) Q := hq
    rw [bind_bind] at hq
    exact hq

theorem verifyEquation_refV {bp : Addr} (hb : IsBase g h bp) {pub mess sigR sigS : Addr} {p m r s : Bytes} (hp : ShowsB g h pub p)
    (hm : ShowsB g h mess m) (hr : ShowsB g h sigR r) (hs : ShowsB g h sigS s) :
    RefV g h (verifyEquation E bp pub mess sigR sigS) (Ed.verifyEquation E ⟨p⟩ m ⟨r, s⟩) := by
  unfold verifyEquation Ed.verifyEquation
  simp only [Prog.bind_eq]
  refine loadBytes_bind hr (loadBytes_bind hp (loadBytes_bind hm ?_))
  refine RefV.bind (RefV.lift _) fun hh h1 f1 => ?_
  refine wp_decodeAt (hp.grow f1) ?_
  refine wp_decodePre (pre := precomputeDouble) (preV := GE.precomputeForDoubleScalarMultiplication) ?_ fun A vA h2 f2 k2 => ?_
  · intro h' a v ha hs
    exact precomputeDouble_wp ha hs (by rintro r ⟨⟩)
  have f12 := f1.comp f2
  refine wp_basePoint (hb.grow f12) fun b v h3 f3 k3 => ?_
  refine RefV.bind (RefV.lift _) fun _ h4 f4 => ?_
  have f14 := (f12.comp f3).comp f4
  refine loadBytes_bind (hs.grow f14) ?_
  refine RefV.bind (RefV.lift _) fun _ h5 f5 => ?_
  have k3' := k3.grow (f4.comp f5)
  have k2' := k2.grow ((f3.comp f4).comp f5)
  have key : Ref g h5 (PG.doubleScalarMultiplyVariableTime b A (modQ hh) s) (v.doubleScalarMultiplyVariableTime vA (modQ hh) s) :=
    @doubleScalar_ref g h5 b A v vA k3' k2' (modQ hh) s
  refine Ref.bindV key fun R x h6 f6 k6 => ?_
  refine RefV.bind (encode_ref k6) fun enc h7 f7 => ?_
  refine loadBytes_bind (hr.grow (((f14.comp f5).comp f6).comp f7)) ?_
  exact RefV.ok _

theorem verify_refV {bp : Addr} (hb : IsBase g h bp) {pub mess sigR sigS : Addr} {p m r s : Bytes} (hp : ShowsB g h pub p)
    (hm : ShowsB g h mess m) (hr : ShowsB g h sigR r) (hs : ShowsB g h sigS s) :
    RefV g h (verify E bp pub mess sigR sigS) (Ed.verify E ⟨p⟩ m ⟨r, s⟩) := by
  unfold verify Ed.verify
  simp only [Prog.bind_eq]
  refine loadBytes_bind hs ?_
  have hc : isCanonicalSignature ⟨[], s⟩ = isCanonicalSignature ⟨r, s⟩ := rfl
  rw [hc]
  split
  · exact RefV.ok _
  · refine loadBytes_bind hp ?_
    split
    · exact RefV.ok _
    · exact RefV.mapOut _ (verifyEquation_refV hb hp hm hr hs)

theorem canonical_refV {sigR sigS : Addr} {r s : Bytes} (hr : ShowsB g h sigR r) (hs : ShowsB g h sigS s) :
    RefV g h (makeSignatureCanonical sigR sigS) (Ed.makeSignatureCanonical ⟨r, s⟩) := by
  unfold makeSignatureCanonical Ed.makeSignatureCanonical
  simp only [Prog.bind_eq]
  refine loadBytes_bind hs ?_
  refine RefV.bind (RefV.lift _) fun e h1 f1 => ?_
  exact loadBytes_bind (hr.grow f1) (RefV.lift _)

theorem getSharedKey_refV {n : Nat} {a : Option Addr} {k : Option PrivateKey} {pub : Addr} {p salt : Bytes} {rs : Prog Bytes}
    (hs : ShowsK g h a k) (hp : ShowsB g h pub p) (hr : ∀ h', Fr g Nothing h h' → RefV g h' rs (.ok salt)) :
    RefV g h (getSharedKey E n a pub rs) (Ed.getSharedKey E n k ⟨p⟩ salt) := by
  unfold getSharedKey Ed.getSharedKey
  simp only [Prog.bind_eq]
  refine loadBytes_bind hp ?_
  by_cases hl : p.length = 32
  swap
  · unfold newEncodedGroupElement
    rw [if_pos (Ne.symm hl)]
    exact RefV.lift _
  have he : newEncodedGroupElement p = .ok p := by
    unfold newEncodedGroupElement
    rw [if_neg (by rw [hl]; simp)]
  rw [he, Out.ok_bind]
  refine liftOk rfl ?_
  refine wp_decodeAt hp ?_
  refine wp_decodePre (pre := precomputeSingle) (preV := GE.precomputeForScalarMultiplication) ?_ fun A vA h2 f2 k2 => ?_
  · intro h' a v ha hs
    exact precomputeSingle_wp ha hs
  refine RefV.bind (prepare_refV E (hs.grow f2)) fun s h3 f3 => ?_
  refine Ref.bindV (scalarMultiply_ref (k2.grow f3) s) fun el x h4 f4 k4 => ?_
  refine RefV.bind (encode_ref k4) fun sk h5 f5 => ?_
  have key := RefV.bind (hr h5 (((f2.comp f3).comp f4).comp f5)) (f := fun salt =>
    (lift ((List.range n).foldlM (xorSaltStep salt) sk)).bind fun sk' => .ret (.ok (hashesSha3_256 E sk')))
    (fv := fun salt => (List.range n).foldlM (xorSaltStep salt) sk >>= fun sk' => .ok (hashesSha3_256 E sk')) fun salt h6 f6 =>
      RefV.bind (RefV.lift _) fun sk' h7 f7 => RefV.ok _
  exact key

theorem decrypt_refV {c : BlockCipher} {a : Option Addr} {pub input : Addr} {i : Bytes} (hs : ShowsK g h a c.recipient.priv)
    (hp : ShowsB g h pub c.sender.pub.raw) (hi : ShowsB g h input i) :
    RefV g h (decrypt E c.keyLength a pub input) (c.decrypt E i) := by
  unfold decrypt BlockCipher.decrypt
  simp only [Prog.bind_eq]
  refine loadBytes_bind hi ?_
  split
  · exact RefV.lift _
  · split
    · exact RefV.lift _
    · refine RefV.bind (getSharedKey_refV hs hp fun h' f => loadBytes_bind (hi.grow f) (RefV.ok _)) fun sk h1 f1 => ?_
      exact loadBytes_bind (hi.grow f1) (loadBytes_bind (hi.grow f1) (RefV.lift _))

/-! ## Readers -/

/-- One round of `io.ReadAtLeast`. -/
theorem readLoop_once (r : Reader) (n : Nat) :
    (n + 1 ≤ (readOnce r (n + 1)).1.1.length →
      (Ed.readLoop r (n + 1)).1 = (readOnce r (n + 1)).1.1 ∧ (Ed.readLoop r (n + 1)).2.2 = (readOnce r (n + 1)).2) ∧
    (¬ n + 1 ≤ (readOnce r (n + 1)).1.1.length → ∀ x, (readOnce r (n + 1)).1.2 = some x →
      Ed.readLoop r (n + 1) = ((readOnce r (n + 1)).1.1, some x, (readOnce r (n + 1)).2)) ∧
    (¬ n + 1 ≤ (readOnce r (n + 1)).1.1.length → (readOnce r (n + 1)).1.2 = none →
      Ed.readLoop r (n + 1) =
        ((readOnce r (n + 1)).1.1 ++ (Ed.readLoop (readOnce r (n + 1)).2 (n + 1 - (readOnce r (n + 1)).1.1.length)).1,
         (Ed.readLoop (readOnce r (n + 1)).2 (n + 1 - (readOnce r (n + 1)).1.1.length)).2)) := by
  induction r with
  | nil => simp [readOnce, Ed.readLoop]
  | cons e r ih =>
    by_cases hl : n + 1 < e.data.length
    · have hr : readOnce (e :: r) (n + 1) = ((e.data.take (n + 1), none), ⟨e.data.drop (n + 1), e.err⟩ :: r) := by
        unfold readOnce; rw [if_pos hl]
      have hr' : Ed.readLoop (e :: r) (n + 1) = (e.data.take (n + 1), none, ⟨e.data.drop (n + 1), e.err⟩ :: r) := by
        unfold Ed.readLoop; rw [if_pos hl]
      have hlen : (e.data.take (n + 1)).length = n + 1 := by rw [List.length_take]; omega
      rw [hr, hr']
      refine ⟨fun _ => ⟨rfl, rfl⟩, fun h => ?_, fun h => ?_⟩
      · exact absurd (Nat.le_of_eq hlen.symm) h
      · exact absurd (Nat.le_of_eq hlen.symm) h
    · by_cases he : e.data = [] ∧ e.err = none
      · have hr : readOnce (e :: r) (n + 1) = readOnce r (n + 1) := by
          conv_lhs => unfold readOnce
          rw [if_neg hl, if_pos he]
        have hr' : Ed.readLoop (e :: r) (n + 1) = Ed.readLoop r (n + 1) := by
          conv_lhs => unfold Ed.readLoop
          rw [if_neg hl, he.2, he.1]
          simp
        rw [hr, hr']; exact ih
      · have hr : readOnce (e :: r) (n + 1) = ((e.data, e.err), r) := by
          unfold readOnce; rw [if_neg hl, if_neg he]
        rw [hr]
        cases hx : e.err with
        | some x =>
          have hr' : Ed.readLoop (e :: r) (n + 1) = (e.data, some x, r) := by
            unfold Ed.readLoop; rw [if_neg hl, hx]
          rw [hr']
          refine ⟨fun _ => ⟨rfl, rfl⟩, fun _ y hy => ?_, fun _ hy => ?_⟩
          · cases hy; rfl
          · cases hy
        | none =>
          have hr' : Ed.readLoop (e :: r) (n + 1) = (e.data ++ (Ed.readLoop r (n + 1 - e.data.length)).1, (Ed.readLoop r (n + 1 - e.data.length)).2) := by
            conv_lhs => unfold Ed.readLoop
            rw [if_neg hl, hx]
          rw [hr']
          refine ⟨fun h => ?_, fun _ y hy => (by cases hy), fun _ _ => rfl⟩
          have : n + 1 - e.data.length = 0 := by
            have : n + 1 ≤ e.data.length := h
            omega
          rw [this]
          unfold Ed.readLoop
          exact ⟨List.append_nil _, rfl⟩

/-- What `io.ReadFull` makes of the end of its loop, `got` bytes having been read before. -/
def finish (need : Nat) (got : Bytes) (t : Bytes × Option String × Reader) : Out Bytes :=
  if need ≤ t.1.length then .ok (got ++ t.1)
  else .err (if 0 < (got ++ t.1).length ∧ t.2.1 = some "EOF" then "unexpected EOF" else t.2.1.getD "")

theorem readLoop_wpW (s : Nat) : ∀ (fuel need : Nat) (got : Bytes) (w : World), need ≤ fuel →
    wpW g h w (readLoop s fuel need got) fun r h' w' => h' = h ∧ r = finish need got (Ed.readLoop (w s) need) ∧
      w' = w.put s (Ed.readLoop (w s) need).2.2 := by
  intro fuel
  induction fuel with
  | zero =>
    intro need got w hn
    have : need = 0 := by omega
    subst this
    unfold readLoop Ed.readLoop
    exact ⟨rfl, by simp [finish], (put_same w s).symm⟩
  | succ fuel ih =>
    intro need got w hn
    cases need with
    | zero =>
      unfold readLoop Ed.readLoop
      exact ⟨rfl, by simp [finish], (put_same w s).symm⟩
    | succ need =>
      unfold readLoop
      show wpW g h (w.put s (readOnce (w s) (need + 1)).2) _ _
      obtain ⟨c1, c2, c3⟩ := readLoop_once (w s) need
      obtain ⟨a1, a2⟩ := readOnce_ans (w s) need
      generalize readOnce (w s) (need + 1) = t at c1 c2 c3 a1 a2 ⊢
      by_cases hl : need + 1 ≤ t.1.1.length
      · obtain ⟨d1, d2⟩ := c1 hl
        dsimp only
        rw [if_pos hl]
        refine ⟨rfl, ?_, by rw [d2]⟩
        unfold finish
        rw [d1, if_pos hl]
      · dsimp only
        rw [if_neg hl]
        cases hx : t.1.2 with
        | some x =>
          rw [c2 hl x hx]
          refine ⟨rfl, ?_, rfl⟩
          unfold finish
          rw [if_neg hl]
          simp only [Option.some.injEq, Option.getD_some]
        | none =>
          have hpos : 0 < t.1.1.length := by
            rcases Nat.eq_zero_or_pos t.1.1.length with e | e
            · exact absurd ⟨List.length_eq_zero_iff.1 e, hx⟩ a2
            · exact e
          have key := ih (need + 1 - t.1.1.length) (got ++ t.1.1) (w.put s t.2) (by omega)
          rw [put_self, put_put] at key
          rw [c3 hl hx]
          refine wpW_mono key fun r h' w' ⟨k1, k2, k3⟩ => ⟨k1, ?_, k3⟩
          rw [k2]
          unfold finish
          dsimp only
          rw [List.append_assoc, List.length_append (as := t.1.1)]
          have e1 : (need + 1 - t.1.1.length ≤ (Ed.readLoop t.2 (need + 1 - t.1.1.length)).1.length) =
              (need + 1 ≤ t.1.1.length + (Ed.readLoop t.2 (need + 1 - t.1.1.length)).1.length) := by
            apply propext; omega
          simp only [e1]

theorem readFull_wpW (s n : Nat) (w : World) :
    wpW g h w (readFull s n) fun r h' w' => h' = h ∧ (r, w') = Act.read s n w := by
  refine wpW_mono (readLoop_wpW s n n [] w (Nat.le_refl n)) fun r h' w' ⟨k1, k2, k3⟩ => ⟨k1, ?_⟩
  rw [k2, k3]
  unfold Act.read Ed.readFull finish World.put
  generalize Ed.readLoop (w s) n = t
  by_cases hl : n ≤ t.1.length
  · simp [hl]
  · simp [hl]

/-- The program computes what the action `x` computes and leaves, and only allocates. -/
def RefW (g : Nat) (h : PHeap) (p : Prog α) (x : Act α) : Prop :=
  ∀ w, wpW g h w p fun r h' w' => Fr g Nothing h h' ∧ (r, w') = x w

theorem RefV.refW {p : Prog α} {v : Out α} (hp : RefV g h p v) : RefW g h p (Act.lift v) := fun w =>
  wpW_mono (wpW_of_wp hp) fun r h' w' ⟨⟨k1, k2⟩, k3⟩ => ⟨k1, by rw [k2, k3]; rfl⟩

theorem RefW.bind {p : Prog α} {x : Act α} {f : α → Prog β} {fv : α → Act β} (hp : RefW g h p x)
    (hf : ∀ a h', Fr g Nothing h h' → RefW g h' (f a) (fv a)) : RefW g h (p.bind f) (Act.bind x fv) := by
  intro w
  refine wpW_bind (wpW_mono (hp w) fun r h' w' ⟨k1, k2⟩ => ?_)
  unfold Act.bind
  rw [← k2]
  cases r with
  | ok a => exact wpW_mono (hf a h' k1 w') fun _ _ _ k => ⟨k1.comp k.1, k.2⟩
  | err m => exact ⟨k1, rfl⟩
  | panic => exact ⟨k1, rfl⟩

theorem RefW.read (s n : Nat) : RefW g h (readFull s n) (Act.read s n) := fun w =>
  wpW_mono (readFull_wpW s n w) fun _ _ _ ⟨k1, k2⟩ => ⟨by rw [k1]; exact Fr.refl _ _ _, k2⟩

theorem encrypt_refW {c : BlockCipher} {a : Option Addr} {pub input : Addr} {i : Bytes} (hs : ShowsK g h a c.sender.priv)
    (hp : ShowsB g h pub c.recipient.pub.raw) (hi : ShowsB g h input i) :
    RefW g h (encrypt E c.seed c.keyLength a pub input) (c.encrypt E i) := by
  unfold encrypt BlockCipher.encrypt
  simp only [Prog.bind_eq]
  refine RefW.bind (RefW.read _ _) fun salt h1 f1 => ?_
  refine RefW.bind (RefV.refW (getSharedKey_refV (hs.grow f1) (hp.grow f1) fun h' _ => RefV.ok _)) fun sk h2 f2 => ?_
  refine RefW.bind (RefW.read _ _) fun iv h3 f3 => ?_
  intro w
  refine wpW_bind (wpW_mono (wpW_of_wp (Q := fun r h' => h' = h3 ∧ r = .ok i) ?_) ?_)
  · have := hi.grow ((f1.comp f2).comp f3)
    have e : loadBytes input = (loadBytes input).bind fun b => ret (.ok b) := (bind_ret _).symm
    rw [e]
    exact wp_loadBytes this.1 this.2 ⟨rfl, rfl⟩
  · rintro r h' w' ⟨⟨rfl, rfl⟩, rfl⟩
    refine (RefW.bind (RefV.refW (RefV.lift _)) fun buf h4 f4 => ?_) w'
    exact RefV.refW (RefV.ok _)

theorem generate_refW {bp : Addr} (hb : IsBase g h bp) (seed : Nat) : RefW g h (generateKeyPair E bp seed) (Ed.generateKeyPair E seed) := by
  unfold generateKeyPair Ed.generateKeyPair
  simp only [Prog.bind_eq]
  refine RefW.bind (RefW.read _ _) fun raw h1 f1 => ?_
  intro w
  refine wpW_bind ?_
  have key : wp g h1 (new (.bytes raw)) fun r h' => Fr g Nothing h1 h' ∧ ∃ a, r = .ok a ∧ ShowsB g h' a raw := by
    have e : new (.bytes raw) = (new (.bytes raw)).bind fun a => ret (.ok a) := rfl
    rw [e]
    exact wp_new fun a h' a1 a2 _ a4 => ⟨a1, a, rfl, .inl a2, a4⟩
  refine wpW_mono (wpW_of_wp key) ?_
  rintro r h2 w' ⟨⟨f2, a, rfl, ha⟩, rfl⟩
  have hk : ShowsK g h2 (some a) (some (newPrivateKey raw)) := ha
  refine wpW_mono ((RefW.bind (fv := fun p => Act.lift (newKeyPair E (some (newPrivateKey raw)) (some p)))
    (RefV.refW (derive_refV (hb.grow (f1.comp f2)) hk)) fun pk h3 f3 => ?_) w') ?_
  · exact RefV.refW (RefV.lift _)
  · exact fun _ _ _ k => ⟨f2.comp k.1, k.2⟩

end
end PG

namespace Call
open Prog PG

variable {E : Env} {h0 : PHeap} {g : Nat} {h : PHeap}

theorem showsB {a : Addr} (hb : IsBytes h0 a) : ShowsB g h0 a (bytesAt h0 a) := by
  obtain ⟨h1, b, h2⟩ := hb
  refine ⟨.inr h1, ?_⟩
  unfold bytesAt
  rw [h2]

theorem showsK {k : Option Addr} (hk : ∀ a ∈ k, IsBytes h0 a) : ShowsK g h0 k (k.map fun a => newPrivateKey (bytesAt h0 a)) := by
  cases k with
  | none => trivial
  | some a => exact showsB (hk a rfl)

theorem refMap {α β : Type} {p : Prog α} {x : Act α} (f : α → β) (hp : RefW g h p x) :
    RefW g h (p.bind fun a => .ret (.ok (f a))) (Act.map f x) :=
  RefW.bind hp fun _ _ _ => RefV.refW (RefV.ok _)

theorem prog_refW {bp : Addr} (hb : IsBase g h0 bp) (f : Fr g Nothing h0 h) (c : Call) (hc : c.Args h0) :
    RefW g h (c.prog E bp) (c.value E h0) := by
  have hb' := hb.grow f
  cases c with
  | derive k => exact refMap _ (RefV.refW (derive_refV hb' ((showsK hc).grow f)))
  | sign kp m =>
    obtain ⟨c1, c2, c3⟩ := hc
    exact refMap _ (RefV.refW (sign_refV (kp := kp.value h0) hb' ((showsK c1).grow f) ((showsB c2).grow f) ((showsB c3).grow f)))
  | verify kp m r s =>
    obtain ⟨c1, c2, c3, c4⟩ := hc
    exact refMap _ (RefV.refW (verify_refV hb' ((showsB c1).grow f) ((showsB c2).grow f) ((showsB c3).grow f) ((showsB c4).grow f)))
  | canonical r s => exact refMap _ (RefV.refW (canonical_refV ((showsB hc.1).grow f) ((showsB hc.2).grow f)))
  | sharedKey n k p salt =>
    obtain ⟨c1, c2, c3⟩ := hc
    have hs := (showsB (g := g) c3).grow f
    have e : loadBytes salt = (loadBytes salt).bind fun b => ret (.ok b) := (bind_ret _).symm
    exact refMap Res.bytes (RefV.refW (getSharedKey_refV (E := E) (n := n) (salt := bytesAt h0 salt) ((showsK c1).grow f) ((showsB c2).grow f)
      fun h' f' => by rw [e]; exact loadBytes_bind (hs.grow f') (RefV.ok _)))
  | encrypt snd rcp n seed i =>
    obtain ⟨c1, c2, c3⟩ := hc
    exact refMap _ (encrypt_refW (c := ⟨snd.value h0, rcp.value h0, n, seed⟩) ((showsK c1).grow f) ((showsB c2).grow f) ((showsB c3).grow f))
  | decrypt snd rcp n seed i =>
    obtain ⟨c1, c2, c3⟩ := hc
    exact refMap _ (RefV.refW (decrypt_refV (c := ⟨snd.value h0, rcp.value h0, n, seed⟩) ((showsK c1).grow f) ((showsB c2).grow f) ((showsB c3).grow f)))
  | generate seed => exact refMap _ (generate_refW hb' seed)

theorem progs_refW {bp : Addr} (hb : IsBase g h0 bp) : ∀ (cs : List Call) (h : PHeap), Fr g Nothing h0 h → (∀ c ∈ cs, c.Args h0) →
    RefW g h (progs E bp cs) fun w => (.ok (values E h0 cs w).1, (values E h0 cs w).2) := by
  intro cs
  induction cs with
  | nil => exact fun h _ _ w => ⟨Fr.refl _ _ _, rfl⟩
  | cons c cs ih =>
    intro h f hc w
    unfold progs values
    simp only [Prog.bind_eq]
    refine wpW_bind (wpW_catch (wpW_mono (prog_refW hb f c (hc c (by simp)) w) fun r h1 w1 ⟨f1, k1⟩ => ?_))
    refine wpW_bind (wpW_mono (ih h1 (f.comp f1) (fun c hc' => hc c (by simp [hc'])) w1) fun rs h2 w2 ⟨f2, k2⟩ => ?_)
    cases k2
    refine ⟨f1.comp f2, ?_⟩
    rw [← k1]

end Call
end Ed

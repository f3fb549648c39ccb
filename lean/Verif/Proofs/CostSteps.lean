import Verif.Proofs.Cost
import Verif.Spec.Cost

/-!
# The steps of each part, and bounds for the parts that depend on the data
-/

set_option autoImplicit false

namespace Ed
open Finset Cost

/-! ## Steps of the straight-line parts -/

def sPow9 : List Step := [.sq, .sq, .sq, .mul]

def sPow252 : List Step :=
  .sq :: (sPow9 ++ .mul :: .sq :: .mul :: .sq :: (List.replicate 4 .sq ++ .mul :: .sq :: (List.replicate 9 .sq ++ .mul :: .sq ::
    (List.replicate 19 .sq ++ .mul :: .sq :: (List.replicate 9 .sq ++ .mul :: .sq :: (List.replicate 49 .sq ++ .mul :: .sq ::
    (List.replicate 99 .sq ++ .mul :: .sq :: (List.replicate 49 .sq ++ [.mul, .sq, .sq]))))))))

def sInvert : List Step := .sq :: (sPow9 ++ .mul :: (sPow252 ++ (List.replicate 3 .sq ++ [.mul])))

def sSqrt : List Step := .sq :: .mul :: .sq :: .mul :: .mul :: (sPow252 ++ [.mul, .mul, .mul])

def sToP2 : List Step := [.mul, .mul, .mul]
def sToP3 : List Step := [.mul, .mul, .mul, .mul]
def sToCached : List Step := [.add, .sub, .mul]
def sEncode : List Step := sInvert ++ [.mul, .mul, .enc, .enc]
def sDbl : List Step := [.sq, .sq, .sqd, .add, .sq, .add, .sub, .sub, .sub]
def sPrecAdd : List Step := [.add, .sub, .mul, .mul, .mul, .add, .sub, .add, .add, .sub]
def sPrecSub : List Step := [.add, .sub, .mul, .mul, .mul, .add, .sub, .add, .sub, .add]
def sAdd : List Step := [.add, .mul, .sub, .mul, .mul, .mul, .add, .sub, .add, .add, .sub]
def sEntry : List Step := sInvert ++ [.mul, .mul, .add, .sub, .mul, .mul]
def sAddP3 : List Step := sToCached ++ (sAdd ++ sToP3)
def sRow : List Step := (List.replicate 8 (sEntry ++ sAddP3)).flatten
def sDoubles : List Step := (List.replicate 8 sAddP3).flatten
def sSingle : List Step := (List.replicate 32 (sRow ++ sDoubles)).flatten
def sDouble : List Step := (List.replicate 8 (sEntry ++ (sAddP3 ++ sAddP3))).flatten
def sScalarStep : List Step := .neg :: (sPrecAdd ++ sToP3)
def sTimes16 : List Step := sDbl ++ (sToP2 ++ (sDbl ++ (sToP2 ++ (sDbl ++ (sToP2 ++ (sDbl ++ sToP3))))))
def sScalar : List Step := (List.replicate 32 sScalarStep).flatten ++ (sTimes16 ++ (List.replicate 32 sScalarStep).flatten)

namespace FE

theorem squareNC_takes : ∀ (n : ℕ) (f : FE), Takes (squareNC n f) (List.replicate n .sq)
  | 0, _ => takes_pure _
  | n + 1, f => by
    rw [squareNC, List.replicate_succ]
    exact Takes.tick (squareNC_takes n _)

theorem pow9_takes (f : FE) : Takes f.pow2to9C sPow9 := by
  unfold pow2to9C
  exact Takes.tick (Takes.tick (Takes.tick (takes_tick _ _)))

theorem pow252_takes (f : FE) : Takes f.pow2to252sub4C sPow252 := by
  unfold pow2to252sub4C sqC mulC
  refine Takes.tick (Takes.bind (pow9_takes f) fun _ _ => Takes.tick (Takes.tick (Takes.tick (Takes.tick (Takes.bind (squareNC_takes 4 _) fun _ _ =>
    Takes.tick (Takes.tick (Takes.bind (squareNC_takes 9 _) fun _ _ => Takes.tick (Takes.tick (Takes.bind (squareNC_takes 19 _) fun _ _ =>
    Takes.tick (Takes.tick (Takes.bind (squareNC_takes 9 _) fun _ _ => Takes.tick (Takes.tick (Takes.bind (squareNC_takes 49 _) fun _ _ =>
    Takes.tick (Takes.tick (Takes.bind (squareNC_takes 99 _) fun _ _ => Takes.tick (Takes.tick (Takes.bind (squareNC_takes 49 _) fun _ _ =>
    Takes.tick (Takes.tick (takes_tick _ _)))))))))))))))))))

theorem invert_takes (f : FE) : Takes f.invertC sInvert := by
  unfold invertC sqC mulC
  exact Takes.tick (Takes.bind (pow9_takes f) fun _ _ => Takes.tick (Takes.bind (pow252_takes f) fun _ _ =>
    Takes.bind (squareNC_takes 3 _) fun _ _ => takes_tick _ _))

theorem sqrt_takes (u v : FE) : Takes (sqrtC u v) sSqrt := by
  unfold sqrtC sqC mulC
  exact Takes.tick (Takes.tick (Takes.tick (Takes.tick (Takes.tick (Takes.bind (pow252_takes _) fun _ _ =>
    Takes.tick (Takes.tick (takes_tick _ _)))))))

end FE

namespace GC
open FE

theorem toP2_takes {g : GC} (h : g.sys = .p1xp1) : Takes g.toP2C sToP2 := by
  unfold toP2C mulC
  rw [h]
  exact Takes.lift fun _ _ => Takes.tick (Takes.tick (Takes.tick (takes_pure _)))

theorem toP3_takes {g : GC} (h : g.sys = .p1xp1) : Takes g.toP3C sToP3 := by
  unfold toP3C mulC
  rw [h]
  exact Takes.lift fun _ _ => Takes.tick (Takes.tick (Takes.tick (Takes.tick (takes_pure _))))

theorem toCached_takes {g : GC} (h : g.sys = .p3) : Takes g.toCachedC sToCached := by
  unfold toCachedC mulC FE.addC subC
  rw [h]
  exact Takes.tick (Takes.tick (Takes.lift fun _ _ => Takes.tick (takes_pure _)))

theorem encodeP_takes (g : GC) : Takes g.encodePC sEncode := by
  unfold encodePC mulC encC isNegativeC
  exact Takes.bind (invert_takes _) fun _ _ => Takes.tick (Takes.tick (Takes.tick (Takes.tick (takes_pure _))))

theorem encode_takes {g : GC} (h : g.sys = .p2 ∨ g.sys = .p3) : Takes g.encodeC sEncode := by
  unfold encodeC
  rcases h with h | h <;> rw [h] <;> exact encodeP_takes g

theorem dbl_takes {g : GC} (h : g.sys = .p2 ∨ g.sys = .p3) : Takes g.dblC sDbl := by
  unfold dblC sqC sqdC FE.addC subC
  rcases h with h | h <;> rw [h] <;>
    exact Takes.tick (Takes.tick (Takes.tick (Takes.tick (Takes.tick (Takes.tick (Takes.tick (Takes.tick (Takes.tick (takes_pure _)))))))))

theorem precAdd_takes (r g : GC) : Takes (r.precomputedAddC g) sPrecAdd := by
  unfold precomputedAddC FE.addC subC mulC
  split
  · exact takes_fail fun a => nofun
  · split
    · exact takes_fail fun a => nofun
    · exact Takes.tick (Takes.tick (Takes.tick (Takes.tick (Takes.lift fun _ _ => Takes.tick (Takes.tick (Takes.tick (Takes.tick (Takes.tick
        (Takes.tick (takes_pure _)))))))))) 

theorem add_takes (r g : GC) : Takes (r.addC g) sAdd := by
  unfold GC.addC FE.addC subC mulC
  split
  · exact takes_fail fun a => nofun
  · split
    · exact takes_fail fun a => nofun
    · exact Takes.tick (Takes.tick (Takes.tick (Takes.tick (Takes.lift fun _ _ => Takes.lift fun _ _ => Takes.tick (Takes.tick (Takes.tick
        (Takes.tick (Takes.tick (Takes.tick (Takes.tick (takes_pure _))))))))))) 

theorem entry_takes (b : GC) : Takes b.precEntryC sEntry := by
  unfold precEntryC FE.addC subC mulC
  exact Takes.bind (invert_takes _) fun _ _ => Takes.tick (Takes.tick (Takes.tick (Takes.tick (Takes.tick (Takes.tick (takes_pure _))))))

/-! The coordinate systems of results. -/

theorem sys_toP2 {g h : GC} (e : g.toP2 = .ok h) : h.sys = .p2 := by
  unfold toP2 toCoordinateSystem at e
  cases hs : g.sys <;> rw [hs] at e <;> dsimp only at e <;> try simp only [reduceCtorEq] at e
  · rw [← Out.ok.inj e]; rfl
  · rw [← Out.ok.inj e]; rfl
  · cases ht : g.T with
    | none => rw [ht] at e; exact nomatch e
    | some t => rw [ht] at e; rw [← Out.ok.inj e]; rfl

theorem sys_toP3 {g h : GC} (e : g.toP3 = .ok h) : h.sys = .p3 := by
  unfold toP3 toCoordinateSystem at e
  cases hs : g.sys <;> rw [hs] at e <;> dsimp only at e <;> try simp only [reduceCtorEq] at e
  · rw [← Out.ok.inj e]; rfl
  · cases ht : g.T with
    | none => rw [ht] at e; exact nomatch e
    | some t => rw [ht] at e; rw [← Out.ok.inj e]; rfl

theorem sys_dbl {g h : GC} (e : g.dbl = .ok h) : h.sys = .p1xp1 := by
  unfold dbl at e
  cases hs : g.sys <;> rw [hs] at e <;> dsimp only at e <;> try simp only [reduceCtorEq] at e
  · rw [← Out.ok.inj e]; rfl
  · rw [← Out.ok.inj e]; rfl

theorem sys_precAdd {r g h : GC} (e : r.precomputedAdd g = .ok h) : h.sys = .p1xp1 := by
  unfold precomputedAdd at e
  split at e
  · exact nomatch e
  · split at e
    · exact nomatch e
    · cases ht : r.T with
      | none => rw [ht] at e; exact nomatch e
      | some t => rw [ht] at e; rw [← Out.ok.inj e]; rfl

theorem sys_precSub {r g h : GC} (e : r.precomputedSubtract g = .ok h) : h.sys = .p1xp1 := by
  unfold precomputedSubtract at e
  split at e
  · exact nomatch e
  · split at e
    · exact nomatch e
    · cases ht : r.T with
      | none => rw [ht] at e; exact nomatch e
      | some t => rw [ht] at e; rw [← Out.ok.inj e]; rfl

theorem sys_add {r g h : GC} (e : r.add g = .ok h) : h.sys = .p1xp1 := by
  unfold GC.add at e
  split at e
  · exact nomatch e
  · split at e
    · exact nomatch e
    · cases ht : g.T with
      | none => rw [ht] at e; exact nomatch e
      | some t =>
        rw [ht] at e
        cases hr : r.T with
        | none => rw [hr] at e; exact nomatch e
        | some t' => rw [hr] at e; rw [← Out.ok.inj e]; rfl

theorem sys_addP3 {b c h : GC} (e : b.addP3 c = .ok h) : h.sys = .p3 := by
  unfold addP3 at e
  cases h1 : c.toCached with
  | ok c' =>
    rw [h1, Out.ok_bind] at e
    cases h2 : b.add c' with
    | ok s => rw [h2] at e; exact sys_toP3 e
    | err m => rw [h2] at e; exact nomatch e
    | panic => rw [h2] at e; exact nomatch e
  | err m => rw [h1] at e; exact nomatch e
  | panic => rw [h1] at e; exact nomatch e

theorem addP3_takes {b c : GC} (h : c.sys = .p3) : Takes (b.addP3C c) sAddP3 := by
  unfold addP3C
  refine Takes.bind (toCached_takes h) fun c' _ => Takes.bind (add_takes _ _) fun s hs => toP3_takes ?_
  rw [addC_out] at hs
  exact sys_add hs

theorem row_takes {bi : GC} (h : bi.sys = .p3) : ∀ (n : ℕ) (b : GC), Takes (precRowC bi n b) (List.replicate n (sEntry ++ sAddP3)).flatten
  | 0, _ => takes_pure _
  | n + 1, b => by
    rw [precRowC, List.replicate_succ, List.flatten_cons, List.append_assoc]
    refine Takes.bind (entry_takes b) fun _ _ => Takes.bind (addP3_takes h) fun b' _ => ?_
    exact Takes.bind' (row_takes h n b') fun r => takes_pure _

theorem doubles_takes : ∀ (n : ℕ) (b : GC), b.sys = .p3 → Takes (doubleNC n b) (List.replicate n sAddP3).flatten
  | 0, _, _ => takes_pure _
  | n + 1, b, h => by
    rw [doubleNC, List.replicate_succ, List.flatten_cons]
    exact Takes.bind (addP3_takes h) fun b' hb => doubles_takes n b' (sys_addP3 (by rwa [addP3C_out] at hb))

theorem sys_doubleN : ∀ (n : ℕ) (b b' : GC), b.sys = .p3 → doubleN n b = .ok b' → b'.sys = .p3
  | 0, b, b', h, e => by rw [← Out.ok.inj e]; exact h
  | n + 1, b, b', h, e => by
    rw [doubleN] at e
    cases hb : b.addP3 b with
    | ok c => rw [hb] at e; exact sys_doubleN n c b' (sys_addP3 hb) e
    | err m => rw [hb] at e; exact nomatch e
    | panic => rw [hb] at e; exact nomatch e

theorem rows_takes : ∀ (n : ℕ) (b : GC), b.sys = .p3 → Takes (precRowsC n b) (List.replicate n (sRow ++ sDoubles)).flatten
  | 0, _, _ => takes_pure _
  | n + 1, b, h => by
    rw [precRowsC, List.replicate_succ, List.flatten_cons, List.append_assoc]
    refine Takes.bind (row_takes h 8 b) fun r _ => Takes.bind (doubles_takes 8 b h) fun b' hb => ?_
    rw [doubleNC_out] at hb
    exact Takes.bind' (rows_takes n b' (sys_doubleN 8 b b' h hb)) fun _ => takes_pure _

theorem odd_takes {r : GC} (hr : r.sys = .p3) : ∀ (n : ℕ) (b : GC), b.sys = .p3 →
    Takes (precOddC r n b) (List.replicate n (sEntry ++ (sAddP3 ++ sAddP3))).flatten
  | 0, _, _ => takes_pure _
  | n + 1, b, h => by
    rw [precOddC, List.replicate_succ, List.flatten_cons, List.append_assoc, List.append_assoc]
    refine Takes.bind (entry_takes b) fun _ _ => Takes.bind (addP3_takes h) fun s hs => ?_
    rw [addP3C_out] at hs
    refine Takes.bind (addP3_takes (sys_addP3 hs)) fun b' hb => ?_
    rw [addP3C_out] at hb
    exact Takes.bind' (odd_takes hr n b' (sys_addP3 hb)) fun _ => takes_pure _

end GC

namespace GE
open FE GC

theorem single_takes {g : GE} (hs : g.sys = .p3) (hn : g.single = none) : Takes g.precomputeForScalarMultiplicationC sSingle := by
  unfold precomputeForScalarMultiplicationC
  rw [hn, if_neg (by simp)]
  exact Takes.bind' (rows_takes 32 _ hs) fun _ => takes_pure _

theorem double_takes {g : GE} (hs : g.sys = .p3) (hn : g.double = none) : Takes g.precomputeForDoubleScalarMultiplicationC sDouble := by
  unfold precomputeForDoubleScalarMultiplicationC
  rw [hn, if_neg (by simp)]
  exact Takes.bind' (odd_takes hs 8 _ hs) fun _ => takes_pure _

theorem select_takes (g : GE) (pos : ℕ) (b : Int64) : Takes (g.selectC pos b) [.neg] := by
  unfold selectC negC
  exact Takes.lift fun _ _ => Takes.lift fun _ _ => Takes.tick (takes_lift _)

theorem scalarStep_takes (g : GE) (e : Digits) (h : GC) (i : ℕ) : Takes (scalarStepC g e h i) sScalarStep := by
  unfold scalarStepC
  refine Takes.bind (select_takes _ _ _) fun s _ => Takes.bind (precAdd_takes _ _) fun h' hh => toP3_takes ?_
  rw [precomputedAddC_out] at hh
  exact sys_precAdd hh

theorem scalarStep_sys {g : GE} {e : Digits} {h h' : GC} {i : ℕ} (hh : scalarStep g e h i = .ok h') : h'.sys = .p3 := by
  unfold scalarStep at hh
  cases h1 : g.select (i / 2) (int8ToInt (e i)) with
  | ok s =>
    rw [h1, Out.ok_bind] at hh
    cases h2 : h.precomputedAdd s with
    | ok s => rw [h2] at hh; exact sys_toP3 hh
    | err m => rw [h2] at hh; exact nomatch hh
    | panic => rw [h2] at hh; exact nomatch hh
  | err m => rw [h1] at hh; exact nomatch hh
  | panic => rw [h1] at hh; exact nomatch hh

theorem fold_takes (g : GE) (e : Digits) : ∀ (l : List ℕ) (h : GC), Takes (foldC (scalarStepC g e) h l) (List.replicate l.length sScalarStep).flatten
  | [], _ => takes_pure _
  | i :: l, h => by
    rw [foldC, List.length_cons, List.replicate_succ, List.flatten_cons]
    exact Takes.bind (scalarStep_takes g e h i) fun h' _ => fold_takes g e l h'

theorem fold_sys (g : GE) (e : Digits) : ∀ (l : List ℕ) (h h' : GC), h.sys = .p3 → l.foldlM (scalarStep g e) h = .ok h' → h'.sys = .p3
  | [], h, h', hs, e' => by rw [← Out.ok.inj e']; exact hs
  | i :: l, h, h', hs, e' => by
    rw [List.foldlM_cons] at e'
    cases h1 : scalarStep g e h i with
    | ok s => rw [h1] at e'; exact fold_sys g e l s h' (scalarStep_sys h1) e'
    | err m => rw [h1] at e'; exact nomatch e'
    | panic => rw [h1] at e'; exact nomatch e'

theorem times16_takes {h : GC} (hs : h.sys = .p3) : Takes (times16C h) sTimes16 := by
  unfold times16C
  refine Takes.bind (dbl_takes (.inr hs)) fun a ha => ?_
  rw [dblC_out] at ha
  refine Takes.bind (toP2_takes (sys_dbl ha)) fun b hb => ?_
  rw [toP2C_out] at hb
  refine Takes.bind (dbl_takes (.inl (sys_toP2 hb))) fun a ha => ?_
  rw [dblC_out] at ha
  refine Takes.bind (toP2_takes (sys_dbl ha)) fun b hb => ?_
  rw [toP2C_out] at hb
  refine Takes.bind (dbl_takes (.inl (sys_toP2 hb))) fun a ha => ?_
  rw [dblC_out] at ha
  refine Takes.bind (toP2_takes (sys_dbl ha)) fun b hb => ?_
  rw [toP2C_out] at hb
  refine Takes.bind (dbl_takes (.inl (sys_toP2 hb))) fun a ha => ?_
  rw [dblC_out] at ha
  exact toP3_takes (sys_dbl ha)

theorem times16_sys {h h' : GC} (e : times16 h = .ok h') : h'.sys = .p3 := by
  unfold times16 at e
  cases h1 : h.dbl with
  | err m => rw [h1] at e; exact nomatch e
  | panic => rw [h1] at e; exact nomatch e
  | ok a =>
  rw [h1, Out.ok_bind] at e
  cases h2 : a.toP2 with
  | err m => rw [h2] at e; exact nomatch e
  | panic => rw [h2] at e; exact nomatch e
  | ok b =>
  rw [h2, Out.ok_bind] at e
  cases h3 : b.dbl with
  | err m => rw [h3] at e; exact nomatch e
  | panic => rw [h3] at e; exact nomatch e
  | ok c =>
  rw [h3, Out.ok_bind] at e
  cases h4 : c.toP2 with
  | err m => rw [h4] at e; exact nomatch e
  | panic => rw [h4] at e; exact nomatch e
  | ok d =>
  rw [h4, Out.ok_bind] at e
  cases h5 : d.dbl with
  | err m => rw [h5] at e; exact nomatch e
  | panic => rw [h5] at e; exact nomatch e
  | ok f =>
  rw [h5, Out.ok_bind] at e
  cases h6 : f.toP2 with
  | err m => rw [h6] at e; exact nomatch e
  | panic => rw [h6] at e; exact nomatch e
  | ok k =>
  rw [h6, Out.ok_bind] at e
  cases h7 : k.dbl with
  | err m => rw [h7] at e; exact nomatch e
  | panic => rw [h7] at e; exact nomatch e
  | ok l =>
  rw [h7, Out.ok_bind] at e
  exact sys_toP3 e

theorem scalar_takes (g : GE) (a : Bytes) : Takes (g.scalarMultiplyC a) sScalar := by
  unfold scalarMultiplyC
  have e1 : ∀ f : ℕ → ℕ, ((List.range 32).map f).length = 32 := fun f => by rw [List.length_map, List.length_range]
  have k1 := fold_takes g (toRadix16 a) ((List.range 32).map fun k => 2 * k + 1) GC.zeroP3
  have k2 := fun h => fold_takes g (toRadix16 a) ((List.range 32).map fun k => 2 * k) h
  rw [e1] at k1
  refine Takes.bind k1 fun h hh => ?_
  rw [foldC_out _ _ (scalarStepC_out g _)] at hh
  refine Takes.bind (times16_takes (fold_sys _ _ _ _ _ rfl hh)) fun h' _ => ?_
  have := k2 h'
  rwa [e1] at this

theorem scalar_sys {g : GE} {a : Bytes} {h : GC} (e : g.scalarMultiply a = .ok h) : h.sys = .p3 := by
  unfold scalarMultiply at e
  dsimp only at e
  generalize (List.range 32).map (fun k => 2 * k + 1) = l1, (List.range 32).map (fun k => 2 * k) = l2 at e
  cases h1 : l1.foldlM (scalarStep g (toRadix16 a)) GC.zeroP3 with
  | err m => rw [h1] at e; exact nomatch e
  | panic => rw [h1] at e; exact nomatch e
  | ok b =>
  rw [h1, Out.ok_bind] at e
  cases h2 : times16 b with
  | err m => rw [h2] at e; exact nomatch e
  | panic => rw [h2] at e; exact nomatch e
  | ok c =>
  rw [h2, Out.ok_bind] at e
  exact fold_sys _ _ _ _ _ (times16_sys h2) e

end GE

end Ed

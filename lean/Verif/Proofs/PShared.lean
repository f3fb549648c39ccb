import Verif.Proofs.PApi
import Verif.Proofs.PMemory
import Verif.Spec.SharedCalls

/-!
# Operations on shared group elements compute what they compute without concurrency
-/

set_option autoImplicit false

namespace Ed
namespace GCall
open Prog PG

attribute [local irreducible] PG.doubleScalarMultiplyVariableTime PG.scalarMultiply PG.select

variable {g : Nat} {h0 h : PHeap} {val : Addr → GE}

theorem refPoint {p : Prog Addr} {v : Out GC} (hp : Ref g h p v) :
    RefV g h (p.bind fun r => (loadGC r).bind fun v => .ret (.ok (GRes.point v))) (v >>= fun x => .ok (.point x)) :=
  Ref.bindV hp fun _ _ _ _ hs => wp_loadGC hs (RefV.ok _)

theorem prog_refV (f : Fr g Nothing h0 h) (c : GCall) (hc : c.Args h0 val) : RefV g h c.prog (c.value val) := by
  cases c with
  | encode a =>
    exact RefV.bind (encode_ref (ShowsGE.grow (ShowsGE.of_zero hc) f).gc) fun _ _ _ => RefV.ok _
  | convert a n => exact refPoint (toCoordinateSystem_ref (ShowsGE.grow (ShowsGE.of_zero hc) f).gc n).ref
  | dbl a => exact refPoint (dbl_ref (ShowsGE.grow (ShowsGE.of_zero hc) f).gc).ref
  | negate a => exact refPoint (negate_ref (ShowsGE.grow (ShowsGE.of_zero hc) f).gc)
  | add a b => exact refPoint (binary_ref (op := GC.add) (hc.1.of_zero.grow f).gc (hc.2.of_zero.grow f).gc).ref
  | subtract a b => exact refPoint (binary_ref (op := GC.subtract) (hc.1.of_zero.grow f).gc (hc.2.of_zero.grow f).gc).ref
  | precomputedAdd a b => exact refPoint (binary_ref (op := GC.precomputedAdd) (hc.1.of_zero.grow f).gc (hc.2.of_zero.grow f).gc).ref
  | precomputedSubtract a b =>
    exact refPoint (binary_ref (op := GC.precomputedSubtract) (hc.1.of_zero.grow f).gc (hc.2.of_zero.grow f).gc).ref
  | select a pos b => exact refPoint (select_ref (ShowsGE.grow (ShowsGE.of_zero hc) f) pos b)
  | scalarMultiply a s => exact refPoint (scalarMultiply_ref (ShowsGE.grow (ShowsGE.of_zero hc) f) s)
  | doubleScalar a A s t => exact refPoint (doubleScalar_ref (hc.1.of_zero.grow f) (hc.2.of_zero.grow f) s t)
  | precomputeSingle a =>
    obtain ⟨hc, hs⟩ := hc
    obtain ⟨s0, o, ls, ld, k1, k2, k3, k4, k5, k6, k7, k8⟩ := ShowsGE.grow (ShowsGE.of_zero (g := g) hc) f
    refine wp_bind ?_
    unfold PG.precomputeSingle
    simp only [Prog.bind_eq]
    refine wp_loadObj s0 k1 ?_
    rw [if_pos (by rw [k3]; exact hs)]
    exact ⟨Fr.refl _ _ _, rfl⟩
  | precomputeDouble a =>
    obtain ⟨hc, hs⟩ := hc
    obtain ⟨s0, o, ls, ld, k1, k2, k3, k4, k5, k6, k7, k8⟩ := ShowsGE.grow (ShowsGE.of_zero (g := g) hc) f
    refine wp_bind ?_
    unfold PG.precomputeDouble
    simp only [Prog.bind_eq]
    refine wp_loadObj s0 k1 ?_
    refine wp_loadArr k7 ?_
    rw [if_pos (by rw [k8.length_eq]; exact hs)]
    exact ⟨Fr.refl _ _ _, rfl⟩
  | decode raw => exact refPoint (decode_ref raw).ref

theorem progs_refV : ∀ (cs : List GCall) (h : PHeap), Fr g Nothing h0 h → (∀ c ∈ cs, c.Args h0 val) →
    RefV g h (progs cs) (.ok (cs.map (GCall.value val))) := by
  intro cs
  induction cs with
  | nil => exact fun h _ _ => ⟨Fr.refl _ _ _, rfl⟩
  | cons c cs ih =>
    intro h f hc
    unfold progs
    simp only [Prog.bind_eq]
    refine wp_bind (wp_catch (wp_mono (prog_refV f c (hc c (by simp))) fun r h1 ⟨f1, k1⟩ => ?_))
    refine wp_bind (wp_mono (ih h1 (f.comp f1) (fun c hc' => hc c (by simp [hc']))) fun rs h2 ⟨f2, k2⟩ => ?_)
    subst k1 k2
    exact ⟨f1.comp f2, rfl⟩

end GCall
end Ed

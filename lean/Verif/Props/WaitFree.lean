import Verif.Proofs.Steps
import Verif.Props.Conc
import Verif.Spec.Interfere

/-!
# Every call ends after a fixed number of actions, whatever the others do (C88)

The limits are `Call.limit` and `GCall.limit` in Spec/Steps; `sched.count i` is the number of actions of goroutine `i` in a schedule.
-/

set_option autoImplicit false

namespace Ed
open Prog PG

section
variable (E : Env) {h0 : PHeap} {bp : Addr} {N : Nat} (hN : 32 ≤ N) (hs : h0.Small N) (w : World)
include hN hs

/-- C88: a goroutine that makes calls of the API is done as soon as it has made as many actions as its calls may take together.  The other
goroutines may change its keys, messages and tables while it runs, may stop at any point and may never stop. -/
theorem C88_calls (t : Nat → Prog (List (Out Res))) (i : Nat) (cs : List Call) (hi : t i = Call.progs E bp cs)
    (ho : ∀ j, j ≠ i → (t j).Modest N) (sched : List Nat) (hc : (cs.map (Call.limit N)).sum ≤ sched.count i) :
    ∃ r, ((Pool.start h0 w t).run sched).thread i = .ret r := by
  have key := Call.takes_progs E bp hN cs
  refine Pool.wait_free (Q := Any) i sched (Pool.start h0 w t) _ hs (fun j => ?_) (by show Takes N _ (t i) _; rw [hi]; exact key) hc
  show (t j).Modest N
  by_cases e : j = i
  · rw [e, hi]; exact key.modest
  · exact ho j e

/-- C88: the same for a single call. -/
theorem C88_call (t : Nat → Prog Res) (i : Nat) (c : Call) (hi : t i = c.prog E bp)
    (ho : ∀ j, j ≠ i → (t j).Modest N) (sched : List Nat) (hc : c.limit N ≤ sched.count i) :
    ∃ r, ((Pool.start h0 w t).run sched).thread i = .ret r := by
  have key := Call.takes E bp hN c
  refine Pool.wait_free (Q := Any) i sched (Pool.start h0 w t) _ hs (fun j => ?_) (by show Takes N _ (t i) _; rw [hi]; exact key) hc
  show (t j).Modest N
  by_cases e : j = i
  · rw [e, hi]; exact key.modest
  · exact ho j e

omit hN in
/-- C88: the same for operations on group elements, which others may share and precompute at the same time. -/
theorem C88_group (t : Nat → Prog (List (Out GRes))) (i : Nat) (cs : List GCall) (hi : t i = GCall.progs cs)
    (ho : ∀ j, j ≠ i → (t j).Modest N) (sched : List Nat) (hc : (cs.map GCall.limit).sum ≤ sched.count i) :
    ∃ r, ((Pool.start h0 w t).run sched).thread i = .ret r := by
  have key := GCall.takes_progs (N := N) cs
  refine Pool.wait_free (Q := Any) i sched (Pool.start h0 w t) _ hs (fun j => ?_) (by show Takes N _ (t i) _; rw [hi]; exact key) hc
  show (t j).Modest N
  by_cases e : j = i
  · rw [e, hi]; exact key.modest
  · exact ho j e

/-- C88: goroutines that all use the API: after so many actions, goroutine `i` has all its outcomes, and they are the ones without concurrency
(with the answers that it got from the readers). -/
theorem C88_results {cs : Nat → List Call} (hm : SharedMemory h0 bp cs) (sched : List Nat) (i : Nat)
    (hc : ((cs i).map (Call.limit N)).sum ≤ sched.count i) :
    ((Pool.start h0 w (goroutines E bp cs)).run sched).thread i =
      .ret (.ok (Call.values E h0 (cs i) (((Pool.start h0 w (goroutines E bp cs)).run sched).got i)).1) := by
  obtain ⟨r, hr⟩ := C88_calls E hN hs w (goroutines E bp cs) i (cs i) rfl (fun j _ => (Call.takes_progs E bp hN (cs j)).modest) sched hc
  rw [hr, (C54_results E hm w sched i r hr).1]

end

/-- C88: whom the others may be: goroutines with calls of the API, -/
theorem C88_modest_calls (E : Env) (bp : Addr) {N : Nat} (hN : 32 ≤ N) (cs : List Call) : (Call.progs E bp cs).Modest N :=
  (Call.takes_progs E bp hN cs).modest

/-- C88: goroutines with operations on group elements, -/
theorem C88_modest_group (N : Nat) (cs : List GCall) : (GCall.progs cs).Modest N := (GCall.takes_progs cs).modest

/-- C88: and goroutines that overwrite byte arrays again and again, for as long as the program runs. -/
theorem C88_modest_writer {α : Type} (a : Addr) (f : Bytes → Bytes) (hf : ∀ b, (f b).length = b.length) (r : Out α) (N n : Nat) :
    (n.repeat (fun p => (PG.update a fun | .bytes b => .bytes (f b) | v => v).bind fun _ => p) (.ret r : Prog α)).Modest N := by
  induction n with
  | zero => trivial
  | succ n ih =>
    refine ⟨fun v hv => ?_, fun v _ => ih⟩
    cases v with
    | bytes b => show (f b).length ≤ N; rw [hf]; exact hv
    | _ => exact hv

/-! ## Non-vacuity -/

/-- A memory with the base point, a key, a public key and a message, and a goroutine that overwrites the message. -/
example : ∃ h0 bp k pub mess, ∃ t : Nat → Prog Res, h0.Small 32 ∧ IsBase 0 h0 bp ∧ h0.get k = some (.bytes (List.replicate 32 7)) ∧
    h0.get mess = some (.bytes [3]) ∧ t 0 = Call.prog Env.toy bp (.sign ⟨some k, pub⟩ mess) ∧
    t 1 = (PG.update mess fun _ => .bytes [4]).bind (fun _ => .ret (.ok (.bool true))) ∧ (∀ j, j ≠ 0 → (t j).Modest 32) ∧
    Call.limit 32 (.sign ⟨some k, pub⟩ mess) = 2773 := by
  obtain ⟨h, bp, hb, hs⟩ := exists_small_base 32
  have f1 := Fr.push 0 h (.bytes (List.replicate 32 7))
  have f2 := Fr.push 0 (h.push 0 (.bytes (List.replicate 32 7))) (.bytes [3])
  have s1 : Val.Small 32 (.bytes (List.replicate 32 7)) := show (List.replicate 32 (7 : UInt8)).length ≤ 32 by decide
  have s2 : Val.Small 32 (.bytes [3]) := show [(3 : UInt8)].length ≤ 32 by decide
  refine ⟨(h.push 0 (.bytes (List.replicate 32 7))).push 0 (.bytes [3]), bp, h.fresh 0, h.fresh 0, (h.push 0 (.bytes (List.replicate 32 7))).fresh 0,
    fun j => if j = 0 then _ else _, (hs.push s1).push s2, (hb.grow f1).grow f2, f2.grow (PHeap.get_push_fresh _ _ _),
    PHeap.get_push_fresh _ _ _, if_pos rfl, if_neg (by decide), fun j hj => ?_, rfl⟩
  show (if j = 0 then _ else _ : Prog Res).Modest 32
  rw [if_neg hj]
  exact ⟨fun _ _ => show [(4 : UInt8)].length ≤ 32 by decide, fun _ _ => trivial⟩

end Ed

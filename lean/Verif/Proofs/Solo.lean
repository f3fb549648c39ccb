import Verif.Proofs.PTables

/-!
# Running one goroutine for a while

For schedules that break things: here a goroutine may use memory that others made.
-/

set_option autoImplicit false

namespace Ed
namespace Prog

variable {α β γ : Type} {g : Nat} {h : PHeap}

/-- As `wp`, without any condition on whose memory is used. -/
def wl (g : Nat) : PHeap → Prog α → (Out α → PHeap → Prop) → Prop
  | h, ret r, Q => Q r h
  | h, access a f k, Q => ∃ v, h.get a = some v ∧ wl g (h.set a (f v)) (k v) Q
  | h, alloc v k, Q => wl g (h.push g v) (k (h.fresh g)) Q
  | _, ask _ _ _, _ => False

theorem wl_of_wp {p : Prog α} {h : PHeap} {Q : Out α → PHeap → Prop} (hp : wp g h p Q) : wl g h p Q := by
  induction p generalizing h with
  | ret r => exact hp
  | access a f k ih =>
    obtain ⟨v, h1, -, h3⟩ := hp
    exact ⟨v, h1, ih v h3⟩
  | alloc v k ih => exact ih _ hp
  | ask s n k ih => exact hp.elim

theorem wl_mono {p : Prog α} {h : PHeap} {Q Q' : Out α → PHeap → Prop} (hp : wl g h p Q) (hq : ∀ r h', Q r h' → Q' r h') : wl g h p Q' := by
  induction p generalizing h with
  | ret r => exact hq _ _ hp
  | access a f k ih =>
    obtain ⟨v, h1, h3⟩ := hp
    exact ⟨v, h1, ih v h3⟩
  | alloc v k ih => exact ih _ hp
  | ask s n k ih => exact hp.elim

/-- The continuation after an outcome. -/
def afterL (g : Nat) (f : α → Prog β) (Q : Out β → PHeap → Prop) : Out α → PHeap → Prop
  | .ok a, h => wl g h (f a) Q
  | .err m, h => Q (.err m) h
  | .panic, h => Q .panic h

theorem wl_seq {p : Prog α} {f : α → Prog β} {R : Out α → PHeap → Prop} {Q : Out β → PHeap → Prop} (hp : wl g h p R)
    (hq : ∀ r h', R r h' → afterL g f Q r h') : wl g h (p.bind f) Q := by
  induction p generalizing h with
  | ret r => cases r <;> exact hq _ _ hp
  | access a u k ih =>
    obtain ⟨v, h1, h3⟩ := hp
    exact ⟨v, h1, ih v h3⟩
  | alloc v k ih => exact ih _ hp
  | ask s n k ih => exact hp.elim

theorem wl_load {a : Addr} {v : Val} {f : Val → Prog β} {Q : Out β → PHeap → Prop} (hv : h.get a = some v) (hq : wl g h (f v) Q) :
    wl g h ((PG.load a).bind f) Q := by
  refine ⟨v, hv, ?_⟩
  rw [id, PHeap.set_self hv]
  exact hq

theorem wl_loadObj {a : Addr} {o : PObj} {f : PObj → Prog β} {Q : Out β → PHeap → Prop} (hv : h.get a = some (.obj o))
    (hq : wl g h (f o) Q) : wl g h ((PG.loadObj a).bind f) Q := wl_load hv hq

theorem wl_loadFE {a : Addr} {v : FE} {f : FE → Prog β} {Q : Out β → PHeap → Prop} (hv : h.get a = some (.fe v))
    (hq : wl g h (f v) Q) : wl g h ((PG.loadFE a).bind f) Q := wl_load hv hq

theorem wl_loadArr {a : Addr} {l : List (Option Addr)} {f : List (Option Addr) → Prog β} {Q : Out β → PHeap → Prop} (hv : h.get a = some (.arr l))
    (hq : wl g h (f l) Q) : wl g h ((PG.loadArr (some a)).bind f) Q := wl_load hv hq

theorem wl_loadEntry {a : Addr} {l : List (Option Addr)} {i : Nat} {e : Option Addr} {f : Option Addr → Prog β}
    {Q : Out β → PHeap → Prop} (hv : h.get a = some (.arr l)) (he : l[i]? = some e) (hq : wl g h (f e) Q) :
    wl g h ((PG.loadEntry (some a) i).bind f) Q := by
  unfold PG.loadEntry
  simp only [bind_eq]
  rw [bind_bind]
  refine wl_loadArr hv ?_
  have : Out.index l i = .ok e := by unfold Out.index; rw [he]; rfl
  rw [this]
  exact hq

theorem wl_new {v : Val} {f : Addr → Prog β} {Q : Out β → PHeap → Prop}
    (hq : ∀ a h', PG.Fr g PG.Nothing h h' → a.region = g → h.get a = none → h'.get a = some v → wl g h' (f a) Q) :
    wl g h ((PG.new v).bind f) Q := by
  refine hq (h.fresh g) (h.push g v) (PG.Fr.push g h v) rfl ?_ (PHeap.get_push_fresh h g v)
  unfold PHeap.get PHeap.fresh; simp

theorem wl_update {a : Addr} {v : Val} {u : Val → Val} {f : Unit → Prog β} {Q : Out β → PHeap → Prop} (hv : h.get a = some v)
    (hq : ∀ h', (∀ x, x ≠ a → h'.get x = h.get x) → h'.get a = some (u v) → wl g h' (f ()) Q) : wl g h ((PG.update a u).bind f) Q :=
  ⟨v, hv, hq _ (fun _ hx => PHeap.get_set_ne (Ne.symm hx)) (PHeap.get_set_self hv)⟩

theorem alone_of_wl {p : Prog α} {h : PHeap} (w : World) {Q : Out α → PHeap → Prop} (hp : wl g h p Q) :
    Q (alone g h w p).1 (alone g h w p).2.1 := by
  induction p generalizing h with
  | ret r => exact hp
  | access a f k ih =>
    obtain ⟨v, h1, h3⟩ := hp
    simp only [alone, h1]
    exact ih v h3
  | alloc v k ih => exact ih _ hp
  | ask s n k ih => exact hp.elim

/-- What remains to do after an outcome. -/
def cont (f : α → Prog β) : Out α → Prog β
  | .ok a => f a
  | .err m => ret (.err m)
  | .panic => ret .panic

end Prog

namespace Pool
open Prog
variable {α β : Type}

theorem run_cons (p : Pool α) (i : Nat) (l : List Nat) : p.run (i :: l) = (p.step i).run l := rfl

theorem run_append (p : Pool α) (l l' : List Nat) : p.run (l ++ l') = (p.run l).run l' := List.foldl_append

/-- Goroutine `i` makes its next actions up to the end of the first part of its program. -/
theorem solo (q : Prog β) (f : β → Prog α) (i : Nat) : ∀ (p : Pool α) (Q : Out β → PHeap → Prop), p.thread i = q.bind f →
    wl (i + 1) p.st.heap q Q →
    ∃ m r, Q r (p.run (List.replicate m i)).st.heap ∧ (p.run (List.replicate m i)).thread i = cont f r ∧
      (∀ j, j ≠ i → (p.run (List.replicate m i)).thread j = p.thread j) := by
  induction q with
  | ret r =>
    intro p Q ht hq
    refine ⟨0, r, hq, ?_, fun _ _ => rfl⟩
    show p.thread i = _
    rw [ht]; cases r <;> rfl
  | access a u k ih =>
    intro p Q ht hq
    obtain ⟨v, h1, h2⟩ := hq
    have hs : (p.thread i).step (i + 1) p.st = ({ p.st with heap := p.st.heap.set a (u v) }, (k v).bind f) := by
      rw [ht]; simp only [Prog.bind, Prog.step, h1]
    obtain ⟨m, r, k1, k2, k3⟩ := ih v (p.step i) Q (by unfold Pool.step; dsimp only; rw [hs, if_pos rfl])
      (by unfold Pool.step; dsimp only; rw [hs]; exact h2)
    refine ⟨m + 1, r, k1, k2, fun j hj => (k3 j hj).trans ?_⟩
    unfold Pool.step; dsimp only; rw [if_neg hj]
  | alloc v k ih =>
    intro p Q ht hq
    have hs : (p.thread i).step (i + 1) p.st = ({ p.st with heap := p.st.heap.push (i + 1) v }, (k (p.st.heap.fresh (i + 1))).bind f) := by
      rw [ht]; rfl
    obtain ⟨m, r, k1, k2, k3⟩ := ih (p.st.heap.fresh (i + 1)) (p.step i) Q (by unfold Pool.step; dsimp only; rw [hs, if_pos rfl])
      (by unfold Pool.step; dsimp only; rw [hs]; exact hq)
    refine ⟨m + 1, r, k1, k2, fun j hj => (k3 j hj).trans ?_⟩
    unfold Pool.step; dsimp only; rw [if_neg hj]
  | ask s n k ih => intro p Q _ hq; exact hq.elim

/-- Goroutine `i` runs to its end. -/
theorem solo_end (i : Nat) (p : Pool α) (Q : Out α → PHeap → Prop) (hq : wl (i + 1) p.st.heap (p.thread i) Q) :
    ∃ m r, Q r (p.run (List.replicate m i)).st.heap ∧ (p.run (List.replicate m i)).thread i = .ret r := by
  obtain ⟨m, r, k1, k2, -⟩ := solo (p.thread i) (fun a => .ret (.ok a)) i p Q (bind_ret _).symm hq
  refine ⟨m, r, k1, ?_⟩
  rw [k2]; cases r <;> rfl

end Pool
end Ed

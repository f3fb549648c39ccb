import Verif.Model.Conc
import Mathlib.Tactic.Common
import Mathlib.Logic.Basic

/-!
# Goroutines that write only to their own memory do not influence each other
-/

set_option autoImplicit false

namespace Ed

namespace PHeap

theorem get_set_self {h : PHeap} {a : Addr} {v w : Val} (hv : h.get a = some v) : (h.set a w).get a = some w := by
  unfold get at *
  unfold set
  rw [if_pos rfl]
  obtain ⟨hl, -⟩ := List.getElem?_eq_some_iff.1 hv
  rw [List.getElem?_set_self hl]

theorem get_set_ne {h : PHeap} {a b : Addr} {w : Val} (hne : a ≠ b) : (h.set a w).get b = h.get b := by
  unfold get set
  split
  · rename_i hr
    rw [hr, List.getElem?_set_ne]
    intro hi
    apply hne
    cases a; cases b; simp_all
  · rfl

theorem set_self {h : PHeap} {a : Addr} {v : Val} (hv : h.get a = some v) : h.set a v = h := by
  funext r
  unfold get at hv
  unfold set
  split
  · rename_i hr
    subst hr
    obtain ⟨hl, he⟩ := List.getElem?_eq_some_iff.1 hv
    rw [← he]; exact List.set_getElem_self _
  · rfl

theorem set_other {h : PHeap} {a : Addr} {v : Val} {r : Nat} (hr : r ≠ a.region) : h.set a v r = h r := by
  unfold set; rw [if_neg hr]

theorem push_other {h : PHeap} {g : Nat} {v : Val} {r : Nat} (hr : r ≠ g) : h.push g v r = h r := by
  unfold push; rw [if_neg hr]

theorem get_push {h : PHeap} {g : Nat} {v w : Val} {a : Addr} (hv : h.get a = some w) : (h.push g v).get a = some w := by
  unfold get at *
  unfold push
  split
  · obtain ⟨hl, -⟩ := List.getElem?_eq_some_iff.1 hv
    rw [List.getElem?_append_left hl]; exact hv
  · exact hv

theorem get_push_fresh (h : PHeap) (g : Nat) (v : Val) : (h.push g v).get (h.fresh g) = some v := by
  unfold get push fresh
  simp

theorem fresh_ne {h : PHeap} {g : Nat} {a : Addr} {v : Val} (hv : h.get a = some v) : a ≠ h.fresh g := by
  intro e
  subst e
  unfold get fresh at hv
  simp at hv

end PHeap

namespace Prog

variable {α β : Type}

@[simp] theorem pure_eq (a : α) : (pure a : Prog α) = ret (.ok a) := rfl
@[simp] theorem bind_eq (p : Prog α) (f : α → Prog β) : (p >>= f) = p.bind f := rfl

/-- From memory `h` goroutine region `g` runs without `Read` calls and without meeting an address that does not exist, changes only its own
region, and ends with an outcome and a memory that satisfy `Q`. -/
def wp (g : Nat) : PHeap → Prog α → (Out α → PHeap → Prop) → Prop
  | h, ret r, Q => Q r h
  | h, access a f k, Q => ∃ v, h.get a = some v ∧ (a.region = g ∨ (a.region = 0 ∧ f = id)) ∧ wp g (h.set a (f v)) (k v) Q
  | h, alloc v k, Q => wp g (h.push g v) (k (h.fresh g)) Q
  | _, ask _ _ _, _ => False

/-- The same with `Read` calls on the readers `w`. -/
def wpW (g : Nat) : PHeap → World → Prog α → (Out α → PHeap → World → Prop) → Prop
  | h, w, ret r, Q => Q r h w
  | h, w, access a f k, Q => ∃ v, h.get a = some v ∧ (a.region = g ∨ (a.region = 0 ∧ f = id)) ∧ wpW g (h.set a (f v)) w (k v) Q
  | h, w, alloc v k, Q => wpW g (h.push g v) w (k (h.fresh g)) Q
  | h, w, ask s n k, Q => wpW g h (w.put s (readOnce (w s) (n + 1)).2) (k (readOnce (w s) (n + 1)).1) Q

theorem wpW_of_wp {g : Nat} {p : Prog α} {h : PHeap} {w : World} {Q : Out α → PHeap → Prop} (hp : wp g h p Q) :
    wpW g h w p fun r h' w' => Q r h' ∧ w' = w := by
  induction p generalizing h with
  | ret r => exact ⟨hp, rfl⟩
  | access a f k ih =>
    obtain ⟨v, h1, h2, h3⟩ := hp
    exact ⟨v, h1, h2, ih v h3⟩
  | alloc v k ih => exact ih _ hp
  | ask s n k ih => exact hp.elim

theorem wpW_mono {g : Nat} {p : Prog α} {h : PHeap} {w : World} {Q Q' : Out α → PHeap → World → Prop} (hp : wpW g h w p Q)
    (hq : ∀ r h' w', Q r h' w' → Q' r h' w') : wpW g h w p Q' := by
  induction p generalizing h w with
  | ret r => exact hq _ _ _ hp
  | access a f k ih =>
    obtain ⟨v, h1, h2, h3⟩ := hp
    exact ⟨v, h1, h2, ih v h3⟩
  | alloc v k ih => exact ih _ hp
  | ask s n k ih => exact ih _ hp

/-- The continuation after an outcome. -/
def afterW (g : Nat) (f : α → Prog β) (Q : Out β → PHeap → World → Prop) : Out α → PHeap → World → Prop
  | .ok a, h, w => wpW g h w (f a) Q
  | .err m, h, w => Q (.err m) h w
  | .panic, h, w => Q .panic h w

theorem wpW_bind {g : Nat} {p : Prog α} {f : α → Prog β} {h : PHeap} {w : World} {Q : Out β → PHeap → World → Prop}
    (hp : wpW g h w p (afterW g f Q)) : wpW g h w (p.bind f) Q := by
  induction p generalizing h w with
  | ret r => cases r <;> exact hp
  | access a u k ih =>
    obtain ⟨v, h1, h2, h3⟩ := hp
    exact ⟨v, h1, h2, ih v h3⟩
  | alloc v k ih => exact ih _ hp
  | ask s n k ih => exact ih _ hp

theorem wpW_catch {g : Nat} {p : Prog α} {h : PHeap} {w : World} {Q : Out (Out α) → PHeap → World → Prop}
    (hp : wpW g h w p fun r h' w' => Q (.ok r) h' w') : wpW g h w p.catch_ Q := by
  induction p generalizing h w with
  | ret r => exact hp
  | access a u k ih =>
    obtain ⟨v, h1, h2, h3⟩ := hp
    exact ⟨v, h1, h2, ih v h3⟩
  | alloc v k ih => exact ih _ hp
  | ask s n k ih => exact ih _ hp

theorem wp_mono {g : Nat} {p : Prog α} {h : PHeap} {Q Q' : Out α → PHeap → Prop} (hp : wp g h p Q)
    (hq : ∀ r h', Q r h' → Q' r h') : wp g h p Q' := by
  induction p generalizing h with
  | ret r => exact hq _ _ hp
  | access a f k ih =>
    obtain ⟨v, h1, h2, h3⟩ := hp
    exact ⟨v, h1, h2, ih v h3⟩
  | alloc v k ih => exact ih _ hp
  | ask s n k ih => exact hp.elim

/-- The continuation after an outcome. -/
def after (g : Nat) (f : α → Prog β) (Q : Out β → PHeap → Prop) : Out α → PHeap → Prop
  | .ok a, h => wp g h (f a) Q
  | .err m, h => Q (.err m) h
  | .panic, h => Q .panic h

theorem bind_bind {γ : Type} (p : Prog α) (f : α → Prog β) (k : β → Prog γ) : (p.bind f).bind k = p.bind fun a => (f a).bind k := by
  induction p with
  | ret r => cases r <;> rfl
  | access a u c ih => simp only [bind]; congr 1; funext v; exact ih v
  | alloc v c ih => simp only [bind]; congr 1; funext v; exact ih v
  | ask s n c ih => simp only [bind]; congr 1; funext v; exact ih v

theorem bind_ret (p : Prog α) : (p.bind fun a => ret (.ok a)) = p := by
  induction p with
  | ret r => cases r <;> rfl
  | access a u c ih => simp only [bind]; congr 1; funext v; exact ih v
  | alloc v c ih => simp only [bind]; congr 1; funext v; exact ih v
  | ask s n c ih => simp only [bind]; congr 1; funext v; exact ih v

theorem wp_bind {g : Nat} {p : Prog α} {f : α → Prog β} {h : PHeap} {Q : Out β → PHeap → Prop}
    (hp : wp g h p (after g f Q)) : wp g h (p.bind f) Q := by
  induction p generalizing h with
  | ret r => cases r <;> exact hp
  | access a u k ih =>
    obtain ⟨v, h1, h2, h3⟩ := hp
    exact ⟨v, h1, h2, ih v h3⟩
  | alloc v k ih => exact ih _ hp
  | ask s n k ih => exact hp.elim

theorem wp_catch {g : Nat} {p : Prog α} {h : PHeap} {Q : Out (Out α) → PHeap → Prop}
    (hp : wp g h p fun r h' => Q (.ok r) h') : wp g h p.catch_ Q := by
  induction p generalizing h with
  | ret r => exact hp
  | access a u k ih =>
    obtain ⟨v, h1, h2, h3⟩ := hp
    exact ⟨v, h1, h2, ih v h3⟩
  | alloc v k ih => exact ih _ hp
  | ask s n k ih => exact hp.elim

theorem wp_mapOut {g : Nat} {u : Out α → Out β} {p : Prog α} {h : PHeap} {Q : Out β → PHeap → Prop}
    (hp : wp g h p fun r h' => Q (u r) h') : wp g h (p.mapOut u) Q := by
  induction p generalizing h with
  | ret r => exact hp
  | access a f k ih =>
    obtain ⟨v, h1, h2, h3⟩ := hp
    exact ⟨v, h1, h2, ih v h3⟩
  | alloc v k ih => exact ih _ hp
  | ask s n k ih => exact hp.elim

/-- The goroutine is safe, see `wpW`, whatever its readers deliver. -/
def Safe (g : Nat) (h : PHeap) (p : Prog α) : Prop := ∀ w, wpW g h w p fun _ _ _ => True

theorem safe_of_wpW {g : Nat} {h : PHeap} {p : Prog α} {Q : World → Out α → PHeap → World → Prop} (hp : ∀ w, wpW g h w p (Q w)) :
    Safe g h p := fun w => wpW_mono (hp w) fun _ _ _ _ => trivial

/-- Alone, a program with `wpW` ends with `Q`. -/
theorem alone_of_wpW {g : Nat} {p : Prog α} {h : PHeap} {w : World} {Q : Out α → PHeap → World → Prop} (hp : wpW g h w p Q) :
    Q (alone g h w p).1 (alone g h w p).2.1 (alone g h w p).2.2 := by
  induction p generalizing h w with
  | ret r => exact hp
  | access a f k ih =>
    obtain ⟨v, h1, h2, h3⟩ := hp
    simp only [alone, h1]
    exact ih v h3
  | alloc v k ih => exact ih _ hp
  | ask s n k ih => exact ih _ hp

/-- Two memories that a goroutine of region `g` cannot distinguish. -/
def Agree (g : Nat) (h h' : PHeap) : Prop := h 0 = h' 0 ∧ h g = h' g

theorem Agree.get {g : Nat} {h h' : PHeap} (ha : Agree g h h') {a : Addr} (hr : a.region = g ∨ a.region = 0) : h.get a = h'.get a := by
  unfold PHeap.get
  rcases hr with e | e
  · rw [e, ha.2]
  · rw [e, ha.1]

theorem Agree.set {g : Nat} {h h' : PHeap} (ha : Agree g h h') (a : Addr) (v : Val) : Agree g (h.set a v) (h'.set a v) := by
  unfold Agree PHeap.set
  rw [ha.1, ha.2]; exact ⟨rfl, rfl⟩

theorem Agree.push {g : Nat} {h h' : PHeap} (ha : Agree g h h') (v : Val) : Agree g (h.push g v) (h'.push g v) := by
  unfold Agree PHeap.push
  rw [ha.1, ha.2]; exact ⟨rfl, rfl⟩

theorem Agree.fresh {g : Nat} {h h' : PHeap} (ha : Agree g h h') : h.fresh g = h'.fresh g := by
  unfold PHeap.fresh; rw [ha.2]

theorem region_of {g : Nat} {a : Addr} {P : Prop} (h : a.region = g ∨ (a.region = 0 ∧ P)) : a.region = g ∨ a.region = 0 :=
  h.imp id And.left

theorem Safe.agree {g : Nat} {p : Prog α} {h h' : PHeap} (ha : Agree g h h') (hp : Safe g h p) : Safe g h' p := by
  unfold Safe at *
  intro w
  specialize hp w
  induction p generalizing h h' w with
  | ret r => trivial
  | access a f k ih =>
    obtain ⟨v, h1, h2, h3⟩ := hp
    exact ⟨v, (ha.get (region_of h2)) ▸ h1, h2, ih v (ha.set a (f v)) _ h3⟩
  | alloc v k ih =>
    show wpW g (h'.push g v) w (k (h'.fresh g)) _
    rw [← ha.fresh]
    exact ih _ (ha.push v) _ hp
  | ask s n k ih => exact ih _ ha _ hp

/-- The outcome of a goroutine alone and its readers afterwards, without its memory. -/
def outcome (g : Nat) (h : PHeap) (w : World) (p : Prog α) : Out α × World := ((alone g h w p).1, (alone g h w p).2.2)

/-- The outcome alone depends only on region 0 and the own region. -/
theorem outcome_agree {g : Nat} {p : Prog α} {h h' : PHeap} {w : World} (ha : Agree g h h') (hp : Safe g h p) :
    outcome g h w p = outcome g h' w p := by
  unfold Safe at hp
  specialize hp w
  unfold outcome
  induction p generalizing h h' w with
  | ret r => rfl
  | access a f k ih =>
    obtain ⟨v, h1, h2, h3⟩ := hp
    have h1' : h'.get a = some v := (ha.get (region_of h2)) ▸ h1
    simp only [alone, h1, h1']
    exact ih v (ha.set a (f v)) h3
  | alloc v k ih =>
    simp only [alone]
    rw [← ha.fresh]
    exact ih _ (ha.push v) hp
  | ask s n k ih => exact ih _ ha hp

/-- The answer the next action gets, in front of the readers `w`. -/
def withAns (s : St) (w : World) : Prog α → World
  | .ask r n _ => w.put r (⟨(readOnce (s.world r) (n + 1)).1.1, (readOnce (s.world r) (n + 1)).1.2⟩ :: w r)
  | _ => w

/-- An answer has at most as many bytes as asked for, and is not empty. -/
theorem readOnce_ans (r : Reader) (n : Nat) :
    (readOnce r (n + 1)).1.1.length ≤ n + 1 ∧ ¬ ((readOnce r (n + 1)).1.1 = [] ∧ (readOnce r (n + 1)).1.2 = none) := by
  induction r with
  | nil => simp [readOnce]
  | cons e r ih =>
    unfold readOnce
    split
    · rename_i hl
      refine ⟨by rw [List.length_take]; omega, fun ⟨h, _⟩ => ?_⟩
      have := congrArg List.length h
      simp at this
      rw [this] at hl; simp at hl
    · split
      · exact ih
      · rename_i h1 h2
        exact ⟨by show e.data.length ≤ _; omega, h2⟩

/-- An answer can be given again. -/
theorem readOnce_again {x : Ans} {n : Nat} (h1 : x.1.length ≤ n + 1) (h2 : ¬ (x.1 = [] ∧ x.2 = none)) (r : Reader) :
    readOnce (⟨x.1, x.2⟩ :: r) (n + 1) = (x, r) := by
  unfold readOnce
  rw [if_neg (by simpa using h1), if_neg h2]

theorem put_self (w : World) (s : Nat) (r : Reader) : w.put s r s = r := if_pos rfl

theorem put_put (w : World) (s : Nat) (r r' : Reader) : (w.put s r).put s r' = w.put s r' := by
  funext i; unfold World.put; split <;> rfl

theorem put_same (w : World) (s : Nat) : w.put s (w s) = w := by
  funext i; unfold World.put; split
  · rename_i h; rw [h]
  · rfl

/-- Effects of one action of a safe goroutine: other regions are unchanged, the rest is safe, and the outcome alone is that of the rest. -/
theorem step_safe {g : Nat} {p : Prog α} {s : St} (hp : Safe g s.heap p) :
    (∀ r, r ≠ g → (p.step g s).1.heap r = s.heap r) ∧ Safe g (p.step g s).1.heap (p.step g s).2 ∧
    ∀ w, outcome g (p.step g s).1.heap w (p.step g s).2 = outcome g s.heap (p.withAns s w) p := by
  unfold Safe at *
  cases p with
  | ret r => exact ⟨fun _ _ => rfl, fun _ => trivial, fun _ => rfl⟩
  | access a f k =>
    obtain ⟨v, h1, h2, -⟩ := hp fun _ => []
    have h3 : ∀ w, wpW g (s.heap.set a (f v)) w (k v) fun _ _ _ => True := fun w => by
      obtain ⟨v', h1', -, h3⟩ := hp w
      rw [h1] at h1'; cases h1'; exact h3
    simp only [step, h1]
    refine ⟨fun r hr => ?_, h3, fun w => ?_⟩
    · rcases h2 with e | ⟨-, e⟩
      · exact PHeap.set_other (by rw [e]; exact hr)
      · rw [e, id, PHeap.set_self h1]
    · simp only [outcome, withAns, alone, h1]
  | alloc v k =>
    refine ⟨fun r hr => PHeap.push_other hr, hp, fun w => rfl⟩
  | ask r n k =>
    obtain ⟨a1, a2⟩ := readOnce_ans (s.world r) n
    refine ⟨fun _ _ => rfl, fun w => ?_, fun w => ?_⟩
    · have := hp (w.put r (⟨(readOnce (s.world r) (n + 1)).1.1, (readOnce (s.world r) (n + 1)).1.2⟩ :: w r))
      simp only [wpW, put_self, readOnce_again a1 a2, put_put, put_same] at this
      exact this
    · simp only [outcome, withAns, alone, put_self, readOnce_again a1 a2, put_put, put_same]
      rfl

end Prog

namespace Pool

variable {α : Type}
open Prog

/-- Readers that first give the answers of `w` and then those of `w'`. -/
def andThen (w w' : World) : World := fun s => w s ++ w' s

/-- What holds of goroutine `i` at every moment. -/
def Inv (h0 : PHeap) (t0 : Nat → Prog α) (p : Pool α) : Prop :=
  p.st.heap 0 = h0 0 ∧ ∀ i, Safe (i + 1) p.st.heap (p.thread i) ∧
    ∀ w, outcome (i + 1) p.st.heap w (p.thread i) = outcome (i + 1) h0 (andThen (p.got i) w) (t0 i)

theorem got_step (p : Pool α) (i j : Nat) (w : World) :
    andThen ((p.step i).got j) w = andThen (p.got j) (if j = i then (p.thread i).withAns p.st w else w) := by
  funext s
  unfold andThen got step
  dsimp only
  rw [List.filter_append, List.map_append, List.append_assoc]
  congr 1
  cases p.thread i with
  | ask r n k =>
    by_cases h : j = i
    · subst h
      rw [if_pos rfl]
      by_cases hs : s = r
      · subst hs; simp [call, withAns, World.put]
      · have : (r == s) = false := by simp; exact fun e => hs e.symm
        simp [call, withAns, World.put, hs, this]
    · rw [if_neg h]
      have : (i == j) = false := by simp; exact fun e => h e.symm
      simp [call, this]
  | _ => simp [call, withAns]

theorem Inv.step {h0 : PHeap} {t0 : Nat → Prog α} {p : Pool α} (hp : Inv h0 t0 p) (i : Nat) : Inv h0 t0 (p.step i) := by
  obtain ⟨h1, h2⟩ := hp
  obtain ⟨s1, s2, s3⟩ := step_safe (h2 i).1
  have hheap : (p.step i).st.heap = ((p.thread i).step (i + 1) p.st).1.heap := rfl
  refine ⟨?_, fun j => ?_⟩
  · rw [hheap, s1 0 (by omega), h1]
  · by_cases hj : j = i
    · subst hj
      have ht : (p.step j).thread j = ((p.thread j).step (j + 1) p.st).2 := if_pos rfl
      rw [ht, hheap]
      refine ⟨s2, fun w => ?_⟩
      rw [s3, (h2 j).2, got_step, if_pos rfl]
    · have ht : (p.step i).thread j = p.thread j := if_neg hj
      have ha : Agree (j + 1) p.st.heap (p.step i).st.heap := by
        rw [hheap]
        exact ⟨(s1 0 (by omega)).symm, (s1 (j + 1) (by omega)).symm⟩
      rw [ht]
      refine ⟨(h2 j).1.agree ha, fun w => ?_⟩
      rw [got_step, if_neg hj, ← (h2 j).2]
      exact (outcome_agree ha (h2 j).1).symm

theorem Inv.run {h0 : PHeap} {t0 : Nat → Prog α} {p : Pool α} (hp : Inv h0 t0 p) (sched : List Nat) : Inv h0 t0 (p.run sched) := by
  unfold Pool.run
  induction sched generalizing p with
  | nil => exact hp
  | cons i is ih => exact ih (hp.step i)

theorem inv_start {h0 : PHeap} {w : World} {t0 : Nat → Prog α} (hs : ∀ i, Safe (i + 1) h0 (t0 i)) : Inv h0 t0 (Pool.start h0 w t0) :=
  ⟨rfl, fun i => ⟨hs i, fun _ => rfl⟩⟩

/-- Safe goroutines: at every moment of every schedule the initial memory is unchanged, and a goroutine that has finished has the outcome it
has alone with the answers it got from its readers, all of which it used. -/
theorem noninterference {h0 : PHeap} {w : World} {t0 : Nat → Prog α} (hs : ∀ i, Safe (i + 1) h0 (t0 i)) (sched : List Nat) :
    ((Pool.start h0 w t0).run sched).st.heap 0 = h0 0 ∧
    ∀ i r, ((Pool.start h0 w t0).run sched).thread i = .ret r →
      outcome (i + 1) h0 (((Pool.start h0 w t0).run sched).got i) (t0 i) = (r, fun _ => []) := by
  have hi := (inv_start (w := w) hs).run sched
  refine ⟨hi.1, fun i r hr => ?_⟩
  have h := (hi.2 i).2 fun _ => []
  have hw : ∀ w : World, andThen w (fun _ => []) = w := fun w => by funext s; simp [andThen]
  rw [hr, hw] at h
  exact h.symm

/-- The readers at every moment: the calls in the log, in order, gave the logged answers. -/
def replay : World → List (Nat × Nat × Nat × Ans) → Option World
  | w, [] => some w
  | w, (_, r, n, x) :: l =>
    if (readOnce (w r) n).1 = x then replay (w.put r (readOnce (w r) n).2) l else none

theorem replay_append (w : World) (l l' : List (Nat × Nat × Nat × Ans)) :
    replay w (l ++ l') = (replay w l).bind fun w => replay w l' := by
  induction l generalizing w with
  | nil => rfl
  | cons e l ih =>
    obtain ⟨i, r, n, x⟩ := e
    simp only [List.cons_append, replay]
    split
    · exact ih _
    · rfl

theorem replay_step {w0 : World} {p : Pool α} (hp : replay w0 p.log = some p.st.world) (i : Nat) :
    replay w0 (p.step i).log = some (p.step i).st.world := by
  unfold step
  dsimp only
  rw [replay_append, hp, Option.bind_some]
  cases p.thread i with
  | ret r => rfl
  | access a f k =>
    simp only [call, replay, Prog.step]
    split <;> rfl
  | alloc v k => rfl
  | ask r n k => simp [call, replay, Prog.step]

theorem replay_run (h0 : PHeap) (w : World) (t0 : Nat → Prog α) (sched : List Nat) :
    replay w ((Pool.start h0 w t0).run sched).log = some ((Pool.start h0 w t0).run sched).st.world := by
  have : ∀ (p : Pool α), replay w p.log = some p.st.world → replay w (p.run sched).log = some (p.run sched).st.world := by
    unfold Pool.run
    induction sched with
    | nil => exact fun p hp => hp
    | cons i is ih => exact fun p hp => ih _ (replay_step hp i)
  exact this _ rfl

/-- The state after the first `n` actions of an infinite schedule. -/
def runN (p : Pool α) (sched : Nat → Nat) : Nat → Pool α
  | 0 => p
  | n + 1 => (p.runN sched n).step (sched n)

theorem turn (p : Pool α) (sched : Nat → Nat) (i : Nat) (hf : ∀ n, ∃ m, n ≤ m ∧ sched m = i) (q : Prog α) (n : Nat)
    (hn : (p.runN sched n).thread i = q) :
    ∃ m, (p.runN sched m).thread i = q ∧ (p.runN sched (m + 1)).thread i = (q.step (i + 1) (p.runN sched m).st).2 := by
  obtain ⟨m, h1, h2⟩ := hf n
  obtain ⟨m, h2, h3⟩ : ∃ m, sched m = i ∧ (p.runN sched m).thread i = q := by
    induction h : m - n generalizing n with
    | zero => exact ⟨m, h2, by rwa [show m = n by omega]⟩
    | succ d ihd =>
      by_cases hs : sched n = i
      · exact ⟨n, hs, hn⟩
      · exact ihd (n + 1) (by
          show (if i = sched n then _ else _) = _
          rw [if_neg (fun e => hs e.symm)]; exact hn) (by omega) (by omega)
  refine ⟨m, h3, ?_⟩
  show (if i = sched m then (((p.runN sched m).thread (sched m)).step (sched m + 1) (p.runN sched m).st).2 else _) = _
  rw [if_pos h2.symm, h2, h3]

/-- A goroutine that gets its turn again and again finishes. -/
theorem finishes (p : Pool α) (sched : Nat → Nat) (i : Nat) (hf : ∀ n, ∃ m, n ≤ m ∧ sched m = i) :
    ∃ n r, (p.runN sched n).thread i = .ret r := by
  have key : ∀ (q : Prog α) (n : Nat), (p.runN sched n).thread i = q → ∃ n r, (p.runN sched n).thread i = .ret r := by
    intro q
    induction q with
    | ret r => exact fun n hn => ⟨n, r, hn⟩
    | access a f k ih =>
      intro n hn
      obtain ⟨m, -, hs⟩ := turn p sched i hf _ n hn
      simp only [Prog.step] at hs
      split at hs
      · exact ih _ _ hs
      · exact ⟨_, _, hs⟩
    | alloc v k ih =>
      intro n hn
      obtain ⟨m, -, hs⟩ := turn p sched i hf _ n hn
      exact ih _ _ hs
    | ask r l k ih =>
      intro n hn
      obtain ⟨m, -, hs⟩ := turn p sched i hf _ n hn
      exact ih _ _ hs
  exact key _ 0 rfl

end Pool
end Ed

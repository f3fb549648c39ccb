import Verif.Proofs.Leak
import Verif.Spec.Interfere

/-!
# Running while argument arrays change
-/

set_option autoImplicit false

namespace Ed

/-- A pass that takes no time. -/
theorem Seen.now (c : Nat → Addr → Bytes) (a : Addr) (n : Nat) : Seen c a n n (c n a) :=
  ⟨le_refl _, ⟨n, le_refl _, le_refl _, rfl⟩, fun _ _ => ⟨n, le_refl _, le_refl _, rfl⟩⟩

/-- A pass that begins earlier. -/
theorem Seen.early {c : Nat → Addr → Bytes} {a : Addr} {m n n' : Nat} {v : Bytes} (h : Seen c a n n' v) (hm : m ≤ n) : Seen c a m n' v :=
  ⟨hm.trans h.le, h.length.imp fun _ k => ⟨hm.trans k.1, k.2⟩, fun i hi => (h.byte i hi).imp fun _ k => ⟨hm.trans k.1, k.2⟩⟩

/-- A pass over an array that does not change meanwhile. -/
theorem Seen.eq_on {c : Nat → Addr → Bytes} {a : Addr} {n n' : Nat} {v A : Bytes} (h : Seen c a n n' v)
    (hA : ∀ t, n ≤ t → t ≤ n' → c t a = A) : v = A := by
  obtain ⟨t, t1, t2, t3⟩ := h.length
  rw [hA t t1 t2] at t3
  refine List.ext_getElem? fun i => ?_
  by_cases hi : i < v.length
  · obtain ⟨u, u1, u2, u3⟩ := h.byte i hi
    rw [u3, hA u u1 u2]
  · rw [List.getElem?_eq_none (by omega), List.getElem?_eq_none (by omega)]

/-- A pass over an array that never changes. -/
theorem Seen.eq {c : Nat → Addr → Bytes} {a : Addr} {n n' N : Nat} {v A : Bytes} (h : Seen c a n n' v) (hn : n' ≤ N)
    (hA : ∀ t, t ≤ N → c t a = A) : v = A := h.eq_on fun t _ ht => hA t (ht.trans hn)

/-- A pass over an array that changes once. -/
theorem Seen.mixture {c : Nat → Addr → Bytes} {a : Addr} {n n' N n0 : Nat} {v m m' : Bytes} (h : Seen c a n n' v) (hn : n' ≤ N)
    (hm : ∀ t, t ≤ N → c t a = if t < n0 then m else m') : Mixture m m' v := by
  constructor
  · obtain ⟨t, -, t2, t3⟩ := h.length
    rw [hm t (t2.trans hn)] at t3
    split at t3
    · exact .inl t3
    · exact .inr t3
  · intro i hi
    obtain ⟨t, -, t2, t3⟩ := h.byte i hi
    rw [hm t (t2.trans hn)] at t3
    split at t3
    · exact .inl t3
    · exact .inr t3

theorem Mixture.self {m x : Bytes} (h : Mixture m m x) : x = m := by
  have hl : x.length = m.length := h.length.elim id id
  refine List.ext_getElem? fun i => ?_
  by_cases hi : i < x.length
  · exact (h.byte i hi).elim id id
  · rw [List.getElem?_eq_none (by omega), List.getElem?_eq_none (by omega)]

namespace Prog

variable {α β γ : Type} {args : List Addr} {obs : Nat → Addr → Bytes} {N g n : Nat} {h : PHeap}

/-- As `wp`, from time `n` on; reading one of the arrays `args` gives what it holds at some later time, according to `obs`.  Times end with
`N`.  Readers may answer anything. -/
def wpO (args : List Addr) (obs : Nat → Addr → Bytes) (N g : Nat) : Nat → PHeap → Prog α → (Out α → Nat → PHeap → Prop) → Prop
  | n, h, ret r, Q => Q r n h
  | n, h, access a f k, Q =>
    (∃ v, h.get a = some v ∧ (a.region = g ∨ (a.region = 0 ∧ f = id)) ∧ wpO args obs N g n (h.set a (f v)) (k v) Q) ∨
    (a ∈ args ∧ f = id ∧ ∀ n', n ≤ n' → n' ≤ N → (obs n' a).length = (obs 0 a).length →
      wpO args obs N g n' h (k (.bytes (obs n' a))) Q)
  | n, h, alloc v k, Q => wpO args obs N g n (h.push g v) (k (h.fresh g)) Q
  | n, h, ask _ m k, Q => ∀ x : Ans, x.1.length ≤ m + 1 → ¬ (x.1 = [] ∧ x.2 = none) → wpO args obs N g n h (k x) Q

theorem wpO_of_wp {p : Prog α} {h : PHeap} {Q : Out α → PHeap → Prop} (hp : wp g h p Q) :
    wpO args obs N g n h p fun r n' h' => Q r h' ∧ n' = n := by
  induction p generalizing h with
  | ret r => exact ⟨hp, rfl⟩
  | access a f k ih =>
    obtain ⟨v, h1, h2, h3⟩ := hp
    exact .inl ⟨v, h1, h2, ih v h3⟩
  | alloc v k ih => exact ih _ hp
  | ask s m k ih => exact hp.elim

theorem wpO_mono {p : Prog α} {h : PHeap} {Q Q' : Out α → Nat → PHeap → Prop} (hp : wpO args obs N g n h p Q)
    (hq : ∀ r n' h', Q r n' h' → Q' r n' h') : wpO args obs N g n h p Q' := by
  induction p generalizing h n with
  | ret r => exact hq _ _ _ hp
  | access a f k ih =>
    rcases hp with ⟨v, h1, h2, h3⟩ | ⟨h1, h2, h3⟩
    · exact .inl ⟨v, h1, h2, ih v h3⟩
    · exact .inr ⟨h1, h2, fun n' k1 k2 k3 => ih _ (h3 n' k1 k2 k3)⟩
  | alloc v k ih => exact ih _ hp
  | ask s m k ih => exact fun x hx hx' => ih x (hp x hx hx')

/-- The continuation after an outcome. -/
def afterO (args : List Addr) (obs : Nat → Addr → Bytes) (N g : Nat) (f : α → Prog β) (Q : Out β → Nat → PHeap → Prop) :
    Out α → Nat → PHeap → Prop
  | .ok a, n, h => wpO args obs N g n h (f a) Q
  | .err m, n, h => Q (.err m) n h
  | .panic, n, h => Q .panic n h

theorem wpO_bind {p : Prog α} {f : α → Prog β} {h : PHeap} {Q : Out β → Nat → PHeap → Prop}
    (hp : wpO args obs N g n h p (afterO args obs N g f Q)) : wpO args obs N g n h (p.bind f) Q := by
  induction p generalizing h n with
  | ret r => cases r <;> exact hp
  | access a u k ih =>
    rcases hp with ⟨v, h1, h2, h3⟩ | ⟨h1, h2, h3⟩
    · exact .inl ⟨v, h1, h2, ih v h3⟩
    · exact .inr ⟨h1, h2, fun n' k1 k2 k3 => ih _ (h3 n' k1 k2 k3)⟩
  | alloc v k ih => exact ih _ hp
  | ask s m k ih => exact fun x hx hx' => ih x (hp x hx hx')

theorem wpO_mapOut {u : Out α → Out β} {p : Prog α} {h : PHeap} {Q : Out β → Nat → PHeap → Prop}
    (hp : wpO args obs N g n h p fun r n' h' => Q (u r) n' h') : wpO args obs N g n h (p.mapOut u) Q := by
  induction p generalizing h n with
  | ret r => exact hp
  | access a f k ih =>
    rcases hp with ⟨v, h1, h2, h3⟩ | ⟨h1, h2, h3⟩
    · exact .inl ⟨v, h1, h2, ih v h3⟩
    · exact .inr ⟨h1, h2, fun n' k1 k2 k3 => ih _ (h3 n' k1 k2 k3)⟩
  | alloc v k ih => exact ih _ hp
  | ask s m k ih => exact fun x hx hx' => ih x (hp x hx hx')

theorem wpO_seq {p : Prog α} {f : α → Prog β} {R : Out α → PHeap → Prop} {Q : Out β → Nat → PHeap → Prop} (hp : wp g h p R)
    (hq : ∀ r h', R r h' → afterO args obs N g f Q r n h') : wpO args obs N g n h (p.bind f) Q :=
  wpO_bind (wpO_mono (wpO_of_wp hp) fun r n' h' k => by rw [k.2]; exact hq r h' k.1)

theorem wpO_loadRest {a : Addr} (ha : a ∈ args) {f : Bytes → Prog β} {Q : Out β → Nat → PHeap → Prop} {n0 : Nat} (h0 : n0 ≤ n)
    (hN : n ≤ N) (hq : ∀ v n', n0 ≤ n' → n' ≤ N → v.length = (obs 0 a).length →
      (∀ i, i < v.length → ∃ t, n0 ≤ t ∧ t ≤ n' ∧ v[i]? = (obs t a)[i]?) → wpO args obs N g n' h (f v) Q) :
    ∀ (k : Nat) (got : Bytes), got.length + k = (obs 0 a).length →
      (∀ i, i < got.length → ∃ t, n0 ≤ t ∧ t ≤ n ∧ got[i]? = (obs t a)[i]?) →
      wpO args obs N g n h ((PG.loadRest a k got).bind f) Q := by
  intro k
  induction k generalizing n with
  | zero => exact fun got e hb => hq got n h0 hN e hb
  | succ k ih =>
    intro got e hb
    show wpO args obs N g n h (((PG.loadByte a got.length).bind fun x => PG.loadRest a k (got ++ [x])).bind f) Q
    rw [bind_bind]
    refine .inr ⟨ha, rfl, fun n' k1 k2 k3 => ?_⟩
    have hlt : got.length < (obs n' a).length := by omega
    show wpO args obs N g n' h ((lift (Out.index (obs n' a) got.length)).bind fun x => (PG.loadRest a k (got ++ [x])).bind f) Q
    unfold Out.index
    rw [List.getElem?_eq_getElem hlt]
    refine ih (h0.trans k1) k2 (got ++ [(obs n' a)[got.length]]) (by simp; omega) fun i hi => ?_
    by_cases hi' : i < got.length
    · obtain ⟨t, t1, t2, t3⟩ := hb i hi'
      exact ⟨t, t1, t2.trans k1, by rw [List.getElem?_append_left hi', t3]⟩
    · have : i = got.length := by simp at hi; omega
      subst this
      exact ⟨n', h0.trans k1, le_refl _, by rw [List.getElem?_concat_length, List.getElem?_eq_getElem hlt]⟩

/-- A pass over an array that others may change meanwhile. -/
theorem wpO_read {a : Addr} (ha : a ∈ args) {f : Bytes → Prog β} {Q : Out β → Nat → PHeap → Prop}
    (hq : ∀ v n', n' ≤ N → Seen obs a n n' v → v.length = (obs 0 a).length → wpO args obs N g n' h (f v) Q) :
    wpO args obs N g n h ((PG.loadBytes a).bind f) Q := by
  refine .inr ⟨ha, rfl, fun n0 k1 k2 k3 => ?_⟩
  refine wpO_loadRest (n0 := n0) ha (le_refl _) k2 (fun v n' h1 h2 h3 h4 => ?_) _ [] (by simpa using k3) fun i hi => by simp at hi
  refine hq v n' h2 ⟨k1.trans h1, ⟨n0, k1, h1, h3.trans k3.symm⟩, fun i hi => ?_⟩ h3
  obtain ⟨t, t1, t2, t3⟩ := h4 i hi
  exact ⟨t, k1.trans t1, t2, t3⟩

theorem wpO_ok {p : Prog α} {x : α} {f : α → Prog β} {Q : Out β → Nat → PHeap → Prop} (hp : PG.RefV g h p (.ok x))
    (hf : ∀ h', PG.Fr g PG.Nothing h h' → wpO args obs N g n h' (f x) Q) : wpO args obs N g n h (p.bind f) Q :=
  wpO_seq hp fun r h' k => by rw [k.2]; exact hf h' k.1

theorem wpO_val {p : Prog α} {v : Out α} {f : α → Prog β} {Q : Out β → Nat → PHeap → Prop} (hp : PG.RefV g h p v)
    (hf : ∀ h', PG.Fr g PG.Nothing h h' → afterO args obs N g f Q v n h') : wpO args obs N g n h (p.bind f) Q :=
  wpO_seq hp fun r h' k => by rw [k.2]; exact hf h' k.1

theorem wpO_end {p : Prog α} {v : Out α} {Q : Out α → Nat → PHeap → Prop} (hp : PG.RefV g h p v)
    (hf : ∀ h', Q v n h') : wpO args obs N g n h p Q :=
  wpO_mono (wpO_of_wp hp) fun r n' h' k => by rw [k.2, k.1.2]; exact hf h'

theorem wpO_lift {r : Out α} {x : α} (hr : r = .ok x) {f : α → Prog β} {Q : Out β → Nat → PHeap → Prop}
    (hf : wpO args obs N g n h (f x) Q) : wpO args obs N g n h ((lift r).bind f) Q := by
  subst hr; exact hf

end Prog

namespace Pool
variable {α : Type}
open Prog

theorem at_zero (p : Pool α) (sched : List Nat) : p.at_ sched 0 = p := rfl

theorem at_length (p : Pool α) (sched : List Nat) : p.at_ sched sched.length = p.run sched := by
  unfold at_; rw [List.take_length]

theorem at_succ (p : Pool α) (sched : List Nat) {n j : Nat} (h : sched[n]? = some j) : p.at_ sched (n + 1) = (p.at_ sched n).step j := by
  unfold at_
  rw [List.take_add_one, h, Option.toList_some, run_append]
  rfl

/-- The arrays hold bytes of their initial lengths. -/
def Holds (h0 h : PHeap) (args : List Addr) : Prop :=
  ∀ a ∈ args, ∃ b, h.get a = some (.bytes b) ∧ b.length = (bytesAt h0 a).length

theorem bytesAt_of {h : PHeap} {a : Addr} {b : Bytes} (hb : h.get a = some (.bytes b)) : bytesAt h a = b := by
  unfold bytesAt; rw [hb]

/-- An action of goroutine `i` leaves the argument arrays as they are, and the rest of its program is as `wpO` says. -/
theorem own_step {h0 : PHeap} {i : Nat} {args : List Addr} {obs : Nat → Addr → Bytes} {N n m : Nat} {H : PHeap} {p : Pool α}
    {Q : Out α → Nat → PHeap → Prop} (hf : Foreign h0 i args) (k1 : Holds h0 p.st.heap args) (k2 : m ≤ n) (hn : n ≤ N)
    (k3 : Agree (i + 1) H p.st.heap) (k4 : wpO args obs N (i + 1) m H (p.thread i) Q)
    (hb : ∀ a ∈ args, obs n a = bytesAt p.st.heap a) (hobs : ∀ a ∈ args, obs 0 a = bytesAt h0 a) :
    (∀ a ∈ args, (p.step i).st.heap.get a = p.st.heap.get a) ∧
    ∃ m' H', m' ≤ n + 1 ∧ Agree (i + 1) H' (p.step i).st.heap ∧ wpO args obs N (i + 1) m' H' ((p.step i).thread i) Q := by
  have hst : (p.step i).st = ((p.thread i).step (i + 1) p.st).1 := rfl
  have hth : (p.step i).thread i = ((p.thread i).step (i + 1) p.st).2 := if_pos rfl
  rw [hst, hth]
  clear hst hth
  generalize p.thread i = q at *
  cases q with
  | ret r => exact ⟨fun _ _ => rfl, m, H, by omega, k3, k4⟩
  | access a f k =>
    rcases k4 with ⟨v, h1, h2, h3⟩ | ⟨h1, h2, h3⟩
    · have e : p.st.heap.get a = some v := (k3.get (region_of h2)) ▸ h1
      simp only [Prog.step, e]
      refine ⟨fun x hx => ?_, m, _, by omega, k3.set a (f v), h3⟩
      refine PHeap.get_set_ne fun e' => ?_
      subst e'
      rcases h2 with h2 | h2
      · exact (hf a hx).2.1 h2
      · exact (hf a hx).1 h2.1
    · obtain ⟨b, hb1, hb2⟩ := k1 a h1
      simp only [Prog.step, hb1, h2, id, PHeap.set_self hb1]
      refine ⟨fun _ _ => trivial, n, H, by omega, k3, ?_⟩
      have e := hb a h1
      rw [bytesAt_of hb1] at e
      rw [← e] at hb2 ⊢
      exact h3 n k2 hn (by rw [hb2, hobs a h1])
  | alloc v k =>
    refine ⟨fun x hx => ?_, m, _, by omega, k3.push v, ?_⟩
    · show (p.st.heap.push (i + 1) v).get x = _
      unfold PHeap.get
      rw [PHeap.push_other (hf x hx).2.1]
    · show wpO _ _ _ _ _ _ (k (p.st.heap.fresh (i + 1))) _
      rw [← k3.fresh]; exact k4
  | ask s c k =>
    obtain ⟨a1, a2⟩ := readOnce_ans (p.st.world s) c
    exact ⟨fun _ _ => rfl, m, H, by omega, k3, k4 _ a1 a2⟩

/-- What goroutine `i` is told that the arrays hold, when those in `fixed` are taken to stay as they are. -/
def told (h0 : PHeap) (w : World) (t : Nat → Prog α) (sched : List Nat) (fixed : List Addr) (n : Nat) (a : Addr) : Bytes :=
  if a ∈ fixed then bytesAt h0 a else (Pool.start h0 w t).bytes sched n a

/-- Goroutine `i` under interference: at every moment the rest of its program is as `wpO` says, and the arrays that no other goroutine
changes hold what they held. -/
theorem observe_inv {h0 : PHeap} {w : World} {t : Nat → Prog α} {i : Nat} {args fixed : List Addr} {sched : List Nat}
    {Q : Out α → Nat → PHeap → Prop} (hf : Foreign h0 i args) (hi : (Pool.start h0 w t).Interference i args sched)
    (hx : ∀ a ∈ fixed, a ∈ args ∧ (Pool.start h0 w t).LeftAlone i a sched)
    (hp : wpO args (told h0 w t sched fixed) sched.length (i + 1) 0 h0 (t i) Q) :
    ∀ n, n ≤ sched.length →
      (∀ a ∈ args, told h0 w t sched fixed n a = (Pool.start h0 w t).bytes sched n a) ∧
      Holds h0 ((Pool.start h0 w t).at_ sched n).st.heap args ∧
      ∃ m H, m ≤ n ∧ Agree (i + 1) H ((Pool.start h0 w t).at_ sched n).st.heap ∧
        wpO args (told h0 w t sched fixed) sched.length (i + 1) m H (((Pool.start h0 w t).at_ sched n).thread i) Q := by
  have told0 : ∀ a, told h0 w t sched fixed 0 a = bytesAt h0 a := fun a => by
    unfold told; split <;> rfl
  intro n
  induction n with
  | zero =>
    intro _
    refine ⟨fun a _ => told0 a, fun a ha => ?_, 0, h0, le_refl _, ⟨rfl, rfl⟩, hp⟩
    obtain ⟨b, hb⟩ := (hf a ha).2.2
    exact ⟨b, hb, by rw [bytesAt_of hb]⟩
  | succ n ih =>
    intro hn
    obtain ⟨k0, k1, m, H, k2, k3, k4⟩ := ih (by omega)
    obtain ⟨j, hj⟩ : ∃ j, sched[n]? = some j := ⟨_, List.getElem?_eq_getElem (by omega)⟩
    have hs := at_succ (Pool.start h0 w t) sched hj
    have next : (∀ a ∈ fixed, (Pool.start h0 w t).bytes sched (n + 1) a = (Pool.start h0 w t).bytes sched n a) →
        ∀ a ∈ args, told h0 w t sched fixed (n + 1) a = (Pool.start h0 w t).bytes sched (n + 1) a := by
      intro e a ha
      unfold told
      split
      · rename_i hm
        have := k0 a ha
        unfold told at this
        rw [if_pos hm] at this
        rw [this, e a hm]
      · rfl
    by_cases hji : j = i
    · subst hji
      obtain ⟨s1, m', H', s2, s3, s4⟩ := own_step hf k1 k2 (by omega : n ≤ sched.length) k3 k4 k0 fun a _ => told0 a
      rw [← hs] at s1 s3 s4
      refine ⟨next fun a ha => ?_, fun a ha => ?_, m', H', s2, s3, s4⟩
      · unfold bytes bytesAt
        rw [s1 a (hx a ha).1]
      · rw [s1 a ha]; exact k1 a ha
    · obtain ⟨i1, i2, i3⟩ := hi n j hj hji
      have hth : ((Pool.start h0 w t).at_ sched (n + 1)).thread i = ((Pool.start h0 w t).at_ sched n).thread i := by
        rw [hs]; exact if_neg (Ne.symm hji)
      rw [hth]
      refine ⟨next fun a ha => (hx a ha).2 n j hj hji, fun a ha => ?_, m, H, by omega, ⟨?_, ?_⟩, k4⟩
      · obtain ⟨b, b1, b2⟩ := k1 a ha
        obtain ⟨b', c1, c2⟩ := i3 a ha b b1
        exact ⟨b', c1, c2.trans b2⟩
      · rw [i1]; exact k3.1
      · rw [i2]; exact k3.2

/-- The arrays that no other goroutine changes hold what they held. -/
theorem stays {h0 : PHeap} {w : World} {t : Nat → Prog α} {i : Nat} {args fixed : List Addr} {sched : List Nat}
    {Q : Out α → Nat → PHeap → Prop} (hf : Foreign h0 i args) (hi : (Pool.start h0 w t).Interference i args sched)
    (hx : ∀ a ∈ fixed, a ∈ args ∧ (Pool.start h0 w t).LeftAlone i a sched)
    (hp : wpO args (told h0 w t sched fixed) sched.length (i + 1) 0 h0 (t i) Q) :
    ∀ a ∈ fixed, ∀ n, n ≤ sched.length → (Pool.start h0 w t).bytes sched n a = bytesAt h0 a := by
  intro a ha n hn
  rw [← (observe_inv hf hi hx hp n hn).1 a (hx a ha).1]
  exact if_pos ha

/-- The same for a call, whose result is only wrapped up. -/
theorem stays_call {β : Type} {h0 : PHeap} {w : World} {t : Nat → Prog α} {i : Nat} {args fixed : List Addr} {sched : List Nat}
    {q : Prog β} {u : β → α} {Q : Out β → Nat → PHeap → Prop} (ht : t i = q.bind fun b => .ret (.ok (u b)))
    (hf : Foreign h0 i args) (hi : (Pool.start h0 w t).Interference i args sched)
    (hx : ∀ a ∈ fixed, a ∈ args ∧ (Pool.start h0 w t).LeftAlone i a sched)
    (hp : wpO args (told h0 w t sched fixed) sched.length (i + 1) 0 h0 q Q) :
    ∀ a ∈ fixed, ∀ n, n ≤ sched.length → (Pool.start h0 w t).bytes sched n a = bytesAt h0 a := by
  refine stays (Q := fun _ _ _ => True) hf hi hx ?_
  rw [ht]
  refine wpO_bind (wpO_mono hp fun r n' h' _ => ?_)
  cases r <;> trivial

theorem told_nil (h0 : PHeap) (w : World) (t : Nat → Prog α) (sched : List Nat) : told h0 w t sched [] = (Pool.start h0 w t).bytes sched := by
  funext n a; exact if_neg List.not_mem_nil

theorem told_fixed {h0 : PHeap} {w : World} {t : Nat → Prog α} {sched : List Nat} {fixed : List Addr} {a : Addr} (ha : a ∈ fixed) (N : Nat) :
    ∀ n, n ≤ N → told h0 w t sched fixed n a = bytesAt h0 a := fun _ _ => if_pos ha

theorem told_zero (h0 : PHeap) (w : World) (t : Nat → Prog α) (sched : List Nat) (fixed : List Addr) (a : Addr) :
    told h0 w t sched fixed 0 a = bytesAt h0 a := by
  unfold told; split <;> rfl

/-- A goroutine that has finished under interference. -/
theorem observe {h0 : PHeap} {w : World} {t : Nat → Prog α} {i : Nat} {args : List Addr} {sched : List Nat}
    {Q : Out α → Nat → PHeap → Prop} (hf : Foreign h0 i args) (hi : (Pool.start h0 w t).Interference i args sched)
    (hp : wpO args ((Pool.start h0 w t).bytes sched) sched.length (i + 1) 0 h0 (t i) Q) {r : Out α}
    (hr : ((Pool.start h0 w t).run sched).thread i = .ret r) : ∃ m h', Q r m h' := by
  rw [← told_nil] at hp
  obtain ⟨-, -, m, H, -, -, k⟩ := observe_inv hf hi (fun a ha => absurd ha List.not_mem_nil) hp sched.length (le_refl _)
  rw [at_length, hr] at k
  exact ⟨m, H, k⟩

theorem observed {h0 : PHeap} {w : World} {t : Nat → Prog α} {i : Nat} {args : List Addr} {sched : List Nat}
    {R : Out α → Prop} (hf : Foreign h0 i args)
    (hi : (Pool.start h0 w t).Interference i args sched)
    (hp : wpO args ((Pool.start h0 w t).bytes sched) sched.length (i + 1) 0 h0 (t i) fun r _ _ => R r) :
    ∀ r, ((Pool.start h0 w t).run sched).thread i = .ret r → R r := by
  intro r hr
  obtain ⟨-, -, h⟩ := observe hf hi hp hr
  exact h

theorem at_past (p : Pool α) (sched : List Nat) {n : Nat} (h : sched[n]? = none) : p.at_ sched (n + 1) = p.at_ sched n := by
  unfold at_
  rw [List.take_add_one, h, Option.toList_none, List.append_nil]

theorem writer_step {args : List Addr} {p : Prog α} (g : Nat) (s : St) (hp : p.Writer args) : (p.step g s).2.Writer args := by
  cases p with
  | ret r => exact hp
  | access a f k =>
    cases h : s.heap.get a with
    | none => simp only [Prog.step, h]; trivial
    | some v => simp only [Prog.step, h]; exact hp.2 v
  | alloc v k => exact hp _
  | ask r n k => exact hp _

theorem writers_at {p : Pool α} {i : Nat} {args : List Addr} (hw : ∀ j, j ≠ i → (p.thread j).Writer args) (sched : List Nat) :
    ∀ n j, j ≠ i → ((p.at_ sched n).thread j).Writer args := by
  intro n
  induction n with
  | zero => exact hw
  | succ n ih =>
    intro j hj
    cases hs : sched[n]? with
    | none => rw [at_past p sched hs]; exact ih j hj
    | some j' =>
      rw [at_succ p sched hs]
      by_cases e : j = j'
      · subst e
        rw [show ((p.at_ sched n).step j).thread j = (((p.at_ sched n).thread j).step (j + 1) (p.at_ sched n).st).2 from if_pos rfl]
        exact writer_step _ _ (ih j hj)
      · rw [show ((p.at_ sched n).step j').thread j = (p.at_ sched n).thread j from if_neg e]
        exact ih j hj

theorem writers_interference {p : Pool α} {i : Nat} {args : List Addr} (ha : ∀ a ∈ args, a.region ≠ 0 ∧ a.region ≠ i + 1)
    (hw : ∀ j, j ≠ i → (p.thread j).Writer args) (sched : List Nat) : p.Interference i args sched := by
  intro n j hj hji
  rw [at_succ p sched hj]
  have hp := writers_at hw sched n j hji
  generalize p.at_ sched n = q at hp
  rw [show (q.step j).st = ((q.thread j).step (j + 1) q.st).1 from rfl]
  generalize q.thread j = u at hp
  cases u with
  | ret r => exact ⟨rfl, rfl, fun a _ b hb => ⟨b, hb, rfl⟩⟩
  | ask r n k => exact ⟨rfl, rfl, fun a _ b hb => ⟨b, hb, rfl⟩⟩
  | alloc v k =>
    simp only [Prog.step]
    exact ⟨PHeap.push_other (by omega), PHeap.push_other (by omega), fun a _ b hb => ⟨b, PHeap.get_push hb, rfl⟩⟩
  | access a f k =>
    cases hv : q.st.heap.get a with
    | none => simp only [Prog.step, hv]; exact ⟨trivial, trivial, fun a _ b hb => ⟨b, hb, rfl⟩⟩
    | some v =>
      simp only [Prog.step, hv]
      rcases hp.1 with rfl | ⟨h1, h2⟩
      · rw [id, PHeap.set_self hv]
        exact ⟨rfl, rfl, fun a _ b hb => ⟨b, hb, rfl⟩⟩
      · obtain ⟨r1, r2⟩ := ha a h1
        refine ⟨PHeap.set_other (Ne.symm r1), PHeap.set_other (Ne.symm r2), fun x hx b hb => ?_⟩
        by_cases e : x = a
        · subst e
          rw [hv] at hb
          cases hb
          obtain ⟨b', k1, k2⟩ := h2 b
          exact ⟨b', by rw [PHeap.get_set_self hv, k1], k2⟩
        · exact ⟨b, by rw [PHeap.get_set_ne (Ne.symm e)]; exact hb, rfl⟩

/-! ## Termination -/

theorem thread_step_ne (p : Pool α) {i j : Nat} (h : j ≠ i) : (p.step i).thread j = p.thread j := if_neg h

theorem thread_step_self (p : Pool α) (i : Nat) : (p.step i).thread i = ((p.thread i).step (i + 1) p.st).2 := if_pos rfl

theorem step_ret (p : Pool α) (i j : Nat) {r : Out α} (h : p.thread i = .ret r) : (p.step j).thread i = .ret r := by
  by_cases e : i = j
  · subst e; rw [thread_step_self, h]; rfl
  · rw [thread_step_ne p e, h]

/-- The state after `n` actions of an infinite schedule. -/
def after (p : Pool α) (sched : Nat → Nat) (n : Nat) : Pool α := p.run ((List.range n).map sched)

theorem after_succ (p : Pool α) (sched : Nat → Nat) (n : Nat) : p.after sched (n + 1) = (p.after sched n).step (sched n) := by
  unfold after
  rw [List.range_succ, List.map_append, run_append]
  rfl

theorem after_ret (p : Pool α) (sched : Nat → Nat) (i n : Nat) {r : Out α} (h : (p.after sched n).thread i = .ret r) :
    ∀ k, n ≤ k → (p.after sched k).thread i = .ret r := by
  intro k hk
  induction k with
  | zero => obtain rfl : n = 0 := by omega
            exact h
  | succ k ih =>
    by_cases e : n = k + 1
    · rw [← e]; exact h
    · rw [after_succ]; exact step_ret _ _ _ (ih (by omega))

/-- The next action of goroutine `i`. -/
theorem next (p : Pool α) (sched : Nat → Nat) (i : Nat) : ∀ d n, (∃ k, k = n + d ∧ sched k = i) →
    ∃ k, n ≤ k ∧ sched k = i ∧ (p.after sched k).thread i = (p.after sched n).thread i := by
  intro d
  induction d with
  | zero => intro n hk; obtain ⟨k, e, h⟩ := hk; exact ⟨n, le_refl _, by rw [e] at h; exact h, rfl⟩
  | succ d ih =>
    rintro n ⟨k, rfl, h⟩
    by_cases e : sched n = i
    · exact ⟨n, le_refl _, e, rfl⟩
    · obtain ⟨k, k1, k2, k3⟩ := ih (n + 1) ⟨_, by omega, h⟩
      refine ⟨k, by omega, k2, ?_⟩
      rw [k3, after_succ, thread_step_ne _ (Ne.symm e)]

theorem ends (p : Pool α) (i : Nat) (sched : Nat → Nat) (fair : ∀ n, ∃ k, n ≤ k ∧ sched k = i) :
    ∃ n r, ∀ k, n ≤ k → (p.run ((List.range k).map sched)).thread i = .ret r := by
  suffices H : ∀ (q : Prog α) n, (p.after sched n).thread i = q → ∃ n' r, (p.after sched n').thread i = .ret r by
    obtain ⟨n, r, h⟩ := H _ 0 rfl
    exact ⟨n, r, after_ret p sched i n h⟩
  intro q
  induction q with
  | ret r => exact fun n h => ⟨n, r, h⟩
  | access a f k ih =>
    intro n h
    obtain ⟨m, m1, m2⟩ := fair n
    obtain ⟨c, c1, c2, c3⟩ := next p sched i (m - n) n ⟨m, by omega, m2⟩
    have e : (p.after sched (c + 1)).thread i = ((access a f k).step (i + 1) (p.after sched c).st).2 := by
      rw [after_succ, c2, thread_step_self, c3, h]
    cases hv : (p.after sched c).st.heap.get a with
    | none => simp only [Prog.step, hv] at e; exact ⟨_, _, e⟩
    | some v => simp only [Prog.step, hv] at e; exact ih v _ e
  | alloc v k ih =>
    intro n h
    obtain ⟨m, m1, m2⟩ := fair n
    obtain ⟨c, c1, c2, c3⟩ := next p sched i (m - n) n ⟨m, by omega, m2⟩
    have e : (p.after sched (c + 1)).thread i = ((alloc v k).step (i + 1) (p.after sched c).st).2 := by
      rw [after_succ, c2, thread_step_self, c3, h]
    exact ih _ _ e
  | ask s l k ih =>
    intro n h
    obtain ⟨m, m1, m2⟩ := fair n
    obtain ⟨c, c1, c2, c3⟩ := next p sched i (m - n) n ⟨m, by omega, m2⟩
    have e : (p.after sched (c + 1)).thread i = ((ask s l k).step (i + 1) (p.after sched c).st).2 := by
      rw [after_succ, c2, thread_step_self, c3, h]
    exact ih _ _ e

end Pool

/-! ## The calls -/

/-- The response when the private key and the message change between their readings. -/
theorem mixedS_torn (E : Env) (sk A m m' : Bytes) : mixedS E sk m A m' sk = tornS E sk A m m' := rfl

namespace PG
open Prog

attribute [local irreducible] PG.doubleScalarMultiplyVariableTime PG.scalarMultiply multiplyAndAddModQ newSignature isCanonicalSignature

variable {E : Env} {args : List Addr} {obs : Nat → Addr → Bytes} {N g n : Nat} {h : PHeap}

theorem baseMul_refV {bp : Addr} (hb : IsBase g h bp) (s : Bytes) (hs : leVal s < 2 ^ 255) :
    RefV g h ((basePoint bp).bind fun b => (scalarMultiply b s).bind fun R => encode R) (.ok (encodePoint (leVal s • B))) := by
  obtain ⟨v, g1, g2, g3, g4, g5⟩ := basePoint_spec
  obtain ⟨x, x1, x2, x3⟩ := GE.scalarMultiply_spec g4 s hs
  have henc : x.encode = .ok (encodePoint (leVal s • B)) := GC.encode_repr (Or.inr (Or.inl x2)) x3
  have key := wp_basePoint (fv := fun v => v.scalarMultiply s >>= fun R => R.encode) hb
    (f := fun b => (scalarMultiply b s).bind fun R => encode R)
    fun b v h2 f2 k2 => by
      refine Ref.bindV (scalarMultiply_ref k2 _) fun R x h3 f3 k3 => ?_
      exact encode_ref k3
  rw [g1, Out.ok_bind, x1, Out.ok_bind, henc] at key
  exact key

theorem prepare_obs {k : Addr} (hk : k ∈ args) {β : Type} {f : Bytes → Prog β} {Q : Out β → Nat → PHeap → Prop}
    (hq : ∀ v n', n' ≤ N → Seen obs k n n' v → ∀ a, a.length = 32 → leVal a = secretScalar E v →
      Ed.prepareForScalarMultiply E (some (newPrivateKey v)) = .ok a → wpO args obs N g n' h (f a) Q) :
    wpO args obs N g n h ((prepareForScalarMultiply E (some k)).bind f) Q := by
  unfold prepareForScalarMultiply
  simp only [Prog.bind_eq, bind_bind]
  refine wpO_lift (x := k) rfl ?_
  refine wpO_read hk fun v n' k1 k2 _ => ?_
  obtain ⟨a, a1, a2, a3⟩ := prepare_spec E (newPrivateKey v)
  have e : a = clamp ((hashesSha3_512 E [v]).take 32) := (Out.ok.inj a1).symm
  have := hq v n' k1 k2 a a2 a3 a1
  rw [e] at this
  exact this

/-- What `Sign` returns under interference. -/
def SignOut (E : Env) (obs : Nat → Addr → Bytes) (n N : Nat) (k pub mess : Addr) (r : Out Signature) : Prop :=
  ∃ n1 n2 n3 n4 n5 sk1 m1 A m2 sk2, Seen obs k n n1 sk1 ∧ Seen obs mess n1 n2 m1 ∧ Seen obs pub n2 n3 A ∧ Seen obs mess n3 n4 m2 ∧
    Seen obs k n4 n5 sk2 ∧ n5 ≤ N ∧
    r = if LowBitsOk (mixedS E sk1 m1 A m2 sk2) then .ok ⟨sigR E sk1 m1, leBytes 32 (mixedS E sk1 m1 A m2 sk2)⟩
        else .err "Generated signature is not canonical"

theorem sign_obs {bp k pub mess : Addr} (hb : IsBase g h bp) (hk : k ∈ args) (hp : pub ∈ args) (hm : mess ∈ args) :
    wpO args obs N g n h (sign E bp (some k) pub mess) fun r _ _ => SignOut E obs n N k pub mess r := by
  unfold sign
  rw [if_neg (by simp)]
  simp only [Prog.bind_eq]
  refine wpO_lift (x := k) rfl ?_
  refine wpO_read hk fun sk1 n1 b1 a1 _ => ?_
  refine wpO_read hm fun m1 n2 b2 a2 _ => ?_
  have hr : modQ (Hash E ((Hash E sk1).drop 32 ++ m1)) = leBytes 32 (nonce E sk1 m1) := modQ_hash (Hash_length E _)
  have hrv : leVal (leBytes 32 (nonce E sk1 m1)) = nonce E sk1 m1 := leVal_leBytes_modL _
  simp only [hashes_flatten, List.flatten_cons, List.flatten_nil, List.append_nil]
  refine wpO_lift (newEncoded_64 (Hash_length E _)) ?_
  rw [hr]
  have hmul := baseMul_refV hb (leBytes 32 (nonce E sk1 m1)) (by rw [hrv]; exact modL_lt255 _)
  rw [hrv] at hmul
  change RefV g h _ (.ok (sigR E sk1 m1)) at hmul
  have key := @wpO_ok _ _ args obs N g n2 h _ _ (fun encodedR => (loadBytes pub).bind fun pubRaw => (loadBytes mess).bind fun m =>
    (lift (newEncodedFieldElement (Hash E (encodedR ++ (pubRaw ++ m))))).bind fun h =>
    (prepareForScalarMultiply E (some k)).bind fun a =>
    (lift (newSignature encodedR (multiplyAndAddModQ (modQ h) a (leBytes 32 (nonce E sk1 m1))))).bind fun signature =>
    if !isCanonicalSignature signature then lift (.err "Generated signature is not canonical") else .ret (.ok signature))
    (fun r _ _ => SignOut E obs n N k pub mess r) hmul ?_
  · simp only [bind_bind] at key
    exact key
  · intro h' f1
    refine wpO_read hp fun A n3 b3 a3 _ => ?_
    refine wpO_read hm fun m2 n4 b4 a4 _ => ?_
    refine wpO_lift (newEncoded_64 (Hash_length E _)) ?_
    refine prepare_obs hk fun sk2 n5 b5 a5 s s1 s2 _ => ?_
    have hh : modQ (Hash E (sigR E sk1 m1 ++ (A ++ m2))) = leBytes 32 (challenge E (sigR E sk1 m1) A m2) := by
      rw [← List.append_assoc]; exact modQ_hash (Hash_length E _)
    have hhv : leVal (leBytes 32 (challenge E (sigR E sk1 m1) A m2)) = challenge E (sigR E sk1 m1) A m2 :=
      leVal_leBytes_modL _
    have hS : multiplyAndAddModQ (leBytes 32 (challenge E (sigR E sk1 m1) A m2)) s (leBytes 32 (nonce E sk1 m1)) =
        leBytes 32 (mixedS E sk1 m1 A m2 sk2) := by
      rw [multiplyAndAddModQ_spec, hhv, hrv, s2]
      have c1 : challenge E (sigR E sk1 m1) A m2 < 2 ^ 255 := modL_lt255 _
      have c2 : nonce E sk1 m1 < 2 ^ 255 := modL_lt255 _
      have c3 := (secretScalar_bounds E sk2).2.1
      rw [Nat.mod_eq_of_lt (lt_trans c1 (by norm_num)), Nat.mod_eq_of_lt (lt_trans c2 (by norm_num)),
        Nat.mod_eq_of_lt (lt_trans c3 (by norm_num)), Nat.add_comm]
      rfl
    have hSv : leVal (leBytes 32 (mixedS E sk1 m1 A m2 sk2)) = mixedS E sk1 m1 A m2 sk2 := leVal_leBytes_modL _
    have hlR : (sigR E sk1 m1).length = 32 := encodePoint_length _
    have hsig : newSignature (sigR E sk1 m1) (leBytes 32 (mixedS E sk1 m1 A m2 sk2)) =
        .ok ⟨sigR E sk1 m1, leBytes 32 (mixedS E sk1 m1 A m2 sk2)⟩ := by
      unfold newSignature
      rw [if_neg (by rw [hlR, leBytes_length]; simp)]
    have hc : isCanonicalSignature ⟨sigR E sk1 m1, leBytes 32 (mixedS E sk1 m1 A m2 sk2)⟩ =
        decide (LowBitsOk (mixedS E sk1 m1 A m2 sk2)) := by
      rw [isCanonical_eq, hSv]
    rw [hh, hS]
    refine wpO_lift hsig ?_
    rw [hc]
    have fin : ∀ r : Out Signature, (r = if LowBitsOk (mixedS E sk1 m1 A m2 sk2) then
          .ok (⟨sigR E sk1 m1, leBytes 32 (mixedS E sk1 m1 A m2 sk2)⟩ : Signature)
        else .err "Generated signature is not canonical") → SignOut E obs n N k pub mess r := by
      intro r hr
      exact ⟨n1, n2, n3, n4, n5, sk1, m1, A, m2, sk2, a1, a2, a3, a4, a5, b5, hr⟩
    by_cases hl : LowBitsOk (mixedS E sk1 m1 A m2 sk2)
    · rw [decide_eq_true hl]
      exact fin _ (by rw [if_pos hl])
    · rw [decide_eq_false hl]
      exact fin _ (by rw [if_neg hl])

/-- Decoding a point and building a table of the new element. -/
theorem decodePre_wp {raw : Bytes} {pre : Addr → Prog Unit} {preV : GE → Out GE}
    (hpre : ∀ (h' : PHeap) (a : Addr) (v : GC), a.region = g → ShowsGE g h' a (GE.ofGC v) →
      wp g h' (pre a) fun r h'' => Fr g (fun x => x = a) h' h'' ∧ Mt (fun _ v' => ShowsGE g h'' a v') r (preV (GE.ofGC v))) :
    wp g h ((PG.decode raw).bind fun a => (pre a).bind fun _ => ret (.ok a)) fun r h' => Fr g Nothing h h' ∧
      Mt (fun a v' => ShowsGE g h' a v') r (GC.decode raw >>= fun A => preV (GE.ofGC A)) := by
  unfold PG.decode
  simp only [Prog.bind_eq]
  refine wp_bind ?_
  cases hd : GC.decode raw with
  | err m => exact ⟨Fr.refl _ _ _, rfl⟩
  | panic => exact ⟨Fr.refl _ _ _, rfl⟩
  | ok v =>
    refine wp_lift_ok rfl ?_
    rw [Out.ok_bind]
    have e : PG.newGC v = (PG.newGC v).bind fun a => ret (.ok a) := by
      unfold PG.newGC
      cases v.T <;> rfl
    rw [e]
    refine wp_newGC fun a h1 f1 a1 a2 a3 a4 => ?_
    show wp g h1 ((pre a).bind fun _ => ret (.ok a)) _
    refine wp_seq (hpre h1 a v a1 (a3.plain a4)) fun r h2 ⟨f2, k2⟩ => ?_
    have f12 : Fr g Nothing h h2 := f1.trans f2 (fun _ _ => id) fun x hx e => by subst e; exact hx a2
    cases hv : preV (GE.ofGC v) with
    | err m => rw [hv] at k2; cases (show r = _ from k2); exact ⟨f12, rfl⟩
    | panic => rw [hv] at k2; cases (show r = _ from k2); exact ⟨f12, rfl⟩
    | ok v' =>
      rw [hv] at k2
      obtain ⟨_, rfl, k3⟩ := k2
      exact ⟨f12, a, rfl, k3⟩

/-- A copy of the base point. -/
theorem basePoint_wp {bp : Addr} (hb : IsBase g h bp) {v : GE} (hv : Ed.basePoint = .ok v) :
    wp g h (basePoint bp) fun r h' => Fr g Nothing h h' ∧ ∃ b, r = .ok b ∧ ShowsGE g h' b v := by
  have := hb
  obtain ⟨v0, h1, h2⟩ := hb
  obtain ⟨v', h1', -, -, -, h3, -⟩ := getBasePoint_spec
  rw [h1] at h1'
  cases h1'
  have hv' : Ed.basePoint = .ok v0.copy := by unfold Ed.basePoint; rw [h1]; rfl
  rw [hv'] at hv
  obtain rfl : v0.copy = v := Out.ok.inj hv
  have key := wp_copyGE (f := fun b => ret (.ok b)) (Q := fun r h' => Fr g Nothing h h' ∧ ∃ b, r = .ok b ∧ ShowsGE g h' b v0.copy) h2
    (fun r hr => ?_) fun b h' f1 b1 b2 => ⟨f1, b, rfl, b2⟩
  · rw [bind_ret] at key; exact key
  obtain ⟨t, t1, t2, t3⟩ := h3
  rw [t1] at hr
  have hr : r ∈ t := hr
  obtain ⟨i, hi, rfl⟩ := List.getElem_of_mem hr
  obtain ⟨row, r1, r2, -⟩ := t3 i (by rw [← t2]; exact hi)
  rw [List.getElem?_eq_getElem hi] at r1
  cases r1; exact r2


theorem slideVal_signed (S : Bytes) : SignedVal S (slideVal S) := slideVal_naf S

/-- `Decode` of an array that stays the same. -/
theorem wpO_decodeAt {a : Addr} {A : Bytes} (ha : a ∈ args) (hA : ∀ n, n ≤ N → obs n a = A) {β : Type} {f : Addr → Prog β}
    {Q : Out β → Nat → PHeap → Prop} (hq : ∀ n', n ≤ n' → n' ≤ N → wpO args obs N g n' h ((PG.decode A).bind f) Q) :
    wpO args obs N g n h ((decodeAt a).bind f) Q := by
  unfold decodeAt
  simp only [Prog.bind_eq, bind_bind]
  simp only [decode_parts, bind_bind] at hq
  refine wpO_read ha fun v1 n1 b1 a1 _ => ?_
  rw [a1.eq b1 hA]
  cases hx : affineRoot A with
  | err m => have := hq n1 a1.le b1; rw [hx] at this; exact this
  | panic => have := hq n1 a1.le b1; rw [hx] at this; exact this
  | ok x =>
    refine wpO_lift rfl ?_
    refine wpO_read ha fun v2 n2 b2 a2 _ => ?_
    refine wpO_read ha fun v3 n3 b3 a3 _ => ?_
    have := hq n3 (a1.le.trans (a2.le.trans a3.le)) b3
    rw [hx] at this
    rw [a2.eq b2 hA, a3.eq b3 hA]
    exact this

/-- What `Verify` returns under interference, as a relation. -/
def VerifyOut (E : Env) (obs : Nat → Addr → Bytes) (n N : Nat) (A : Bytes) (mess sigR sigS : Addr) (r : Out Bool) : Prop :=
  ∃ n1 n2 n3 n4 n5 S1 R2 m3 S4 R5 s b, Seen obs sigS n n1 S1 ∧ Seen obs sigR n1 n2 R2 ∧ Seen obs mess n2 n3 m3 ∧ Seen obs sigS n3 n4 S4 ∧
    Seen obs sigR n4 n5 R5 ∧ n5 ≤ N ∧ SignedVal S4 s ∧ r = .ok b ∧ (b = true ↔ MixedAccepts E A S1 R2 m3 s R5)

set_option linter.constructorNameAsVariable false in
theorem verify_obs {bp pub mess sigR sigS : Addr} {A : Bytes} (hb : IsBase g h bp) (hp : pub ∈ args) (hm : mess ∈ args) (hr : sigR ∈ args)
    (hs : sigS ∈ args) (hA : ∀ n, n ≤ N → obs n pub = A) (lp : A.length = 32) (ls : (obs 0 sigS).length = 32) :
    wpO args obs N g n h (verify E bp pub mess sigR sigS) fun r _ _ => VerifyOut E obs n N A mess sigR sigS r := by
  unfold verify
  simp only [Prog.bind_eq]
  refine wpO_read hs fun S1 n1 b1 a1 l1 => ?_
  rw [ls] at l1
  rw [isCanonical_eq]
  by_cases hc : LowBitsOk (leVal S1)
  swap
  · rw [if_pos (by simp [hc])]
    refine ⟨n1, n1, n1, n1, n1, S1, _, _, _, _, _, false, a1, .now _ _ _, .now _ _ _, .now _ _ _, .now _ _ _, b1, slideVal_signed _, rfl,
      ⟨fun h => (Bool.false_ne_true h).elim, fun h => absurd h.1 hc⟩⟩
  rw [if_neg (by simp [hc])]
  refine wpO_read hp fun v2 n2 b2 a2 l2 => ?_
  rw [isEqualConstantTime_eq, a2.eq b2 hA]
  by_cases hz : A = List.replicate 32 0
  · rw [if_pos (by simp [hz])]
    refine ⟨n1, n2, n2, n2, n2, S1, _, _, _, _, _, false, a1, (Seen.now _ _ _).early a2.le, .now _ _ _, .now _ _ _, .now _ _ _, b2,
      slideVal_signed _, rfl,
      ⟨fun h => (Bool.false_ne_true h).elim, fun h => absurd hz h.2.1⟩⟩
  rw [if_neg (by simpa using hz)]
  refine wpO_mapOut ?_
  unfold verifyEquation
  simp only [Prog.bind_eq]
  refine wpO_read hr fun R2 n3 b3 a3 _ => ?_
  refine wpO_read hp fun v4 n4 b4 a4 _ => ?_
  rw [a4.eq b4 hA]
  refine wpO_read hm fun m3 n5 b5 a5 _ => ?_
  simp only [hashes_flatten, List.flatten_cons, List.flatten_nil, List.append_nil]
  refine wpO_lift (newEncoded_64 (Hash_length E _)) ?_
  have hh : modQ (Hash E (R2 ++ (A ++ m3))) =
      leBytes 32 (challenge E R2 A m3) := by
    rw [← List.append_assoc]; exact modQ_hash (Hash_length E _)
  have hhv : leVal (leBytes 32 (challenge E R2 A m3)) =
      challenge E R2 A m3 := leVal_leBytes_modL _
  rw [hh]
  refine wpO_decodeAt hp hA fun n6 a6 b6 => ?_
  have hdec := decodePre_wp (g := g) (h := h) (raw := A) (pre := precomputeDouble)
    (preV := GE.precomputeForDoubleScalarMultiplication) fun h' a v ha hs => precomputeDouble_wp ha hs (by rintro r ⟨⟩)
  obtain ⟨gb, g1, g2, g3, _, g5⟩ := basePoint_spec
  have key := @wpO_seq _ _ args obs N g n6 h _ (fun q => (basePoint bp).bind fun b =>
    (lift (checkSlide (leBytes 32 (challenge E R2 A m3)))).bind fun _ =>
    (loadBytes sigS).bind fun s => (lift (checkSlide s)).bind fun _ =>
    (PG.doubleScalarMultiplyVariableTime b q (leBytes 32 (challenge E R2 A m3)) s).bind fun R =>
    (encode R).bind fun enc => (loadBytes sigR).bind fun r => .ret (.ok (isEqualConstantTime enc r))) _
    (fun r _ _ => VerifyOut E obs n N A mess sigR sigS r.orFalse) hdec ?_
  · simp only [bind_bind] at key
    exact key
  rintro r h' ⟨f1, k1⟩
  rcases GC.decode_cases (raw := A) (Or.inl lp) with ⟨q, hq⟩ | ⟨⟨e, he⟩, hn⟩
  swap
  · rw [he] at k1
    cases (show r = _ from k1)
    refine ⟨n1, n3, n5, n6, n6, S1, R2, m3, _, _, _, false, a1, a3.early a2.le, a5.early a4.le, (Seen.now _ _ _).early a6, .now _ _ _, b6,
      slideVal_signed _, rfl,
      ⟨fun h => (Bool.false_ne_true h).elim, fun h => ?_⟩⟩
    obtain ⟨q, hq, -⟩ := h.2.2
    rw [← List.take_of_length_le (Nat.le_of_eq lp)] at hq
    exact (hn q hq.1).elim
  obtain ⟨vA, A1, A2, A3, _⟩ := GC.decode_ok (Or.inl lp) hq
  rw [List.take_of_length_le (Nat.le_of_eq lp)] at hq
  obtain ⟨A', B1, B2, B3, B4⟩ := GE.precomputeDouble_spec (g := GE.ofGC vA) A2 A3 rfl
  rw [A1, Out.ok_bind, B1] at k1
  obtain ⟨aA, rfl, kA⟩ := k1
  refine wpO_seq (basePoint_wp (hb.grow f1) g1) ?_
  rintro r h2 ⟨f2, bb, rfl, kb⟩
  refine wpO_lift (checkSlide_ok (by rw [leBytes_length])) ?_
  refine wpO_read hs fun S4 n7 b7 a7 l7 => ?_
  rw [ls] at l7
  refine wpO_lift (checkSlide_ok (by rw [l7])) ?_
  obtain ⟨x, h1, x2, x3⟩ := GE.doubleScalar_digits g5 B4 (leBytes 32 (challenge E R2 A m3)) S4
  have hv := GE.slide_val (leBytes 32 (challenge E R2 A m3)) (by rw [hhv]; exact modL_lt255 _)
  rw [hv, hhv, natCast_zsmul] at x3
  have henc := GC.encode_repr (Or.inl x2) x3
  refine wpO_seq (doubleScalar_ref kb (kA.grow f2) _ _) ?_
  rintro r h3 ⟨f3, k3⟩
  rw [h1] at k3
  obtain ⟨R, rfl, k3⟩ := k3
  have he := encode_ref k3
  rw [henc] at he
  refine wpO_ok he fun h4 f4 => ?_
  refine wpO_read hr fun R5 n8 b8 a8 _ => ?_
  refine ⟨n1, n3, n5, n7, n8, S1, R2, m3, S4, R5, slideVal S4, _, a1, a3.early a2.le, a5.early a4.le, a7.early a6, a8, b8,
    slideVal_signed _, rfl, ?_⟩
  rw [isEqualConstantTime_eq, beq_iff_eq]
  constructor
  · intro e
    exact ⟨hc, hz, q, hq, e.symm⟩
  · rintro ⟨-, -, q', hq', e⟩
    rw [GC.decodes_unique hq' hq] at e
    exact e.symm

theorem canonical_obs {sigR sigS : Addr} (hr : sigR ∈ args) (hs : sigS ∈ args) :
    wpO args obs N g n h (makeSignatureCanonical sigR sigS) fun r _ _ => ∃ n1 n2 S R, Seen obs sigS n n1 S ∧ Seen obs sigR n1 n2 R ∧
      n2 ≤ N ∧ r = Ed.makeSignatureCanonical ⟨R, S⟩ := by
  unfold makeSignatureCanonical Ed.makeSignatureCanonical
  simp only [Prog.bind_eq]
  refine wpO_read hs fun S n1 b1 a1 _ => ?_
  refine wpO_val (RefV.lift _) fun h' _ => ?_
  cases he : newEncodedFieldElement (copy64 S) with
  | err m => exact ⟨n1, n1, S, _, a1, .now _ _ _, b1, by rw [he]; rfl⟩
  | panic => exact ⟨n1, n1, S, _, a1, .now _ _ _, b1, by rw [he]; rfl⟩
  | ok e =>
    refine wpO_read hr fun R n2 b2 a2 _ => ?_
    exact ⟨n1, n2, S, R, a1, a2, b2, by rw [he]; rfl⟩

theorem derive_obs {bp k : Addr} (hb : IsBase g h bp) (hk : k ∈ args) :
    wpO args obs N g n h (derivePublicKey E bp (some k)) fun r _ _ => ∃ n1 sk, Seen obs k n n1 sk ∧ n1 ≤ N ∧
      r = .ok ⟨publicKeyOf E sk⟩ := by
  unfold derivePublicKey
  simp only [Prog.bind_eq]
  refine prepare_obs hk fun sk n1 b1 a1 a l1 v1 e1 => ?_
  have key : RefV g h ((basePoint bp).bind fun b => ((scalarMultiply b a).mapOut Out.orPanic).bind fun p =>
      ((encode p).mapOut Out.orPanic).bind fun el => .ret (.ok (newPublicKey el)))
      (Ed.basePoint >>= fun b => Out.orPanic (b.scalarMultiply a) >>= fun p => Out.orPanic p.encode >>= fun el => .ok (newPublicKey el)) := by
    refine wp_basePoint hb fun b v h2 f2 k2 => ?_
    refine Ref.bindV (scalarMultiply_ref k2 a).orPanic fun p x h3 f3 k3 => ?_
    exact RefV.bind (RefV.mapOut Out.orPanic (encode_ref k3)) fun el h4 f4 => RefV.ok _
  refine wpO_end key fun _ => ⟨n1, sk, a1, b1, ?_⟩
  have hd : Ed.derivePublicKey E (some (newPrivateKey sk)) = .ok ⟨publicKeyOf E sk⟩ := derive_spec E _
  unfold Ed.derivePublicKey at hd
  rw [e1, Out.ok_bind] at hd
  exact hd

/-- How the salt is read: `sv n n' s` says that `s` may be read between the times `n` and `n'`. -/
def SaltReading (args : List Addr) (obs : Nat → Addr → Bytes) (N g : Nat) (rs : Prog Bytes) (sv : Nat → Nat → Bytes → Prop) : Prop :=
  (∀ n, ∃ s, sv n n s) ∧ ∀ n h, n ≤ N → wpO args obs N g n h rs fun r n' _ => ∃ s, n ≤ n' ∧ n' ≤ N ∧ sv n n' s ∧ r = .ok s

theorem SaltReading.load {a : Addr} (ha : a ∈ args) : SaltReading args obs N g (loadBytes a) (Seen obs a) := by
  refine ⟨fun n => ⟨_, .now _ _ n⟩, fun n h _ => ?_⟩
  rw [← bind_ret (loadBytes a)]
  exact wpO_read ha fun v n' h1 h2 _ => ⟨v, h2.le, h1, h2, rfl⟩

theorem SaltReading.part {a : Addr} (ha : a ∈ args) (len : Nat) :
    SaltReading args obs N g ((loadBytes a).bind fun i => ret (.ok (i.take len))) (fun n n' s => ∃ v, Seen obs a n n' v ∧ s = v.take len) := by
  refine ⟨fun n => ⟨_, _, .now _ _ n, rfl⟩, fun n h _ => ?_⟩
  exact wpO_read ha fun v n' h1 h2 _ => ⟨_, h2.le, h1, ⟨v, h2, rfl⟩, rfl⟩

theorem SaltReading.fixed (salt : Bytes) : SaltReading args obs N g (ret (.ok salt)) (fun _ _ s => s = salt) :=
  ⟨fun _ => ⟨_, rfl⟩, fun _ _ hn => ⟨_, le_refl _, hn, rfl, rfl⟩⟩

/-- What `GetSharedKey` returns under interference. -/
def SharedOut (E : Env) (obs : Nat → Addr → Bytes) (sv : Nat → Nat → Bytes → Prop) (len n N : Nat) (k : Addr) (A : Bytes) (r : Out Bytes) (n' : Nat) :
    Prop :=
  ∃ n1 sk s, Seen obs k n n1 sk ∧ sv n1 n' s ∧ n1 ≤ n' ∧ n' ≤ N ∧ r = Ed.getSharedKey E len (some (newPrivateKey sk)) (newPublicKey A) s

theorem getSharedKey_obs {len : Nat} {k pub : Addr} {A : Bytes} {rs : Prog Bytes} {sv : Nat → Nat → Bytes → Prop} (hk : k ∈ args)
    (hp : pub ∈ args) (hA : ∀ n, n ≤ N → obs n pub = A) (hr : SaltReading args obs N g rs sv) :
    wpO args obs N g n h (getSharedKey E len (some k) pub rs) fun r n' _ => SharedOut E obs sv len n N k A r n' := by
  unfold getSharedKey
  simp only [Prog.bind_eq]
  refine wpO_read hp fun v1 n1 b1 a1 _ => ?_
  rw [a1.eq b1 hA]
  obtain ⟨s1, hs1⟩ := hr.1 n1
  cases hg : newEncodedGroupElement A with
  | err m => exact ⟨n1, _, s1, (Seen.now _ _ _).early a1.le, hs1, le_refl _, b1, by unfold Ed.getSharedKey newPublicKey; dsimp only; rw [hg]; rfl⟩
  | panic => exact ⟨n1, _, s1, (Seen.now _ _ _).early a1.le, hs1, le_refl _, b1, by unfold Ed.getSharedKey newPublicKey; dsimp only; rw [hg]; rfl⟩
  | ok grA =>
    have hgA : grA = A := by
      unfold newEncodedGroupElement at hg
      split at hg
      · cases hg
      · exact (Out.ok.inj hg).symm
    subst hgA
    refine wpO_lift rfl ?_
    refine wpO_decodeAt hp hA fun n2 a2 b2 => ?_
    obtain ⟨s2, hs2⟩ := hr.1 n2
    have hdec := decodePre_wp (g := g) (h := h) (raw := grA) (pre := precomputeSingle)
      (preV := GE.precomputeForScalarMultiplication) fun h' a v ha hs => precomputeSingle_wp ha hs
    have key := @wpO_seq _ _ args obs N g n2 h _ (fun q => (prepareForScalarMultiply E (some k)).bind fun a =>
      (scalarMultiply q a).bind fun el => (encode el).bind fun sharedKey => rs.bind fun salt =>
      (lift ((List.range len).foldlM (xorSaltStep salt) sharedKey)).bind fun sharedKey => .ret (.ok (hashesSha3_256 E sharedKey))) _
      (fun r n' _ => SharedOut E obs sv len n N k grA r n') hdec ?_
    · simp only [bind_bind] at key
      exact key
    rintro r h2 ⟨f2, k2⟩
    cases hd : (GC.decode grA >>= fun A => (GE.ofGC A).precomputeForScalarMultiplication) with
    | err m =>
      rw [hd] at k2
      cases (show r = _ from k2)
      refine ⟨n2, _, s2, (Seen.now _ _ _).early (a1.le.trans a2), hs2, le_refl _, b2, ?_⟩
      unfold Ed.getSharedKey newPublicKey
      dsimp only
      rw [hg, Out.ok_bind, ← obind_assoc (GC.decode grA), hd]; rfl
    | panic =>
      rw [hd] at k2
      cases (show r = _ from k2)
      refine ⟨n2, _, s2, (Seen.now _ _ _).early (a1.le.trans a2), hs2, le_refl _, b2, ?_⟩
      unfold Ed.getSharedKey newPublicKey
      dsimp only
      rw [hg, Out.ok_bind, ← obind_assoc (GC.decode grA), hd]; rfl
    | ok vA =>
      rw [hd] at k2
      obtain ⟨q, rfl, k2⟩ := k2
      refine prepare_obs hk fun sk n3 b3 a3 a l2 v2 e2 => ?_
      have a3 : Seen obs k n n3 sk := a3.early (a1.le.trans a2)
      obtain ⟨s3, hs3⟩ := hr.1 n3
      have fin : RefV g h2 ((scalarMultiply q a).bind fun el => encode el) (vA.scalarMultiply a >>= fun el => el.encode) := by
        refine Ref.bindV (scalarMultiply_ref k2 a) fun el x h4 f4 k4 => ?_
        exact encode_ref k4
      have val : ∀ salt, Ed.getSharedKey E len (some (newPrivateKey sk)) (newPublicKey grA) salt =
          ((vA.scalarMultiply a >>= fun el => el.encode) >>= fun sharedKey =>
            (List.range len).foldlM (xorSaltStep salt) sharedKey >>= fun sharedKey => .ok (hashesSha3_256 E sharedKey)) := by
        intro salt
        unfold Ed.getSharedKey newPublicKey
        dsimp only
        rw [hg, Out.ok_bind, ← obind_assoc (GC.decode grA), hd, Out.ok_bind, e2, Out.ok_bind, obind_assoc]
      have key2 := @wpO_val _ _ args obs N g n3 h2 _ _ (fun sharedKey => rs.bind fun salt =>
        (lift ((List.range len).foldlM (xorSaltStep salt) sharedKey)).bind fun sharedKey => .ret (.ok (hashesSha3_256 E sharedKey)))
        (fun r n' _ => SharedOut E obs sv len n N k grA r n') fin ?_
      · simp only [bind_bind] at key2
        exact key2
      intro h3 f3
      cases hv : (vA.scalarMultiply a >>= fun el => el.encode) with
      | err m => exact ⟨n3, sk, s3, a3, hs3, le_refl _, b3, by rw [val, hv]; rfl⟩
      | panic => exact ⟨n3, sk, s3, a3, hs3, le_refl _, b3, by rw [val, hv]; rfl⟩
      | ok shk =>
        refine wpO_bind (wpO_mono (hr.2 n3 h3 b3) ?_)
        rintro r n4 h4 ⟨s4, a4, b4, c4, rfl⟩
        have e : RefV g h4 ((lift ((List.range len).foldlM (xorSaltStep s4) shk)).bind fun sharedKey =>
            .ret (.ok (hashesSha3_256 E sharedKey))) ((List.range len).foldlM (xorSaltStep s4) shk >>= fun sharedKey =>
            .ok (hashesSha3_256 E sharedKey)) := RefV.bind (RefV.lift _) fun sk' h6 f6 => RefV.ok _
        exact wpO_end e fun _ => ⟨n3, sk, s4, a3, c4, a4, b4, by rw [val, hv, Out.ok_bind]⟩

/-- What `Decrypt` returns under interference. -/
def DecryptOut (E : Env) (obs : Nat → Addr → Bytes) (len n N : Nat) (k input : Addr) (A : Bytes) (r : Out Bytes) : Prop :=
  ∃ n0 n1 n2 n3 n4 i0 sk i2 i3 i4, Seen obs input n n0 i0 ∧ Seen obs k n0 n1 sk ∧ Seen obs input n1 n2 i2 ∧ Seen obs input n2 n3 i3 ∧
    Seen obs input n3 n4 i4 ∧ n4 ≤ N ∧ r = mixedDecrypt E len (newPrivateKey sk) (newPublicKey A) i0 i2 i3 i4

theorem decrypt_obs {len : Nat} {k pub input : Addr} {A : Bytes} (hk : k ∈ args) (hp : pub ∈ args) (hi : input ∈ args)
    (hA : ∀ n, n ≤ N → obs n pub = A) :
    wpO args obs N g n h (decrypt E len (some k) pub input) fun r _ _ => DecryptOut E obs len n N k input A r := by
  unfold decrypt DecryptOut mixedDecrypt
  simp only [Prog.bind_eq]
  refine wpO_read hi fun i0 n0 b0 a0 l0 => ?_
  by_cases hl : i0.length < 64
  · rw [if_pos hl]
    exact ⟨n0, n0, n0, n0, n0, i0, _, _, _, _, a0, .now _ _ _, .now _ _ _, .now _ _ _, .now _ _ _, b0, by rw [if_pos hl]⟩
  rw [if_neg hl]
  by_cases hk48 : len > 48
  · rw [if_pos hk48]
    exact ⟨n0, n0, n0, n0, n0, i0, _, _, _, _, a0, .now _ _ _, .now _ _ _, .now _ _ _, .now _ _ _, b0, by rw [if_neg hl, if_pos hk48]⟩
  rw [if_neg hk48]
  refine wpO_bind (wpO_mono (getSharedKey_obs hk hp hA (SaltReading.part hi len)) ?_)
  rintro r n' h' ⟨n1, sk, _, a1, ⟨i2, a2, rfl⟩, a3, b3, rfl⟩
  cases hs : Ed.getSharedKey E len (some (newPrivateKey sk)) (newPublicKey A) (i2.take len) with
  | err m =>
    exact ⟨n0, n1, n', n', n', i0, sk, i2, _, _, a0, a1, a2, .now _ _ _, .now _ _ _, b3, by rw [if_neg hl, if_neg hk48, hs]; rfl⟩
  | panic =>
    exact ⟨n0, n1, n', n', n', i0, sk, i2, _, _, a0, a1, a2, .now _ _ _, .now _ _ _, b3, by rw [if_neg hl, if_neg hk48, hs]; rfl⟩
  | ok shk =>
    refine wpO_read hi fun i3 n3 b4 a4 _ => ?_
    refine wpO_read hi fun i4 n4 b5 a5 _ => ?_
    exact ⟨n0, n1, n', n3, n4, i0, sk, i2, i3, i4, a0, a1, a2, a4, a5, b5, by rw [if_neg hl, if_neg hk48, hs]; rfl⟩

theorem readLoop_obs (s : Nat) : ∀ (fuel need : Nat) (got : Bytes), need ≤ fuel →
    wpO args obs N g n h (readLoop s fuel need got) fun r n' h' => n' = n ∧ h' = h ∧
      ((∃ b, b.length = need ∧ r = .ok (got ++ b)) ∨ ∃ e, r = .err e) := by
  intro fuel
  induction fuel with
  | zero =>
    intro need got hn
    have : need = 0 := by omega
    subst this
    unfold readLoop
    exact ⟨rfl, rfl, .inl ⟨[], rfl, by rw [List.append_nil]⟩⟩
  | succ fuel ih =>
    intro need got hn
    cases need with
    | zero =>
      unfold readLoop
      exact ⟨rfl, rfl, .inl ⟨[], rfl, by rw [List.append_nil]⟩⟩
    | succ need =>
      unfold readLoop
      intro x x1 x2
      beta_reduce
      by_cases hl : need + 1 ≤ x.1.length
      · rw [if_pos hl]
        exact ⟨rfl, rfl, .inl ⟨x.1, by omega, rfl⟩⟩
      · rw [if_neg hl]
        cases hx : x.2 with
        | some e => exact ⟨rfl, rfl, .inr ⟨_, rfl⟩⟩
        | none =>
          have hpos : 0 < x.1.length := by
            rcases Nat.eq_zero_or_pos x.1.length with e | e
            · exact absurd ⟨List.length_eq_zero_iff.1 e, hx⟩ x2
            · exact e
          refine wpO_mono (ih (need + 1 - x.1.length) (got ++ x.1) (by omega)) ?_
          rintro r n' h' ⟨rfl, rfl, ⟨b, b1, rfl⟩ | ⟨e, rfl⟩⟩
          · exact ⟨rfl, rfl, .inl ⟨x.1 ++ b, by rw [List.length_append]; omega, by rw [List.append_assoc]⟩⟩
          · exact ⟨rfl, rfl, .inr ⟨_, rfl⟩⟩

theorem encrypt_obs {seed len : Nat} {k pub input : Addr} {A : Bytes} (hk : k ∈ args) (hp : pub ∈ args) (hi : input ∈ args)
    (hA : ∀ n, n ≤ N → obs n pub = A) (hn : n ≤ N) :
    wpO args obs N g n h (encrypt E seed len (some k) pub input) fun r _ _ => 
      ∃ n1 n2 sk i, Seen obs k n n1 sk ∧ Seen obs input n1 n2 i ∧ n2 ≤ N ∧
      ((∃ e, r = .err e) ∨ ∃ salt iv, salt.length = len ∧ iv.length = 16 ∧
        r = encryptWith E len (newPrivateKey sk) (newPublicKey A) salt iv i) := by
  unfold encrypt readFull encryptWith
  simp only [Prog.bind_eq]
  refine wpO_bind (wpO_mono (readLoop_obs seed len len [] (le_refl _)) ?_)
  rintro r n' h' ⟨rfl, rfl, ⟨salt, s1, rfl⟩ | ⟨e, rfl⟩⟩
  swap
  · exact ⟨n', n', _, _, .now _ _ _, .now _ _ _, hn, .inl ⟨e, rfl⟩⟩
  rw [List.nil_append]
  refine wpO_bind (wpO_mono (getSharedKey_obs hk hp hA (SaltReading.fixed salt)) ?_)
  rintro r n3 h3 ⟨n1, sk, salt', a1, e', a13, b3, rfl⟩
  subst e'
  cases hs : Ed.getSharedKey E len (some (newPrivateKey sk)) (newPublicKey A) salt' with
  | err m => exact ⟨n1, n3, sk, _, a1, (Seen.now _ _ _).early a13, b3, .inl ⟨m, rfl⟩⟩
  | panic =>
    refine ⟨n1, n3, sk, _, a1, (Seen.now _ _ _).early a13, b3, .inr ⟨salt', List.replicate 16 0, s1, rfl, ?_⟩⟩
    rw [hs]; rfl
  | ok shk =>
    refine wpO_bind (wpO_mono (readLoop_obs seed 16 16 [] (le_refl _)) ?_)
    rintro r n4 h4 ⟨rfl, rfl, ⟨iv, s2, rfl⟩ | ⟨e, rfl⟩⟩
    swap
    · exact ⟨n1, n4, sk, _, a1, (Seen.now _ _ _).early a13, b3, .inl ⟨e, rfl⟩⟩
    rw [List.nil_append]
    refine wpO_read hi fun i5 n5 b5 a5 _ => ?_
    refine wpO_val (RefV.lift _) fun h5 _ => ?_
    cases hc : Ed.encode E i5 shk iv with
    | err m => exact ⟨n1, n5, sk, i5, a1, a5.early a13, b5, .inl ⟨m, rfl⟩⟩
    | panic =>
      refine ⟨n1, n5, sk, i5, a1, a5.early a13, b5, .inr ⟨salt', iv, s1, s2, ?_⟩⟩
      rw [hs, Out.ok_bind, hc]; rfl
    | ok c =>
      refine ⟨n1, n5, sk, i5, a1, a5.early a13, b5, .inr ⟨salt', iv, s1, s2, ?_⟩⟩
      rw [hs, Out.ok_bind, hc]; rfl

/-! ## `Verify` in two parts -/

/-- The part of `Verify` up to the last reading of R: the encoding to compare with, or `none` when the result is false already. -/
def verifyStart (E : Env) (bp pub mess sigR sigS : Addr) : Prog (Option Bytes) :=
  (loadBytes sigS).bind fun s =>
  if !isCanonicalSignature ⟨[], s⟩ then .ret (.ok none)
  else (loadBytes pub).bind fun pubRaw =>
    if isEqualConstantTime pubRaw (List.replicate 32 0) then .ret (.ok none)
    else ((loadBytes sigR).bind fun r => (loadBytes pub).bind fun pubRaw => (loadBytes mess).bind fun m =>
      (lift (newEncodedFieldElement (hashesSha3_512 E [r, pubRaw, m]))).bind fun h =>
      (decodeAt pub).bind fun A => (precomputeDouble A).bind fun _ => (basePoint bp).bind fun b =>
      (lift (checkSlide (modQ h))).bind fun _ => (loadBytes sigS).bind fun s => (lift (checkSlide s)).bind fun _ =>
      (PG.doubleScalarMultiplyVariableTime b A (modQ h) s).bind fun R => encode R).mapOut fun
        | .ok e => .ok (some e)
        | .err _ => .ok none
        | .panic => .panic

/-- The rest. -/
def verifyEnd (sigR : Addr) : Option Bytes → Prog Bool
  | none => .ret (.ok false)
  | some e => (loadBytes sigR).bind fun r => .ret (.ok (isEqualConstantTime e r))

theorem loadRest_no_err (sigR : Addr) (e : Bytes) : ∀ (k : Nat) (got : Bytes),
    ((loadRest sigR k got).bind fun r => ret (.ok (isEqualConstantTime e r))).mapOut Out.orFalse =
    (loadRest sigR k got).bind fun r => ret (.ok (isEqualConstantTime e r)) := by
  intro k
  induction k with
  | zero => intro got; rfl
  | succ k ih =>
    intro got
    show (access sigR id fun v => _) = (access sigR id fun v => _)
    congr 1
    funext v
    cases v with
    | bytes b =>
      show Prog.mapOut Out.orFalse (((lift (Out.index b got.length)).bind fun x => loadRest sigR k (got ++ [x])).bind _) =
        (((lift (Out.index b got.length)).bind fun x => loadRest sigR k (got ++ [x])).bind _)
      unfold Out.index
      cases b[got.length]? with
      | none => rfl
      | some x => exact ih (got ++ [x])
    | fe _ => rfl
    | obj _ => rfl
    | arr _ => rfl

theorem orFalse_parts (p : Prog Bytes) (sigR : Addr) :
    ((p.bind fun e => (loadBytes sigR).bind fun r => ret (.ok (isEqualConstantTime e r))).mapOut Out.orFalse) =
    ((p.mapOut fun
        | .ok e => .ok (some e)
        | .err _ => .ok none
        | .panic => .panic).bind (verifyEnd sigR)) := by
  induction p with
  | ret r =>
    cases r with
    | ok e =>
      show (access sigR id fun v => _) = (access sigR id fun v => _)
      congr 1
      funext v
      cases v with
      | bytes b => exact loadRest_no_err sigR e _ []
      | fe _ => rfl
      | obj _ => rfl
      | arr _ => rfl
    | err m => rfl
    | panic => rfl
  | access a u c ih => simp only [Prog.bind, Prog.mapOut]; congr 1; funext v; exact ih v
  | alloc v c ih => simp only [Prog.bind, Prog.mapOut]; congr 1; funext v; exact ih v
  | ask s n c ih => simp only [Prog.bind, Prog.mapOut]; congr 1; funext v; exact ih v

theorem verify_parts (E : Env) (bp pub mess sigR sigS : Addr) :
    verify E bp pub mess sigR sigS = (verifyStart E bp pub mess sigR sigS).bind (verifyEnd sigR) := by
  unfold verify verifyStart
  simp only [Prog.bind_eq, bind_bind]
  congr 1
  funext s
  split
  · rfl
  · rw [bind_bind]
    congr 1
    funext p
    split
    · rfl
    · unfold verifyEquation
      rw [← orFalse_parts]
      simp only [Prog.bind_eq, bind_bind]
      rfl

/-- The encoding that `Verify` compares R with, when the arrays are left alone until then. -/
theorem verifyStart_refV {bp pub mess sigR sigS : Addr} {A m R0 S : Bytes} {q : Pt} (hb : IsBase g h bp) (hp : ShowsB g h pub A)
    (hm : ShowsB g h mess m) (hr : ShowsB g h sigR R0) (hs : ShowsB g h sigS S) (lA : A.length = 32) (hq : Decodes A q)
    (hz : A ≠ List.replicate 32 0) (lS : S.length = 32) (hS : LowBitsOk (leVal S)) :
    RefV g h (verifyStart E bp pub mess sigR sigS) (.ok (some (encodePoint (nafVal (leVal S) • B - challenge E R0 A m • q)))) := by
  unfold verifyStart
  refine loadBytes_bind hs ?_
  rw [isCanonical_eq, if_neg (by simp [hS])]
  refine loadBytes_bind hp ?_
  rw [isEqualConstantTime_eq, if_neg (by simpa using hz)]
  refine RefV.mapOut (v := .ok (encodePoint (nafVal (leVal S) • B - challenge E R0 A m • q))) _ ?_
  refine loadBytes_bind hr (loadBytes_bind hp (loadBytes_bind hm ?_))
  simp only [hashes_flatten, List.flatten_cons, List.flatten_nil, List.append_nil]
  refine liftOk (newEncoded_64 (Hash_length E _)) ?_
  have hh : modQ (Hash E (R0 ++ (A ++ m))) = leBytes 32 (challenge E R0 A m) := by
    rw [← List.append_assoc]; exact modQ_hash (Hash_length E _)
  have hhv : leVal (leBytes 32 (challenge E R0 A m)) = challenge E R0 A m := leVal_leBytes_modL _
  rw [hh]
  refine wp_decodeAt hp ?_
  obtain ⟨gb, g1, g2, g3, _, g5⟩ := basePoint_spec
  obtain ⟨vA, A1, A2, A3, _⟩ := GC.decode_ok (raw := A) (Or.inl lA) (by rw [List.take_of_length_le (Nat.le_of_eq lA)]; exact hq)
  obtain ⟨A', B1, B2, B3, B4⟩ := GE.precomputeDouble_spec (g := GE.ofGC vA) A2 A3 rfl
  obtain ⟨x, h1, x2, x3⟩ := GE.doubleScalar_digits g5 B4 (leBytes 32 (challenge E R0 A m)) S
  have e1 := GE.slide_val (leBytes 32 (challenge E R0 A m)) (by rw [hhv]; exact modL_lt255 _)
  have e2 := slide_naf32 lS
  rw [e1, e2, hhv, natCast_zsmul] at x3
  have henc := GC.encode_repr (Or.inl x2) x3
  have c1 := checkSlide_ok (a := leBytes 32 (challenge E R0 A m)) (by rw [leBytes_length])
  have c2 := checkSlide_ok (a := S) (by rw [lS])
  generalize leBytes 32 (challenge E R0 A m) = C at *
  have key := wp_decodePre (g := g) (h := h) (raw := A) (pre := precomputeDouble) (preV := GE.precomputeForDoubleScalarMultiplication)
    (f := fun A => (basePoint bp).bind fun b => (lift (checkSlide C)).bind fun _ =>
      (loadBytes sigS).bind fun s => (lift (checkSlide s)).bind fun _ =>
      (PG.doubleScalarMultiplyVariableTime b A C s).bind fun R => encode R)
    (fv := fun A => Ed.basePoint >>= fun b => checkSlide C >>= fun _ => checkSlide S >>= fun _ =>
      b.doubleScalarMultiplyVariableTime A C S >>= fun R => R.encode) ?_ fun aA vA h2 f2 k2 => ?_
  · rw [A1, Out.ok_bind, B1, Out.ok_bind, g1, Out.ok_bind, c1, Out.ok_bind, c2, Out.ok_bind, h1, Out.ok_bind, henc] at key
    rw [c1]
    exact key
  · intro h' a v ha hs
    exact precomputeDouble_wp ha hs (by rintro r ⟨⟩)
  refine wp_basePoint (hb.grow f2) fun b v h3 f3 k3 => ?_
  refine RefV.bind (RefV.lift _) fun _ h4 f4 => ?_
  refine loadBytes_bind (hs.grow ((f2.comp f3).comp f4)) ?_
  refine RefV.bind (RefV.lift _) fun _ h5 f5 => ?_
  refine Ref.bindV (doubleScalar_ref (k3.grow (f4.comp f5)) (k2.grow ((f3.comp f4).comp f5)) C S) fun R x h6 f6 k6 => ?_
  exact encode_ref k6

theorem verifyEnd_refV {sigR : Addr} {e R1 : Bytes} (hr : ShowsB g h sigR R1) :
    RefV g h (verifyEnd sigR (some e)) (.ok (isEqualConstantTime e R1)) := loadBytes_bind hr (RefV.ok _)

end PG
end Ed

import Verif.Proofs.PMemory
import Verif.Props.Dsa
import Verif.Props.Cipher

/-!
# Concurrent use (C53, C54)

Any number of goroutines make calls of the API with arguments in shared memory and with shared readers, under any schedule of their single
actions.
-/

set_option autoImplicit false

namespace Ed
open Prog PG

/-- Goroutine `i` makes the calls `cs i`, one after the other. -/
def goroutines (E : Env) (bp : Addr) (cs : Nat → List Call) : Nat → Prog (List (Out Res)) := fun i => Call.progs E bp (cs i)

/-- The shared memory has the base point at `bp` and the arguments of all calls. -/
def SharedMemory (h : PHeap) (bp : Addr) (cs : Nat → List Call) : Prop := IsBase 0 h bp ∧ ∀ i, ∀ c ∈ cs i, c.Args h

/-- The calls do not use a reader. -/
def NoReader : Call → Prop
  | .encrypt .. => False
  | .generate .. => False
  | _ => True

section
variable (E : Env) {h0 : PHeap} {bp : Addr} {cs : Nat → List Call} (hm : SharedMemory h0 bp cs) (w : World)

theorem goroutines_refW {E : Env} {h0 : PHeap} {bp : Addr} {cs : Nat → List Call} (hm : SharedMemory h0 bp cs) (i : Nat) :
    RefW (i + 1) h0 (goroutines E bp cs i) fun w => (.ok (Call.values E h0 (cs i) w).1, (Call.values E h0 (cs i) w).2) :=
  Call.progs_refW hm.1.of_zero (cs i) h0 (Fr.refl _ _ _) (hm.2 i)

theorem goroutines_safe {E : Env} {h0 : PHeap} {bp : Addr} {cs : Nat → List Call} (hm : SharedMemory h0 bp cs) (i : Nat) :
    Safe (i + 1) h0 (goroutines E bp cs i) := safe_of_wpW (goroutines_refW hm i)

include hm

/-- C53: no data race.  At every moment of every schedule, the next memory access of a goroutine is to an object that it made itself, or it is
a read of the memory that was there at the start. -/
theorem C53_race_free (sched : List Nat) (i : Nat) (a : Addr) (f : Val → Val) (k : Val → Prog (List (Out Res)))
    (ht : ((Pool.start h0 w (goroutines E bp cs)).run sched).thread i = .access a f k) :
    (((Pool.start h0 w (goroutines E bp cs)).run sched).st.heap.get a).isSome ∧ (a.region = i + 1 ∨ (a.region = 0 ∧ f = id)) := by
  have h := ((Pool.inv_start (w := w) (goroutines_safe (E := E) hm)).run sched).2 i
  have hs := h.1
  rw [ht] at hs
  obtain ⟨v, h1, h2, -⟩ := hs fun _ => []
  exact ⟨by rw [h1]; rfl, h2⟩

/-- C53: the arguments and the base point are never changed. -/
theorem C53_memory (sched : List Nat) : ((Pool.start h0 w (goroutines E bp cs)).run sched).st.heap 0 = h0 0 :=
  (Pool.noninterference (goroutines_safe hm) sched).1

/-- C53, C54: a goroutine that has finished has the outcomes that its calls have one after the other without any concurrency, with readers of
its own that give the answers which it got; it has used all of them. -/
theorem C54_results (sched : List Nat) (i : Nat) (r : Out (List (Out Res)))
    (ht : ((Pool.start h0 w (goroutines E bp cs)).run sched).thread i = .ret r) :
    r = .ok (Call.values E h0 (cs i) (((Pool.start h0 w (goroutines E bp cs)).run sched).got i)).1 ∧
    ∀ s, (Call.values E h0 (cs i) (((Pool.start h0 w (goroutines E bp cs)).run sched).got i)).2 s = [] := by
  have h := (Pool.noninterference (goroutines_safe (E := E) hm) sched).2 i r ht
  generalize ((Pool.start h0 w (goroutines E bp cs)).run sched).got i = u at h ⊢
  have k := (alone_of_wpW (goroutines_refW (E := E) hm i u)).2
  unfold outcome at h
  have k1 := congrArg Prod.fst k
  have k2 := congrArg Prod.snd k
  have h1 := congrArg Prod.fst h
  have h2 := congrArg Prod.snd h
  exact ⟨h1.symm.trans k1, fun s => congrFun (k2.symm.trans h2) s⟩

omit hm in
theorem values_noReader : ∀ (l : List Call), (∀ c ∈ l, NoReader c) → ∀ u u', (Call.values E h0 l u).1 = (Call.values E h0 l u').1 := by
  intro l
  induction l with
  | nil => exact fun _ _ _ => rfl
  | cons c l ih =>
    intro hl u u'
    have hc : (c.value E h0 u).1 = (c.value E h0 u').1 := by
      have := hl c (by simp)
      cases c with
      | encrypt => exact this.elim
      | generate => exact this.elim
      | _ =>
        unfold Call.value Act.map Act.bind Act.lift
        dsimp only
        split <;> simp_all
    unfold Call.values
    rw [hc, ih (fun c hc => hl c (by simp [hc])) _ (c.value E h0 u').2]

/-- C53: calls that use no reader (deriving, signing, verifying, canonical form, shared keys, decryption): a goroutine that has finished has
the outcomes that its calls have one after the other without concurrency. -/
theorem C53_results (sched : List Nat) (i : Nat) (hn : ∀ c ∈ cs i, NoReader c) (r : Out (List (Out Res)))
    (ht : ((Pool.start h0 w (goroutines E bp cs)).run sched).thread i = .ret r) (w' : World) :
    r = .ok (Call.values E h0 (cs i) w').1 := by
  obtain ⟨h, -⟩ := C54_results E hm w sched i r ht
  rw [h, values_noReader E (cs i) hn _ w']

omit hm in
/-- The state after the first `n` actions of an infinite schedule is that of the finite schedule. -/
theorem runN_eq {α : Type} (p : Pool α) (sched : Nat → Nat) (n : Nat) : p.runN sched n = p.run ((List.range n).map sched) := by
  induction n with
  | zero => rfl
  | succ n ih =>
    show (p.runN sched n).step (sched n) = _
    rw [ih, List.range_succ, List.map_append]
    unfold Pool.run
    rw [List.foldl_append]
    rfl

/-- C53: a goroutine that gets its turn again and again finishes, whatever the others do. -/
theorem C53_finishes (sched : Nat → Nat) (i : Nat) (hf : ∀ n, ∃ m, n ≤ m ∧ sched m = i) :
    ∃ n r, ((Pool.start h0 w (goroutines E bp cs)).run ((List.range n).map sched)).thread i = .ret (.ok r) := by
  obtain ⟨n, r, h⟩ := Pool.finishes (Pool.start h0 w (goroutines E bp cs)) sched i hf
  rw [runN_eq] at h
  obtain ⟨h1, -⟩ := C54_results E hm w _ i r h
  rw [h1] at h
  exact ⟨n, _, h⟩

end

/-! ## Shared readers -/

theorem readOnce_content (r : Reader) (n : Nat) : content r = (readOnce r n).1.1 ++ content (readOnce r n).2 := by
  induction r with
  | nil => rfl
  | cons e r ih =>
    have hc : content (e :: r) = e.data ++ content r := rfl
    unfold readOnce
    split
    · show _ = e.data.take n ++ (e.data.drop n ++ content r)
      rw [hc, ← List.append_assoc, List.take_append_drop]
    · split
      · rename_i h; rw [hc, h.1]; exact ih
      · exact hc

/-- What the readers have delivered: the data of the logged answers of reader `s`, in the order of the calls. -/
def delivered (l : List (Nat × Nat × Nat × Ans)) (s : Nat) : Bytes := ((l.filter fun e => e.2.1 == s).map fun e => e.2.2.2.1).flatten

/-- C54: the bytes of a shared reader are handed out once: what it would deliver at the start is what all goroutines together got from it, in
the order of their `Read` calls, followed by what it still delivers. -/
theorem C54_partition {α : Type} (h0 : PHeap) (w : World) (t : Nat → Prog α) (sched : List Nat) (s : Nat) :
    content (w s) = delivered ((Pool.start h0 w t).run sched).log s ++ content (((Pool.start h0 w t).run sched).st.world s) := by
  have key : ∀ (l : List Nat) (p : Pool α), content (w s) = delivered p.log s ++ content (p.st.world s) →
      content (w s) = delivered (p.run l).log s ++ content ((p.run l).st.world s) := by
    intro l
    induction l with
    | nil => exact fun _ h => h
    | cons i l ih =>
      intro p hp
      refine ih (p.step i) ?_
      rw [hp]
      unfold Pool.step delivered
      dsimp only
      rw [List.filter_append, List.map_append, List.flatten_append, List.append_assoc]
      congr 1
      cases p.thread i with
      | ret r => rfl
      | access a f k =>
        show _ = [] ++ _
        rw [List.nil_append]
        unfold Prog.step
        dsimp only
        split <;> rfl
      | alloc v k => rfl
      | ask r n k =>
        simp only [Pool.call, Prog.step]
        by_cases hs : r = s
        · subst hs
          simp only [List.filter_cons, beq_self_eq_true, if_true, List.filter_nil, List.map_cons, List.map_nil, List.flatten_cons,
            List.flatten_nil, List.append_nil, World.put]
          exact readOnce_content _ _
        · have e : (r == s) = false := by simpa using hs
          simp only [List.filter_cons, e, List.filter_nil, World.put, if_neg (Ne.symm hs)]
          rfl
  exact key sched _ rfl

/-- C54: what goroutine `i` got from reader `s` is its part of the log. -/
theorem C54_got {α : Type} (p : Pool α) (i s : Nat) :
    content (p.got i s) = delivered (p.log.filter fun e => e.1 == i) s := by
  unfold Pool.got content delivered
  rw [List.filter_filter, List.map_map]
  congr 2
  apply List.filter_congr
  intro e _
  exact Bool.and_comm _ _

theorem read_content {seed n : Nat} {w : World} {b : Bytes} {w' : World} (h : Act.read seed n w = (.ok b, w')) :
    b.length = n ∧ content (w seed) = b ++ content (w' seed) := by
  rcases Nat.lt_or_ge (avail (w seed)).length n with hl | hl
  · obtain ⟨e, he⟩ := read_short hl
    rw [h] at he; cases he
  · obtain ⟨h1, h2, -⟩ := read_ok hl
    rw [h] at h1 h2
    cases h1
    obtain ⟨t, ht⟩ := avail_prefix (w seed)
    refine ⟨?_, ?_⟩
    · rw [List.length_take, ht, List.length_append]; omega
    · show _ = _ ++ content (w' seed)
      rw [h2, List.take_append_drop]

section
variable (E : Env) {h0 : PHeap} {bp : Addr} {cs : Nat → List Call} (hm : SharedMemory h0 bp cs) (w : World)
include hm

/-- C54: key pairs generated concurrently from a shared reader: the private key is the 32 bytes that this goroutine got, and the public key
belongs to it. -/
theorem C54_generate (sched : List Nat) (i s : Nat) (hc : cs i = [.generate s]) (kp : KeyPair)
    (ht : ((Pool.start h0 w (goroutines E bp cs)).run sched).thread i = .ret (.ok [.ok (.keyPair kp)])) :
    ∃ raw, delivered (((Pool.start h0 w (goroutines E bp cs)).run sched).log.filter fun e => e.1 == i) s = raw ∧ raw.length = 32 ∧
      kp.priv = some (newPrivateKey raw) ∧ kp.pub = ⟨publicKeyOf E raw⟩ := by
  obtain ⟨h1, h2⟩ := C54_results E hm w sched i _ ht
  rw [← C54_got]
  generalize ((Pool.start h0 w (goroutines E bp cs)).run sched).got i = u at h1 h2 ⊢
  rw [hc] at h1 h2
  have h2 := h2 s
  simp only [Call.values] at h1 h2
  injection h1 with h1
  injection h1 with h1
  unfold Call.value Act.map at h1 h2
  unfold generateKeyPair at h1 h2
  cases hr : Act.read s 32 u with
  | mk r u' =>
    cases r with
    | err m => simp only [Act.bind, hr] at h1; cases h1
    | panic => simp only [Act.bind, hr] at h1; cases h1
    | ok raw =>
      obtain ⟨k1, k2⟩ := read_content hr
      have hl : 32 = (publicKeyOf E raw).length := (publicKeyOf_length E raw).symm
      have e : newKeyPair E (some (newPrivateKey raw)) (some ⟨publicKeyOf E raw⟩) = .ok ⟨some (newPrivateKey raw), ⟨publicKeyOf E raw⟩⟩ := by
        unfold newKeyPair isKeyCompressed
        simp [← hl]
      have d : derivePublicKey E (some (newPrivateKey raw)) = .ok ⟨publicKeyOf E raw⟩ := derive_spec E (newPrivateKey raw)
      simp only [Act.bind, hr, Act.lift, d, e] at h1 h2
      injection h1 with h1
      injection h1 with h1
      rw [h2] at k2
      refine ⟨raw, by rw [k2]; exact List.append_nil _, k1, ?_, ?_⟩
      · rw [h1]
      · rw [h1]

end

/-- Non-vacuity: a shared memory in which goroutine 0 signs, goroutine 1 verifies and goroutine 2 generates a key pair, all with the same
shared arrays. -/
example : ∃ h0 bp a b c, SharedMemory h0 bp (fun i => match i with
    | 0 => [.sign ⟨some a, b⟩ c, .canonical a b]
    | 1 => [.verify ⟨none, b⟩ c a b, .decrypt ⟨some a, b⟩ ⟨some a, b⟩ 32 0 c]
    | 2 => [.generate 0, .encrypt ⟨some a, b⟩ ⟨some a, b⟩ 32 0 c]
    | _ => []) := by
  obtain ⟨v, hv, -⟩ := getBasePoint_spec
  obtain ⟨h1, a, a1, -, fa⟩ := exists_bytes (fun _ => []) (List.replicate 32 1)
  obtain ⟨h2, b, b1, -, fb⟩ := exists_bytes h1 (List.replicate 32 2)
  obtain ⟨h3, c, c1, -, fc⟩ := exists_bytes h2 [1, 2, 3]
  obtain ⟨h4, bp, p1, fp⟩ := exists_shows h3 v
  have up : ∀ {h h' : PHeap} {x : Addr}, Fr 0 PG.Nothing h h' → IsBytes h x → IsBytes h' x := fun f k => ⟨k.1, k.2.imp fun _ e => f.grow e⟩
  have ha : IsBytes h4 a := up fp (up fc (up fb a1))
  have hb : IsBytes h4 b := up fp (up fc b1)
  have hc : IsBytes h4 c := up fp c1
  refine ⟨h4, bp, a, b, c, ⟨v, hv, p1⟩, fun i => ?_⟩
  match i with
  | 0 => simp [Call.Args, ha, hb, hc]
  | 1 => simp [Call.Args, ha, hb, hc]
  | 2 => simp [Call.Args, ha, hb, hc]
  | i + 3 => simp

/-- Non-vacuity of the conclusion: in such a memory the goroutines do finish under the schedule that gives them turns round robin. -/
example (E : Env) (h0 : PHeap) (bp : Addr) (cs : Nat → List Call) (hm : SharedMemory h0 bp cs) (w : World) (i : Nat) (hi : i < 3) :
    ∃ n r, ((Pool.start h0 w (goroutines E bp cs)).run ((List.range n).map (· % 3))).thread i = .ret (.ok r) :=
  C53_finishes E hm w (· % 3) i fun n => ⟨3 * n + i, by omega, by show (3 * n + i) % 3 = i; omega⟩

end Ed

import Verif.Proofs.PShared
import Verif.Proofs.HalfTable
import Verif.Props.Conc

/-!
# Shared group elements (C55), racing precomputation (C56), precomputation that panics (C57)
-/

set_option autoImplicit false

namespace Ed
open Prog PG

/-! ## C55: shared elements that have their tables -/

section
variable {h0 : PHeap} {val : Addr → GE} {cs : Nat → List GCall} (hc : ∀ i, ∀ c ∈ cs i, c.Args h0 val) (w : World)

theorem gcalls_refW {h0 : PHeap} {val : Addr → GE} {cs : Nat → List GCall} (hc : ∀ i, ∀ c ∈ cs i, c.Args h0 val) (i : Nat) :
    RefW (i + 1) h0 (GCall.progs (cs i)) (Act.lift (.ok ((cs i).map (GCall.value val)))) :=
  RefV.refW (GCall.progs_refV (cs i) h0 (Fr.refl _ _ _) (hc i))

include hc

/-- C55: the shared elements and their tables never change. -/
theorem C55_memory (sched : List Nat) : ((Pool.start h0 w fun i => GCall.progs (cs i)).run sched).st.heap 0 = h0 0 :=
  (Pool.noninterference (fun i => safe_of_wpW (gcalls_refW hc i)) sched).1

/-- C55: no data race: the next memory access of a goroutine is to an object that it made itself, or it is a read. -/
theorem C55_race_free (sched : List Nat) (i : Nat) (a : Addr) (f : Val → Val) (k : Val → Prog (List (Out GRes)))
    (ht : ((Pool.start h0 w fun i => GCall.progs (cs i)).run sched).thread i = .access a f k) :
    a.region = i + 1 ∨ (a.region = 0 ∧ f = id) := by
  have h := ((Pool.inv_start (w := w) fun i => safe_of_wpW (gcalls_refW hc i)).run sched).2 i
  have hs := h.1
  rw [ht] at hs
  obtain ⟨v, -, h2, -⟩ := hs fun _ => []
  exact h2

/-- C55: each call has the outcome it has without concurrency. -/
theorem C55_results (sched : List Nat) (i : Nat) (r : Out (List (Out GRes)))
    (ht : ((Pool.start h0 w fun i => GCall.progs (cs i)).run sched).thread i = .ret r) :
    r = .ok ((cs i).map (GCall.value val)) := by
  have h := (Pool.noninterference (fun i => safe_of_wpW (gcalls_refW hc i)) sched).2 i r ht
  have k := (alone_of_wpW (gcalls_refW hc i (((Pool.start h0 w fun i => GCall.progs (cs i)).run sched).got i))).2
  unfold outcome at h
  exact (congrArg Prod.fst h).symm.trans (congrArg Prod.fst k)

/-- C55: a goroutine that gets its turn again and again finishes. -/
theorem C55_finishes (sched : Nat → Nat) (i : Nat) (hf : ∀ n, ∃ m, n ≤ m ∧ sched m = i) :
    ∃ n, ((Pool.start h0 w fun i => GCall.progs (cs i)).run ((List.range n).map sched)).thread i =
      .ret (.ok ((cs i).map (GCall.value val))) := by
  obtain ⟨n, r, h⟩ := Pool.finishes (Pool.start h0 w fun i => GCall.progs (cs i)) sched i hf
  rw [runN_eq] at h
  rw [C55_results hc w _ i r h] at h
  exact ⟨n, h⟩

end

/-- Non-vacuity: the base point with its tables, shared by all goroutines. -/
example : ∃ h0 bp v, getBasePoint = .ok v ∧ ∀ (i : Nat), ∀ c ∈ [GCall.scalarMultiply bp [1], .precomputeSingle bp, .precomputeDouble bp,
    .add bp bp, .select bp i 3], c.Args h0 fun _ => v := by
  obtain ⟨v, hv, -, -, -, h3, h4⟩ := getBasePoint_spec
  obtain ⟨h, bp, p1, -⟩ := exists_shows (fun _ => []) v
  refine ⟨h, bp, v, hv, fun i c hc => ?_⟩
  obtain ⟨t, ht, -⟩ := h3
  obtain ⟨u, hu, hu2, -⟩ := h4
  simp only [List.mem_cons, List.mem_nil_iff, or_false] at hc
  rcases hc with rfl | rfl | rfl | rfl | rfl
  · exact p1
  · exact ⟨p1, by rw [ht]; rfl⟩
  · exact ⟨p1, by rw [hu]; simp [hu2]⟩
  · exact ⟨p1, p1⟩
  · exact p1

/-! ## C56: racing precomputation -/

section
variable {h0 : PHeap} {ref : Addr} {v : GE} {q : Pt} (hs : ShowsGE 1 h0 ref v) (hn : v.single = none) (w : World)
include hs hn

/-- C56: alone, the goroutine that made the element precomputes and selects the right multiple. -/
theorem C56_alone (hg : ref.region = 1) (h3 : v.sys = .p3) (hq : v.toGC.Repr q) (pos : Nat) (hpos : pos < 32) (b : Int64)
    (hb : |b.toInt| ≤ 8) : ∃ x, (alone 1 h0 w (useTable ref pos b)).1 = .ok x ∧ x.sys = .precomputed ∧ x.Repr ((b.toInt * 256 ^ pos) • q) := by
  obtain ⟨v', e1, -, -, e4⟩ := GE.precomputeSingle_spec h3 hq hn
  have hab := abs_le.1 hb
  obtain ⟨x, s1, s2, s3⟩ := GE.select_spec e4 pos hpos b (by omega)
  rw [if_pos hb] at s3
  refine ⟨x, ?_, s2, s3⟩
  have key : wp 1 h0 (useTable ref pos b) fun r _ => r = .ok x := by
    unfold useTable
    simp only [Prog.bind_eq]
    refine wp_seq (precomputeSingle_wp hg hs) fun r h1 k1 => ?_
    rw [e1] at k1
    obtain ⟨-, _, rfl, k1⟩ := k1
    refine wp_seq (select_ref k1 pos b) fun r h2 k2 => ?_
    rw [s1] at k2
    obtain ⟨-, a, rfl, k2⟩ := k2
    have := wp_loadGC (f := fun x => ret (.ok x)) (Q := fun r _ => r = .ok x) k2 rfl
    rwa [bind_ret] at this
  exact (alone_of_wpW (wpW_of_wp (w := w) key)).1

/-- C56: when a second goroutine does the same at the same time, it can happen that it sees the table without rows, and its `Select` returns
the neutral element without any error. -/
theorem C56_race_neutral (pos : Nat) (hpos : pos < 32) (b : Int64) :
    ∃ sched x, ((Pool.start h0 w fun _ => useTable ref pos b).run sched).thread 1 = .ret (.ok x) ∧ x.sys = .precomputed ∧ x.Repr 0 := by
  have e : useTable ref pos b = (precStart ref).bind fun o => Prog.bind
      (match o with
        | none => .ret (.ok ())
        | some bi => precRows ref 32 0 bi) fun _ => (select ref pos b).bind loadGC := by
    unfold useTable
    simp only [Prog.bind_eq]
    rw [precomputeSingle_start, bind_bind]
    rfl
  obtain ⟨m, r, ⟨o, t, bi, -, k1, k2, k3⟩, -, k5⟩ := Pool.solo _ _ 0 (Pool.start h0 w fun _ => useTable ref pos b) _ e (precStart_wl hs hn)
  generalize hp : (Pool.start h0 w fun _ => useTable ref pos b).run (List.replicate m 0) = p at k1 k3 k5
  have ht : p.thread 1 = (precomputeSingle ref).bind fun _ => (select ref pos b).bind loadGC := by
    rw [k5 1 (by decide)]; rfl
  obtain ⟨n, r', ⟨x, rfl, x1, x2⟩, k6⟩ := Pool.solo_end 1 p (fun r _ => ∃ x, r = .ok x ∧ x.sys = .precomputed ∧ x.Repr 0) (by
    rw [ht]
    refine precomputeSingle_done k1 (by rw [k2]; rfl) ?_
    exact select_nilRow b k1 k2 k3 (by rw [List.getElem?_replicate, if_pos hpos]))
  refine ⟨List.replicate m 0 ++ List.replicate n 1, x, ?_, x1, x2⟩
  rw [Pool.run_append, hp, k6]

/-- C56: a moment later it sees a row without entries and gets an error. -/
theorem C56_race_error (b : Int64) (hb : 1 ≤ |b.toInt| ∧ |b.toInt| ≤ 8) :
    ∃ sched, ((Pool.start h0 w fun _ => useTable ref 0 b).run sched).thread 1 = .ret (.err "get nil object - don't work ") := by
  have e : useTable ref 0 b = ((precStart ref).bind (precStartRow ref)).bind fun o => Prog.bind
      (match o with
        | none => .ret (.ok ())
        | some bi => (copy bi).bind fun bij => (precRow ref 0 bi 8 0 bij).bind fun _ => (doubleN 8 bi).bind fun bi => precRows ref 31 1 bi)
      fun _ => (select ref 0 b).bind loadGC := by
    unfold useTable
    simp only [Prog.bind_eq]
    rw [precomputeSingle_startRow, bind_bind]
    rfl
  obtain ⟨m, r, ⟨o, t, row, bi, -, k1, k2, k3, k4⟩, -, k5⟩ :=
    Pool.solo _ _ 0 (Pool.start h0 w fun _ => useTable ref 0 b) _ e (precStartRow_wl hs hn)
  generalize hp : (Pool.start h0 w fun _ => useTable ref 0 b).run (List.replicate m 0) = p at k1 k3 k4 k5
  have ht : p.thread 1 = (precomputeSingle ref).bind fun _ => (select ref 0 b).bind loadGC := by
    rw [k5 1 (by decide)]; rfl
  obtain ⟨j, hj⟩ := Int.eq_ofNat_of_zero_le (abs_nonneg b.toInt)
  obtain ⟨n, r', hr, k6⟩ := Pool.solo_end 1 p (fun r _ => r = .err "get nil object - don't work ") (by
    rw [ht]
    refine precomputeSingle_done k1 (by rw [k2]; rfl) ?_
    exact select_nilEntry b k1 k2 k3 rfl k4 (by simp) hj (by omega) (by rw [List.getElem?_replicate, if_pos (by omega)]))
  refine ⟨List.replicate m 0 ++ List.replicate n 1, ?_⟩
  rw [Pool.run_append, hp, k6, hr]

end

/-- A memory in which the element `v` was made by goroutine 0. -/
theorem exists_made (v : GE) : ∃ h0 ref, ShowsGE 1 h0 ref v ∧ ref.region = 1 := by
  obtain ⟨-, a, -, k3, k4⟩ := (alone_of_wpW (wpW_of_wp (w := fun _ => []) (newGE_wp (g := 1) (h := fun _ => []) v))).1
  exact ⟨_, a, k4, k3⟩

/-- Non-vacuity: the decoded base point; the right result is not the neutral element. -/
example : ∃ h0 ref v, ShowsGE 1 h0 ref v ∧ ref.region = 1 ∧ v.single = none ∧ v.sys = .p3 ∧ v.toGC.Repr B ∧
    (((1 : Int64).toInt * 256 ^ 0) • B ≠ 0) := by
  obtain ⟨g, h1, h2, h3⟩ := GC.decode_ok (raw := basePointBytes) (Or.inl rfl) (q := B) basePoint_decodes
  obtain ⟨h0, ref, k1, k2⟩ := exists_made (GE.ofGC g)
  refine ⟨h0, ref, GE.ofGC g, k1, k2, rfl, ?_, ?_, ?_⟩
  · exact h2
  · exact h3.1
  · intro hz
    have h1 : (1 : Int64).toInt * 256 ^ 0 = 1 := by decide
    rw [h1, one_smul] at hz
    have := addOrderOf_B
    rw [hz, addOrderOf_zero, L_eq] at this
    cases this

/-! ## C57: precomputation that panics -/

/-- C57: on an element that has no cached form (P2, P1xP1, affine, precomputed coordinates, or a P3 element without T) and no table,
`PrecomputeForScalarMultiplication` panics but leaves a table with one entry behind: calling it again succeeds without doing anything, `Select`
returns the neutral element for every position from 1 to 31, and an error for digits 2 to 8 and -2 to -8 at position 0. -/
theorem C57_panic_leaves_table {g : Nat} {h0 : PHeap} {ref : Addr} {v : GE} (hs : ShowsGE g h0 ref v) (hg : ref.region = g) (hn : v.single = none)
    (hp : v.toGC.toCached = .panic) (w : World) :
    (alone g h0 w (precomputeSingle ref)).1 = .panic ∧
    (alone g (alone g h0 w (precomputeSingle ref)).2.1 w (precomputeSingle ref)).1 = .ok () ∧
    (∀ pos b, 1 ≤ pos → pos < 32 → ∃ x,
      (alone g (alone g h0 w (precomputeSingle ref)).2.1 w (useTable ref pos b)).1 = .ok x ∧ x.Repr 0) ∧
    (∀ b : Int64, 2 ≤ |b.toInt| → |b.toInt| ≤ 8 →
      (alone g (alone g h0 w (precomputeSingle ref)).2.1 w (useTable ref 0 b)).1 = .err "get nil object - don't work ") := by
  obtain ⟨k0, o, t, row, e, k1, k2, k3, k4, -⟩ := (alone_of_wpW (wpW_of_wp (w := w) (precomputeSingle_panics hg hs hn hp))).1
  generalize (alone g h0 w (precomputeSingle ref)).2.1 = h1 at k1 k3 k4
  refine ⟨k0, ?_, fun pos b h1' h2 => ?_, fun b hb1 hb2 => ?_⟩
  · have := precomputeSingle_done (g := g) (f := fun _ => ret (.ok ())) (Q := fun r _ => r = .ok ()) k1 (by rw [k2]; rfl) rfl
    rw [show (fun (_ : Unit) => (ret (.ok ()) : Prog Unit)) = fun a => ret (.ok a) from rfl, bind_ret] at this
    exact alone_of_wl w this
  · refine alone_of_wl w (Q := fun r _ => ∃ x : GC, r = .ok x ∧ x.Repr 0) ?_
    refine precomputeSingle_done k1 (by rw [k2]; rfl) ?_
    refine wl_mono (select_nilRow b k1 k2 k3 ?_) fun r h' hr => ?_
    · obtain ⟨m, rfl⟩ : ∃ m, pos = m + 1 := ⟨pos - 1, by omega⟩
      rw [List.getElem?_cons_succ, List.getElem?_replicate, if_pos (by omega)]
    · obtain ⟨x, x1, -, x2⟩ := hr
      exact ⟨x, x1, x2⟩
  · obtain ⟨j, hj⟩ := Int.eq_ofNat_of_zero_le (abs_nonneg b.toInt)
    refine alone_of_wl w (Q := fun r _ => r = .err "get nil object - don't work ") ?_
    refine precomputeSingle_done k1 (by rw [k2]; rfl) ?_
    refine select_nilEntry b k1 k2 k3 rfl k4 (by simp) hj (by omega) ?_
    obtain ⟨m, rfl⟩ : ∃ m, j = m + 2 := ⟨j - 2, by omega⟩
    show (some e :: List.replicate 7 none)[m + 1]? = _
    rw [List.getElem?_cons_succ, List.getElem?_replicate, if_pos (by omega)]

/-- Which elements these are. -/
theorem C57_which (v : GC) : v.toCached = .panic ↔ ¬ (v.sys = .cached ∨ (v.sys = .p3 ∧ v.T.isSome)) := by
  unfold GC.toCached GC.toCoordinateSystem
  cases v.sys <;> cases v.T <;> simp [Out.deref, Bind.bind, Out.bind]

/-- Non-vacuity: a P2 element. -/
example : ∃ h0 ref v, ShowsGE 1 h0 ref v ∧ ref.region = 1 ∧ v.single = none ∧ v.toGC.toCached = .panic := by
  obtain ⟨h0, ref, k1, k2⟩ := exists_made (GE.ofGC .zeroP2)
  exact ⟨h0, ref, _, k1, k2, rfl, rfl⟩

end Ed

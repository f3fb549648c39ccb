import Verif.Proofs.Solo
import Verif.Proofs.ScalarMul

/-!
# `Select` on unfinished tables
-/

set_option autoImplicit false

namespace Ed
namespace PG
open Prog

variable {g : Nat} {h : PHeap}

theorem wl_newGC {β : Type} {v : GC} {f : Addr → Prog β} {Q : Out β → PHeap → Prop}
    (hq : ∀ a h', Fr g Nothing h h' → ShowsGC g h' a v → wl g h' (f a) Q) : wl g h ((newGC v).bind f) Q := by
  refine wl_seq (wl_of_wp (newGC_ref v)) fun r h' hr => ?_
  obtain ⟨f1, a, rfl, hs, -⟩ := hr
  exact hq a h' f1 hs

theorem wl_loadGC {a : Addr} {v : GC} {Q : Out GC → PHeap → Prop} (hs : ShowsGC g h a v) (hq : Q (.ok v) h) : wl g h (loadGC a) Q := by
  have := wp_loadGC (f := fun x => ret (.ok x)) (Q := Q) hs hq
  rw [bind_ret] at this
  exact wl_of_wp this

theorem wl_copy {β : Type} {a : Addr} {o : PObj} {rs : List (List (Option Addr))} {ld : List (Option Addr)} (ha : Own g a)
    (ho : h.get a = some (.obj o)) (hc : Copyable g h o rs ld) {f : Addr → Prog β} {Q : Out β → PHeap → Prop}
    (hq : ∀ b h', Fr g Nothing h h' → h.get b = none → (∀ v, Coords g h o v → ShowsGC g h' b v) → wl g h' (f b) Q) :
    wl g h ((copy a).bind f) Q := by
  have key := wp_copy (f := fun b => ret (.ok b))
    (Q := fun r h' => ∃ b, r = .ok b ∧ Fr g Nothing h h' ∧ h.get b = none ∧ ∀ v, Coords g h o v → ShowsGC g h' b v) ha ho hc
    fun b s d ns h' fr b1 b2 b3 _ _ _ => ⟨b, rfl, fr, b2, fun v hv => ⟨.inl b1, _, b3, hv.fr fr⟩⟩
  rw [bind_ret] at key
  refine wl_seq (wl_of_wp key) fun r h' hr => ?_
  obtain ⟨b, rfl, k1, k2, k3⟩ := hr
  exact hq b h' k1 k2 k3

/-- A nil row: `Select` gives the neutral element. -/
theorem select_nilRow {ref t : Addr} {o : PObj} {l : List (Option Addr)} {pos : Nat} (b : Int64) (h1 : h.get ref = some (.obj o))
    (h2 : o.single = some t) (h3 : h.get t = some (.arr l)) (h4 : l[pos]? = some none) :
    wl g h ((select ref pos b).bind loadGC) fun r _ => ∃ x, r = .ok x ∧ x.sys = .precomputed ∧ x.Repr 0 := by
  unfold select
  simp only [Prog.bind_eq]
  rw [bind_bind]
  refine wl_newGC fun z k f1 hz => ?_
  rw [bind_bind]
  refine wl_loadObj (f1.grow h1) ?_
  rw [bind_bind, h2]
  refine wl_loadEntry (f1.grow h3) h4 ?_
  show wl g k (Prog.bind (Prog.bind (loadObj z) _) _) _
  rw [bind_bind]
  have hz' := hz
  obtain ⟨z0, oz, z1, z2, z3, z4, z5, z6⟩ := hz
  refine wl_loadObj z1 ?_
  rw [bind_bind]
  refine wl_loadFE z5.2 ?_
  rw [bind_bind]
  refine wl_new fun nz k2 f2 n1 n2 n3 => ?_
  rw [bind_bind]
  refine wl_new fun tm k3 f3 m1 m2 m3 => ?_
  have htm : ShowsGC g k3 tm (GC.newPrecomputed GC.zeroPrecomputed.Y GC.zeroPrecomputed.X GC.zeroPrecomputed.Z.negate) :=
    ⟨.inl m1, _, m3, rfl, z4.fr (f2.comp f3), z3.fr (f2.comp f3), ⟨.inl n1, f3.grow n3⟩, trivial⟩
  rw [isNegativeConstantTime_eq]
  by_cases hn : b.toInt / 256 % 2 = 1
  · rw [if_pos hn]
    show wl g k3 (loadGC tm) _
    refine wl_loadGC htm ⟨_, rfl, rfl, ?_⟩
    have := GC.neg_precomputed (g := .zeroPrecomputed) rfl GC.zeroPrecomputed_repr
    rwa [neg_zero] at this
  · rw [if_neg hn]
    show wl g k3 (loadGC z) _
    exact wl_loadGC (hz'.fr (f2.comp f3)) ⟨_, rfl, rfl, GC.zeroPrecomputed_repr⟩

/-- The loop of `Select` gives an error when the wanted entry is nil. -/
theorem selectLoop_nil (bAbs : Int64) (m : ℕ) (hm : m ≤ 128) (hb : bAbs.toInt = (m : ℤ)) :
    ∀ (row : List (Option Addr)) (i : ℕ) (t : Addr), i + row.length < 256 → i + 1 ≤ m → row[m - 1 - i]? = some none →
      selectLoop bAbs row i t = .err "get nil object - don't work "
  | [], i, t, _, _, h => by simp at h
  | el :: row, i, t, hi, h1, h2 => by
      rw [selectLoop, isConstantTimeByteEq_eq, hb]
      rw [List.length_cons] at hi
      have hf : (Int64.ofInt ((i : ℤ) + 1)).toInt = (i : ℤ) + 1 := toInt_ofInt_of_fits ⟨by omega, by omega⟩
      rw [hf]
      by_cases h : m = i + 1
      · rw [if_pos (by omega)]
        have : m - 1 - i = 0 := by omega
        rw [this] at h2
        cases h2
        rfl
      · rw [if_neg (by omega)]
        have e : m - 1 - i = (m - 1 - (i + 1)) + 1 := by omega
        rw [e, List.getElem?_cons_succ] at h2
        show selectLoop bAbs row (i + 1) t = _
        exact selectLoop_nil bAbs m hm hb row (i + 1) t (by omega) (by omega) h2

/-- A nil entry: `Select` gives an error. -/
theorem select_nilEntry {ref t rw_ : Addr} {o : PObj} {l row : List (Option Addr)} {pos m : Nat} (b : Int64) (h1 : h.get ref = some (.obj o))
    (h2 : o.single = some t) (h3 : h.get t = some (.arr l)) (h4 : l[pos]? = some (some rw_)) (h5 : h.get rw_ = some (.arr row))
    (h6 : row.length = 8) (hm : |b.toInt| = m) (hm1 : 1 ≤ m) (h7 : row[m - 1]? = some none) :
    wl g h ((select ref pos b).bind loadGC) fun r _ => r = .err "get nil object - don't work " := by
  have hm8 : m ≤ 8 := by
    obtain ⟨hl, -⟩ := List.getElem?_eq_some_iff.1 h7
    omega
  have hab := abs_le.1 (show |b.toInt| ≤ 8 by omega)
  unfold select
  simp only [Prog.bind_eq]
  rw [bind_bind]
  refine wl_newGC fun z k f1 hz => ?_
  rw [bind_bind]
  refine wl_loadObj (f1.grow h1) ?_
  rw [bind_bind, h2]
  refine wl_loadEntry (f1.grow h3) h4 ?_
  rw [bind_bind]
  refine wl_loadArr (f1.grow h5) ?_
  rw [isNegativeConstantTime_eq, selectLoop_nil _ m (by omega) ((GE.abs_digit b (by omega)).trans hm) row 0 z (by omega) (by omega) h7]
  rfl

/-- The first part of `PrecomputeForScalarMultiplication`: up to the moment when the new table of nil rows is stored. -/
def precStart (ref : Addr) : Prog (Option Addr) :=
  (loadObj ref).bind fun o =>
    if o.single.isSome then .ret (.ok none)
    else (copy ref).bind fun bi => (new (.arr (List.replicate 32 none))).bind fun t => (setSingle ref t).bind fun _ => .ret (.ok (some bi))

theorem precomputeSingle_start (ref : Addr) : precomputeSingle ref = (precStart ref).bind fun
    | none => .ret (.ok ())
    | some bi => precRows ref 32 0 bi := by
  unfold precomputeSingle precStart
  simp only [Prog.bind_eq]
  rw [bind_bind]
  congr 1
  funext o
  by_cases ho : o.single.isSome = true
  · rw [if_pos ho, if_pos ho]; rfl
  · rw [if_neg ho, if_neg ho]
    simp only [bind_bind]
    rfl

/-- With a table, `PrecomputeForScalarMultiplication` does nothing. -/
theorem precomputeSingle_done {β : Type} {ref : Addr} {o : PObj} {f : Unit → Prog β} {Q : Out β → PHeap → Prop} (h1 : h.get ref = some (.obj o))
    (h2 : o.single.isSome = true) (hq : wl g h (f ()) Q) : wl g h ((precomputeSingle ref).bind f) Q := by
  unfold precomputeSingle
  simp only [Prog.bind_eq]
  rw [bind_bind]
  refine wl_loadObj h1 ?_
  rw [if_pos h2]
  exact hq

/-- The first part leaves a table of nil rows. -/
theorem precStart_wl {ref : Addr} {v : GE} (hs : ShowsGE g h ref v) (hn : v.single = none) :
    wl g h (precStart ref) fun r h' => ∃ o t bi, r = .ok (some bi) ∧ h'.get ref = some (.obj o) ∧ o.single = some t ∧
      h'.get t = some (.arr (List.replicate 32 none)) := by
  obtain ⟨s0, o, ls, ld, h1, h2, h3, h4, h5, h6, h7, h8⟩ := hs
  unfold precStart
  refine wl_loadObj h1 ?_
  have hos : o.single = none := by
    rw [hn] at h3
    cases ho : o.single with
    | none => rfl
    | some _ => rw [ho] at h3; cases h3
  rw [hos]
  rw [if_neg (by simp)]
  have hls : ls = [] := by rw [hos] at h4; exact h4
  subst hls
  refine wl_copy s0 h1 ⟨[], h4, .nil, by simp, h7⟩ fun bi h2 f1 b1 b2 => ?_
  refine wl_new fun t h3 f2 t1 t2 t3 => ?_
  refine wl_update (f2.grow (f1.grow h1)) fun h4 k1 k2 => ?_
  refine ⟨_, t, bi, rfl, k2, rfl, ?_⟩
  rw [k1 t fun e => ?_]
  · exact t3
  · rw [e, f1.grow h1] at t2; cases t2

theorem wl_storeEntry {β : Type} {s : Addr} {l : List (Option Addr)} {i : Nat} {e : Addr} {f : Unit → Prog β}
    {Q : Out β → PHeap → Prop} (hs : h.get s = some (.arr l)) (hi : i < l.length)
    (hq : ∀ h', (∀ x, x ≠ s → h'.get x = h.get x) → h'.get s = some (.arr (l.set i (some e))) → wl g h' (f ()) Q) :
    wl g h ((storeEntry (some s) i e).bind f) Q := by
  unfold storeEntry
  simp only [Prog.bind_eq]
  rw [bind_bind]
  refine wl_loadArr hs ?_
  have : Out.index l i = .ok l[i] := by unfold Out.index; rw [List.getElem?_eq_getElem hi]; rfl
  rw [this]
  exact wl_update hs hq

/-- The next part: the first row, still without entries, is stored. -/
def precStartRow (ref : Addr) : Option Addr → Prog (Option Addr)
  | none => .ret (.ok none)
  | some bi => (new (.arr (List.replicate 8 none))).bind fun row => (loadObj ref).bind fun o =>
      (storeEntry o.single 0 row).bind fun _ => .ret (.ok (some bi))

theorem precRows_start (ref bi : Addr) (n : Nat) : precRows ref (n + 1) 0 bi = (precStartRow ref (some bi)).bind fun
    | none => .ret (.ok ())
    | some bi => (copy bi).bind fun bij => (precRow ref 0 bi 8 0 bij).bind fun _ => (doubleN 8 bi).bind fun bi => precRows ref n 1 bi := by
  unfold precStartRow
  rw [precRows]
  simp only [Prog.bind_eq, bind_bind]
  rfl

theorem precomputeSingle_startRow (ref : Addr) : precomputeSingle ref = ((precStart ref).bind (precStartRow ref)).bind fun
    | none => .ret (.ok ())
    | some bi => (copy bi).bind fun bij => (precRow ref 0 bi 8 0 bij).bind fun _ => (doubleN 8 bi).bind fun bi => precRows ref 31 1 bi := by
  rw [precomputeSingle_start, bind_bind]
  congr 1
  funext o
  cases o with
  | none => rfl
  | some bi => exact precRows_start ref bi 31

/-- The first two parts leave a table with an empty first row. -/
theorem precStartRow_wl {ref : Addr} {v : GE} (hs : ShowsGE g h ref v) (hn : v.single = none) :
    wl g h ((precStart ref).bind (precStartRow ref)) fun r h' => ∃ o t row bi, r = .ok (some bi) ∧ h'.get ref = some (.obj o) ∧ o.single = some t ∧
      h'.get t = some (.arr (some row :: List.replicate 31 none)) ∧ h'.get row = some (.arr (List.replicate 8 none)) := by
  refine wl_seq (precStart_wl hs hn) fun r h1 hr => ?_
  obtain ⟨o, t, bi, rfl, k1, k2, k3⟩ := hr
  refine wl_new fun row h2 f2 r1 r2 r3 => ?_
  refine wl_loadObj (f2.grow k1) ?_
  rw [k2]
  refine wl_storeEntry (f2.grow k3) (by simp) fun h3 e1 e2 => ?_
  have n1 : ref ≠ t := ne_of_obj_arr k1 k3
  have n2 : row ≠ t := fun e => by rw [e, k3] at r2; cases r2
  exact ⟨o, t, row, bi, rfl, (e1 ref n1).trans (f2.grow k1), k2, e2, (e1 row n2).trans r3⟩

/-- A receiver that cannot be added (no `toCached`): `PrecomputeForScalarMultiplication` panics after it has stored a table with a single
entry. -/
theorem precomputeSingle_panics {ref : Addr} {v : GE} (hg : ref.region = g) (hs : ShowsGE g h ref v) (hn : v.single = none)
    (hp : v.toGC.toCached = .panic) :
    wp g h (precomputeSingle ref) fun r h' => r = .panic ∧ ∃ o t row e, h'.get ref = some (.obj o) ∧ o.single = some t ∧
      h'.get t = some (.arr (some row :: List.replicate 31 none)) ∧ h'.get row = some (.arr (some e :: List.replicate 7 none)) ∧
      ShowsGC g h' e v.toGC.precEntry ∧ t.region = g ∧ row.region = g := by
  obtain ⟨s0, o, ls, ld, h1, h2, h3, h4, h5, h6, h7, h8⟩ := hs
  have hos : o.single = none := by
    rw [hn] at h3
    cases ho : o.single with
    | none => rfl
    | some _ => rw [ho] at h3; cases h3
  have hls : ls = [] := by rw [hos] at h4; exact h4
  subst hls
  unfold precomputeSingle
  simp only [Prog.bind_eq]
  refine wp_loadObj s0 h1 ?_
  rw [hos, if_neg (by simp)]
  refine wp_copy (rs := []) s0 h1 ⟨[], h4, .nil, by simp, h7⟩ fun bi s d ns ha fa b1 b2 b3 n1 n2 n3 => ?_
  cases n3
  refine wp_new fun t hb fb t1 t2 t3 => ?_
  have hrb : hb.get ref = some (.obj o) := (fa.comp fb).grow h1
  refine wp_update (a := ref) hg hrb (show Sim (.obj o) (.obj { o with single := some t }) from ⟨_, rfl, rfl, rfl, rfl, rfl, rfl⟩) fun hc fc g2 => ?_
  have hne : bi ≠ ref := by rintro rfl; rw [h1] at b2; cases b2
  have hnt : ref ≠ t := ne_of_obj_arr hrb t3
  have hbi : hc.get bi = some (.obj { o with single := some s, double := some d }) := fc.get (fb.grow b3) hne
  rw [precRows]
  simp only [Prog.bind_eq]
  refine wp_new fun row hd fd r1 r2 r3 => ?_
  refine wp_loadObj s0 (fd.grow g2) ?_
  have htd : hd.get t = some (.arr (List.replicate 32 none)) := fd.grow (fc.get t3 hnt.symm)
  refine wp_storeEntry t1 htd (by simp) fun he fe e1 => ?_
  have hbt : bi ≠ t := fun e => by rw [e] at b3; rw [b3] at t2; cases t2
  have hrt : row ≠ t := fun e => by rw [e] at r2; rw [fc.get t3 hnt.symm] at r2; cases r2
  have hst : s ≠ t := fun e => by rw [e] at n1; rw [n1.2.2] at t2; cases t2
  have hdt : d ≠ t := fun e => by rw [e] at n2; rw [n2.2.2] at t2; cases t2
  have hsr : s ≠ ref := fun e => by have := n1.2.1; rw [e, h1] at this; cases this
  have hdr : d ≠ ref := fun e => by have := n2.2.1; rw [e, h1] at this; cases this
  have hbe : he.get bi = some (.obj { o with single := some s, double := some d }) := fe.get (fd.grow hbi) hbt
  have hse : he.get s = some (.arr []) := fe.get (fd.grow (fc.get (fb.grow n1.2.2) hsr)) hst
  have hde : he.get d = some (.arr ld) := fe.get (fd.grow (fc.get (fb.grow n2.2.2) hdr)) hdt
  have co : Coords g he o v.toGC := ((((h2.fr fa).fr fb).fr fc).fr fd).fr fe
  have hre : he.get ref = some (.obj { o with single := some t }) := fe.get (fd.grow g2) hnt
  have hrowe : he.get row = some (.arr (List.replicate 8 none)) := fe.get r3 hrt
  refine wp_copy (rs := []) (.inl b1) hbe ⟨[], ⟨.inl n1.1, hse⟩, .nil, by simp, ⟨.inl n2.1, hde⟩⟩ fun bij s' d' ns' hf ff c1 c2 c3 m1 m2 m3 => ?_
  cases m3
  have hbij : ShowsGC g hf bij v.toGC := ⟨.inl c1, _, c3, co.fr ff⟩
  have hbi' : ShowsGC g hf bi v.toGC := ⟨.inl b1, _, ff.grow hbe, co.fr ff⟩
  refine wp_bind ?_
  rw [precRow]
  simp only [Prog.bind_eq]
  refine wp_loadGC hbij ?_
  refine wp_newGC fun e hg' fg e1' e2' e3 e4 => ?_
  refine wp_loadObj s0 (fg.grow (ff.grow hre)) ?_
  refine wp_loadEntry (l := some row :: List.replicate 31 none) ⟨.inl t1, fg.grow (ff.grow e1)⟩ rfl ?_
  refine wp_storeEntry r1 (fg.grow (ff.grow hrowe)) (by simp) fun hh fh i1 => ?_
  refine wp_bind ?_
  unfold addP3
  simp only [Prog.bind_eq]
  refine wp_bind ?_
  refine wp_mono (toCoordinateSystem_ref ((hbi'.fr fg).fr fh) .cached) fun r hi ⟨fi, hr⟩ => ?_
  rw [show v.toGC.toCoordinateSystem .cached = .panic from hp] at hr
  cases (show r = .panic from hr)
  have hrr : ref ≠ row := fun e => by rw [← e, g2] at r2; cases r2
  refine ⟨rfl, _, t, row, e, fi.grow (fh.get (fg.grow (ff.grow hre)) hrr), rfl, ?_, ?_, ?_, t1, r1⟩
  · exact fi.grow (fh.get (fg.grow (ff.grow e1)) (Ne.symm hrt))
  · exact fi.grow i1
  · exact (e3.fr fh).fr fi

end PG
end Ed

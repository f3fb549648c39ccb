import Verif.Model.Pointers
import Verif.Proofs.ScalarMul
import Verif.Proofs.Keys

/-!
# C48: the shared base point

`BASE_POINT()` returns a copy of a package variable; the copy shares the coordinates and the table entries.  What the
shared point shows is unchanged by every history that never writes through one of those pointers; a write through a
coordinate pointer of a copy, or through the result of `Select`, changes it for everybody.
-/

set_option autoImplicit false

namespace Ed

/-- `m` extends `m0`: everything allocated in `m0` is unchanged. -/
def Keeps (m0 m : Mem) : Prop := m0.cells <+: m.cells ∧ m0.objs <+: m.objs

namespace Mem

/-- The pointers of the object at `p` are allocated. -/
def WfGC (m : Mem) (p : ℕ) : Prop :=
  p < m.objs.length ∧ (m.obj p).X < m.cells.length ∧ (m.obj p).Y < m.cells.length ∧ (m.obj p).Z < m.cells.length ∧
    ∀ t ∈ (m.obj p).T, t < m.cells.length

/-- All pointers reachable from the object at `p` are allocated. -/
def Wf (m : Mem) (p : ℕ) : Prop :=
  m.WfGC p ∧ (∀ t ∈ (m.obj p).single, ∀ row ∈ t, ∀ e ∈ row, m.WfGC e) ∧ ∀ t ∈ (m.obj p).double, ∀ e ∈ t, m.WfGC e

end Mem

theorem Keeps.refl (m : Mem) : Keeps m m := ⟨List.prefix_refl _, List.prefix_refl _⟩
theorem Keeps.trans {a b c : Mem} (h : Keeps a b) (h' : Keeps b c) : Keeps a c :=
  ⟨h.1.trans h'.1, h.2.trans h'.2⟩

theorem getD_prefix {α : Type} {l l' : List α} (h : l <+: l') {i : ℕ} (hi : i < l.length) (x : α) :
    l'.getD i x = l.getD i x := by
  obtain ⟨t, rfl⟩ := h
  rw [List.getD_eq_getElem?_getD, List.getD_eq_getElem?_getD, List.getElem?_append_left hi]

theorem Keeps.cell {m0 m : Mem} (h : Keeps m0 m) {p : ℕ} (hp : p < m0.cells.length) : m.cell p = m0.cell p :=
  getD_prefix h.1 hp _
theorem Keeps.obj {m0 m : Mem} (h : Keeps m0 m) {p : ℕ} (hp : p < m0.objs.length) : m.obj p = m0.obj p :=
  getD_prefix h.2 hp _

theorem option_map_congr {α β : Type} {f g : α → β} {o : Option α} (h : ∀ a ∈ o, f a = g a) : o.map f = o.map g := by
  cases o with
  | none => rfl
  | some a => simp [h a rfl]

theorem Keeps.gc {m0 m : Mem} (h : Keeps m0 m) {p : ℕ} (hp : m0.WfGC p) : m.gc p = m0.gc p := by
  obtain ⟨h0, h1, h2, h3, h4⟩ := hp
  unfold Mem.gc
  simp only [h.obj h0, h.cell h1, h.cell h2, h.cell h3, option_map_congr fun t ht => h.cell (h4 t ht)]

theorem Keeps.ge {m0 m : Mem} (h : Keeps m0 m) {p : ℕ} (hp : m0.Wf p) : m.ge p = m0.ge p := by
  obtain ⟨h0, h1, h2⟩ := hp
  unfold Mem.ge
  simp only [h.obj h0.1, h.gc h0]
  congr 1
  · refine option_map_congr fun t ht => List.map_congr_left fun row hr => List.map_congr_left fun e he => ?_
    exact h.gc (h1 t ht row hr e he)
  · exact option_map_congr fun t ht => List.map_congr_left fun e he => h.gc (h2 t ht e he)

theorem Keeps.wfGC {m0 m : Mem} (h : Keeps m0 m) {p : ℕ} (hp : m0.WfGC p) : m.WfGC p := by
  have hc := h.1.length_le
  have ho := h.2.length_le
  unfold Mem.WfGC at *
  rw [h.obj hp.1]
  refine ⟨by omega, by omega, by omega, by omega, fun t ht => ?_⟩
  have := hp.2.2.2.2 t ht; omega

theorem Keeps.wf {m0 m : Mem} (h : Keeps m0 m) {p : ℕ} (hp : m0.Wf p) : m.Wf p := by
  obtain ⟨h0, h1, h2⟩ := hp
  refine ⟨h.wfGC h0, ?_, ?_⟩
  · rw [h.obj h0.1]; exact fun t ht row hr e he => h.wfGC (h1 t ht row hr e he)
  · rw [h.obj h0.1]; exact fun t ht e he => h.wfGC (h2 t ht e he)

namespace Mem

theorem keeps_newCell (m : Mem) (v : FE) : Keeps m (m.newCell v).1 := ⟨List.prefix_append _ _, List.prefix_refl _⟩
theorem keeps_newObj (m : Mem) (o : GObj) : Keeps m (m.newObj o).1 := ⟨List.prefix_refl _, List.prefix_append _ _⟩

theorem prefix_set {α : Type} {l l' : List α} (h : l <+: l') {i : ℕ} (hi : l.length ≤ i) (x : α) : l <+: l'.set i x := by
  obtain ⟨t, rfl⟩ := h
  rw [List.set_append_right _ _ hi]
  exact List.prefix_append _ _

theorem keeps_setCell {m0 m : Mem} (h : Keeps m0 m) {p : ℕ} (hp : m0.cells.length ≤ p) (v : FE) :
    Keeps m0 (m.setCell p v) := ⟨prefix_set h.1 hp v, h.2⟩
theorem keeps_setObj {m0 m : Mem} (h : Keeps m0 m) {p : ℕ} (hp : m0.objs.length ≤ p) (f : GObj → GObj) :
    Keeps m0 (m.setObj p f) := ⟨h.1, prefix_set h.2 hp _⟩

theorem cell_newCell (m : Mem) (v : FE) : (m.newCell v).1.cell m.cells.length = v := by
  simp [newCell, cell, List.getD_eq_getElem?_getD]
theorem obj_newObj (m : Mem) (o : GObj) : (m.newObj o).1.obj m.objs.length = o := by
  simp [newObj, obj, List.getD_eq_getElem?_getD]

theorem keeps_newGC (m : Mem) (g : GC) : Keeps m (m.newGC g).1 := by
  unfold newGC
  cases g.T with
  | none => exact (((keeps_newCell _ _).trans (keeps_newCell _ _)).trans (keeps_newCell _ _)).trans (keeps_newObj _ _)
  | some t =>
    exact ((((keeps_newCell _ _).trans (keeps_newCell _ _)).trans (keeps_newCell _ _)).trans (keeps_newCell _ _)).trans
      (keeps_newObj _ _)

/-- A new group element shows its value, is allocated, and is at a new address. -/
theorem newGC_spec (m : Mem) (g : GC) : (m.newGC g).2 = m.objs.length ∧ (m.newGC g).1.gc (m.newGC g).2 = g ∧
    (m.newGC g).1.WfGC (m.newGC g).2 := by
  obtain ⟨s, x, y, z, t⟩ := g
  cases t with
  | none =>
    simp [newGC, newObj, newCell, gc, WfGC, obj, cell, List.getD_eq_getElem?_getD]
  | some t =>
    simp [newGC, newObj, newCell, gc, WfGC, obj, cell, List.getD_eq_getElem?_getD]

theorem newRow_spec : ∀ (gs : List GC) (m : Mem), Keeps m (m.newRow gs).1 ∧
    (m.newRow gs).2.map (m.newRow gs).1.gc = gs ∧ ∀ e ∈ (m.newRow gs).2, m.objs.length ≤ e ∧ (m.newRow gs).1.WfGC e
  | [], m => ⟨Keeps.refl _, rfl, by simp [newRow]⟩
  | g :: gs, m => by
    have k1 := m.keeps_newGC g
    obtain ⟨a1, a2, a3⟩ := m.newGC_spec g
    obtain ⟨r1, r2, r3⟩ := newRow_spec gs (m.newGC g).1
    rw [newRow]
    refine ⟨k1.trans r1, ?_, ?_⟩
    · rw [List.map_cons, r2, r1.gc a3, a2]
    · intro e he
      rcases List.mem_cons.1 he with rfl | he
      · exact ⟨le_of_eq a1.symm, r1.wfGC a3⟩
      · exact ⟨k1.2.length_le.trans (r3 e he).1, (r3 e he).2⟩

theorem newRows_spec : ∀ (gs : List (List GC)) (m : Mem), Keeps m (m.newRows gs).1 ∧
    (m.newRows gs).2.map (·.map (m.newRows gs).1.gc) = gs ∧
    ∀ row ∈ (m.newRows gs).2, ∀ e ∈ row, m.objs.length ≤ e ∧ (m.newRows gs).1.WfGC e
  | [], m => ⟨Keeps.refl _, rfl, by simp [newRows]⟩
  | g :: gs, m => by
    obtain ⟨k1, a2, a3⟩ := m.newRow_spec g
    obtain ⟨r1, r2, r3⟩ := newRows_spec gs (m.newRow g).1
    rw [newRows]
    refine ⟨k1.trans r1, ?_, ?_⟩
    · rw [List.map_cons, r2]
      conv_rhs => rw [← a2]
      rw [List.map_congr_left fun e he => r1.gc (a3 e he).2]
    · intro row hrow e he
      rcases List.mem_cons.1 hrow with rfl | hrow
      · exact ⟨(a3 e he).1, r1.wfGC (a3 e he).2⟩
      · exact ⟨k1.2.length_le.trans (r3 row hrow e he).1, (r3 row hrow e he).2⟩

end Mem

/-! ## Histories -/

/-- What a program may do with group elements. -/
inductive MOp where
  /-- `Ed25519Group.BASE_POINT()` -/
  | basePoint
  /-- a new group element with new coordinates (all results of the arithmetic) -/
  | fresh (g : GC)
  /-- a new group element built from pointers it already has (`NewEd25519GroupElement...`) -/
  | fromPointers (o : GObj)
  /-- a new field element -/
  | newField (v : FE)
  /-- `*p = v` for a field element -/
  | writeField (p : ℕ) (v : FE)
  /-- assignment to fields of a group element -/
  | writeGroup (p : ℕ) (f : GObj → GObj)
  /-- `PrecomputeForScalarMultiplication` -/
  | precomputeSingle (p : ℕ)
  /-- `PrecomputeForDoubleScalarMultiplication` -/
  | precomputeDouble (p : ℕ)
  /-- `Select` -/
  | select (p pos : ℕ) (b : Int64)

/-- The memory after an operation; `bp` is the shared base point. -/
def MOp.run (bp : ℕ) (m : Mem) : MOp → Mem
  | .basePoint => (m.copy bp).1
  | .fresh g => (m.newGC g).1
  | .fromPointers o => (m.newObj o).1
  | .newField v => (m.newCell v).1
  | .writeField p v => m.setCell p v
  | .writeGroup p f => m.setObj p f
  | .precomputeSingle p => m.precomputeSingle p
  | .precomputeDouble p => m.precomputeDouble p
  | .select p pos b => match m.select p pos b with | .ok r => r.1 | _ => m

/-- The operation writes only to objects created after `m0` (a precomputation on the shared base point is allowed). -/
def MOp.Allowed (bp : ℕ) (m0 : Mem) : MOp → Prop
  | .writeField p _ => m0.cells.length ≤ p
  | .writeGroup p _ => m0.objs.length ≤ p
  | .precomputeSingle p => p = bp ∨ m0.objs.length ≤ p
  | .precomputeDouble p => p = bp ∨ m0.objs.length ≤ p
  | _ => True

theorem Mem.keeps_select {m m' : Mem} {p pos r : ℕ} {b : Int64} (h : m.select p pos b = .ok (m', r)) : Keeps m m' := by
  unfold Mem.select at h
  dsimp only at h
  generalize Out.index _ pos = row at h
  cases row with
  | err e => exact absurd h (by simp)
  | panic => exact absurd h (by simp)
  | ok row =>
    rw [Out.ok_bind] at h
    generalize Mem.selectLoop _ row _ _ = t at h
    cases t with
    | err e => exact absurd h (by simp)
    | panic => exact absurd h (by simp)
    | ok t =>
      rw [Out.ok_bind] at h
      generalize Mem.cmov _ _ _ = c at h
      cases c with
      | err e => exact absurd h (by simp)
      | panic => exact absurd h (by simp)
      | ok c =>
        rw [Out.ok_bind] at h
        injection h with h
        injection h with h1 h2
        rw [← h1]
        exact ((Mem.keeps_newGC _ _).trans (Mem.keeps_newCell _ _)).trans (Mem.keeps_newObj _ _)

theorem MOp.keeps {bp : ℕ} {m0 m : Mem} (hw : m0.Wf bp) (hs : (m0.obj bp).single.isSome)
    (hd : ((m0.obj bp).double.getD []).length > 0) (h : Keeps m0 m) (op : MOp) (ha : op.Allowed bp m0) :
    Keeps m0 (op.run bp m) := by
  have hobj := h.obj hw.1.1
  cases op with
  | basePoint => exact h.trans (Mem.keeps_newObj _ _)
  | fresh g => exact h.trans (Mem.keeps_newGC _ _)
  | fromPointers o => exact h.trans (Mem.keeps_newObj _ _)
  | newField v => exact h.trans (Mem.keeps_newCell _ _)
  | writeField p v => exact Mem.keeps_setCell h ha v
  | writeGroup p f => exact Mem.keeps_setObj h ha f
  | precomputeSingle p =>
    show Keeps m0 (m.precomputeSingle p)
    unfold Mem.precomputeSingle
    by_cases hp : (m.obj p).single.isSome
    · rw [if_pos hp]; exact h
    · rw [if_neg hp]
      rcases ha with rfl | ha
      · exact absurd (hobj ▸ hs) hp
      · cases GC.precRows 32 (m.gc p) with
        | ok rows => exact Mem.keeps_setObj (h.trans (Mem.newRows_spec rows m).1) ha _
        | err e => exact h
        | panic => exact h
  | precomputeDouble p =>
    show Keeps m0 (m.precomputeDouble p)
    unfold Mem.precomputeDouble
    by_cases hp : ((m.obj p).double.getD []).length > 0
    · rw [if_pos hp]; exact h
    · rw [if_neg hp]
      rcases ha with rfl | ha
      · exact absurd (hobj ▸ hd) hp
      · cases GC.precOdd (m.gc p) 8 (m.gc p) with
        | ok rows => exact Mem.keeps_setObj (h.trans (Mem.newRow_spec rows m).1) ha _
        | err e => exact h
        | panic => exact h
  | select p pos b =>
    show Keeps m0 (match m.select p pos b with | .ok r => r.1 | _ => m)
    cases hq : m.select p pos b with
    | ok r => exact h.trans (Mem.keeps_select (r := r.2) (m' := r.1) hq)
    | err e => exact h
    | panic => exact h

theorem MOp.keeps_all {bp : ℕ} {m0 : Mem} (hw : m0.Wf bp) (hs : (m0.obj bp).single.isSome)
    (hd : ((m0.obj bp).double.getD []).length > 0) :
    ∀ (ops : List MOp) (m : Mem), Keeps m0 m → (∀ op ∈ ops, op.Allowed bp m0) →
      Keeps m0 (ops.foldl (MOp.run bp) m)
  | [], _, h, _ => h
  | op :: ops, m, h, ha => MOp.keeps_all hw hs hd ops (op.run bp m) (op.keeps hw hs hd h (ha op (by simp)))
      fun o ho => ha o (List.mem_cons_of_mem _ ho)

theorem Mem.copy_ge {m : Mem} {p : ℕ} (hw : m.Wf p) : (m.copy p).1.ge (m.copy p).2 = (m.ge p).copy := by
  have k : Keeps m (m.copy p).1 := Mem.keeps_newObj _ _
  obtain ⟨⟨h0, h1, h2, h3, h4⟩, h5, h6⟩ := hw
  have ho : (m.copy p).1.obj (m.copy p).2 = { m.obj p with
      single := some ((m.obj p).single.getD []), double := some ((m.obj p).double.getD []) } := Mem.obj_newObj _ _
  unfold Mem.ge GE.copy
  rw [ho]
  have hgc : (m.copy p).1.gc (m.copy p).2 = m.gc p := by
    unfold Mem.gc
    rw [ho]
    simp only [k.cell h1, k.cell h2, k.cell h3, option_map_congr fun t ht => k.cell (h4 t ht)]
  rw [hgc]
  dsimp only
  congr 1
  · rw [Option.map_some]
    congr 1
    cases hs : (m.obj p).single with
    | none => rfl
    | some t =>
      exact List.map_congr_left fun row hr => List.map_congr_left fun e he => k.gc (h5 t hs row hr e he)
  · rw [Option.map_some]
    congr 1
    cases hs : (m.obj p).double with
    | none => rfl
    | some t => exact List.map_congr_left fun e he => k.gc (h6 t hs e he)

/-- C48: after every history that writes only to objects it created, `BASE_POINT()` shows what it showed at the start,
coordinates and tables. -/
theorem C48_history (m0 : Mem) (bp : ℕ) (hw : m0.Wf bp) (hs : (m0.obj bp).single.isSome)
    (hd : ((m0.obj bp).double.getD []).length > 0) (ops : List MOp) (ha : ∀ op ∈ ops, op.Allowed bp m0) :
    let m := ops.foldl (MOp.run bp) m0
    m.ge bp = m0.ge bp ∧ (m.copy bp).1.ge (m.copy bp).2 = (m0.ge bp).copy := by
  have k := MOp.keeps_all hw hs hd ops m0 (Keeps.refl _) ha
  refine ⟨k.ge hw, ?_⟩
  rw [Mem.copy_ge (k.wf hw), k.ge hw]

theorem Mem.gc_setObj {m : Mem} {p q : ℕ} (h : p ≠ q) (f : GObj → GObj) : (m.setObj p f).gc q = m.gc q := by
  have : (m.setObj p f).obj q = m.obj q := by
    simp [setObj, obj, List.getD_eq_getElem?_getD, List.getElem?_set_ne h]
  unfold gc
  rw [this]
  rfl

theorem Mem.wfGC_setObj {m : Mem} {p q : ℕ} (h : p ≠ q) (f : GObj → GObj) (hq : m.WfGC q) : (m.setObj p f).WfGC q := by
  have : (m.setObj p f).obj q = m.obj q := by
    simp [setObj, obj, List.getD_eq_getElem?_getD, List.getElem?_set_ne h]
  unfold WfGC at *
  rw [this]
  simpa [setObj] using hq

theorem Mem.obj_setObj {m : Mem} {p : ℕ} (h : p < m.objs.length) (f : GObj → GObj) : (m.setObj p f).obj p = f (m.obj p) := by
  simp [setObj, obj, List.getD_eq_getElem?_getD, List.getElem?_set_self h]

theorem initMem_spec (g : GC) : (initMem g).1.Wf (initMem g).2 ∧
    (initMem g).1.ge (initMem g).2 = { g with single := some basePrecSingle, double := some basePrecDouble } ∧
    ((initMem g).1.obj (initMem g).2).single.isSome ∧
    (((initMem g).1.obj (initMem g).2).double.getD []).length > 0 := by
  obtain ⟨a1, a2, a3⟩ := (Mem.mk [] []).newGC_spec g
  obtain ⟨s1, s2, s3⟩ := ((Mem.mk [] []).newGC g).1.newRows_spec basePrecSingle
  obtain ⟨d1, d2, d3⟩ := (((Mem.mk [] []).newGC g).1.newRows basePrecSingle).1.newRow_spec basePrecDouble
  have hd8 : basePrecDouble.length = 8 := by decide
  unfold initMem
  dsimp only
  generalize (Mem.mk [] []).newGC g = b at *
  generalize b.1.newRows basePrecSingle = s at *
  generalize s.1.newRow basePrecDouble = r at *
  have hb : b.2 < b.1.objs.length := a3.1
  have hr : b.2 < r.1.objs.length := (d1.wfGC (s1.wfGC a3)).1
  have ho := Mem.obj_setObj hr fun o => { o with single := some s.2, double := some r.2 }
  have hgs : ∀ row ∈ s.2, ∀ e ∈ row, b.2 ≠ e ∧ s.1.WfGC e := fun row h e he =>
    ⟨by have := (s3 row h e he).1; omega, (s3 row h e he).2⟩
  have hgd : ∀ e ∈ r.2, b.2 ≠ e ∧ r.1.WfGC e := fun e he =>
    ⟨by have := (d3 e he).1; have := s1.2.length_le; omega, (d3 e he).2⟩
  have hwb : r.1.WfGC b.2 := d1.wfGC (s1.wfGC a3)
  refine ⟨⟨?_, ?_, ?_⟩, ?_, ?_, ?_⟩
  · unfold Mem.WfGC at hwb ⊢
    rw [ho]
    simpa [Mem.setObj] using hwb
  · rw [ho]
    intro t ht row hrow e he
    rw [Option.mem_some] at ht
    subst ht
    obtain ⟨e1, e2⟩ := hgs row hrow e he
    exact Mem.wfGC_setObj e1 _ (d1.wfGC e2)
  · rw [ho]
    intro t ht e he
    rw [Option.mem_some] at ht
    subst ht
    obtain ⟨e1, e2⟩ := hgd e he
    exact Mem.wfGC_setObj e1 _ e2
  · unfold Mem.ge
    rw [ho]
    have hg : (r.1.setObj b.2 fun o => { o with single := some s.2, double := some r.2 }).gc b.2 = g := by
      have : (r.1.setObj b.2 fun o => { o with single := some s.2, double := some r.2 }).gc b.2 = r.1.gc b.2 := by
        unfold Mem.gc
        rw [ho]
        rfl
      rw [this, d1.gc (s1.wfGC a3), s1.gc a3, a2]
    rw [hg]
    dsimp only
    congr 1
    · rw [Option.map_some, ← s2]
      congr 1
      refine List.map_congr_left fun row hrow => ?_
      refine List.map_congr_left fun e he => ?_
      obtain ⟨e1, e2⟩ := hgs row hrow e he
      rw [Mem.gc_setObj e1, d1.gc e2]
    · rw [Option.map_some, ← d2]
      congr 1
      refine List.map_congr_left fun e he => ?_
      exact Mem.gc_setObj (hgd e he).1 _
  · rw [ho]; rfl
  · rw [ho]
    show r.2.length > 0
    have := congrArg List.length d2
    rw [List.length_map, hd8] at this
    omega

/-- The hypotheses of `C48_history` hold for the memory after the initialisation of the package, where the base point
shows the value of `getBasePoint`. -/
theorem C48_init : ∃ g, GC.decode basePointBytes = .ok g ∧
    getBasePoint = .ok ((initMem g).1.ge (initMem g).2) ∧ (initMem g).1.Wf (initMem g).2 ∧
    ((initMem g).1.obj (initMem g).2).single.isSome ∧ (((initMem g).1.obj (initMem g).2).double.getD []).length > 0 := by
  obtain ⟨g, h1, -⟩ := GC.decode_ok (raw := basePointBytes) (Or.inl rfl) (q := B) basePoint_decodes
  obtain ⟨i1, i2, i3, i4⟩ := initMem_spec g
  refine ⟨g, h1, ?_, i1, i3, i4⟩
  rw [i2]
  unfold getBasePoint
  rw [h1]
  rfl

/-- C48, both together: in the initialised package, after any such history `BASE_POINT()` shows the copy of the base
point of the curve with its tables. -/
theorem C48_basePoint (ops : List MOp) : ∃ g : GC, GC.decode basePointBytes = .ok g ∧
    ((∀ op ∈ ops, op.Allowed (initMem g).2 (initMem g).1) →
      let m := ops.foldl (MOp.run (initMem g).2) (initMem g).1
      basePoint = .ok ((m.copy (initMem g).2).1.ge (m.copy (initMem g).2).2)) := by
  obtain ⟨g, h1, h2, h3, h4, h5⟩ := C48_init
  refine ⟨g, h1, fun ha => ?_⟩
  dsimp only
  rw [(C48_history _ _ h3 h4 h5 ops ha).2]
  unfold basePoint
  rw [h2]
  rfl

theorem Mem.gc_setTables {m : Mem} {p : ℕ} (f : GObj → GObj) (hf : ∀ o, (f o).sys = o.sys ∧ (f o).X = o.X ∧ (f o).Y = o.Y ∧
    (f o).Z = o.Z ∧ (f o).T = o.T) (q : ℕ) : (m.setObj p f).gc q = m.gc q := by
  by_cases h : p = q
  · subst h
    by_cases hp : p < m.objs.length
    · obtain ⟨h1, h2, h3, h4, h5⟩ := hf (m.obj p)
      unfold Mem.gc
      rw [Mem.obj_setObj hp]
      dsimp only
      rw [h1, h2, h3, h4, h5]
      rfl
    · have : m.setObj p f = m := by
        unfold Mem.setObj
        rw [List.set_eq_of_length_le (by omega)]
      rw [this]
  · exact Mem.gc_setObj h f

theorem Mem.ge_single' (m : Mem) (p : ℕ) : (m.ge p).single = (m.obj p).single.map (·.map (·.map m.gc)) := rfl

/-- C48: the precomputations on pointers do to the group element what those on values (C41) do, whatever tables it has,
and leave every other allocated group element as it is. -/
theorem C48_precompute_view (m : Mem) (p : ℕ) (hw : m.Wf p) :
    (∀ g, (m.ge p).precomputeForScalarMultiplication = .ok g → (m.precomputeSingle p).ge p = g) ∧
    (∀ g, (m.ge p).precomputeForDoubleScalarMultiplication = .ok g → (m.precomputeDouble p).ge p = g) ∧
    ∀ q, m.Wf q → q ≠ p → (m.precomputeSingle p).ge q = m.ge q ∧ (m.precomputeDouble p).ge q = m.ge q := by
  have hsome : (m.ge p).single.isSome = (m.obj p).single.isSome := by
    rw [Mem.ge_single']; exact Option.isSome_map
  have hlen : ((m.ge p).double.getD []).length = ((m.obj p).double.getD []).length := by
    show (((m.obj p).double.map (·.map m.gc)).getD []).length = _
    cases (m.obj p).double <;> simp
  have hgc : (m.ge p).toGC = m.gc p := rfl
  refine ⟨fun g hg => ?_, fun g hg => ?_, fun q hq hne => ⟨?_, ?_⟩⟩
  · unfold GE.precomputeForScalarMultiplication at hg
    rw [hsome, hgc] at hg
    unfold Mem.precomputeSingle
    split at hg
    · rename_i h; rw [if_pos h]; injection hg
    · rename_i h
      rw [if_neg h]
      cases hr : GC.precRows 32 (m.gc p) with
      | err e => rw [hr] at hg; cases hg
      | panic => rw [hr] at hg; cases hg
      | ok rows =>
        rw [hr, Out.bind_ok] at hg
        dsimp only
        obtain ⟨k1, k2, k3⟩ := Mem.newRows_spec rows m
        generalize m.newRows rows = r at *
        have hp : p < r.1.objs.length := (k1.wfGC hw.1).1
        have hf : ∀ o : GObj, ({ o with single := some r.2 } : GObj).sys = o.sys ∧ ({ o with single := some r.2 } : GObj).X = o.X ∧
          ({ o with single := some r.2 } : GObj).Y = o.Y ∧ ({ o with single := some r.2 } : GObj).Z = o.Z ∧
          ({ o with single := some r.2 } : GObj).T = o.T := fun o => ⟨rfl, rfl, rfl, rfl, rfl⟩
        have hgs : ∀ q, (r.1.setObj p fun o => { o with single := some r.2 }).gc q = r.1.gc q := Mem.gc_setTables _ hf
        have hgs' : (r.1.setObj p fun o => { o with single := some r.2 }).gc = r.1.gc := funext hgs
        rw [← Out.ok.inj hg]
        have hk := k1.ge hw
        unfold Mem.ge at hk ⊢
        rw [hgs', Mem.obj_setObj hp]
        dsimp only
        rw [Option.map_some, k2]
        dsimp only at hk
        have e1 := congrArg GE.toGC hk
        have e2 := congrArg GE.double hk
        dsimp only at e1 e2
        rw [e1, e2]
  · unfold GE.precomputeForDoubleScalarMultiplication at hg
    rw [hlen, hgc] at hg
    unfold Mem.precomputeDouble
    split at hg
    · rename_i h; rw [if_pos h]; injection hg
    · rename_i h
      rw [if_neg h]
      cases hr : GC.precOdd (m.gc p) 8 (m.gc p) with
      | err e => rw [hr] at hg; cases hg
      | panic => rw [hr] at hg; cases hg
      | ok row =>
        rw [hr, Out.bind_ok] at hg
        dsimp only
        obtain ⟨k1, k2, k3⟩ := Mem.newRow_spec row m
        generalize m.newRow row = r at *
        have hp : p < r.1.objs.length := (k1.wfGC hw.1).1
        have hf : ∀ o : GObj, ({ o with double := some r.2 } : GObj).sys = o.sys ∧ ({ o with double := some r.2 } : GObj).X = o.X ∧
          ({ o with double := some r.2 } : GObj).Y = o.Y ∧ ({ o with double := some r.2 } : GObj).Z = o.Z ∧
          ({ o with double := some r.2 } : GObj).T = o.T := fun o => ⟨rfl, rfl, rfl, rfl, rfl⟩
        have hgs : ∀ q, (r.1.setObj p fun o => { o with double := some r.2 }).gc q = r.1.gc q := Mem.gc_setTables _ hf
        have hgs' : (r.1.setObj p fun o => { o with double := some r.2 }).gc = r.1.gc := funext hgs
        rw [← Out.ok.inj hg]
        have hk := k1.ge hw
        unfold Mem.ge at hk ⊢
        rw [hgs', Mem.obj_setObj hp]
        dsimp only
        rw [Option.map_some, k2]
        dsimp only at hk
        have e1 := congrArg GE.toGC hk
        have e2 := congrArg GE.single hk
        dsimp only at e1 e2
        rw [e1, e2]
  · unfold Mem.precomputeSingle
    split
    · rfl
    · cases hr : GC.precRows 32 (m.gc p) with
      | err e => rfl
      | panic => rfl
      | ok rows =>
        dsimp only
        obtain ⟨k1, k2, k3⟩ := Mem.newRows_spec rows m
        generalize m.newRows rows = r at *
        have hgs' : (r.1.setObj p fun o => { o with single := some r.2 }).gc = r.1.gc :=
          funext (Mem.gc_setTables _ fun o => ⟨rfl, rfl, rfl, rfl, rfl⟩)
        have ho : (r.1.setObj p fun o => { o with single := some r.2 }).obj q = r.1.obj q := by
          simp [Mem.setObj, Mem.obj, List.getD_eq_getElem?_getD, List.getElem?_set_ne (Ne.symm hne)]
        have hk := k1.ge hq
        unfold Mem.ge at hk ⊢
        rw [hgs', ho]
        exact hk
  · unfold Mem.precomputeDouble
    split
    · rfl
    · cases hr : GC.precOdd (m.gc p) 8 (m.gc p) with
      | err e => rfl
      | panic => rfl
      | ok row =>
        dsimp only
        obtain ⟨k1, k2, k3⟩ := Mem.newRow_spec row m
        generalize m.newRow row = r at *
        have hgs' : (r.1.setObj p fun o => { o with double := some r.2 }).gc = r.1.gc :=
          funext (Mem.gc_setTables _ fun o => ⟨rfl, rfl, rfl, rfl, rfl⟩)
        have ho : (r.1.setObj p fun o => { o with double := some r.2 }).obj q = r.1.obj q := by
          simp [Mem.setObj, Mem.obj, List.getD_eq_getElem?_getD, List.getElem?_set_ne (Ne.symm hne)]
        have hk := k1.ge hq
        unfold Mem.ge at hk ⊢
        rw [hgs', ho]
        exact hk

/-- The hypotheses are met by every new group element with P3 coordinates of a point: it gets the table of this point. -/
example (m : Mem) (g : GC) (q : Pt) (hs : g.sys = .p3) (hr : g.Repr q) :
    ((m.newGC g).1.precomputeSingle (m.newGC g).2).ge (m.newGC g).2 |>.SingleTable q := by
  obtain ⟨h1, h2, h3⟩ := m.newGC_spec g
  have h4 : ((m.newGC g).1.obj (m.newGC g).2).single = none ∧ ((m.newGC g).1.obj (m.newGC g).2).double = none := by
    obtain ⟨s, x, y, z, t⟩ := g
    cases t <;> simp [Mem.newGC, Mem.newObj, Mem.newCell, Mem.obj, List.getD_eq_getElem?_getD]
  have hg : ((m.newGC g).1.ge (m.newGC g).2).toGC = g := h2
  have hn : ((m.newGC g).1.ge (m.newGC g).2).single = none := by rw [Mem.ge_single', h4.1]; rfl
  obtain ⟨g', e1, e2, e3, e4⟩ := GE.precomputeSingle_spec (g := (m.newGC g).1.ge (m.newGC g).2) (q := q)
    (by rw [hg]; exact hs) (by rw [hg]; exact hr) hn
  rw [(C48_precompute_view _ _ ⟨h3, by rw [h4.1]; simp, by rw [h4.2]; simp⟩).1 g' e1]
  exact e4

/-- A history that meets the hypotheses: take a copy, precompute on it, give it another X, select from it. -/
example (g : GC) (v : FE) : ∀ op ∈ [MOp.basePoint, .newField v, .writeGroup ((initMem g).1.objs.length)
    (fun o => { o with X := (initMem g).1.cells.length }), .precomputeSingle (initMem g).2,
    .select (initMem g).1.objs.length 3 (-5), .writeField (initMem g).1.cells.length .one],
    op.Allowed (initMem g).2 (initMem g).1 := by
  simp [MOp.Allowed]

/-! ## What the copy does not protect -/

theorem Mem.cell_setCell {m : Mem} {p : ℕ} (h : p < m.cells.length) (v : FE) : (m.setCell p v).cell p = v := by
  simp [setCell, cell, List.getD_eq_getElem?_getD, List.getElem?_set_self h]

/-- C48, negative: a write through a coordinate pointer of a copy changes the shared base point and every later copy. -/
theorem C48_coordinate_shared (m : Mem) (bp : ℕ) (hw : m.Wf bp) (v : FE) :
    let c := m.copy bp
    let m' := c.1.setCell (c.1.obj c.2).X v
    (m'.ge bp).X = v ∧ ((m'.copy bp).1.ge (m'.copy bp).2).X = v := by
  have k : Keeps m (m.copy bp).1 := Mem.keeps_newObj _ _
  have ho : ((m.copy bp).1.obj (m.copy bp).2).X = (m.obj bp).X := by
    rw [show (m.copy bp).1.obj (m.copy bp).2 = _ from Mem.obj_newObj _ _]
  dsimp only
  rw [ho]
  have hx := hw.1.2.1
  have key : ∀ q : ℕ, q < m.objs.length + 1 →
      (((m.copy bp).1.setCell (m.obj bp).X v).obj q) = (m.copy bp).1.obj q := fun q _ => rfl
  have h1 : (((m.copy bp).1.setCell (m.obj bp).X v).ge bp).X = v := by
    show ((m.copy bp).1.setCell (m.obj bp).X v).cell (((m.copy bp).1.setCell (m.obj bp).X v).obj bp).X = v
    rw [show ((m.copy bp).1.setCell (m.obj bp).X v).obj bp = (m.copy bp).1.obj bp from rfl, k.obj hw.1.1]
    exact Mem.cell_setCell hx v
  refine ⟨h1, ?_⟩
  generalize hm : (m.copy bp).1.setCell (m.obj bp).X v = m' at h1 ⊢
  have h2 : ((m'.copy bp).1.obj (m'.copy bp).2).X = (m'.obj bp).X := by
    rw [show (m'.copy bp).1.obj (m'.copy bp).2 = _ from Mem.obj_newObj _ _]
  show (m'.copy bp).1.cell ((m'.copy bp).1.obj (m'.copy bp).2).X = v
  rw [h2]
  exact h1

theorem Mem.cmov_one (r u : ℕ) : Mem.cmov r u 1 = .ok u := by rfl
theorem Mem.cmov_zero (r u : ℕ) : Mem.cmov r u 0 = .ok r := by
  rfl

theorem Mem.selectLoop_spec (bAbs : Int64) (m : ℕ) (hm : m ≤ 128) (hb : bAbs.toInt = (m : ℤ)) :
    ∀ (row : List ℕ) (i : ℕ) (t : ℕ), i + row.length < 256 →
      selectLoop bAbs row i t = .ok (if i + 1 ≤ m ∧ m ≤ i + row.length then row.getD (m - 1 - i) t else t)
  | [], i, t, _ => by
      rw [selectLoop, if_neg (by simp)]
  | el :: row, i, t, hi => by
      rw [selectLoop, isConstantTimeByteEq_eq, hb]
      rw [List.length_cons] at hi ⊢
      have hf : (Int64.ofInt ((i : ℤ) + 1)).toInt = (i : ℤ) + 1 := toInt_ofInt_of_fits ⟨by omega, by omega⟩
      rw [hf]
      by_cases h : m = i + 1
      · rw [if_pos (by omega), Mem.cmov_one, Out.ok_bind, selectLoop_spec bAbs m hm hb row (i + 1) el (by omega),
          if_neg (by omega), if_pos (by omega)]
        have : m - 1 - i = 0 := by omega
        rw [this]; rfl
      · rw [if_neg (by omega), Mem.cmov_zero, Out.ok_bind, selectLoop_spec bAbs m hm hb row (i + 1) t (by omega)]
        by_cases h2 : i + 1 + 1 ≤ m ∧ m ≤ i + 1 + row.length
        · rw [if_pos h2, if_pos (by omega)]
          have : m - 1 - i = (m - 1 - (i + 1)) + 1 := by omega
          rw [this]; rfl
        · rw [if_neg h2, if_neg (by omega)]

theorem select_abs (b : Int64) (hb : -128 ≤ b.toInt ∧ b.toInt < 128) :
    (b - shl ((-(isNegativeConstantTime b)) &&& b) 1).toInt = |b.toInt| := by
  rw [isNegativeConstantTime_eq]
  by_cases hn : b.toInt < 0
  · rw [if_pos (by omega)]
    have e1 : (-(1 : Int64)) &&& b = b := by
      apply Int64.toBitVec_inj.1
      have h1 : (-(1 : Int64)).toBitVec = BitVec.allOnes 64 := by decide
      rw [Int64.toBitVec_and, h1, BitVec.allOnes_and]
    have e2 : (shl b 1).toInt = b.toInt * 2 := by
      rw [toInt_shl_of_fits ⟨by omega, by omega⟩]; ring
    rw [e1, toInt_sub_of_fits (by rw [e2]; exact ⟨by omega, by omega⟩), e2, abs_of_neg hn]; ring
  · rw [if_neg (by omega)]
    have e1 : (-(0 : Int64)) &&& b = 0 := by
      apply Int64.toBitVec_inj.1
      have h1 : (-(0 : Int64)).toBitVec = 0#64 := by decide
      rw [Int64.toBitVec_and, h1, BitVec.zero_and]; rfl
    have e2 : shl (0 : Int64) 1 = 0 := by decide
    rw [e1, e2, abs_of_nonneg (by omega)]
    have : b - 0 = b := by rw [sub_ofInt]; simp
    rw [this]

/-- C48, negative: `Select` with a digit in 1, ..., 8 returns the pointer of the table entry itself, so that a write
through its X changes the table. -/
theorem C48_select_shared (m : Mem) (p pos : ℕ) (hw : m.Wf p) (t : List (List ℕ)) (row : List ℕ)
    (ht : (m.obj p).single = some t) (hrow : t[pos]? = some row) (hlen : row.length = 8) (b : Int64)
    (hb : 1 ≤ b.toInt ∧ b.toInt ≤ 8) :
    ∃ m' e, m.select p pos b = .ok (m', e) ∧ row[b.toInt.toNat - 1]? = some e ∧
      ∀ v, ((((((m'.setCell (m'.obj e).X v).ge p).single.getD []).getD pos []).getD (b.toInt.toNat - 1)
        .zeroP2).X = v) := by
  obtain ⟨k, hk⟩ := Int.eq_ofNat_of_zero_le (show 0 ≤ b.toInt by omega)
  have hlt : k - 1 < row.length := by omega
  have habs : (b - shl ((-(isNegativeConstantTime b)) &&& b) 1).toInt = (k : ℤ) := by
    rw [select_abs b ⟨by omega, by omega⟩, abs_of_nonneg (by omega), hk]
  have hneg : isNegativeConstantTime b = 0 := by rw [isNegativeConstantTime_eq, if_neg (by omega)]
  have hkeep := m.keeps_newGC .zeroPrecomputed
  have hidx : Out.index (((m.newGC .zeroPrecomputed).1.obj p).single.getD []) pos = .ok row := by
    rw [hkeep.obj hw.1.1, ht]; unfold Out.index; rw [Option.getD_some, hrow]; rfl
  have hn : b.toInt.toNat = k := by omega
  have he : row[k - 1]? = some row[k - 1] := List.getElem?_eq_getElem hlt
  have hmem : row[k - 1] ∈ row := List.getElem_mem hlt
  generalize hee : row[k - 1] = e at he hmem
  have hwe : m.WfGC e := hw.2.1 t (by rw [ht]; rfl) row (List.mem_of_getElem? hrow) e hmem
  have hsel : ∃ m', m.select p pos b = .ok (m', e) := by
    unfold Mem.select
    dsimp only
    rw [hidx, Out.ok_bind, Mem.selectLoop_spec _ k (by omega) habs row 0 _ (by omega), if_pos (by omega),
      Nat.sub_zero, List.getD_eq_getElem?_getD, he, Out.ok_bind, hneg, Option.getD_some, Mem.cmov_zero, Out.ok_bind]
    exact ⟨_, rfl⟩
  obtain ⟨m', hm'⟩ := hsel
  have hk' := Mem.keeps_select hm'
  refine ⟨m', e, hm', by rw [hn]; exact he, fun v => ?_⟩
  rw [hn]
  have ho : ∀ q, (m'.setCell (m'.obj e).X v).obj q = m'.obj q := fun _ => rfl
  have hs : ((m'.setCell (m'.obj e).X v).ge p).single =
      some (t.map (·.map (m'.setCell (m'.obj e).X v).gc)) := by
    show ((m'.setCell (m'.obj e).X v).obj p).single.map _ = _
    rw [ho, hk'.obj hw.1.1, ht, Option.map_some]
  rw [hs, Option.getD_some, List.getD_eq_getElem?_getD (l := List.map _ t), List.getElem?_map, hrow, Option.map_some,
    Option.getD_some, List.getD_eq_getElem?_getD, List.getElem?_map, he, Option.map_some, Option.getD_some]
  show (m'.setCell (m'.obj e).X v).cell ((m'.setCell (m'.obj e).X v).obj e).X = v
  rw [ho]
  exact Mem.cell_setCell (hk'.wfGC hwe).2.1 v

theorem Mem.ge_single (m : Mem) (p : ℕ) : (m.ge p).single = (m.obj p).single.map (·.map (·.map m.gc)) := rfl

/-- The hypotheses of `C48_select_shared` hold for the initialised package, for every row of the table. -/
theorem C48_select_init (pos : ℕ) (hpos : pos < 32) (g : GC) :
    ∃ t row, ((initMem g).1.obj (initMem g).2).single = some t ∧ t[pos]? = some row ∧ row.length = 8 := by
  obtain ⟨-, h2, -, -⟩ := initMem_spec g
  have h3 := congrArg GE.single h2
  rw [Mem.ge_single] at h3
  replace h3 : ((initMem g).1.obj (initMem g).2).single.map (·.map (·.map (initMem g).1.gc)) = some basePrecSingle := h3
  cases hs : ((initMem g).1.obj (initMem g).2).single with
  | none => rw [hs] at h3; simp at h3
  | some t =>
    rw [hs, Option.map_some] at h3
    injection h3 with h3
    obtain ⟨row, r1, r2, -⟩ := basePrecSingle_spec.2 pos hpos
    rw [← h3, List.getElem?_map] at r1
    cases ht : t[pos]? with
    | none => rw [ht] at r1; simp at r1
    | some row' =>
      rw [ht, Option.map_some] at r1
      injection r1 with r1
      exact ⟨t, row', rfl, ht, by rw [← r1, List.length_map] at r2; exact r2⟩

/-- The result of a pointer operation, as the value it shows. -/
def Out.mapTo {α β : Type} (f : α → β) : Out α → Out β
  | .ok a => .ok (f a)
  | .err e => .err e
  | .panic => .panic

theorem Mem.selectLoop_view (f : ℕ → GC) (bAbs : Int64) : ∀ (row : List ℕ) (i t : ℕ),
    GE.selectLoop bAbs (row.map f) i (f t) = (Mem.selectLoop bAbs row i t).mapTo f
  | [], _, _ => rfl
  | el :: row, i, t => by
    rw [List.map_cons, GE.selectLoop, Mem.selectLoop, isConstantTimeByteEq_eq]
    split
    · rw [GC.cmov_one, Mem.cmov_one, Out.ok_bind, Out.ok_bind]; exact selectLoop_view f bAbs row (i + 1) el
    · rw [GC.cmov_zero, Mem.cmov_zero, Out.ok_bind, Out.ok_bind]; exact selectLoop_view f bAbs row (i + 1) t

theorem Mem.selectLoop_mem (bAbs : Int64) : ∀ (row : List ℕ) (i t r : ℕ), Mem.selectLoop bAbs row i t = .ok r →
    r = t ∨ r ∈ row
  | [], _, t, r, h => by rw [selectLoop] at h; injection h with h; exact Or.inl h.symm
  | el :: row, i, t, r, h => by
    rw [selectLoop, isConstantTimeByteEq_eq] at h
    split at h
    · rw [cmov_one, Out.ok_bind] at h
      rcases selectLoop_mem bAbs row _ _ _ h with h | h
      · exact Or.inr (h ▸ List.mem_cons_self)
      · exact Or.inr (List.mem_cons_of_mem _ h)
    · rw [cmov_zero, Out.ok_bind] at h
      rcases selectLoop_mem bAbs row _ _ _ h with h | h
      · exact Or.inl h
      · exact Or.inr (List.mem_cons_of_mem _ h)

/-- The pointer-level `Select` shows exactly what the value-level `Select` (the one of C15) computes. -/
theorem C48_select_view (m : Mem) (p pos : ℕ) (hw : m.Wf p) (b : Int64) :
    (m.ge p).select pos b = (m.select p pos b).mapTo fun r => r.1.gc r.2 := by
  have hkeep := m.keeps_newGC .zeroPrecomputed
  obtain ⟨z1, z2, z3⟩ := m.newGC_spec .zeroPrecomputed
  unfold GE.select Mem.select
  dsimp only
  rw [hkeep.obj hw.1.1]
  have hsingle : (m.ge p).single.getD [] = ((m.obj p).single.getD []).map (·.map m.gc) := by
    show ((m.obj p).single.map _).getD [] = _
    cases (m.obj p).single <;> rfl
  rw [hsingle]
  unfold Out.index
  rw [List.getElem?_map]
  cases hrow : ((m.obj p).single.getD [])[pos]? with
  | none => rfl
  | some row =>
    have hmem : ∀ e ∈ row, m.WfGC e := by
      cases hs : (m.obj p).single with
      | none => rw [hs] at hrow; simp at hrow
      | some t =>
        rw [hs, Option.getD_some] at hrow
        exact hw.2.1 t hs row (List.mem_of_getElem? hrow)
    show (GE.selectLoop _ (row.map m.gc) 0 _ >>= _) = Out.mapTo _ (Mem.selectLoop _ row 0 _ >>= _)
    generalize m.newGC GC.zeroPrecomputed = z at *
    have hmap : row.map m.gc = row.map z.1.gc := List.map_congr_left fun e he => (hkeep.gc (hmem e he)).symm
    have hz : GC.zeroPrecomputed = z.1.gc z.2 := z2.symm
    rw [hmap, hz, Mem.selectLoop_view]
    cases hl : Mem.selectLoop (b - shl (-isNegativeConstantTime b &&& b) 1) row 0 z.2 with
    | err e => rfl
    | panic => rfl
    | ok t =>
      have ht : z.1.WfGC t := by
        rcases Mem.selectLoop_mem _ _ _ _ _ hl with h | h
        · rw [h]; exact z3
        · exact hkeep.wfGC (hmem t h)
      rw [Out.ok_bind]
      unfold Out.mapTo
      rw [Out.ok_bind, isNegativeConstantTime_eq]
      have k1 := z.1.keeps_newCell (z.1.cell (z.1.obj t).Z).negate
      have hcell := z.1.cell_newCell (z.1.cell (z.1.obj t).Z).negate
      have hn2 : (z.1.newCell (z.1.cell (z.1.obj t).Z).negate).2 = z.1.cells.length := rfl
      generalize z.1.newCell (z.1.cell (z.1.obj t).Z).negate = n at *
      have k2 := n.1.keeps_newObj ⟨.precomputed, (z.1.obj t).Y, (z.1.obj t).X, n.2, none, none, none⟩
      have hobj := n.1.obj_newObj ⟨.precomputed, (z.1.obj t).Y, (z.1.obj t).X, n.2, none, none, none⟩
      have hn3 : (n.1.newObj ⟨.precomputed, (z.1.obj t).Y, (z.1.obj t).X, n.2, none, none, none⟩).2 =
        n.1.objs.length := rfl
      have hcells : (n.1.newObj ⟨.precomputed, (z.1.obj t).Y, (z.1.obj t).X, n.2, none, none, none⟩).1.cells =
        n.1.cells := rfl
      generalize n.1.newObj ⟨.precomputed, (z.1.obj t).Y, (z.1.obj t).X, n.2, none, none, none⟩ = o at *
      split
      · rw [GC.cmov_one, Mem.cmov_one, Out.ok_bind]
        refine congrArg Out.ok ?_
        unfold Mem.gc GC.newPrecomputed
        dsimp only
        rw [hn3, hobj]
        dsimp only
        rw [(k1.trans k2).cell ht.2.1, (k1.trans k2).cell ht.2.2.1, hn2]
        unfold Mem.cell at hcell ⊢
        rw [hcells, hcell]
        rfl
      · rw [GC.cmov_zero, Mem.cmov_zero, Out.ok_bind]
        refine congrArg Out.ok ?_
        exact ((k1.trans k2).gc ht).symm

end Ed

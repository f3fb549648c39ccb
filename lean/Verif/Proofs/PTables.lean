import Verif.Proofs.PGroup
import Mathlib.Data.List.Forall2

/-!
# Tables in memory: copying, precomputation, selection, scalar multiplication
-/

set_option autoImplicit false

namespace Ed
namespace PG
open Prog

/-- An outcome on memory corresponds to an outcome on values. -/
def Mt {α β : Type} (P : β → α → Prop) (r : Out β) : Out α → Prop
  | .ok x => ∃ y, r = .ok y ∧ P y x
  | .err m => r = .err m
  | .panic => r = .panic

section
variable {g : Nat} {h h' : PHeap} {S : Addr → Prop}

theorem ShowsEntry.fr {e : Option Addr} {v : GC} (s : ShowsEntry g h e v) (f : Fr g S h h') : ShowsEntry g h' e v := by
  obtain ⟨a, h1, h2⟩ := s
  exact ⟨a, h1, h2.fr f⟩

theorem entries_fr {l : List (Option Addr)} {vs : List GC} (s : List.Forall₂ (ShowsEntry g h) l vs) (f : Fr g S h h') :
    List.Forall₂ (ShowsEntry g h') l vs := s.imp fun _ _ k => k.fr f

theorem ShowsRow.fr {e : Option Addr} {vs : List GC} (s : ShowsRow g h e vs) (f : Fr g S h h') (hs : ∀ a, e = some a → ¬ S a) :
    ShowsRow g h' e vs := by
  obtain ⟨a, l, h1, h2, h3, h4⟩ := s
  exact ⟨a, l, h1, h2, f.get h3 (hs a h1), entries_fr h4 f⟩

theorem ShowsArr.fr {s : Option Addr} {l : List (Option Addr)} (k : ShowsArr g h s l) (f : Fr g S h h') (hs : ∀ a, s = some a → ¬ S a) :
    ShowsArr g h' s l := by
  cases s with
  | none => exact k
  | some a => exact ⟨k.1, f.get k.2 (hs a rfl)⟩

theorem ShowsGE.gc {a : Addr} {v : GE} (s : ShowsGE g h a v) : ShowsGC g h a v.toGC := by
  obtain ⟨s0, o, ls, ld, h1, h2, -⟩ := s
  exact ⟨s0, o, h1, h2⟩

theorem ShowsGE.grow {a : Addr} {v : GE} (s : ShowsGE g h a v) (f : Fr g Nothing h h') : ShowsGE g h' a v := by
  obtain ⟨s0, o, ls, ld, h1, h2, h3, h4, h5, h6, h7, h8⟩ := s
  exact ⟨s0, o, ls, ld, f.grow h1, h2.fr f, h3, h4.fr f fun _ _ => id, h5.imp fun _ _ k => k.fr f fun _ _ => id, h6,
    h7.fr f fun _ _ => id, entries_fr h8 f⟩

theorem ShowsGC.plain {a : Addr} {v : GC} (s : ShowsGC g h a v) (p : Plain h a) : ShowsGE g h a (GE.ofGC v) := by
  obtain ⟨s0, o, h1, h2⟩ := s
  obtain ⟨o', h1', h3, h4⟩ := p
  rw [h1] at h1'; cases h1'
  exact ⟨s0, o, [], [], h1, h2, by rw [h3]; rfl, by rw [h3]; rfl, .nil, by rw [h4]; rfl, by rw [h4]; rfl, .nil⟩

theorem ShowsArr.exists_ne {s : Option Addr} {l : List (Option Addr)} {t : Addr} (k : ShowsArr g h s l) (ht : h.get t = none) : s ≠ some t := by
  rintro rfl
  rw [k.2] at ht; cases ht

/-! ## Copying -/

/-- What `copy` needs: the rows can be read and have at most 8 entries. -/
def Copyable (g : Nat) (h : PHeap) (o : PObj) (rs : List (List (Option Addr))) (ld : List (Option Addr)) : Prop :=
  ∃ ls, ShowsArr g h o.single ls ∧ List.Forall₂ (ShowsArr g h) ls rs ∧ (∀ r ∈ rs, r.length ≤ 8) ∧ ShowsArr g h o.double ld

/-- A row with nils up to 8 entries. -/
def pad8 (l : List (Option Addr)) : List (Option Addr) := l ++ List.replicate (8 - l.length) none

/-- A new array. -/
def NewArr (g : Nat) (h : PHeap) (h' : PHeap) (a : Addr) (l : List (Option Addr)) : Prop :=
  a.region = g ∧ h.get a = none ∧ h'.get a = some (.arr l)

theorem Fr.fresh_back {a : Addr} (f : Fr g S h h') (ha : h'.get a = none) : h.get a = none := by
  cases e : h.get a with
  | none => rfl
  | some w =>
    obtain ⟨v', k, -⟩ := f.keep a w e
    rw [ha] at k; cases k

theorem NewArr.fr {h0 : PHeap} {a : Addr} {l : List (Option Addr)} (n : NewArr g h0 h a l) (f : Fr g Nothing h h') : NewArr g h0 h' a l :=
  ⟨n.1, n.2.1, f.grow n.2.2⟩

theorem copyRows_wp {β : Type} {ls : List (Option Addr)} {rs : List (List (Option Addr))} (hl : List.Forall₂ (ShowsArr g h) ls rs)
    (h8 : ∀ r ∈ rs, r.length ≤ 8) {f : List (Option Addr) → Prog β} {Q : Out β → PHeap → Prop}
    (hq : ∀ ns h', Fr g Nothing h h' → List.Forall₂ (fun e r => ∃ a, e = some a ∧ NewArr g h h' a (pad8 r)) ns rs → wp g h' (f ns) Q) :
    wp g h ((copyRows ls).bind f) Q := by
  induction ls generalizing h β rs with
  | nil => cases hl; exact hq [] h (Fr.refl _ _ _) .nil
  | cons e ls ih =>
    obtain ⟨r, rs, h1, h2, rfl⟩ := List.forall₂_cons_left_iff.1 hl
    refine wp_bind ?_
    unfold copyRows
    simp only [Prog.bind_eq]
    refine wp_loadArr h1 ?_
    refine wp_lift_ok (a := pad8 r) ?_ ?_
    · unfold copyRow
      have : r.length ≤ 8 := h8 r (by simp)
      rw [if_neg (by omega)]; rfl
    refine wp_new fun a ha a1 a2 a3 a4 => ?_
    refine ih (h := ha) (h2.imp fun _ _ k => k.fr a1 fun _ _ => id) (fun r hr => h8 r (by simp [hr])) fun ns hn n1 n2 => ?_
    refine hq _ _ (a1.comp n1) ?_
    refine .cons ⟨a, rfl, a2, a3, n1.grow a4⟩ (n2.imp ?_)
    rintro e r ⟨b, hb, b1, b2, b3⟩
    exact ⟨b, hb, b1, a1.fresh_back b2, b3⟩

theorem wp_copy {β : Type} {a : Addr} {o : PObj} {rs : List (List (Option Addr))} {ld : List (Option Addr)} (ha : Own g a)
    (ho : h.get a = some (.obj o)) (hc : Copyable g h o rs ld) {f : Addr → Prog β} {Q : Out β → PHeap → Prop}
    (hq : ∀ b s d ns h', Fr g Nothing h h' → b.region = g → h.get b = none →
      h'.get b = some (.obj { o with single := some s, double := some d }) → NewArr g h h' s ns → NewArr g h h' d ld →
      List.Forall₂ (fun e r => ∃ a, e = some a ∧ NewArr g h h' a (pad8 r)) ns rs → wp g h' (f b) Q) :
    wp g h ((copy a).bind f) Q := by
  obtain ⟨ls, c1, c2, c3, c4⟩ := hc
  refine wp_bind ?_
  unfold copy
  simp only [Prog.bind_eq]
  refine wp_loadObj ha ho ?_
  refine wp_loadArr c1 ?_
  refine copyRows_wp c2 c3 fun ns h1 f1 n1 => ?_
  refine wp_new fun s h2 f2 s1 s2 s3 => ?_
  refine wp_loadArr (c4.fr (f1.comp f2) fun _ _ => id) ?_
  refine wp_new fun d h3 f3 d1 d2 d3 => ?_
  show wp g h3 ((new _).bind fun a => ret (.ok a)) _
  refine wp_new fun b h4 f4 b1 b2 b3 => ?_
  have fr := ((f1.comp f2).comp f3).comp f4
  refine hq b s d ns h4 fr b1 (((f1.comp f2).comp f3).fresh_back b2) b3
    ⟨s1, f1.fresh_back s2, (f3.comp f4).grow s3⟩ ⟨d1, (f1.comp f2).fresh_back d2, f4.grow d3⟩ ?_
  refine n1.imp ?_
  rintro e r ⟨c, hc, k⟩
  exact ⟨c, hc, k.fr ((f2.comp f3).comp f4)⟩

/-! ## Precomputation -/

theorem ne_of_obj_arr {a b : Addr} {o : PObj} {l : List (Option Addr)} (ha : h.get a = some (.obj o)) (hb : h.get b = some (.arr l)) : a ≠ b := by
  rintro rfl
  rw [ha] at hb; cases hb

/-- A sequence of values after an operation that may fail. -/
theorem Mt.bind {α β γ δ : Type} {P : β → α → Prop} {R : δ → γ → Prop} {r : Out β} {v : Out α} (hr : Mt P r v) {f : β → Out δ} {fv : α → Out γ}
    (hf : ∀ y x, P y x → Mt R (f y) (fv x)) : Mt R (r >>= f) (v >>= fv) := by
  cases v with
  | err m => cases (show r = _ from hr); rfl
  | panic => cases (show r = _ from hr); rfl
  | ok x =>
    obtain ⟨y, rfl, h1⟩ := hr
    exact hf y x h1

theorem wp_addP3 {β : Type} {a b : Addr} {v w : GC} (ha : ShowsGC g h a v) (hb : ShowsGC g h b w) {f : Addr → Prog β}
    {Q : Out β → PHeap → Prop} (hok : ∀ c x h', v.addP3 w = .ok x → Fr g Nothing h h' → ShowsGC g h' c x → Plain h' c → wp g h' (f c) Q)
    (herr : ∀ m h', v.addP3 w = .err m → Fr g Nothing h h' → Q (.err m) h')
    (hpan : ∀ h', v.addP3 w = .panic → Fr g Nothing h h' → Q .panic h') : wp g h ((addP3 a b).bind f) Q := by
  refine wp_seq (addP3_ref ha hb) fun r h' ⟨f1, k⟩ => ?_
  cases hv : v.addP3 w with
  | err m => rw [hv] at k; cases (show r = _ from k); exact herr m h' hv f1
  | panic => rw [hv] at k; cases (show r = _ from k); exact hpan h' hv f1
  | ok x =>
    rw [hv] at k
    obtain ⟨c, rfl, k1, k2⟩ := k
    exact hok c x h' hv f1 k1 k2

theorem forall₂_snoc {α β : Type} {R : α → β → Prop} {l : List α} {m : List β} (hl : List.Forall₂ R l m) {a : α} {b : β} (hab : R a b) :
    List.Forall₂ R (l ++ [a]) (m ++ [b]) := by
  induction hl with
  | nil => exact .cons hab .nil
  | cons h1 _ ih => exact .cons h1 ih

theorem set_done {α : Type} (l : List α) (n : Nat) (a e : α) : (l ++ List.replicate (n + 1) a).set l.length e = (l ++ [e]) ++ List.replicate n a := by
  rw [List.set_append_right _ _ (Nat.le_refl _), Nat.sub_self, List.replicate_succ, List.set_cons_zero, List.append_assoc]
  rfl

theorem precRow_wp {ref bi tab row : Addr} {o : PObj} {i : Nat} {tl : List (Option Addr)} {vi : GC} (hr : Own g ref) (ht : Own g tab)
    (hst : o.single = some tab) (hrow : row.region = g) (hi : tl[i]? = some (some row)) (hne : row ≠ tab) :
    ∀ (n : Nat) (h : PHeap) (bij : Addr) (vij : GC) (done : List (Option Addr)) (dv : List GC), h.get ref = some (.obj o) →
      h.get tab = some (.arr tl) → ShowsGC g h bi vi → ShowsGC g h bij vij →
      h.get row = some (.arr (done ++ List.replicate n none)) → List.Forall₂ (ShowsEntry g h) done dv →
      wp g h (precRow ref i bi n done.length bij) fun r h' => Fr g (fun x => x = row) h h' ∧
        Mt (fun _ vs => ∃ l, h'.get row = some (.arr l) ∧ List.Forall₂ (ShowsEntry g h') l (dv ++ vs)) r (GC.precRow vi n vij) := by
  intro n
  induction n with
  | zero =>
    intro h bij vij done dv ho htab hbi hbij hd hdv
    refine ⟨Fr.refl _ _ _, (), rfl, done, ?_, ?_⟩
    · rw [hd, List.replicate_zero, List.append_nil]
    · rw [List.append_nil]; exact hdv
  | succ n ih =>
    intro h bij vij done dv ho htab hbi hbij hd hdv
    unfold precRow
    simp only [Prog.bind_eq]
    refine wp_loadGC hbij ?_
    refine wp_newGC fun e h1 f1 e1 e2 e3 _ => ?_
    refine wp_loadObj hr (f1.grow ho) ?_
    rw [hst]
    refine wp_loadEntry (l := tl) ⟨ht, f1.grow htab⟩ hi ?_
    refine wp_storeEntry hrow (f1.grow hd) (by simp) fun h2 f2 g2 => ?_
    rw [set_done] at g2
    refine wp_addP3 ((hbij.fr f1).fr f2) ((hbi.fr f1).fr f2) (fun c x h3 hx f3 c1 c2 => ?_) (fun m h3 hx f3 => ?_) fun h3 hx f3 => ?_
    · have fr : Fr g (fun x => x = row) h h3 := (f1.weaken.comp f2).comp f3.weaken
      have := ih h3 c x (done ++ [some e]) (dv ++ [vij.precEntry])
        (fr.get ho (ne_of_obj_arr ho hd)) (fr.get htab hne.symm) (hbi.fr fr) c1 (f3.grow g2)
        (entries_fr (forall₂_snoc (entries_fr hdv f1) ⟨e, rfl, e3⟩) (f2.comp f3.weaken))
      rw [List.length_append] at this
      refine wp_mono this fun r h4 ⟨f4, k4⟩ => ⟨fr.comp f4, ?_⟩
      unfold GC.precRow
      rw [hx]
      show Mt _ r (GC.precRow vi n x >>= fun r => Out.ok (vij.precEntry :: r))
      cases hv : GC.precRow vi n x with
      | err m => rw [hv] at k4; exact k4
      | panic => rw [hv] at k4; exact k4
      | ok vs =>
        rw [hv] at k4
        obtain ⟨_, k5, l, k6, k7⟩ := k4
        refine ⟨(), k5, l, k6, ?_⟩
        rw [List.append_assoc] at k7; exact k7
    · refine ⟨(f1.weaken.comp f2).comp f3.weaken, ?_⟩
      unfold GC.precRow
      rw [hx]; rfl
    · refine ⟨(f1.weaken.comp f2).comp f3.weaken, ?_⟩
      unfold GC.precRow
      rw [hx]; rfl

/-- An element that is only used for its coordinates and for copying, and whose arrays are not `t`. -/
def Temp (g : Nat) (h : PHeap) (a : Addr) (v : GC) (t : Addr) : Prop :=
  Own g a ∧ ∃ o ld, h.get a = some (.obj o) ∧ Coords g h o v ∧ ShowsArr g h o.single [] ∧ ShowsArr g h o.double ld ∧
    o.single ≠ some t ∧ o.double ≠ some t

theorem Temp.gc {a t : Addr} {v : GC} (s : Temp g h a v t) : ShowsGC g h a v := by
  obtain ⟨s0, o, ld, h1, h2, -⟩ := s
  exact ⟨s0, o, h1, h2⟩

theorem Temp.fr {a t : Addr} {v : GC} {l : List (Option Addr)} (s : Temp g h a v t) (ht : h.get t = some (.arr l))
    (f : Fr g (fun x => x = t) h h') : Temp g h' a v t := by
  obtain ⟨s0, o, ld, h1, h2, h3, h4, h5, h6⟩ := s
  exact ⟨s0, o, ld, f.get h1 (ne_of_obj_arr h1 ht), h2.fr f, h3.fr f fun b hb e => h5 (by rw [hb, e]),
    h4.fr f fun b hb e => h6 (by rw [hb, e]), h5, h6⟩

theorem temp_of_plain {a t : Addr} {v : GC} (s : ShowsGC g h a v) (p : Plain h a) : Temp g h a v t := by
  obtain ⟨s0, o, h1, h2⟩ := s
  obtain ⟨o', h1', h3, h4⟩ := p
  rw [h1] at h1'; cases h1'
  exact ⟨s0, o, [], h1, h2, by rw [h3]; rfl, by rw [h4]; rfl, by rw [h3]; simp, by rw [h4]; simp⟩

theorem wp_copyTemp {β : Type} {a t : Addr} {v : GC} (s : Temp g h a v t) {f : Addr → Prog β} {Q : Out β → PHeap → Prop}
    (hq : ∀ b h', Fr g Nothing h h' → ShowsGC g h' b v → wp g h' (f b) Q) : wp g h ((copy a).bind f) Q := by
  obtain ⟨s0, o, ld, h1, h2, h3, h4, -⟩ := s
  refine wp_copy (rs := []) s0 h1 ⟨[], h3, .nil, by simp, h4⟩ fun b _ _ _ h' f1 b1 _ b3 _ _ _ => ?_
  exact hq b h' f1 ⟨.inl b1, _, b3, h2.fr f1⟩

theorem doubleN_wp {t : Addr} : ∀ (n : Nat) (h : PHeap) (b : Addr) (v : GC), Temp g h b v t →
    wp g h (doubleN n b) fun r h' => Fr g Nothing h h' ∧ Mt (fun c x => Temp g h' c x t) r (GC.doubleN n v) := by
  intro n
  induction n with
  | zero => exact fun h b v s => ⟨Fr.refl _ _ _, b, rfl, s⟩
  | succ n ih =>
    intro h b v s
    unfold doubleN
    simp only [Prog.bind_eq]
    unfold GC.doubleN
    refine wp_addP3 s.gc s.gc (fun c x h1 hx f1 c1 c2 => ?_) (fun m h1 hx f1 => ?_) fun h1 hx f1 => ?_
    · rw [hx]
      exact wp_mono (ih h1 c x (temp_of_plain c1 c2)) fun r h2 k => ⟨f1.comp k.1, k.2⟩
    · rw [hx]; exact ⟨f1, rfl⟩
    · rw [hx]; exact ⟨f1, rfl⟩

/-- A finished row whose array is not `t`. -/
def RowOk (g : Nat) (h : PHeap) (t : Addr) (e : Option Addr) (vs : List GC) : Prop := ShowsRow g h e vs ∧ e ≠ some t

theorem rows_fr {t : Addr} {l : List (Option Addr)} {vs : List (List GC)} (s : List.Forall₂ (RowOk g h t) l vs) (f : Fr g (fun x => x = t) h h') :
    List.Forall₂ (RowOk g h' t) l vs :=
  s.imp fun _ _ k => ⟨k.1.fr f fun a ha e => k.2 (by rw [ha, e]), k.2⟩

theorem precRows_wp {ref tab : Addr} {o : PObj} (hr : Own g ref) (ht : tab.region = g) (hst : o.single = some tab) :
    ∀ (n : Nat) (h : PHeap) (bi : Addr) (v : GC) (done : List (Option Addr)) (dv : List (List GC)), h.get ref = some (.obj o) →
      h.get tab = some (.arr (done ++ List.replicate n none)) → Temp g h bi v tab → List.Forall₂ (RowOk g h tab) done dv →
      wp g h (precRows ref n done.length bi) fun r h' => Fr g (fun x => x = tab) h h' ∧
        Mt (fun _ vs => ∃ l, h'.get tab = some (.arr l) ∧ List.Forall₂ (RowOk g h' tab) l (dv ++ vs)) r (GC.precRows n v) := by
  intro n
  induction n with
  | zero =>
    intro h bi v done dv ho htab hbi hdv
    refine ⟨Fr.refl _ _ _, (), rfl, done, ?_, ?_⟩
    · rw [htab, List.replicate_zero, List.append_nil]
    · rw [List.append_nil]; exact hdv
  | succ n ih =>
    intro h bi v done dv ho htab hbi hdv
    unfold precRows GC.precRows
    simp only [Prog.bind_eq]
    refine wp_new fun row h1 f1 r1 r2 r3 => ?_
    have hne : row ≠ tab := by rintro rfl; rw [htab] at r2; cases r2
    refine wp_loadObj hr (f1.grow ho) ?_
    rw [hst]
    refine wp_storeEntry ht (f1.grow htab) (by simp) fun h2 f2 g2 => ?_
    rw [set_done] at g2
    have fr2 : Fr g (fun x => x = tab) h h2 := f1.weaken.comp f2
    refine wp_copyTemp (hbi.fr htab fr2) fun bij h3 f3 c3 => ?_
    have fr3 : Fr g (fun x => x = tab) h h3 := fr2.comp f3.weaken
    have hrow3 : h3.get row = some (.arr ([] ++ List.replicate 8 none)) := f3.grow (f2.get r3 hne)
    have htab3 := f3.grow g2
    refine wp_seq (precRow_wp (tl := (done ++ [some row]) ++ List.replicate n none) hr (.inl ht) hst r1 ?_ hne 8 h3 bij v [] []
      (fr3.get ho (ne_of_obj_arr ho htab)) htab3 (hbi.fr htab fr3).gc c3 hrow3 .nil) fun r h4 ⟨f4, k4⟩ => ?_
    · rw [List.append_assoc, List.getElem?_append_right (Nat.le_refl _), Nat.sub_self]; rfl
    have fr4 : Fr g (fun x => x = tab) h h4 := fr3.trans f4 (fun _ _ => id) (fun x hx e => by subst e; exact absurd r2 hx)
    cases hv : GC.precRow v 8 v with
    | err m => rw [hv] at k4; cases (show r = _ from k4); exact ⟨fr4, rfl⟩
    | panic => rw [hv] at k4; cases (show r = _ from k4); exact ⟨fr4, rfl⟩
    | ok vs =>
      rw [hv] at k4
      obtain ⟨_, rfl, l, k5, k6⟩ := k4
      show wp g h4 ((doubleN 8 bi).bind fun b => precRows ref n (done.length + 1) b) _
      refine wp_seq (doubleN_wp (t := tab) 8 h4 bi v (hbi.fr htab fr4)) fun r h5 ⟨f5, k7⟩ => ?_
      have fr5 : Fr g (fun x => x = tab) h h5 := fr4.comp f5.weaken
      show after g _ _ r h5
      rw [Out.ok_bind]
      cases hv2 : GC.doubleN 8 v with
      | err m => rw [hv2] at k7; cases (show r = _ from k7); exact ⟨fr5, rfl⟩
      | panic => rw [hv2] at k7; cases (show r = _ from k7); exact ⟨fr5, rfl⟩
      | ok v' =>
        rw [hv2] at k7
        obtain ⟨bi', rfl, k8⟩ := k7
        have hrow5 : ShowsRow g h5 (some row) vs := ⟨row, l, rfl, .inl r1, f5.grow k5, entries_fr k6 f5⟩
        have := ih h5 bi' v' (done ++ [some row]) (dv ++ [vs]) (fr5.get ho (ne_of_obj_arr ho htab)) (f5.grow (f4.get htab3 hne.symm)) k8
          (forall₂_snoc (rows_fr hdv fr5) ⟨hrow5, by simpa using hne⟩)
        rw [List.length_append] at this
        refine wp_mono this fun r h6 ⟨f6, k9⟩ => ⟨fr5.comp f6, ?_⟩
        show Mt _ r (GC.precRows n v' >>= fun r => Out.ok (vs :: r))
        cases hv3 : GC.precRows n v' with
        | err m => rw [hv3] at k9; exact k9
        | panic => rw [hv3] at k9; exact k9
        | ok vss =>
          rw [hv3] at k9
          obtain ⟨_, j1, l', j2, j3⟩ := k9
          refine ⟨(), j1, l', j2, ?_⟩
          rw [List.append_assoc] at j3; exact j3

theorem precomputeSingle_wp {ref : Addr} {v : GE} (hg : ref.region = g) (hs : ShowsGE g h ref v) :
    wp g h (precomputeSingle ref) fun r h' => Fr g (fun x => x = ref) h h' ∧
      Mt (fun _ v' => ShowsGE g h' ref v') r v.precomputeForScalarMultiplication := by
  have hs' := hs
  obtain ⟨s0, o, ls, ld, h1, h2, h3, h4, h5, h6, h7, h8⟩ := hs
  unfold precomputeSingle GE.precomputeForScalarMultiplication
  simp only [Prog.bind_eq]
  refine wp_loadObj s0 h1 ?_
  rw [h3]
  by_cases hn : v.single.isSome = true
  · rw [if_pos hn, if_pos hn]
    exact ⟨Fr.refl _ _ _, (), rfl, hs'⟩
  · rw [if_neg hn, if_neg hn]
    have hn0 : v.single = none := by simpa using hn
    have hn1 : o.single = none := by rw [hn0] at h3; simpa using h3
    have hls : ls = [] := by rw [hn1] at h4; exact h4
    subst hls
    refine wp_copy (rs := []) s0 h1 ⟨[], h4, .nil, by simp, h7⟩ fun bi s d ns ha fa b1 b2 b3 n1 n2 n3 => ?_
    cases n3
    refine wp_new fun t hb fb t1 t2 t3 => ?_
    have hrb : hb.get ref = some (.obj o) := (fa.comp fb).grow h1
    have hsim : Sim (.obj o) (.obj { o with single := some t }) := ⟨_, rfl, rfl, rfl, rfl, rfl, rfl⟩
    refine wp_update (a := ref) hg hrb hsim fun hc fc g2 => ?_
    have hne : bi ≠ ref := by rintro rfl; rw [h1] at b2; cases b2
    have hnt : ref ≠ t := ne_of_obj_arr hrb t3
    have frc : Fr g (fun x => x = ref) h hc := (fa.comp fb).weaken.comp fc
    have htemp : Temp g hc bi v.toGC t := by
      refine ⟨.inl b1, _, ld, fc.get (fb.grow b3) hne, h2.fr ((fa.comp fb).comp (S := Nothing) (Fr.refl _ _ _) |>.weaken.comp fc), ?_, ?_, ?_, ?_⟩
      · exact ⟨.inl n1.1, fc.get (fb.grow n1.2.2) (Ne.symm (ne_of_obj_arr hrb (fb.grow n1.2.2)))⟩
      · exact ⟨.inl n2.1, fc.get (fb.grow n2.2.2) (Ne.symm (ne_of_obj_arr hrb (fb.grow n2.2.2)))⟩
      · show some s ≠ some t
        intro e; cases e; rw [n1.2.2] at t2; cases t2
      · show some d ≠ some t
        intro e; cases e; rw [n2.2.2] at t2; cases t2
    have key := precRows_wp (o := { o with single := some t }) s0 t1 rfl 32 hc bi v.toGC [] [] g2 (fc.get t3 hnt.symm) htemp .nil
    refine wp_mono key fun r h' ⟨f1, k⟩ => ?_
    have fr : Fr g (fun x => x = ref) h h' := by
      refine frc.trans f1 (fun _ _ => id) fun x hx e => ?_
      subst e
      exact absurd (fa.fresh_back t2) hx
    refine ⟨fr, ?_⟩
    cases hv : GC.precRows 32 v.toGC with
    | err m => rw [hv] at k; cases (show r = _ from k); rfl
    | panic => rw [hv] at k; cases (show r = _ from k); rfl
    | ok tv =>
      rw [hv] at k
      obtain ⟨_, rfl, l, k1, k2⟩ := k
      have hnd : ∀ a, o.double = some a → ¬ a = ref := by
        rintro a ha rfl
        rw [ha] at h7
        exact ne_of_obj_arr h1 h7.2 rfl
      refine ⟨(), rfl, s0, _, l, ld, f1.get g2 hnt, h2.fr fr, rfl, ⟨.inl t1, k1⟩, ?_, h6, ?_, entries_fr h8 fr⟩
      · exact k2.imp fun _ _ k => k.1
      · exact h7.fr fr hnd

theorem precOdd_wp {ref t : Addr} {o : PObj} {vr : GC} (hr : Own g ref) (ht : t.region = g) (hst : o.double = some t) :
    ∀ (n : Nat) (h : PHeap) (bi : Addr) (vb : GC) (done : List (Option Addr)) (dv : List GC), h.get ref = some (.obj o) →
      ShowsGC g h ref vr → ShowsGC g h bi vb →
      h.get t = some (.arr (done ++ List.replicate n none)) → List.Forall₂ (ShowsEntry g h) done dv →
      wp g h (precOdd ref n done.length bi) fun r h' => Fr g (fun x => x = t) h h' ∧
        Mt (fun _ vs => ∃ l, h'.get t = some (.arr l) ∧ List.Forall₂ (ShowsEntry g h') l (dv ++ vs)) r (GC.precOdd vr n vb) := by
  intro n
  induction n with
  | zero =>
    intro h bi vb done dv ho hrs hbi hd hdv
    refine ⟨Fr.refl _ _ _, (), rfl, done, ?_, ?_⟩
    · rw [hd, List.replicate_zero, List.append_nil]
    · rw [List.append_nil]; exact hdv
  | succ n ih =>
    intro h bi vb done dv ho hrs hbi hd hdv
    unfold precOdd GC.precOdd
    simp only [Prog.bind_eq]
    refine wp_loadGC hbi ?_
    refine wp_newGC fun e h1 f1 e1 e2 e3 _ => ?_
    refine wp_loadObj hr (f1.grow ho) ?_
    rw [hst]
    refine wp_storeEntry ht (f1.grow hd) (by simp) fun h2 f2 g2 => ?_
    rw [set_done] at g2
    have fr2 : Fr g (fun x => x = t) h h2 := f1.weaken.comp f2
    refine wp_addP3 (hrs.fr fr2) (hbi.fr fr2) (fun c x h3 hx f3 c1 c2 => ?_) (fun m h3 hx f3 => ?_) fun h3 hx f3 => ?_
    · have fr3 : Fr g (fun x => x = t) h h3 := fr2.comp f3.weaken
      rw [hx, Out.ok_bind]
      refine wp_addP3 (hrs.fr fr3) c1 (fun c' x' h4 hx' f4 c1' c2' => ?_) (fun m h4 hx' f4 => ?_) fun h4 hx' f4 => ?_
      · have fr : Fr g (fun x => x = t) h h4 := fr3.comp f4.weaken
        have := ih h4 c' x' (done ++ [some e]) (dv ++ [vb.precEntry])
          (fr.get ho (ne_of_obj_arr ho hd)) (hrs.fr fr) c1' (f4.grow (f3.grow g2))
          (entries_fr (forall₂_snoc (entries_fr hdv f1) ⟨e, rfl, e3⟩) ((f2.comp f3.weaken).comp f4.weaken))
        rw [List.length_append] at this
        refine wp_mono this fun r h5 ⟨f5, k5⟩ => ⟨fr.comp f5, ?_⟩
        rw [hx', Out.ok_bind]
        cases hv : GC.precOdd vr n x' with
        | err m => rw [hv] at k5; exact k5
        | panic => rw [hv] at k5; exact k5
        | ok vs =>
          rw [hv] at k5
          obtain ⟨_, k6, l, k7, k8⟩ := k5
          refine ⟨(), k6, l, k7, ?_⟩
          rw [List.append_assoc] at k8; exact k8
      · rw [hx']; exact ⟨fr3.comp f4.weaken, rfl⟩
      · rw [hx']; exact ⟨fr3.comp f4.weaken, rfl⟩
    · rw [hx]; exact ⟨fr2.comp f3.weaken, rfl⟩
    · rw [hx]; exact ⟨fr2.comp f3.weaken, rfl⟩

/-- The contents of the rows of a table. -/
theorem rows_read {ls : List (Option Addr)} {t : List (List GC)} (hl : List.Forall₂ (ShowsRow g h) ls t) (h8 : ∀ r ∈ t, r.length ≤ 8) :
    ∃ rs, List.Forall₂ (ShowsArr g h) ls rs ∧ (∀ r ∈ rs, r.length ≤ 8) ∧ List.Forall₂ (fun l vs => List.Forall₂ (ShowsEntry g h) l vs) rs t := by
  induction hl with
  | nil => exact ⟨[], .nil, by simp, .nil⟩
  | @cons e vs ls t h1 _ ih =>
    obtain ⟨rs, k1, k2, k3⟩ := ih fun r hr => h8 r (by simp [hr])
    obtain ⟨a, l, rfl, h2, h3, h4⟩ := h1
    refine ⟨l :: rs, .cons ⟨h2, h3⟩ k1, ?_, .cons h4 k3⟩
    intro r hr
    rcases List.mem_cons.1 hr with rfl | hr
    · rw [h4.length_eq]; exact h8 vs (by simp)
    · exact k2 r hr

theorem precomputeDouble_wp {ref : Addr} {v : GE} (hg : ref.region = g) (hs : ShowsGE g h ref v) (h8 : ∀ r ∈ v.single.getD [], r.length ≤ 8) :
    wp g h (precomputeDouble ref) fun r h' => Fr g (fun x => x = ref) h h' ∧
      Mt (fun _ v' => ShowsGE g h' ref v') r v.precomputeForDoubleScalarMultiplication := by
  have hs' := hs
  obtain ⟨s0, o, ls, ld, h1, h2, h3, h4, h5, h6, h7, hd⟩ := hs
  unfold precomputeDouble GE.precomputeForDoubleScalarMultiplication
  simp only [Prog.bind_eq]
  refine wp_loadObj s0 h1 ?_
  refine wp_loadArr h7 ?_
  rw [← hd.length_eq]
  by_cases hn : ld.length > 0
  · rw [if_pos hn, if_pos hn]
    exact ⟨Fr.refl _ _ _, (), rfl, hs'⟩
  · rw [if_neg hn, if_neg hn]
    refine wp_new fun t ha fa t1 t2 t3 => ?_
    have hra : ha.get ref = some (.obj o) := fa.grow h1
    have hsim : Sim (.obj o) (.obj { o with double := some t }) := ⟨_, rfl, rfl, rfl, rfl, rfl, rfl⟩
    refine wp_update (a := ref) hg hra hsim fun hb fb g2 => ?_
    have hnt : ref ≠ t := ne_of_obj_arr hra t3
    have frb : Fr g (fun x => x = ref) h hb := fa.weaken.comp fb
    have hns : ∀ a, o.single = some a → ¬ a = ref := by
      rintro a e rfl
      rw [e] at h4
      exact ne_of_obj_arr h1 h4.2 rfl
    have h5b : List.Forall₂ (ShowsRow g hb) ls (v.single.getD []) := by
      refine h5.imp fun e vs k => k.fr frb ?_
      rintro a rfl rfl
      obtain ⟨b, l, e, -, k2, -⟩ := k
      cases e
      exact ne_of_obj_arr h1 k2 rfl
    have h4b := h4.fr frb hns
    have htb : hb.get t = some (.arr ([] ++ List.replicate 8 none)) := fb.get t3 hnt.symm
    obtain ⟨rs, r1, r2, -⟩ := rows_read h5b h8
    refine wp_copy (rs := rs) (o := { o with double := some t }) s0 g2 ⟨ls, h4b, r1, r2, (⟨.inl t1, htb⟩ : Own g t ∧ _)⟩
      fun bi s d ns hc fc b1 b2 b3 n1 n2 n3 => ?_
    have frc : Fr g (fun x => x = ref) h hc := frb.comp fc.weaken
    have hbi : ShowsGC g hc bi v.toGC := ⟨.inl b1, _, b3, h2.fr frc⟩
    have hrc : ShowsGC g hc ref v.toGC := ⟨s0, _, fc.grow g2, h2.fr frc⟩
    have key := precOdd_wp (o := { o with double := some t }) s0 t1 rfl 8 hc bi v.toGC [] [] (fc.grow g2) hrc hbi (fc.grow htb) .nil
    refine wp_mono key fun r h' ⟨f1, k⟩ => ?_
    have fr : Fr g (fun x => x = ref) h h' := by
      refine frc.trans f1 (fun _ _ => id) fun x hx e => ?_
      subst e
      exact absurd t2 hx
    refine ⟨fr, ?_⟩
    cases hv : GC.precOdd v.toGC 8 v.toGC with
    | err m => rw [hv] at k; cases (show r = _ from k); rfl
    | panic => rw [hv] at k; cases (show r = _ from k); rfl
    | ok tv =>
      rw [hv] at k
      obtain ⟨_, rfl, l, k1, k2⟩ := k
      refine ⟨(), rfl, s0, _, ls, l, f1.get (fc.grow g2) hnt, h2.fr fr, h3, h4.fr fr hns, ?_, rfl, ⟨.inl t1, k1⟩, k2⟩
      refine h5.imp fun e vs k => k.fr fr ?_
      rintro a rfl rfl
      obtain ⟨b, l, e, -, k2, -⟩ := k
      cases e
      exact ne_of_obj_arr h1 k2 rfl

theorem copied_rows {ns : List (Option Addr)} {rs : List (List (Option Addr))} {t : List (List GC)}
    (hn : List.Forall₂ (fun e r => ∃ a, e = some a ∧ NewArr g h h' a (pad8 r)) ns rs)
    (hr : List.Forall₂ (fun l vs => List.Forall₂ (ShowsEntry g h) l vs) rs t) (h8 : ∀ r ∈ t, r.length = 8) (f : Fr g S h h') :
    List.Forall₂ (ShowsRow g h') ns t := by
  induction hn generalizing t with
  | nil => cases hr; exact .nil
  | cons h1 _ ih =>
    obtain ⟨vs, t, h2, h3, rfl⟩ := List.forall₂_cons_left_iff.1 hr
    obtain ⟨a, rfl, k1, -, k2⟩ := h1
    refine .cons ⟨a, _, rfl, .inl k1, k2, ?_⟩ (ih h3 fun r hr => h8 r (by simp [hr]))
    unfold pad8
    rw [h2.length_eq, h8 vs (by simp), Nat.sub_self, List.replicate_zero, List.append_nil]
    exact entries_fr h2 f

/-- `copy` of an element with full rows: the same values, all in new memory. -/
theorem wp_copyGE {β : Type} {a : Addr} {v : GE} (hs : ShowsGE g h a v) (h8 : ∀ r ∈ v.single.getD [], r.length = 8)
    {f : Addr → Prog β} {Q : Out β → PHeap → Prop}
    (hq : ∀ b h', Fr g Nothing h h' → b.region = g → ShowsGE g h' b v.copy → wp g h' (f b) Q) : wp g h ((copy a).bind f) Q := by
  obtain ⟨s0, o, ls, ld, h1, h2, h3, h4, h5, h6, h7, hd⟩ := hs
  obtain ⟨rs, r1, r2, r3⟩ := rows_read h5 fun r hr => Nat.le_of_eq (h8 r hr)
  refine wp_copy (rs := rs) s0 h1 ⟨ls, h4, r1, r2, h7⟩ fun b s d ns h' f1 b1 b2 b3 n1 n2 n3 => ?_
  refine hq b h' f1 b1 ⟨.inl b1, _, ns, ld, b3, h2.fr f1, rfl, ⟨.inl n1.1, n1.2.2⟩, ?_, rfl, ⟨.inl n2.1, n2.2.2⟩, entries_fr hd f1⟩
  show List.Forall₂ _ ns (v.single.getD [])
  exact copied_rows n3 r3 h8 f1

/-! ## Selection and multiplication -/

theorem index_mt {α β : Type} {R : α → β → Prop} {l : List α} {m : List β} (hl : List.Forall₂ R l m) (i : Nat) :
    Mt R (Out.index l i) (Out.index m i) := by
  unfold Out.index
  induction hl generalizing i with
  | nil => rfl
  | cons h1 _ ih =>
    cases i with
    | zero => exact ⟨_, rfl, h1⟩
    | succ i => exact ih i

theorem cmov_mt {t : Addr} {u : Option Addr} {x y : GC} (ht : ShowsGC g h t x) (hu : ShowsEntry g h u y) (b : Int64) :
    Mt (ShowsEntry g h) (cmov t u b) (x.cmov y b) := by
  unfold cmov GC.cmov
  split
  · exact ⟨u, rfl, hu⟩
  · split
    · exact ⟨some t, rfl, t, rfl, ht⟩
    · rfl

theorem selectLoop_mt {bAbs : Int64} {row : List (Option Addr)} {vs : List GC} (hr : List.Forall₂ (ShowsEntry g h) row vs) :
    ∀ (i : Nat) (t : Addr) (x : GC), ShowsGC g h t x → Mt (ShowsGC g h) (selectLoop bAbs row i t) (GE.selectLoop bAbs vs i x) := by
  induction hr with
  | nil => exact fun i t x hx => ⟨t, rfl, hx⟩
  | @cons e v row vs h1 _ ih =>
    intro i t x hx
    unfold selectLoop GE.selectLoop
    refine Mt.bind (cmov_mt hx h1 _) fun u y hu => ?_
    obtain ⟨a, rfl, ha⟩ := hu
    exact ih (i + 1) a y ha

/-- A program that only allocates and whose outcome corresponds to `v`. -/
theorem wp_mt {α β γ : Type} {P : PHeap → β → α → Prop} {p : Prog β} {v : Out α} {f : β → Prog γ} {Q : Out γ → PHeap → Prop}
    (hp : wp g h p fun r h' => Fr g Nothing h h' ∧ Mt (P h') r v)
    (hok : ∀ y x h', v = .ok x → Fr g Nothing h h' → P h' y x → wp g h' (f y) Q)
    (herr : ∀ m h', v = .err m → Fr g Nothing h h' → Q (.err m) h')
    (hpan : ∀ h', v = .panic → Fr g Nothing h h' → Q .panic h') : wp g h (p.bind f) Q := by
  refine wp_seq hp fun r h' ⟨f1, k⟩ => ?_
  cases v with
  | err m => cases (show r = _ from k); exact herr m h' rfl f1
  | panic => cases (show r = _ from k); exact hpan h' rfl f1
  | ok x =>
    obtain ⟨y, rfl, k1⟩ := k
    exact hok y x h' rfl f1 k1

theorem wp_lift_mt {α β γ : Type} {P : β → α → Prop} {r : Out β} {v : Out α} {f : β → Prog γ} {Q : Out γ → PHeap → Prop}
    (hr : Mt P r v) (hok : ∀ y x, v = .ok x → P y x → wp g h (f y) Q) (herr : ∀ m, v = .err m → Q (.err m) h)
    (hpan : v = .panic → Q .panic h) : wp g h ((lift r).bind f) Q := by
  cases v with
  | err m => cases (show r = _ from hr); exact herr m rfl
  | panic => cases (show r = _ from hr); exact hpan rfl
  | ok x =>
    obtain ⟨y, rfl, k1⟩ := hr
    exact hok y x rfl k1

theorem after_mt {α β γ : Type} {P : β → α → Prop} {r : Out β} {v : Out α} {f : β → Prog γ} {Q : Out γ → PHeap → Prop}
    (hr : Mt P r v) (hok : ∀ y x, v = .ok x → P y x → wp g h (f y) Q) (herr : ∀ m, v = .err m → Q (.err m) h)
    (hpan : v = .panic → Q .panic h) : after g f Q r h := by
  cases v with
  | err m => cases (show r = _ from hr); exact herr m rfl
  | panic => cases (show r = _ from hr); exact hpan rfl
  | ok x =>
    obtain ⟨y, rfl, k1⟩ := hr
    exact hok y x rfl k1

theorem select_ref {ref : Addr} {v : GE} (hs : ShowsGE g h ref v) (pos : Nat) (b : Int64) : Ref g h (select ref pos b) (v.select pos b) := by
  unfold Ref select GE.select
  simp only [Prog.bind_eq]
  refine wp_newGC fun z h1 f1 _ _ z1 _ => ?_
  obtain ⟨s0, o, ls, ld, k1, k2, k3, k4, k5, k6, k7, k8⟩ := hs.grow f1
  refine wp_loadObj s0 k1 ?_
  show wp g h1 (Prog.bind (Prog.bind (loadArr o.single) _) _) _
  refine wp_bind ?_
  refine wp_loadArr k4 ?_
  show wp g h1 (lift (Out.index ls pos)) _
  show after g _ _ _ _
  refine after_mt (index_mt k5 pos) (fun e vs hv he => ?_) (fun m hm => ?_) fun hm => ?_
  · obtain ⟨a, l, rfl, e1, e2, e3⟩ := he
    rw [hv, Out.ok_bind]
    refine wp_loadArr (s := some a) ⟨e1, e2⟩ ?_
    refine wp_lift_mt (selectLoop_mt e3 0 z .zeroPrecomputed z1) (fun t x hx ht => ?_) (fun m hm => ?_) fun hm => ?_
    · rw [hx, Out.ok_bind]
      have ht' := ht
      obtain ⟨t0, ot, t1, t2, t3, t4, t5, t6⟩ := ht
      refine wp_loadObj t0 t1 ?_
      refine wp_loadFE t5 ?_
      refine wp_new fun nz h2 f2 n1 n2 n3 => ?_
      refine wp_new fun tm h3 f3 m1 m2 m3 => ?_
      have htm : ShowsGC g h3 tm (GC.newPrecomputed x.Y x.X x.Z.negate) :=
        ⟨.inl m1, _, m3, rfl, t4.fr (f2.comp f3), t3.fr (f2.comp f3), ⟨.inl n1, f3.grow n3⟩, trivial⟩
      have fr := (f1.comp f2).comp f3
      refine wp_lift_mt (cmov_mt (ht'.fr (f2.comp f3)) ⟨tm, rfl, htm⟩ _) (fun u y hy hu => ?_) (fun m hm => ?_) fun hm => ?_
      · obtain ⟨c, rfl, hc⟩ := hu
        rw [hy]
        exact ⟨fr, c, rfl, hc⟩
      · rw [hm]; exact ⟨fr, rfl⟩
      · rw [hm]; exact ⟨fr, rfl⟩
    · rw [hm]; exact ⟨f1, rfl⟩
    · rw [hm]; exact ⟨f1, rfl⟩
  · rw [hm]; exact ⟨f1, rfl⟩
  · rw [hm]; exact ⟨f1, rfl⟩

theorem scalarStep_ref {ref t : Addr} {v : GE} {x : GC} (hs : ShowsGE g h ref v) (e : Digits) (ht : ShowsGC g h t x) (i : Nat) :
    RefP g h (scalarStep ref e t i) (v.scalarStep e x i) := by
  refine Ref.bindP (select_ref hs _ _) fun s y h1 f1 k1 => ?_
  refine Ref.bindP (binary_ref (ht.fr f1) k1).ref fun c z h2 f2 k2 => ?_
  exact toCoordinateSystem_ref k2 .p3

theorem times16_ref {t : Addr} {x : GC} (ht : ShowsGC g h t x) : RefP g h (times16 t) (GE.times16 x) := by
  refine Ref.bindP (dbl_ref ht).ref fun a1 x1 h1 f1 k1 => ?_
  refine Ref.bindP (toCoordinateSystem_ref k1 .p2).ref fun a2 x2 h2 f2 k2 => ?_
  refine Ref.bindP (dbl_ref k2).ref fun a3 x3 h3 f3 k3 => ?_
  refine Ref.bindP (toCoordinateSystem_ref k3 .p2).ref fun a4 x4 h4 f4 k4 => ?_
  refine Ref.bindP (dbl_ref k4).ref fun a5 x5 h5 f5 k5 => ?_
  refine Ref.bindP (toCoordinateSystem_ref k5 .p2).ref fun a6 x6 h6 f6 k6 => ?_
  refine Ref.bindP (dbl_ref k6).ref fun a7 x7 h7 f7 k7 => ?_
  exact toCoordinateSystem_ref k7 .p3

theorem loop_ref {ref : Addr} {v : GE} (e : Digits) : ∀ (is : List Nat) (h : PHeap) (t : Addr) (x : GC), ShowsGE g h ref v → ShowsGC g h t x →
    Ref g h (loop (scalarStep ref e) t is) (is.foldlM (v.scalarStep e) x) := by
  intro is
  induction is with
  | nil => exact fun h t x _ ht => ⟨Fr.refl _ _ _, t, rfl, ht⟩
  | cons i is ih =>
    intro h t x hs ht
    rw [List.foldlM_cons]
    exact Ref.bind (scalarStep_ref hs e ht i).ref fun c y h1 f1 k1 => ih h1 c y (hs.grow f1) k1

theorem scalarMultiply_ref {ref : Addr} {v : GE} (hs : ShowsGE g h ref v) (a : Bytes) : Ref g h (scalarMultiply ref a) (v.scalarMultiply a) := by
  unfold Ref scalarMultiply
  simp only [Prog.bind_eq]
  refine wp_newGC fun z h1 f1 _ _ z1 _ => ?_
  refine wp_mono (Q := fun r h' => Fr g Nothing h1 h' ∧ Res g h' r (v.scalarMultiply a)) ?_ fun _ _ k => ⟨f1.comp k.1, k.2⟩
  unfold GE.scalarMultiply
  refine Ref.bind (loop_ref _ _ h1 z _ (hs.grow f1) z1) fun c y h2 f2 k2 => ?_
  refine Ref.bind (times16_ref k2).ref fun c' y' h3 f3 k3 => ?_
  exact loop_ref _ _ h3 c' y' ((hs.grow f1).grow (f2.comp f3)) k3

theorem tableOp_ref {op : GC → GC → Out GC} {ref t : Addr} {v : GE} {x : GC} (hs : ShowsGE g h ref v) (ht : ShowsGC g h t x) (i : Nat) :
    RefP g h (tableOp (binary op) ref i t) (x.toP3 >>= fun t => Out.index (v.double.getD []) i >>= fun q => op t q) := by
  refine Ref.bindP (toCoordinateSystem_ref ht .p3).ref fun c y h1 f1 k1 => ?_
  obtain ⟨s0, o, ls, ld, j1, j2, j3, j4, j5, j6, j7, j8⟩ := hs.grow f1
  refine wp_loadObj s0 j1 ?_
  show wp g h1 (Prog.bind (Prog.bind (loadArr o.double) _) _) _
  refine wp_bind ?_
  refine wp_loadArr j7 ?_
  show after g _ _ _ _
  refine after_mt (index_mt j8 i) (fun e u hu he => ?_) (fun m hm => ?_) fun hm => ?_
  · obtain ⟨a, rfl, ha⟩ := he
    rw [hu, Out.ok_bind]
    exact binary_ref k1 ha
  · rw [hm]; exact ⟨Fr.refl _ _ _, rfl⟩
  · rw [hm]; exact ⟨Fr.refl _ _ _, rfl⟩

theorem subDigit_ref {A t : Addr} {v : GE} {x : GC} (hs : ShowsGE g h A v) (ht : ShowsGC g h t x) (a : Int8) :
    Ref g h (subDigit A a t) (GE.subDigit v a x) := by
  unfold subDigit GE.subDigit
  split
  · exact (tableOp_ref hs ht _).ref
  · split
    · exact (tableOp_ref hs ht _).ref
    · exact ⟨Fr.refl _ _ _, t, rfl, ht⟩

theorem addDigit_ref {A t : Addr} {v : GE} {x : GC} (hs : ShowsGE g h A v) (ht : ShowsGC g h t x) (a : Int8) :
    Ref g h (addDigit A a t) (GE.addDigit v a x) := by
  unfold addDigit GE.addDigit
  split
  · exact (tableOp_ref hs ht _).ref
  · split
    · exact (tableOp_ref hs ht _).ref
    · exact ⟨Fr.refl _ _ _, t, rfl, ht⟩

theorem doubleStep_ref {ref A t : Addr} {v w : GE} {x : GC} (hv : ShowsGE g h ref v) (hw : ShowsGE g h A w) (ht : ShowsGC g h t x) (a b : Int8) :
    Ref g h (doubleStep ref A a b t) (GE.doubleStep v w a b x) := by
  refine Ref.bind (dbl_ref ht).ref fun c y h1 f1 k1 => ?_
  refine Ref.bind (subDigit_ref (hw.grow f1) k1 a) fun c' y' h2 f2 k2 => ?_
  refine Ref.bind (addDigit_ref (hv.grow (f1.comp f2)) k2 b) fun c'' y'' h3 f3 k3 => ?_
  exact (toCoordinateSystem_ref k3 .p2).ref

theorem doubleLoop_ref {ref A : Addr} {v w : GE} (aS bS : Digits) : ∀ (n : Nat) (flag : Bool) (h : PHeap) (t : Addr) (x : GC),
    ShowsGE g h ref v → ShowsGE g h A w → ShowsGC g h t x → Ref g h (doubleLoop ref A aS bS n flag t) (GE.doubleLoop v w aS bS n flag x) := by
  intro n
  induction n with
  | zero => exact fun _ h t x _ _ ht => ⟨Fr.refl _ _ _, t, rfl, ht⟩
  | succ n ih =>
    intro flag h t x hv hw ht
    unfold doubleLoop GE.doubleLoop
    dsimp only
    split
    · exact Ref.bind (doubleStep_ref hv hw ht _ _) fun c y h1 f1 k1 => ih _ h1 c y (hv.grow f1) (hw.grow f1) k1
    · exact ih _ h t x hv hw ht

theorem doubleScalar_ref {ref A : Addr} {v w : GE} (hv : ShowsGE g h ref v) (hw : ShowsGE g h A w) (a b : Bytes) :
    Ref g h (doubleScalarMultiplyVariableTime ref A a b) (v.doubleScalarMultiplyVariableTime w a b) := by
  unfold Ref doubleScalarMultiplyVariableTime GE.doubleScalarMultiplyVariableTime
  generalize 256 = n
  simp only [Prog.bind_eq]
  refine wp_newGC fun z h1 f1 _ _ z1 _ => ?_
  exact wp_mono (doubleLoop_ref _ _ n false h1 z _ (hv.grow f1) (hw.grow f1) z1) fun _ _ k => ⟨f1.comp k.1, k.2⟩

end

end PG
end Ed

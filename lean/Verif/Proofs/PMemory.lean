import Verif.Proofs.PApi

/-!
# Memory that shows a given group element; running one goroutine alone for a while
-/

set_option autoImplicit false

namespace Ed
namespace PG
open Prog

section
variable {g : Nat} {h : PHeap}

theorem Own.of_zero {a : Addr} (k : Own 0 a) : Own g a := .inr (by rcases k with e | e <;> exact e)

theorem ShowsFE.of_zero {a : Addr} {v : FE} (k : ShowsFE 0 h a v) : ShowsFE g h a v := ⟨k.1.of_zero, k.2⟩

theorem ShowsOpt.of_zero {a : Option Addr} {v : Option FE} (k : ShowsOpt 0 h a v) : ShowsOpt g h a v := by
  cases a <;> cases v
  · exact k
  · exact k
  · exact k
  · exact ShowsFE.of_zero k

theorem Coords.of_zero {o : PObj} {v : GC} (k : Coords 0 h o v) : Coords g h o v :=
  ⟨k.1, k.2.1.of_zero, k.2.2.1.of_zero, k.2.2.2.1.of_zero, k.2.2.2.2.of_zero⟩

theorem ShowsGC.of_zero {a : Addr} {v : GC} (k : ShowsGC 0 h a v) : ShowsGC g h a v := by
  obtain ⟨k0, o, k1, k2⟩ := k
  exact ⟨k0.of_zero, o, k1, k2.of_zero⟩

theorem ShowsArr.of_zero {a : Option Addr} {l : List (Option Addr)} (k : ShowsArr 0 h a l) : ShowsArr g h a l := by
  cases a with
  | none => exact k
  | some a => exact ⟨Own.of_zero k.1, k.2⟩

theorem ShowsEntry.of_zero {a : Option Addr} {v : GC} (k : ShowsEntry 0 h a v) : ShowsEntry g h a v := by
  obtain ⟨b, k1, k2⟩ := k
  exact ⟨b, k1, k2.of_zero⟩

theorem ShowsRow.of_zero {a : Option Addr} {v : List GC} (k : ShowsRow 0 h a v) : ShowsRow g h a v := by
  obtain ⟨b, l, k1, k2, k3, k4⟩ := k
  exact ⟨b, l, k1, k2.of_zero, k3, k4.imp fun _ _ => ShowsEntry.of_zero⟩

theorem ShowsGE.of_zero {a : Addr} {v : GE} (k : ShowsGE 0 h a v) : ShowsGE g h a v := by
  obtain ⟨k0, o, ls, ld, k1, k2, k3, k4, k5, k6, k7, k8⟩ := k
  exact ⟨k0.of_zero, o, ls, ld, k1, k2.of_zero, k3, k4.of_zero, k5.imp fun _ _ => ShowsRow.of_zero, k6, k7.of_zero,
    k8.imp fun _ _ => ShowsEntry.of_zero⟩

theorem IsBase.of_zero {bp : Addr} (k : IsBase 0 h bp) : IsBase g h bp := by
  obtain ⟨v, k1, k2⟩ := k
  exact ⟨v, k1, k2.of_zero⟩

/-! ## A memory with a given element -/

/-- New group elements. -/
def newEntries : List GC → Prog (List (Option Addr))
  | [] => .ret (.ok [])
  | v :: vs => (newGC v).bind fun a => (newEntries vs).bind fun as => .ret (.ok (some a :: as))

theorem newEntries_wp {β : Type} : ∀ (vs : List GC) (h : PHeap) (f : List (Option Addr) → Prog β) (Q : Out β → PHeap → Prop),
    (∀ l h', Fr g Nothing h h' → List.Forall₂ (ShowsEntry g h') l vs → wp g h' (f l) Q) → wp g h ((newEntries vs).bind f) Q := by
  intro vs
  induction vs generalizing β with
  | nil => exact fun h f Q hq => hq [] h (Fr.refl _ _ _) .nil
  | cons v vs ih =>
    intro h f Q hq
    refine wp_bind ?_
    refine wp_newGC fun a h1 f1 _ _ k1 _ => ?_
    refine ih h1 _ _ fun l h2 f2 k2 => ?_
    exact hq (some a :: l) h2 (f1.comp f2) (.cons ⟨a, rfl, k1.fr f2⟩ k2)

/-- New rows. -/
def newRows : List (List GC) → Prog (List (Option Addr))
  | [] => .ret (.ok [])
  | r :: rs => (newEntries r).bind fun l => (new (.arr l)).bind fun a => (newRows rs).bind fun as => .ret (.ok (some a :: as))

theorem newRows_wp {β : Type} : ∀ (vs : List (List GC)) (h : PHeap) (f : List (Option Addr) → Prog β) (Q : Out β → PHeap → Prop),
    (∀ l h', Fr g Nothing h h' → List.Forall₂ (ShowsRow g h') l vs → wp g h' (f l) Q) → wp g h ((newRows vs).bind f) Q := by
  intro vs
  induction vs generalizing β with
  | nil => exact fun h f Q hq => hq [] h (Fr.refl _ _ _) .nil
  | cons v vs ih =>
    intro h f Q hq
    refine wp_bind ?_
    refine newEntries_wp v h _ _ fun l h1 f1 k1 => ?_
    refine wp_new fun a h2 f2 a1 a2 a3 => ?_
    refine ih h2 _ _ fun ls h3 f3 k3 => ?_
    refine hq (some a :: ls) h3 ((f1.comp f2).comp f3) (.cons ⟨a, l, rfl, .inl a1, f3.grow a3, ?_⟩ k3)
    exact entries_fr k1 (f2.comp f3)

/-- The array of a table, nil for none. -/
def newTable (l : List (Option Addr)) : Bool → Prog (Option Addr)
  | false => .ret (.ok none)
  | true => (new (.arr l)).bind fun a => .ret (.ok (some a))

theorem newTable_wp {β : Type} {l : List (Option Addr)} {b : Bool} (hl : b = false → l = []) {f : Option Addr → Prog β} {Q : Out β → PHeap → Prop}
    (hq : ∀ s h', Fr g Nothing h h' → s.isSome = b → ShowsArr g h' s l → wp g h' (f s) Q) : wp g h ((newTable l b).bind f) Q := by
  cases b with
  | false => exact hq none h (Fr.refl _ _ _) rfl (hl rfl)
  | true =>
    refine wp_bind ?_
    refine wp_new fun a h1 f1 a1 a2 a3 => ?_
    exact hq (some a) h1 f1 rfl ⟨.inl a1, a3⟩

/-- A new group element with tables. -/
def newGE (v : GE) : Prog Addr :=
  (newRows (v.single.getD [])).bind fun ls =>
  (newTable ls v.single.isSome).bind fun s =>
  (newEntries (v.double.getD [])).bind fun ld =>
  (newTable ld v.double.isSome).bind fun d =>
  (new (.fe v.X)).bind fun x =>
  (new (.fe v.Y)).bind fun y =>
  (new (.fe v.Z)).bind fun z =>
  (newOpt v.T).bind fun t =>
  (new (.obj ⟨v.sys, x, y, z, t, s, d⟩)).bind fun a => .ret (.ok a)

theorem newGE_wp (v : GE) : wp g h (newGE v) fun r h' => Fr g Nothing h h' ∧ ∃ a, r = .ok a ∧ a.region = g ∧ ShowsGE g h' a v := by
  unfold newGE
  refine newRows_wp _ h _ _ fun ls h1 f1 k1 => ?_
  refine newTable_wp (fun e => ?_) fun s h2 f2 s1 s2 => ?_
  · have : v.single = none := by simpa using e
    rw [this] at k1
    have k1 : List.Forall₂ (ShowsRow g h1) ls [] := k1
    cases k1; rfl
  refine newEntries_wp _ h2 _ _ fun ld h3 f3 k3 => ?_
  refine newTable_wp (fun e => ?_) fun d h4 f4 d1 d2 => ?_
  · have : v.double = none := by simpa using e
    rw [this] at k3
    have k3 : List.Forall₂ (ShowsEntry g h3) ld [] := k3
    cases k3; rfl
  refine wp_new fun x h5 f5 x1 x2 x3 => ?_
  refine wp_new fun y h6 f6 y1 y2 y3 => ?_
  refine wp_new fun z h7 f7 z1 z2 z3 => ?_
  refine wp_newOpt fun t h8 f8 t1 => ?_
  refine wp_new fun a h9 f9 a1 a2 a3 => ?_
  have f49 := (((f5.comp f6).comp f7).comp f8).comp f9
  have f29 := (f3.comp f4).comp f49
  refine ⟨(f1.comp f2).comp f29, a, rfl, a1, .inl a1, _, ls, ld, a3, ⟨rfl, ?_, ?_, ?_, t1.fr f9⟩, s1, s2.fr f29 fun _ _ => id, ?_, d1,
    d2.fr f49 fun _ _ => id, entries_fr k3 (f4.comp f49)⟩
  · exact ⟨.inl x1, (((f6.comp f7).comp f8).comp f9).grow x3⟩
  · exact ⟨.inl y1, ((f7.comp f8).comp f9).grow y3⟩
  · exact ⟨.inl z1, (f8.comp f9).grow z3⟩
  · exact k1.imp fun _ _ k => k.fr (f2.comp f29) fun _ _ => id

/-- Every memory can be extended in region 0 by a given group element. -/
theorem exists_shows (h : PHeap) (v : GE) : ∃ h' a, ShowsGE 0 h' a v ∧ Fr 0 Nothing h h' := by
  obtain ⟨k1, a, k2, k3, k4⟩ := (alone_of_wpW (wpW_of_wp (w := fun _ => []) (newGE_wp (g := 0) (h := h) v))).1
  exact ⟨_, a, k4, k1⟩

/-- Every memory can be extended in region 0 by given byte arrays. -/
theorem exists_bytes (h : PHeap) (b : Bytes) : ∃ h' a, IsBytes h' a ∧ bytesAt h' a = b ∧ Fr 0 Nothing h h' := by
  refine ⟨h.push 0 (.bytes b), h.fresh 0, ⟨rfl, b, PHeap.get_push_fresh _ _ _⟩, ?_, Fr.push 0 h _⟩
  unfold bytesAt
  rw [PHeap.get_push_fresh]

/-- A memory with the base point. -/
theorem exists_base : ∃ h bp, IsBase 0 h bp := by
  obtain ⟨v, h1, -⟩ := getBasePoint_spec
  obtain ⟨h, a, h2, -⟩ := exists_shows (fun _ => []) v
  exact ⟨h, a, v, h1, h2⟩

end
end PG
end Ed

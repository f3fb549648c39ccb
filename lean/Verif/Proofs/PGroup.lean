import Verif.Proofs.Conc
import Verif.Spec.Memory

/-!
# The operations on pointers compute what the operations on values compute, and write only to new memory
-/

set_option autoImplicit false

namespace Ed
namespace PG
open Prog

/-- An object may only change in these ways: the tables of a group element, the entries of an array of pointers. -/
def Sim : Val → Val → Prop
  | .obj o, v' => ∃ o', v' = .obj o' ∧ o'.sys = o.sys ∧ o'.X = o.X ∧ o'.Y = o.Y ∧ o'.Z = o.Z ∧ o'.T = o.T
  | .arr _, v' => ∃ l, v' = .arr l
  | .fe v, v' => v' = .fe v
  | .bytes b, v' => v' = .bytes b

theorem Sim.refl (v : Val) : Sim v v := by
  cases v <;> simp [Sim]

theorem Sim.trans {a b c : Val} (h : Sim a b) (h' : Sim b c) : Sim a c := by
  cases a with
  | fe v => cases (show b = _ from h); exact h'
  | bytes v => cases (show b = _ from h); exact h'
  | arr l => obtain ⟨l', rfl⟩ := h; exact h'
  | obj o =>
    obtain ⟨o', rfl, h1, h2, h3, h4, h5⟩ := h
    obtain ⟨o'', rfl, k1, k2, k3, k4, k5⟩ := h'
    exact ⟨o'', rfl, k1.trans h1, k2.trans h2, k3.trans h3, k4.trans h4, k5.trans h5⟩

/-- From `h` to `h'` only region `g` changed, and of the objects of `h` only those in `S`. -/
structure Fr (g : Nat) (S : Addr → Prop) (h h' : PHeap) : Prop where
  other : ∀ r, r ≠ g → h' r = h r
  keep : ∀ a v, h.get a = some v → ∃ v', h'.get a = some v' ∧ Sim v v' ∧ (¬ S a → v' = v)

/-- Nothing changed. -/
abbrev Nothing : Addr → Prop := fun _ => False

theorem Fr.refl (g : Nat) (S : Addr → Prop) (h : PHeap) : Fr g S h h :=
  ⟨fun _ _ => rfl, fun _ v hv => ⟨v, hv, Sim.refl v, fun _ => rfl⟩⟩

theorem Fr.trans {g : Nat} {S S' T : Addr → Prop} {h h1 h2 : PHeap} (a : Fr g S h h1) (b : Fr g S' h1 h2)
    (hs : ∀ x, h.get x ≠ none → S x → T x) (hs' : ∀ x, h.get x ≠ none → S' x → T x) : Fr g T h h2 := by
  refine ⟨fun r hr => (b.other r hr).trans (a.other r hr), fun x v hv => ?_⟩
  obtain ⟨v1, g1, s1, k1⟩ := a.keep x v hv
  obtain ⟨v2, g2, s2, k2⟩ := b.keep x v1 g1
  refine ⟨v2, g2, s1.trans s2, fun ht => ?_⟩
  have hn : h.get x ≠ none := by rw [hv]; simp
  rw [k2 fun e => ht (hs' x hn e), k1 fun e => ht (hs x hn e)]

theorem Fr.comp {g : Nat} {S : Addr → Prop} {h h1 h2 : PHeap} (a : Fr g S h h1) (b : Fr g S h1 h2) : Fr g S h h2 :=
  a.trans b (fun _ _ => id) fun _ _ => id

theorem Fr.weaken {g : Nat} {S : Addr → Prop} {h h' : PHeap} (a : Fr g Nothing h h') : Fr g S h h' :=
  a.trans (Fr.refl g S h') (fun _ _ => False.elim) fun _ _ => id

theorem Fr.get {g : Nat} {S : Addr → Prop} {h h' : PHeap} (f : Fr g S h h') {a : Addr} {v : Val} (hv : h.get a = some v) (hs : ¬ S a) :
    h'.get a = some v := by
  obtain ⟨v', h1, -, h3⟩ := f.keep a v hv
  rw [h1, h3 hs]

theorem Fr.grow {g : Nat} {h h' : PHeap} (f : Fr g Nothing h h') {a : Addr} {v : Val} (hv : h.get a = some v) :
    h'.get a = some v := f.get hv id

theorem Fr.push (g : Nat) (h : PHeap) (v : Val) : Fr g Nothing h (h.push g v) :=
  ⟨fun _ hr => PHeap.push_other hr, fun _ w hw => ⟨w, PHeap.get_push hw, Sim.refl w, fun _ => rfl⟩⟩

theorem Fr.set {g : Nat} {h : PHeap} {a : Addr} {v v' : Val} (hg : a.region = g) (hv : h.get a = some v) (hs : Sim v v') :
    Fr g (fun x => x = a) h (h.set a v') := by
  refine ⟨fun r hr => PHeap.set_other (by rw [hg]; exact hr), fun x w hw => ?_⟩
  by_cases hx : x = a
  · subst hx
    rw [hv] at hw; cases hw
    exact ⟨v', PHeap.get_set_self hv, hs, fun hn => absurd rfl hn⟩
  · exact ⟨w, by rw [PHeap.get_set_ne (Ne.symm hx)]; exact hw, Sim.refl w, fun _ => rfl⟩

/-- The group element has no tables. -/
def Plain (h : PHeap) (a : Addr) : Prop := ∃ o, h.get a = some (.obj o) ∧ o.single = none ∧ o.double = none

theorem ShowsFE.fr {g : Nat} {S : Addr → Prop} {h h' : PHeap} {a : Addr} {v : FE} (s : ShowsFE g h a v) (f : Fr g S h h') :
    ShowsFE g h' a v := by
  obtain ⟨v', h1, h2, -⟩ := f.keep a _ s.2
  exact ⟨s.1, by rw [h1]; exact congrArg some h2⟩

theorem ShowsOpt.fr {g : Nat} {S : Addr → Prop} {h h' : PHeap} {a : Option Addr} {v : Option FE} (s : ShowsOpt g h a v) (f : Fr g S h h') :
    ShowsOpt g h' a v := by
  cases a <;> cases v
  · exact s
  · exact s
  · exact s
  · exact ShowsFE.fr s f

theorem Coords.fr {g : Nat} {S : Addr → Prop} {h h' : PHeap} {o : PObj} {v : GC} (s : Coords g h o v) (f : Fr g S h h') : Coords g h' o v :=
  ⟨s.1, s.2.1.fr f, s.2.2.1.fr f, s.2.2.2.1.fr f, s.2.2.2.2.fr f⟩

theorem ShowsGC.fr {g : Nat} {S : Addr → Prop} {h h' : PHeap} {a : Addr} {v : GC} (s : ShowsGC g h a v) (f : Fr g S h h') :
    ShowsGC g h' a v := by
  obtain ⟨s0, o, s1, s2⟩ := s
  obtain ⟨v', h1, ⟨o', rfl, k1, k2, k3, k4, k5⟩, -⟩ := f.keep a _ s1
  have c := s2.fr f
  exact ⟨s0, o', h1, by rw [k1]; exact c.1, by rw [k2]; exact c.2.1, by rw [k3]; exact c.2.2.1, by rw [k4]; exact c.2.2.2.1,
    by rw [k5]; exact c.2.2.2.2⟩

theorem Plain.grow {g : Nat} {h h' : PHeap} {a : Addr} (p : Plain h a) (f : Fr g Nothing h h') : Plain h' a := by
  obtain ⟨o, h1, h2⟩ := p
  exact ⟨o, f.grow h1, h2⟩

/-! ## Rules for the primitives -/

section
variable {g : Nat} {h : PHeap} {α β : Type}

theorem wp_seq {p : Prog α} {f : α → Prog β} {R : Out α → PHeap → Prop} {Q : Out β → PHeap → Prop} (hp : wp g h p R)
    (hq : ∀ r h', R r h' → after g f Q r h') : wp g h (p.bind f) Q := wp_bind (wp_mono hp hq)

theorem wp_load {a : Addr} {v : Val} {f : Val → Prog β} {Q : Out β → PHeap → Prop} (ho : Own g a) (hv : h.get a = some v)
    (hq : wp g h (f v) Q) : wp g h ((load a).bind f) Q := by
  refine ⟨v, hv, ?_, ?_⟩
  · rcases ho with e | e
    · exact .inl e
    · exact .inr ⟨e, rfl⟩
  · show wp g (h.set a v) _ Q
    rw [PHeap.set_self hv]; exact hq

theorem wp_new {v : Val} {f : Addr → Prog β} {Q : Out β → PHeap → Prop}
    (hq : ∀ a h', Fr g Nothing h h' → a.region = g → h.get a = none → h'.get a = some v → wp g h' (f a) Q) : wp g h ((new v).bind f) Q := by
  refine hq (h.fresh g) (h.push g v) (Fr.push g h v) rfl ?_ (PHeap.get_push_fresh h g v)
  unfold PHeap.get PHeap.fresh; simp

theorem wp_update {a : Addr} {v : Val} {u : Val → Val} {f : Unit → Prog β} {Q : Out β → PHeap → Prop} (hg : a.region = g)
    (hv : h.get a = some v) (hs : Sim v (u v))
    (hq : ∀ h', Fr g (fun x => x = a) h h' → h'.get a = some (u v) → wp g h' (f ()) Q) : wp g h ((update a u).bind f) Q :=
  ⟨v, hv, .inl hg, hq _ (Fr.set hg hv hs) (PHeap.get_set_self hv)⟩

theorem wp_loadObj {a : Addr} {o : PObj} {f : PObj → Prog β} {Q : Out β → PHeap → Prop} (ho : Own g a) (hv : h.get a = some (.obj o))
    (hq : wp g h (f o) Q) : wp g h ((loadObj a).bind f) Q := wp_load ho hv hq

theorem wp_loadFE {a : Addr} {v : FE} {f : FE → Prog β} {Q : Out β → PHeap → Prop} (hs : ShowsFE g h a v)
    (hq : wp g h (f v) Q) : wp g h ((loadFE a).bind f) Q := wp_load hs.1 hs.2 hq

theorem wp_loadByte {a : Addr} {b : Bytes} {i : Nat} {x : UInt8} {f : UInt8 → Prog β} {Q : Out β → PHeap → Prop} (ho : Own g a)
    (hv : h.get a = some (.bytes b)) (hx : b[i]? = some x) (hq : wp g h (f x) Q) : wp g h ((loadByte a i).bind f) Q := by
  refine wp_load ho hv ?_
  show wp g h ((lift (Out.index b i)).bind f) Q
  unfold Out.index
  rw [hx]; exact hq

theorem wp_loadRest {a : Addr} {b : Bytes} {f : Bytes → Prog β} {Q : Out β → PHeap → Prop} (ho : Own g a) (hv : h.get a = some (.bytes b))
    (hq : wp g h (f b) Q) : ∀ (rest got : Bytes), got ++ rest = b → wp g h ((loadRest a rest.length got).bind f) Q := by
  intro rest
  induction rest with
  | nil => intro got e; rw [List.append_nil] at e; subst e; exact hq
  | cons x rest ih =>
    intro got e
    show wp g h (((loadByte a got.length).bind fun x => loadRest a rest.length (got ++ [x])).bind f) Q
    rw [Prog.bind_bind]
    refine wp_loadByte ho hv (x := x) (by rw [← e]; simp) ?_
    exact ih (got ++ [x]) (by rw [← e]; simp)

theorem wp_loadBytes {a : Addr} {b : Bytes} {f : Bytes → Prog β} {Q : Out β → PHeap → Prop} (ho : Own g a) (hv : h.get a = some (.bytes b))
    (hq : wp g h (f b) Q) : wp g h ((loadBytes a).bind f) Q := wp_load ho hv (wp_loadRest ho hv hq b [] rfl)

theorem wp_loadArr {s : Option Addr} {l : List (Option Addr)} {f : List (Option Addr) → Prog β} {Q : Out β → PHeap → Prop}
    (hs : ShowsArr g h s l) (hq : wp g h (f l) Q) : wp g h ((loadArr s).bind f) Q := by
  cases s with
  | none => cases (show l = [] from hs); exact hq
  | some a => exact wp_load hs.1 hs.2 hq

theorem wp_lift_ok {a : α} {r : Out α} {f : α → Prog β} {Q : Out β → PHeap → Prop} (hr : r = .ok a) (hq : wp g h (f a) Q) :
    wp g h ((lift r).bind f) Q := by subst hr; exact hq

theorem wp_loadEntry {s : Option Addr} {l : List (Option Addr)} {i : Nat} {e : Option Addr} {f : Option Addr → Prog β}
    {Q : Out β → PHeap → Prop} (hs : ShowsArr g h s l) (he : l[i]? = some e) (hq : wp g h (f e) Q) :
    wp g h ((loadEntry s i).bind f) Q := by
  refine wp_bind ?_
  refine wp_loadArr hs ?_
  show after g f Q (Out.index l i) h
  unfold Out.index
  rw [he]; exact hq

theorem wp_storeEntry {s : Addr} {l : List (Option Addr)} {i : Nat} {e : Addr} {f : Unit → Prog β}
    {Q : Out β → PHeap → Prop} (hg : s.region = g) (hs : h.get s = some (.arr l)) (hi : i < l.length)
    (hq : ∀ h', Fr g (fun x => x = s) h h' → h'.get s = some (.arr (l.set i (some e))) → wp g h' (f ()) Q) :
    wp g h ((storeEntry (some s) i e).bind f) Q := by
  refine wp_bind ?_
  refine wp_loadArr (l := l) ⟨.inl hg, hs⟩ ?_
  refine wp_lift_ok (a := l[i]) (by unfold Out.index; rw [List.getElem?_eq_getElem hi]; rfl) ?_
  refine wp_lift_ok (a := s) rfl ?_
  exact ⟨_, hs, .inl hg, hq _ (Fr.set hg hs ⟨_, rfl⟩) (PHeap.get_set_self hs)⟩

theorem wp_loadOpt {a : Option Addr} {v : Option FE} {f : Option FE → Prog β} {Q : Out β → PHeap → Prop} (hs : ShowsOpt g h a v)
    (hq : wp g h (f v) Q) : wp g h ((loadOpt a).bind f) Q := by
  cases a with
  | none =>
    cases v with
    | none => exact hq
    | some v => exact hs.elim
  | some a =>
    cases v with
    | none => exact hs.elim
    | some v =>
      refine wp_bind ?_
      exact wp_loadFE hs hq

theorem wp_loadGC {a : Addr} {v : GC} {f : GC → Prog β} {Q : Out β → PHeap → Prop} (hs : ShowsGC g h a v)
    (hq : wp g h (f v) Q) : wp g h ((loadGC a).bind f) Q := by
  obtain ⟨s0, o, s1, s2, s3, s4, s5, s6⟩ := hs
  refine wp_bind ?_
  refine wp_loadObj s0 s1 ?_
  refine wp_loadFE s3 (wp_loadFE s4 (wp_loadFE s5 (wp_loadOpt s6 ?_)))
  show wp g h (f _) Q
  have : (⟨o.sys, v.X, v.Y, v.Z, v.T⟩ : GC) = v := by rw [s2]
  rw [this]; exact hq

theorem wp_newOpt {v : Option FE} {f : Option Addr → Prog β} {Q : Out β → PHeap → Prop}
    (hq : ∀ a h', Fr g Nothing h h' → ShowsOpt g h' a v → wp g h' (f a) Q) : wp g h ((newOpt v).bind f) Q := by
  cases v with
  | none => exact hq none h (Fr.refl _ _ _) trivial
  | some v =>
    refine wp_bind ?_
    refine wp_new fun a h' h1 h2 h3 h4 => ?_
    exact hq (some a) h' h1 ⟨.inl h2, h4⟩

theorem wp_newGC {v : GC} {f : Addr → Prog β} {Q : Out β → PHeap → Prop}
    (hq : ∀ a h', Fr g Nothing h h' → a.region = g → h.get a = none → ShowsGC g h' a v → Plain h' a → wp g h' (f a) Q) :
    wp g h ((newGC v).bind f) Q := by
  refine wp_bind ?_
  refine wp_new fun x h1 x1 x2 x3 x4 => ?_
  refine wp_new fun y h2 y1 y2 y3 y4 => ?_
  refine wp_new fun z h3 z1 z2 z3 z4 => ?_
  refine wp_newOpt fun t h4 t1 t2 => ?_
  show wp g h4 ((new _).bind fun a => ret (.ok a)) _
  refine wp_new fun a h5 a1 a2 a3 a4 => ?_
  have fr : Fr g Nothing h h4 := ((x1.comp y1).comp z1).comp t1
  have hn : h.get a = none := by
    cases e : h.get a with
    | none => rfl
    | some w => rw [fr.grow e] at a3; cases a3
  refine hq a h5 (fr.comp a1) a2 hn ⟨.inl a2, _, a4, rfl, ?_, ?_, ?_, t2.fr a1⟩ ⟨_, a4, rfl, rfl⟩
  · exact ⟨.inl x2, a1.grow (t1.grow (z1.grow (y1.grow x4)))⟩
  · exact ⟨.inl y2, a1.grow (t1.grow (z1.grow y4))⟩
  · exact ⟨.inl z2, a1.grow (t1.grow z4)⟩

end

/-! ## Results -/

/-- The outcome `r` in memory `h` corresponds to the outcome `v` on values. -/
def Res (g : Nat) (h : PHeap) (r : Out Addr) : Out GC → Prop
  | .ok x => ∃ a, r = .ok a ∧ ShowsGC g h a x
  | .err m => r = .err m
  | .panic => r = .panic

/-- The same, and the result is a new group element without tables. -/
def ResP (g : Nat) (h : PHeap) (r : Out Addr) : Out GC → Prop
  | .ok x => ∃ a, r = .ok a ∧ ShowsGC g h a x ∧ Plain h a
  | .err m => r = .err m
  | .panic => r = .panic

theorem ResP.res {g : Nat} {h : PHeap} {r : Out Addr} {v : Out GC} (p : ResP g h r v) : Res g h r v := by
  cases v with
  | ok x => obtain ⟨a, h1, h2, -⟩ := p; exact ⟨a, h1, h2⟩
  | err m => exact p
  | panic => exact p

/-- The program computes `v` and only allocates. -/
def Ref (g : Nat) (h : PHeap) (p : Prog Addr) (v : Out GC) : Prop := wp g h p fun r h' => Fr g Nothing h h' ∧ Res g h' r v
/-- The same with a new plain result. -/
def RefP (g : Nat) (h : PHeap) (p : Prog Addr) (v : Out GC) : Prop := wp g h p fun r h' => Fr g Nothing h h' ∧ ResP g h' r v

theorem RefP.ref {g : Nat} {h : PHeap} {p : Prog Addr} {v : Out GC} (r : RefP g h p v) : Ref g h p v :=
  wp_mono r fun _ _ h => ⟨h.1, h.2.res⟩

theorem Ref.bind {g : Nat} {h : PHeap} {p : Prog Addr} {v : Out GC} {f : Addr → Prog Addr} {fv : GC → Out GC} (hp : Ref g h p v)
    (hf : ∀ a x h', Fr g Nothing h h' → ShowsGC g h' a x → Ref g h' (f a) (fv x)) : Ref g h (p.bind f) (v >>= fv) := by
  refine wp_seq hp fun r h' ⟨h1, h2⟩ => ?_
  cases v with
  | err m => cases (show r = _ from h2); exact ⟨h1, rfl⟩
  | panic => cases (show r = _ from h2); exact ⟨h1, rfl⟩
  | ok x =>
    obtain ⟨a, rfl, h3⟩ := h2
    exact wp_mono (hf a x h' h1 h3) fun _ _ h => ⟨h1.comp h.1, h.2⟩

theorem Ref.bindP {g : Nat} {h : PHeap} {p : Prog Addr} {v : Out GC} {f : Addr → Prog Addr} {fv : GC → Out GC} (hp : Ref g h p v)
    (hf : ∀ a x h', Fr g Nothing h h' → ShowsGC g h' a x → RefP g h' (f a) (fv x)) : RefP g h (p.bind f) (v >>= fv) := by
  refine wp_seq hp fun r h' ⟨h1, h2⟩ => ?_
  cases v with
  | err m => cases (show r = _ from h2); exact ⟨h1, rfl⟩
  | panic => cases (show r = _ from h2); exact ⟨h1, rfl⟩
  | ok x =>
    obtain ⟨a, rfl, h3⟩ := h2
    exact wp_mono (hf a x h' h1 h3) fun _ _ h => ⟨h1.comp h.1, h.2⟩

section
variable {g : Nat} {h : PHeap}

theorem newGC_ref (v : GC) : RefP g h (newGC v) (.ok v) := by
  have : newGC v = (newGC v).bind fun a => ret (.ok a) := by
    unfold newGC
    cases v.T <;> rfl
  unfold RefP
  rw [this]
  exact wp_newGC fun a h' h1 _ _ h2 h3 => ⟨h1, a, rfl, h2, h3⟩

theorem newGC_bind (v : GC) {p : Out GC} (hp : p = .ok v) : RefP g h (newGC v) p := by subst hp; exact newGC_ref v

theorem reuse_ref {o : PObj} {n : Sys} {t : Option Addr} {v : GC} (hx : ShowsFE g h o.X v.X) (hy : ShowsFE g h o.Y v.Y)
    (hz : ShowsFE g h o.Z v.Z) (ht : ShowsOpt g h t v.T) (hn : v.sys = n) : RefP g h (reuse o n t) (.ok v) := by
  have : reuse o n t = (new (.obj ⟨n, o.X, o.Y, o.Z, t, none, none⟩)).bind fun a => ret (.ok a) := rfl
  unfold RefP
  rw [this]
  refine wp_new fun a h' h1 h2 h3 h4 => ?_
  exact ⟨h1, a, rfl, ⟨.inl h2, _, h4, hn.symm, hx.fr h1, hy.fr h1, hz.fr h1, ht.fr h1⟩, ⟨_, h4, rfl, rfl⟩⟩

theorem toCoordinateSystem_ref {a : Addr} {v : GC} (hs : ShowsGC g h a v) (n : Sys) :
    RefP g h (toCoordinateSystem a n) (v.toCoordinateSystem n) := by
  have hs' := hs
  obtain ⟨s0, o, s1, s2, s3, s4, s5, s6⟩ := hs
  unfold RefP toCoordinateSystem
  simp only [bind_eq]
  refine wp_loadObj s0 s1 ?_
  unfold GC.toCoordinateSystem
  rw [s2]
  have pan : wp g h (lift (.panic : Out Addr)) fun r h' => Fr g Nothing h h' ∧ ResP g h' r .panic := ⟨Fr.refl _ _ _, rfl⟩
  cases hsys : v.sys with
  | affine => exact pan
  | p2 =>
    cases n with
    | p2 => exact reuse_ref s3 s4 s5 trivial rfl
    | _ => exact pan
  | p3 =>
    cases n with
    | p2 => exact reuse_ref s3 s4 s5 trivial rfl
    | p3 => exact reuse_ref s3 s4 s5 s6 rfl
    | cached =>
      dsimp only
      refine wp_loadGC hs' ?_
      cases hT : v.T with
      | none => exact ⟨Fr.refl _ _ _, rfl⟩
      | some T =>
        refine wp_lift_ok rfl ?_
        refine wp_new fun x h1 x1 x2 x3 x4 => ?_
        refine wp_new fun y h2 y1 y2 y3 y4 => ?_
        refine wp_new fun t h3 t1 t2 t3 t4 => ?_
        show wp g h3 ((new _).bind fun a => ret (.ok a)) _
        refine wp_new fun b h4 b1 b2 b3 b4 => ?_
        have fr := ((x1.comp y1).comp t1).comp b1
        refine ⟨fr, b, rfl, ⟨.inl b2, _, b4, rfl, ?_, ?_, s5.fr fr, ?_⟩, ⟨_, b4, rfl, rfl⟩⟩
        · exact ⟨.inl x2, b1.grow (t1.grow (y1.grow x4))⟩
        · exact ⟨.inl y2, b1.grow (t1.grow y4)⟩
        · exact ⟨.inl t2, b1.grow t4⟩
    | _ => exact pan
  | p1xp1 =>
    cases n with
    | p2 =>
      dsimp only
      refine wp_loadGC hs' ?_
      cases hT : v.T with
      | none => exact ⟨Fr.refl _ _ _, rfl⟩
      | some T => exact wp_lift_ok rfl (newGC_ref _)
    | p3 =>
      dsimp only
      refine wp_loadGC hs' ?_
      cases hT : v.T with
      | none => exact ⟨Fr.refl _ _ _, rfl⟩
      | some T => exact wp_lift_ok rfl (newGC_ref _)
    | p1xp1 => exact reuse_ref s3 s4 s5 s6 rfl
    | _ => exact pan
  | precomputed =>
    cases n with
    | precomputed => exact reuse_ref s3 s4 s5 trivial rfl
    | _ => exact pan
  | cached =>
    cases n with
    | cached => exact reuse_ref s3 s4 s5 s6 rfl
    | _ => exact pan

theorem lift_newGC (v : Out GC) : RefP g h ((lift v).bind newGC) v := by
  cases v with
  | ok x => exact newGC_ref x
  | err m => exact ⟨Fr.refl _ _ _, rfl⟩
  | panic => exact ⟨Fr.refl _ _ _, rfl⟩

theorem dbl_ref {a : Addr} {v : GC} (hs : ShowsGC g h a v) : RefP g h (dbl a) v.dbl :=
  wp_loadGC hs (lift_newGC v.dbl)

theorem binary_ref {op : GC → GC → Out GC} {a b : Addr} {v w : GC} (ha : ShowsGC g h a v) (hb : ShowsGC g h b w) :
    RefP g h (binary op a b) (op v w) := wp_loadGC ha (wp_loadGC hb (lift_newGC _))

theorem addP3_ref {a b : Addr} {v w : GC} (ha : ShowsGC g h a v) (hb : ShowsGC g h b w) : RefP g h (addP3 a b) (v.addP3 w) := by
  refine Ref.bindP (toCoordinateSystem_ref hb .cached).ref fun c x h1 f1 k1 => ?_
  refine Ref.bindP (binary_ref (ha.fr f1) k1).ref fun s y h2 f2 k2 => ?_
  exact toCoordinateSystem_ref k2 .p3

theorem encode_ref {a : Addr} {v : GC} (hs : ShowsGC g h a v) :
    wp g h (encode a) fun r h' => Fr g Nothing h h' ∧ r = v.encode := by
  have hs' := hs
  obtain ⟨s0, o, s1, s2, -⟩ := hs
  unfold encode
  simp only [bind_eq]
  refine wp_loadObj s0 s1 ?_
  unfold GC.encode
  rw [s2]
  have aux : wp g h ((toP2 a).bind fun b => (loadGC b).bind fun g => ret (.ok g.encodeP))
      fun r h' => Fr g Nothing h h' ∧ r = (v.toP2 >>= fun x => Out.ok x.encodeP) := by
    refine wp_seq (toCoordinateSystem_ref hs' .p2).ref fun r h' ⟨h1, h2⟩ => ?_
    show after _ _ _ _ _
    unfold GC.toP2
    cases hv : v.toCoordinateSystem .p2 with
    | err m => rw [hv] at h2; cases (show r = _ from h2); exact ⟨h1, rfl⟩
    | panic => rw [hv] at h2; cases (show r = _ from h2); exact ⟨h1, rfl⟩
    | ok x =>
      rw [hv] at h2
      obtain ⟨b, rfl, h3⟩ := h2
      exact wp_loadGC h3 ⟨h1, rfl⟩
  cases hsys : v.sys with
  | p2 => exact wp_loadGC hs' ⟨Fr.refl _ _ _, rfl⟩
  | p3 => exact wp_loadGC hs' ⟨Fr.refl _ _ _, rfl⟩
  | _ => exact aux

theorem negate_ref {a : Addr} {v : GC} (hs : ShowsGC g h a v) : Ref g h (negate a) v.negate := by
  have hs' := hs
  obtain ⟨s0, o, s1, s2, -⟩ := hs
  unfold Ref negate
  simp only [bind_eq]
  refine wp_loadObj s0 s1 ?_
  unfold GC.negate
  rw [s2]
  by_cases hp : v.sys ≠ .p3
  · rw [if_pos hp, if_pos hp]; exact ⟨Fr.refl _ _ _, rfl⟩
  · rw [if_neg hp, if_neg hp]
    refine wp_newGC fun z h1 f1 _ _ z1 _ => ?_
    refine wp_mono (Q := fun r h' => Fr g Nothing h1 h' ∧ Res g h' r (v.toCached >>= fun c => GC.zeroP3.subtract c >>= fun s => s.toP3)) ?_
      fun _ _ k => ⟨f1.comp k.1, k.2⟩
    refine Ref.bind (toCoordinateSystem_ref (hs'.fr f1) .cached).ref fun c x h2 f2 k2 => ?_
    refine Ref.bind (binary_ref (z1.fr f2) k2).ref fun s y h3 f3 k3 => ?_
    exact (toCoordinateSystem_ref k3 .p3).ref

theorem decode_ref (raw : Bytes) : RefP g h (decode raw) (GC.decode raw) := lift_newGC _

end
end PG
end Ed

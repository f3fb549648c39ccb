import Verif.Proofs.Conc
import Verif.Spec.Steps
import Verif.Proofs.PMemory

/-!
# The number of actions of the calls
-/

set_option autoImplicit false

namespace Ed

namespace Prog

variable {α β : Type} {N : Nat}

/-- At most `n` actions, whatever small objects they find; results have `Q`. -/
def Takes (N : Nat) : Nat → Prog α → (α → Prop) → Prop
  | _, ret r, Q => ∀ a, r = .ok a → Q a
  | 0, access _ _ _, _ => False
  | 0, alloc _ _, _ => False
  | 0, ask _ _ _, _ => False
  | n + 1, access _ f k, Q => (∀ v, v.Small N → (f v).Small N) ∧ ∀ v, v.Small N → Takes N n (k v) Q
  | n + 1, alloc v k, Q => v.Small N ∧ ∀ a, Takes N n (k a) Q
  | n + 1, ask _ m k, Q => ∀ x : Ans, x.1.length ≤ m + 1 → Takes N n (k x) Q

theorem Takes.modest {n : Nat} {p : Prog α} {Q : α → Prop} (h : Takes N n p Q) : p.Modest N := by
  induction p generalizing n with
  | ret r => trivial
  | access a f k ih =>
    cases n with
    | zero => exact h.elim
    | succ n => exact ⟨h.1, fun v hv => ih v (h.2 v hv)⟩
  | alloc v k ih =>
    cases n with
    | zero => exact h.elim
    | succ n => exact ⟨h.1, fun a => ih a (h.2 a)⟩
  | ask s m k ih =>
    cases n with
    | zero => exact h.elim
    | succ n => exact fun x hx => ih x (h x hx)

theorem Takes.mono {n m : Nat} {p : Prog α} {Q R : α → Prop} (h : Takes N n p Q) (hm : n ≤ m) (hq : ∀ a, Q a → R a) : Takes N m p R := by
  induction p generalizing n m with
  | ret r =>
    have h' : ∀ a, r = .ok a → Q a := by cases n <;> exact h
    have : ∀ a, r = .ok a → R a := fun a e => hq a (h' a e)
    cases m <;> exact this
  | access a f k ih =>
    cases n with
    | zero => exact h.elim
    | succ n =>
      obtain ⟨m, rfl⟩ := Nat.exists_eq_succ_of_ne_zero (show m ≠ 0 by omega)
      exact ⟨h.1, fun v hv => ih v (h.2 v hv) (by omega)⟩
  | alloc v k ih =>
    cases n with
    | zero => exact h.elim
    | succ n =>
      obtain ⟨m, rfl⟩ := Nat.exists_eq_succ_of_ne_zero (show m ≠ 0 by omega)
      exact ⟨h.1, fun a => ih a (h.2 a) (by omega)⟩
  | ask s j k ih =>
    cases n with
    | zero => exact h.elim
    | succ n =>
      obtain ⟨m, rfl⟩ := Nat.exists_eq_succ_of_ne_zero (show m ≠ 0 by omega)
      exact fun x hx => ih x (h x hx) (by omega)

theorem Takes.le {n m : Nat} {p : Prog α} {Q : α → Prop} (h : Takes N n p Q) (hm : n ≤ m) : Takes N m p Q := h.mono hm fun _ x => x

theorem Takes.ret {n : Nat} {r : Out α} {Q : α → Prop} (h : ∀ a, r = .ok a → Q a) : Takes N n (ret r) Q := by
  cases n <;> exact h

theorem Takes.pure {n : Nat} {a : α} {Q : α → Prop} (h : Q a) : Takes N n (Pure.pure a : Prog α) Q := Takes.ret fun b e => by cases e; exact h

theorem Takes.lift {n : Nat} {r : Out α} : Takes N n (Prog.lift r) fun a => r = .ok a := Takes.ret fun _ e => e

/-- The rule for a sequence. -/
theorem Takes.seq {m n : Nat} {p : Prog α} {f : α → Prog β} {Q : α → Prop} {R : β → Prop} (h : Takes N m p Q) (hm : m ≤ n)
    (hf : ∀ a, Q a → Takes N (n - m) (f a) R) : Takes N n (p.bind f) R := by
  induction p generalizing n m with
  | ret r =>
    have h' : ∀ a, r = .ok a → Q a := by cases m <;> exact h
    cases r with
    | ok a => exact (hf a (h' a rfl)).le (Nat.sub_le _ _)
    | err e => exact Takes.ret fun a e => by cases e
    | panic => exact Takes.ret fun a e => by cases e
  | access a u k ih =>
    cases m with
    | zero => exact h.elim
    | succ m =>
      obtain ⟨n, rfl⟩ := Nat.exists_eq_succ_of_ne_zero (show n ≠ 0 by omega)
      exact ⟨h.1, fun v hv => ih v (h.2 v hv) (by omega) fun a ha => (hf a ha).le (by omega)⟩
  | alloc v k ih =>
    cases m with
    | zero => exact h.elim
    | succ m =>
      obtain ⟨n, rfl⟩ := Nat.exists_eq_succ_of_ne_zero (show n ≠ 0 by omega)
      exact ⟨h.1, fun a => ih a (h.2 a) (by omega) fun a ha => (hf a ha).le (by omega)⟩
  | ask s j k ih =>
    cases m with
    | zero => exact h.elim
    | succ m =>
      obtain ⟨n, rfl⟩ := Nat.exists_eq_succ_of_ne_zero (show n ≠ 0 by omega)
      exact fun x hx => ih x (h x hx) (by omega) fun a ha => (hf a ha).le (by omega)

theorem Takes.mapOut {n : Nat} {p : Prog α} {u : Out α → Out β} {Q : α → Prop} (h : Takes N n p Q) : Takes N n (p.mapOut u) fun _ => True := by
  induction p generalizing n with
  | ret r => exact Takes.ret fun _ _ => trivial
  | access a f k ih =>
    cases n with
    | zero => exact h.elim
    | succ n => exact ⟨h.1, fun v hv => ih v (h.2 v hv)⟩
  | alloc v k ih =>
    cases n with
    | zero => exact h.elim
    | succ n => exact ⟨h.1, fun a => ih a (h.2 a)⟩
  | ask s m k ih =>
    cases n with
    | zero => exact h.elim
    | succ n => exact fun x hx => ih x (h x hx)

theorem Takes.catch_ {n : Nat} {p : Prog α} {Q : α → Prop} (h : Takes N n p Q) : Takes N n p.catch_ fun _ => True := by
  induction p generalizing n with
  | ret r => exact Takes.ret fun _ _ => trivial
  | access a f k ih =>
    cases n with
    | zero => exact h.elim
    | succ n => exact ⟨h.1, fun v hv => ih v (h.2 v hv)⟩
  | alloc v k ih =>
    cases n with
    | zero => exact h.elim
    | succ n => exact ⟨h.1, fun a => ih a (h.2 a)⟩
  | ask s m k ih =>
    cases n with
    | zero => exact h.elim
    | succ n => exact fun x hx => ih x (h x hx)

end Prog

namespace PG
open Prog

variable {N : Nat}

/-- No condition on the result. -/
abbrev Any {α : Type} : α → Prop := fun _ => True

theorem takes_load (a : Addr) : Takes N 1 (load a) (Val.Small N) :=
  ⟨fun _ h => h, fun _ hv => Takes.ret fun _ e => by cases e; exact hv⟩

theorem takes_new {v : Val} (h : v.Small N) : Takes N 1 (new v) Any := ⟨h, fun _ => Takes.ret fun _ _ => trivial⟩

theorem takes_newObj (o : PObj) : Takes N 1 (new (.obj o)) Any := takes_new trivial

theorem takes_update {a : Addr} {f : Val → Val} (h : ∀ v, v.Small N → (f v).Small N) : Takes N 1 (update a f) Any :=
  ⟨h, fun _ _ => Takes.ret fun _ _ => trivial⟩

theorem takes_ask {α : Type} {s m n : Nat} {k : Ans → Prog α} {Q : α → Prop} (h : ∀ x : Ans, x.1.length ≤ m + 1 → Takes N n (k x) Q) :
    Takes N (n + 1) (.ask s m k) Q := h

attribute [irreducible] Prog.Takes

theorem takes_loadFE (a : Addr) : Takes N 1 (loadFE a) Any := by
  unfold loadFE
  refine Takes.seq (takes_load a) (Nat.le_refl _) fun v _ => ?_
  cases v <;> exact Takes.ret fun _ _ => trivial

theorem takes_loadObj (a : Addr) : Takes N 1 (loadObj a) Any := by
  unfold loadObj
  refine Takes.seq (takes_load a) (Nat.le_refl _) fun v _ => ?_
  cases v <;> exact Takes.ret fun _ _ => trivial

theorem takes_loadArr (s : Option Addr) : Takes N 1 (loadArr s) fun l => l.length ≤ 32 := by
  cases s with
  | none => exact Takes.ret fun _ e => by cases e; exact Nat.zero_le _
  | some a =>
    unfold loadArr
    refine Takes.seq (takes_load a) (Nat.le_refl _) fun v hv => ?_
    cases v with
    | arr l => exact Takes.ret fun _ e => by cases e; exact hv
    | _ => exact Takes.ret fun _ e => by cases e

theorem takes_loadByte (a : Addr) (i : Nat) : Takes N 1 (loadByte a i) Any := by
  unfold loadByte
  refine Takes.seq (takes_load a) (Nat.le_refl _) fun v _ => ?_
  cases v <;> exact Takes.ret fun _ _ => trivial

theorem takes_loadRest (a : Addr) (k : Nat) : ∀ got, Takes N k (loadRest a k got) fun b => b.length = got.length + k := by
  induction k with
  | zero => exact fun got => Takes.ret fun _ e => by cases e; rfl
  | succ k ih =>
    intro got
    rw [loadRest]
    refine Takes.seq (takes_loadByte a _) (by omega) fun x _ => (ih _).mono (by omega) fun b hb => ?_
    simp only [List.length_append, List.length_cons, List.length_nil] at hb
    omega

theorem takes_loadBytes (a : Addr) : Takes N (N + 1) (loadBytes a) fun b => b.length ≤ N := by
  unfold loadBytes
  refine Takes.seq (takes_load a) (by omega) fun v hv => ?_
  cases v with
  | bytes b =>
    have hb : b.length ≤ N := hv
    exact (takes_loadRest a b.length []).mono (by omega) fun c hc => by simp only [List.length_nil] at hc; omega
  | _ => exact Takes.ret fun _ e => by cases e

theorem takes_loadEntry (s : Option Addr) (i : Nat) : Takes N 1 (loadEntry s i) Any := by
  unfold loadEntry
  exact Takes.seq (takes_loadArr s) (Nat.le_refl _) fun l _ => Takes.ret fun _ _ => trivial

theorem takes_storeEntry (s : Option Addr) (i : Nat) (e : Addr) : Takes N 2 (storeEntry s i e) Any := by
  unfold storeEntry
  refine Takes.seq (takes_loadArr s) (by omega) fun l _ => Takes.seq (m := 0) Takes.lift (by omega) fun _ _ =>
    Takes.seq (m := 0) Takes.lift (by omega) fun a _ => takes_update fun v hv => ?_
  cases v with
  | arr l => show (l.set i (some e)).length ≤ 32; rw [List.length_set]; exact hv
  | _ => exact hv

theorem takes_loadOpt (s : Option Addr) : Takes N 1 (loadOpt s) Any := by
  cases s with
  | none => exact Takes.ret fun _ _ => trivial
  | some a =>
    unfold loadOpt
    exact Takes.seq (takes_loadFE a) (Nat.le_refl _) fun _ _ => Takes.ret fun _ _ => trivial

theorem takes_loadGC (a : Addr) : Takes N 5 (loadGC a) Any := by
  unfold loadGC
  exact Takes.seq (takes_loadObj a) (by omega) fun o _ => Takes.seq (takes_loadFE _) (by omega) fun _ _ =>
    Takes.seq (takes_loadFE _) (by omega) fun _ _ => Takes.seq (takes_loadFE _) (by omega) fun _ _ =>
    Takes.seq (takes_loadOpt _) (by omega) fun _ _ => Takes.pure trivial

theorem takes_newOpt (s : Option FE) : Takes N 1 (newOpt s) Any := by
  cases s with
  | none => exact Takes.ret fun _ _ => trivial
  | some a =>
    unfold newOpt
    exact Takes.seq (takes_new trivial) (Nat.le_refl _) fun _ _ => Takes.ret fun _ _ => trivial

theorem takes_newGC (v : GC) : Takes N 5 (newGC v) Any := by
  unfold newGC
  exact Takes.seq (takes_new trivial) (by omega) fun o _ => Takes.seq (takes_new trivial) (by omega) fun _ _ =>
    Takes.seq (takes_new trivial) (by omega) fun _ _ => Takes.seq (takes_newOpt _) (by omega) fun _ _ => (takes_newObj _).le (by omega)

theorem takes_reuse (o : PObj) (n : Sys) (t : Option Addr) : Takes N 1 (reuse o n t) Any := takes_new trivial

theorem takes_panic {α : Type} {n : Nat} {Q : α → Prop} : Takes N n (Prog.lift .panic : Prog α) Q := Takes.ret fun _ e => by cases e

theorem takes_toCoordinateSystem (a : Addr) (n : Sys) : Takes N 11 (toCoordinateSystem a n) Any := by
  unfold toCoordinateSystem
  refine Takes.seq (takes_loadObj a) (by omega) fun o _ => ?_
  generalize FE.add = fadd, FE.subtract = fsub, FE.multiply = fmul
  cases o.sys <;> cases n <;> first
    | exact takes_panic
    | exact (takes_reuse _ _ _).le (by omega)
    | exact Takes.seq (takes_loadGC a) (by omega) fun g _ => Takes.seq (m := 0) Takes.lift (by omega) fun _ _ =>
        Takes.seq (takes_new trivial) (by omega) fun _ _ => Takes.seq (takes_new trivial) (by omega) fun _ _ =>
        Takes.seq (takes_new trivial) (by omega) fun _ _ => (takes_newObj _).le (by omega)
    | exact Takes.seq (takes_loadGC a) (by omega) fun g _ => Takes.seq (m := 0) Takes.lift (by omega) fun _ _ => (takes_newGC _).le (by omega)

theorem takes_dbl (a : Addr) : Takes N 10 (dbl a) Any := by
  unfold dbl
  exact Takes.seq (takes_loadGC a) (by omega) fun g _ => Takes.seq (m := 0) Takes.lift (by omega) fun _ _ => (takes_newGC _).le (by omega)

theorem takes_binary (op : GC → GC → Out GC) (a b : Addr) : Takes N 15 (binary op a b) Any := by
  unfold binary
  exact Takes.seq (takes_loadGC a) (by omega) fun g _ => Takes.seq (takes_loadGC b) (by omega) fun _ _ =>
    Takes.seq (m := 0) Takes.lift (by omega) fun _ _ => (takes_newGC _).le (by omega)

theorem takes_negate (a : Addr) : Takes N 43 (negate a) Any := by
  unfold negate
  refine Takes.seq (takes_loadObj a) (by omega) fun o _ => ?_
  split
  · exact Takes.ret fun _ _ => trivial
  · exact Takes.seq (takes_newGC _) (by omega) fun _ _ => Takes.seq (takes_toCoordinateSystem _ _) (by omega) fun _ _ =>
      Takes.seq (takes_binary _ _ _) (by omega) fun _ _ => (takes_toCoordinateSystem _ _).le (by omega)

theorem takes_encode (a : Addr) : Takes N 17 (encode a) Any := by
  unfold encode
  refine Takes.seq (takes_loadObj a) (by omega) fun o _ => ?_
  cases o.sys <;> first
    | exact Takes.seq (takes_loadGC a) (by omega) fun g _ => Takes.ret fun _ _ => trivial
    | exact Takes.seq (takes_toCoordinateSystem _ _) (by omega) fun b _ => Takes.seq (takes_loadGC b) (by omega) fun g _ =>
        Takes.ret fun _ _ => trivial

theorem takes_copyRows : ∀ l : List (Option Addr), Takes N (2 * l.length) (copyRows l) fun r => r.length = l.length
  | [] => Takes.pure rfl
  | r :: rs => by
    unfold copyRows
    refine Takes.seq (takes_loadArr r) (by simp; omega) fun l hl => Takes.seq (m := 0) Takes.lift (by omega) fun l' hl' => ?_
    have h8 : l'.length ≤ 32 := by
      unfold copyRow at hl'
      split at hl'
      · cases hl'
      · cases hl'
        simp only [List.length_append, List.length_replicate]
        omega
    exact Takes.seq (takes_new h8) (by simp; omega) fun _ _ => Takes.seq (takes_copyRows rs) (by simp; omega) fun as has =>
      Takes.pure (by simp [has])

theorem takes_copy (a : Addr) : Takes N 70 (copy a) Any := by
  unfold copy
  exact Takes.seq (takes_loadObj a) (by omega) fun o _ => Takes.seq (takes_loadArr _) (by omega) fun l hl =>
    Takes.seq ((takes_copyRows l).le (m := 64) (by omega)) (by omega) fun r hr => Takes.seq (takes_new (by rw [← hr] at hl; exact hl)) (by omega) fun _ _ =>
    Takes.seq (takes_loadArr _) (by omega) fun d hd => Takes.seq (takes_new hd) (by omega) fun _ _ => (takes_newObj _).le (by omega)

theorem takes_addP3 (a b : Addr) : Takes N 37 (addP3 a b) Any := by
  unfold addP3
  exact Takes.seq (takes_toCoordinateSystem _ _) (by omega) fun _ _ => Takes.seq (takes_binary _ _ _) (by omega) fun _ _ =>
    (takes_toCoordinateSystem _ _).le (by omega)

theorem takes_precRow (ref : Addr) (i : Nat) (bi : Addr) : ∀ n j bij, Takes N (51 * n) (precRow ref i bi n j bij) Any
  | 0, _, _ => Takes.pure trivial
  | n + 1, j, bij => by
    unfold precRow
    exact Takes.seq (takes_loadGC _) (by omega) fun _ _ => Takes.seq (takes_newGC _) (by omega) fun _ _ =>
      Takes.seq (takes_loadObj _) (by omega) fun _ _ => Takes.seq (takes_loadEntry _ _) (by omega) fun _ _ =>
      Takes.seq (takes_storeEntry _ _ _) (by omega) fun _ _ => Takes.seq (takes_addP3 _ _) (by omega) fun _ _ =>
      (takes_precRow ref i bi n _ _).le (by omega)

theorem takes_doubleN : ∀ n b, Takes N (37 * n) (doubleN n b) Any
  | 0, _ => Takes.pure trivial
  | n + 1, b => by
    unfold doubleN
    exact Takes.seq (takes_addP3 _ _) (by omega) fun _ _ => (takes_doubleN n _).le (by omega)

theorem takes_precRows (ref : Addr) : ∀ n i bi, Takes N (778 * n) (precRows ref n i bi) Any
  | 0, _, _ => Takes.pure trivial
  | n + 1, i, bi => by
    unfold precRows
    exact Takes.seq (takes_new (show (List.replicate 8 none).length ≤ 32 by simp)) (by omega) fun _ _ =>
      Takes.seq (takes_loadObj _) (by omega) fun _ _ => Takes.seq (takes_storeEntry _ _ _) (by omega) fun _ _ =>
      Takes.seq (takes_copy _) (by omega) fun _ _ => Takes.seq (takes_precRow ref i bi 8 0 _) (by omega) fun _ _ =>
      Takes.seq (takes_doubleN 8 _) (by omega) fun _ _ => (takes_precRows ref n _ _).le (by omega)

theorem takes_setSingle (a s : Addr) : Takes N 1 (setSingle a s) Any :=
  takes_update fun v hv => by cases v <;> exact hv

theorem takes_setDouble (a s : Addr) : Takes N 1 (setDouble a s) Any :=
  takes_update fun v hv => by cases v <;> exact hv

theorem takes_precomputeSingle (ref : Addr) : Takes N 24969 (precomputeSingle ref) Any := by
  unfold precomputeSingle
  refine Takes.seq (takes_loadObj ref) (by omega) fun o _ => ?_
  split
  · exact Takes.pure trivial
  · exact Takes.seq (takes_copy _) (by omega) fun _ _ => Takes.seq (takes_new (show (List.replicate 32 none).length ≤ 32 by simp)) (by omega) fun _ _ =>
      Takes.seq (takes_setSingle _ _) (by omega) fun _ _ => (takes_precRows ref 32 0 _).le (by omega)

theorem takes_precOdd (ref : Addr) : ∀ n i bi, Takes N (87 * n) (precOdd ref n i bi) Any
  | 0, _, _ => Takes.pure trivial
  | n + 1, i, bi => by
    unfold precOdd
    exact Takes.seq (takes_loadGC _) (by omega) fun _ _ => Takes.seq (takes_newGC _) (by omega) fun _ _ =>
      Takes.seq (takes_loadObj _) (by omega) fun _ _ => Takes.seq (takes_storeEntry _ _ _) (by omega) fun _ _ =>
      Takes.seq (takes_addP3 _ _) (by omega) fun _ _ => Takes.seq (takes_addP3 _ _) (by omega) fun _ _ =>
      (takes_precOdd ref n _ _).le (by omega)

theorem takes_precomputeDouble (ref : Addr) : Takes N 770 (precomputeDouble ref) Any := by
  unfold precomputeDouble
  refine Takes.seq (takes_loadObj ref) (by omega) fun o _ => Takes.seq (takes_loadArr _) (by omega) fun l _ => ?_
  split
  · exact Takes.pure trivial
  · exact Takes.seq (takes_new (show (List.replicate 8 none).length ≤ 32 by simp)) (by omega) fun _ _ =>
      Takes.seq (takes_setDouble _ _) (by omega) fun _ _ => Takes.seq (takes_copy _) (by omega) fun _ _ =>
      (takes_precOdd ref 8 0 _).le (by omega)

theorem takes_select (ref : Addr) (pos : Nat) (b : Int64) : Takes N 12 (select ref pos b) Any := by
  unfold select
  exact Takes.seq (takes_newGC _) (by omega) fun _ _ => Takes.seq (takes_loadObj _) (by omega) fun _ _ =>
    Takes.seq (takes_loadEntry _ _) (by omega) fun _ _ => Takes.seq (takes_loadArr _) (by omega) fun _ _ =>
    Takes.seq (m := 0) Takes.lift (by omega) fun _ _ => Takes.seq (takes_loadObj _) (by omega) fun _ _ =>
    Takes.seq (takes_loadFE _) (by omega) fun _ _ => Takes.seq (takes_new trivial) (by omega) fun _ _ =>
    Takes.seq (takes_new trivial) (by omega) fun _ _ => Takes.seq (m := 0) Takes.lift (by omega) fun _ _ => Takes.ret fun _ _ => trivial

theorem takes_scalarStep (ref : Addr) (e : Digits) (h : Addr) (i : Nat) : Takes N 38 (scalarStep ref e h i) Any := by
  unfold scalarStep
  exact Takes.seq (takes_select _ _ _) (by omega) fun _ _ => Takes.seq (takes_binary _ _ _) (by omega) fun _ _ => (takes_toCoordinateSystem _ _).le (by omega)

theorem takes_times16 (h : Addr) : Takes N 84 (times16 h) Any := by
  unfold times16
  exact Takes.seq (takes_dbl _) (by omega) fun _ _ => Takes.seq (takes_toCoordinateSystem _ _) (by omega) fun _ _ =>
    Takes.seq (takes_dbl _) (by omega) fun _ _ => Takes.seq (takes_toCoordinateSystem _ _) (by omega) fun _ _ =>
    Takes.seq (takes_dbl _) (by omega) fun _ _ => Takes.seq (takes_toCoordinateSystem _ _) (by omega) fun _ _ =>
    Takes.seq (takes_dbl _) (by omega) fun _ _ => (takes_toCoordinateSystem _ _).le (by omega)

theorem takes_loop {β : Type} {f : β → Nat → Prog β} {c : Nat} (hf : ∀ b i, Takes N c (f b i) Any) :
    ∀ (l : List Nat) (b : β), Takes N (c * l.length) (loop f b l) Any
  | [], _ => Takes.pure trivial
  | i :: is, b => by
    unfold loop
    have e : c * (i :: is).length = c + c * is.length := by rw [List.length_cons, Nat.mul_succ, Nat.add_comm]
    rw [e]
    exact Takes.seq (hf b i) (Nat.le_add_right _ _) fun b _ => (takes_loop hf is b).le (by omega)

theorem takes_scalarMultiply (ref : Addr) (a : Bytes) : Takes N 2521 (scalarMultiply ref a) Any := by
  unfold scalarMultiply
  have hl : ∀ (e : Digits) (f : Nat → Nat) (h : Addr), Takes N 1216 (loop (scalarStep ref e) h ((List.range 32).map f)) Any := fun e f h =>
    (takes_loop (fun b i => takes_scalarStep ref e b i) _ _).le (by simp)
  exact Takes.seq (takes_newGC _) (by omega) fun _ _ => Takes.seq (hl _ _ _) (by omega) fun _ _ => Takes.seq (takes_times16 _) (by omega) fun _ _ =>
    hl _ _ _

theorem takes_tableOp (op : GC → GC → Out GC) (ref : Addr) (i : Nat) (t : Addr) : Takes N 28 (tableOp (binary op) ref i t) Any := by
  unfold tableOp
  exact Takes.seq (takes_toCoordinateSystem _ _) (by omega) fun _ _ => Takes.seq (takes_loadObj _) (by omega) fun _ _ =>
    Takes.seq (takes_loadEntry _ _) (by omega) fun _ _ => Takes.seq (m := 0) Takes.lift (by omega) fun _ _ => (takes_binary _ _ _).le (by omega)

theorem takes_subDigit (A : Addr) (a : Int8) (t : Addr) : Takes N 28 (subDigit A a t) Any := by
  unfold subDigit
  split
  · exact takes_tableOp GC.precomputedSubtract _ _ _
  · split
    · exact takes_tableOp GC.precomputedAdd _ _ _
    · exact Takes.pure trivial

theorem takes_addDigit (A : Addr) (a : Int8) (t : Addr) : Takes N 28 (addDigit A a t) Any := by
  unfold addDigit
  split
  · exact takes_tableOp GC.precomputedAdd _ _ _
  · split
    · exact takes_tableOp GC.precomputedSubtract _ _ _
    · exact Takes.pure trivial

theorem takes_doubleStep (ref A : Addr) (a b : Int8) (r : Addr) : Takes N 77 (doubleStep ref A a b r) Any := by
  unfold doubleStep
  exact Takes.seq (takes_dbl _) (by omega) fun _ _ => Takes.seq (takes_subDigit _ _ _) (by omega) fun _ _ =>
    Takes.seq (takes_addDigit _ _ _) (by omega) fun _ _ => (takes_toCoordinateSystem _ _).le (by omega)

theorem takes_doubleLoop (ref A : Addr) (aS bS : Digits) : ∀ n f r, Takes N (77 * n) (doubleLoop ref A aS bS n f r) Any
  | 0, _, _ => Takes.pure trivial
  | n + 1, f, r => by
    unfold doubleLoop
    dsimp only
    split
    · exact Takes.seq (takes_doubleStep _ _ _ _ _) (by omega) fun _ _ => (takes_doubleLoop ref A aS bS n _ _).le (by omega)
    · exact (takes_doubleLoop ref A aS bS n _ _).le (by omega)

theorem takes_doubleScalar (ref A : Addr) (a b : Bytes) : Takes N 19717 (doubleScalarMultiplyVariableTime ref A a b) Any := by
  unfold doubleScalarMultiplyVariableTime
  exact Takes.seq (takes_newGC _) (by omega) fun _ _ => (takes_doubleLoop ref A _ _ 256 false _).le (by omega)

theorem takes_decode (raw : Bytes) : Takes N 5 (decode raw) Any := by
  unfold decode
  exact Takes.seq (m := 0) Takes.lift (by omega) fun _ _ => (takes_newGC _).le (by omega)

/-! ## The API -/

theorem takes_readLoop (s : Nat) : ∀ fuel need got, Takes N fuel (readLoop s fuel need got) fun b => b.length = got.length + need
  | _, 0, got => by cases ‹Nat› <;> (unfold readLoop; exact Takes.pure rfl)
  | 0, _ + 1, _ => by unfold readLoop; exact takes_panic
  | fuel + 1, need + 1, got => by
    unfold readLoop
    refine takes_ask fun x hx => ?_
    split
    · rename_i h
      exact Takes.ret fun b e => by
        cases e
        simp only [List.length_append]
        omega
    · rename_i h
      split
      · exact Takes.ret fun b e => by cases e
      · exact (takes_readLoop s fuel _ _).mono (Nat.le_refl _) fun b hb => by
          simp only [List.length_append] at hb
          omega

theorem takes_readFull (s n : Nat) : Takes N n (readFull s n) fun b => b.length = n :=
  (takes_readLoop s n n []).mono (Nat.le_refl _) fun b hb => by simpa using hb

theorem takes_decodeAt (a : Addr) : Takes N (3 * N + 8) (decodeAt a) Any := by
  unfold decodeAt
  exact Takes.seq (takes_loadBytes a) (by omega) fun _ _ => Takes.seq (m := 0) Takes.lift (by omega) fun _ _ =>
    Takes.seq (takes_loadBytes a) (by omega) fun _ _ => Takes.seq (takes_loadBytes a) (by omega) fun _ _ =>
    Takes.seq (m := 0) Takes.lift (by omega) fun _ _ => (takes_newGC _).le (by omega)

variable (E : Env) (bp : Addr)

theorem takes_prepare (k : Option Addr) : Takes N (N + 1) (prepareForScalarMultiply E k) Any := by
  unfold prepareForScalarMultiply
  exact Takes.seq (m := 0) Takes.lift (by omega) fun _ _ => Takes.seq (takes_loadBytes _) (by omega) fun _ _ => Takes.pure trivial

theorem takes_derive (k : Option Addr) : Takes N (N + 2609) (derivePublicKey E bp k) Any := by
  unfold derivePublicKey
  exact Takes.seq (takes_prepare E k) (by omega) fun _ _ => Takes.seq (takes_copy bp) (by omega) fun _ _ =>
    Takes.seq (Takes.mapOut (takes_scalarMultiply _ _)) (by omega) fun _ _ => Takes.seq (Takes.mapOut (takes_encode _)) (by omega) fun _ _ =>
    Takes.pure trivial

theorem takes_sign (k : Option Addr) (pub mess : Addr) : Takes N (5 * N + 2613) (sign E bp k pub mess) Any := by
  unfold sign
  split
  · exact Takes.ret fun _ _ => trivial
  · refine Takes.seq (m := 0) Takes.lift (by omega) fun _ _ => Takes.seq (takes_loadBytes _) (by omega) fun _ _ =>
      Takes.seq (takes_loadBytes _) (by omega) fun _ _ => Takes.seq (m := 0) Takes.lift (by omega) fun _ _ =>
      Takes.seq (takes_copy bp) (by omega) fun _ _ => Takes.seq (takes_scalarMultiply _ _) (by omega) fun _ _ =>
      Takes.seq (takes_encode _) (by omega) fun _ _ => Takes.seq (takes_loadBytes _) (by omega) fun _ _ =>
      Takes.seq (takes_loadBytes _) (by omega) fun _ _ => Takes.seq (m := 0) Takes.lift (by omega) fun _ _ =>
      Takes.seq (takes_prepare E k) (by omega) fun _ _ => Takes.seq (m := 0) Takes.lift (by omega) fun s _ => ?_
    split
    · exact Takes.ret fun _ _ => trivial
    · exact Takes.pure trivial

theorem takes_verifyEquation (pub mess sigR sigS : Addr) : Takes N (8 * N + 20587) (verifyEquation E bp pub mess sigR sigS) Any := by
  unfold verifyEquation
  exact Takes.seq (takes_loadBytes _) (by omega) fun _ _ => Takes.seq (takes_loadBytes _) (by omega) fun _ _ =>
    Takes.seq (takes_loadBytes _) (by omega) fun _ _ => Takes.seq (m := 0) Takes.lift (by omega) fun _ _ =>
    Takes.seq (takes_decodeAt _) (by omega) fun _ _ => Takes.seq (takes_precomputeDouble _) (by omega) fun _ _ =>
    Takes.seq (takes_copy bp) (by omega) fun _ _ => Takes.seq (m := 0) Takes.lift (by omega) fun _ _ =>
    Takes.seq (takes_loadBytes _) (by omega) fun _ _ => Takes.seq (m := 0) Takes.lift (by omega) fun _ _ =>
    Takes.seq (takes_doubleScalar _ _ _ _) (by omega) fun _ _ => Takes.seq (takes_encode _) (by omega) fun _ _ =>
    Takes.seq (takes_loadBytes _) (by omega) fun _ _ => Takes.pure trivial

theorem takes_verify (pub mess sigR sigS : Addr) : Takes N (10 * N + 20589) (verify E bp pub mess sigR sigS) Any := by
  unfold verify
  refine Takes.seq (takes_loadBytes _) (by omega) fun _ _ => ?_
  split
  · exact Takes.pure trivial
  · refine Takes.seq (takes_loadBytes _) (by omega) fun _ _ => ?_
    split
    · exact Takes.pure trivial
    · exact (Takes.mapOut (takes_verifyEquation E bp _ _ _ _)).le (by omega)

theorem takes_getSharedKey (len : Nat) (k : Option Addr) (pub : Addr) (salt : Prog Bytes) {c : Nat} {Q : Bytes → Prop} (hs : Takes N c salt Q) :
    Takes N (5 * N + 27517 + c) (getSharedKey E len k pub salt) Any := by
  unfold getSharedKey
  exact Takes.seq (takes_loadBytes _) (by omega) fun _ _ => Takes.seq (m := 0) Takes.lift (by omega) fun _ _ =>
    Takes.seq (takes_decodeAt _) (by omega) fun _ _ => Takes.seq (takes_precomputeSingle _) (by omega) fun _ _ =>
    Takes.seq (takes_prepare E k) (by omega) fun _ _ => Takes.seq (takes_scalarMultiply _ _) (by omega) fun _ _ =>
    Takes.seq (takes_encode _) (by omega) fun _ _ => Takes.seq hs (by omega) fun _ _ => Takes.seq (m := 0) Takes.lift (by omega) fun _ _ =>
    Takes.pure trivial

theorem takes_encrypt (seed len : Nat) (k : Option Addr) (pub input : Addr) :
    Takes N (6 * N + 27534 + len) (encrypt E seed len k pub input) Any := by
  unfold encrypt
  exact Takes.seq (takes_readFull seed len) (by omega) fun _ _ =>
    Takes.seq (takes_getSharedKey E len k pub _ (Takes.pure (n := 0) (Q := Any) trivial)) (by omega) fun _ _ =>
    Takes.seq (takes_readFull seed 16) (by omega) fun _ _ => Takes.seq (takes_loadBytes _) (by omega) fun _ _ =>
    Takes.seq (m := 0) Takes.lift (by omega) fun _ _ => Takes.pure trivial

theorem takes_decrypt (len : Nat) (k : Option Addr) (pub input : Addr) : Takes N (9 * N + 27521) (decrypt E len k pub input) Any := by
  unfold decrypt
  refine Takes.seq (takes_loadBytes _) (by omega) fun _ _ => ?_
  split
  · exact Takes.ret fun _ _ => trivial
  · split
    · exact takes_panic
    · exact Takes.seq (takes_getSharedKey E len k pub _ (Takes.seq (takes_loadBytes input) (Nat.le_refl _) fun _ _ => Takes.pure (Q := Any) trivial)) (by omega)
        fun _ _ => Takes.seq (takes_loadBytes _) (by omega) fun _ _ => Takes.seq (takes_loadBytes _) (by omega) fun _ _ =>
        Takes.ret fun _ _ => trivial

theorem takes_generate (seed : Nat) (hN : 32 ≤ N) : Takes N (N + 2642) (generateKeyPair E bp seed) Any := by
  unfold generateKeyPair
  exact Takes.seq (takes_readFull seed 32) (by omega) fun raw hr => Takes.seq (takes_new (show raw.length ≤ N by omega)) (by omega) fun _ _ =>
    Takes.seq (takes_derive E bp _) (by omega) fun _ _ => Takes.ret fun _ _ => trivial

theorem takes_canonical (sigR sigS : Addr) : Takes N (2 * N + 2) (makeSignatureCanonical sigR sigS) Any := by
  unfold makeSignatureCanonical
  exact Takes.seq (takes_loadBytes _) (by omega) fun _ _ => Takes.seq (m := 0) Takes.lift (by omega) fun _ _ =>
    Takes.seq (takes_loadBytes _) (by omega) fun _ _ => Takes.ret fun _ _ => trivial

end PG

open Prog PG

variable {N : Nat}

theorem Call.takes (E : Env) (bp : Addr) (hN : 32 ≤ N) (c : Call) : Takes N (c.limit N) (c.prog E bp) Any := by
  cases c with
  | derive k => exact Takes.seq (takes_derive E bp k) (Nat.le_refl _) fun _ _ => Takes.pure trivial
  | sign kp m => exact Takes.seq (takes_sign E bp _ _ _) (Nat.le_refl _) fun _ _ => Takes.pure trivial
  | verify kp m r s => exact Takes.seq (takes_verify E bp _ _ _ _) (Nat.le_refl _) fun _ _ => Takes.pure trivial
  | canonical r s => exact Takes.seq (takes_canonical _ _) (Nat.le_refl _) fun _ _ => Takes.pure trivial
  | sharedKey n k p salt =>
    exact Takes.seq (takes_getSharedKey E n k p _ (takes_loadBytes salt)) (by simp only [Call.limit]; omega) fun _ _ => Takes.pure trivial
  | encrypt snd rcp n seed i => exact Takes.seq (takes_encrypt E _ _ _ _ _) (Nat.le_refl _) fun _ _ => Takes.pure trivial
  | decrypt snd rcp n _ i => exact Takes.seq (takes_decrypt E _ _ _ _) (Nat.le_refl _) fun _ _ => Takes.pure trivial
  | generate seed => exact Takes.seq (takes_generate E bp _ hN) (Nat.le_refl _) fun _ _ => Takes.pure trivial

theorem Call.takes_progs (E : Env) (bp : Addr) (hN : 32 ≤ N) :
    ∀ cs : List Call, Takes N (cs.map (Call.limit N)).sum (Call.progs E bp cs) Any
  | [] => Takes.pure trivial
  | c :: cs => by
    unfold Call.progs
    rw [List.map_cons, List.sum_cons]
    exact Takes.seq (Takes.catch_ (c.takes E bp hN)) (by omega) fun _ _ =>
      Takes.seq (Call.takes_progs E bp hN cs) (by omega) fun _ _ => Takes.pure trivial

theorem takes_result {p : Prog Addr} {n : Nat} (h : Takes N n p Any) :
    Takes N (n + 5) (p.bind fun r => (loadGC r).bind fun v => .ret (.ok (GRes.point v))) Any :=
  Takes.seq h (by omega) fun _ _ => Takes.seq (takes_loadGC _) (by omega) fun _ _ => Takes.ret fun _ _ => trivial

theorem GCall.takes (c : GCall) : Takes N c.limit c.prog Any := by
  cases c with
  | encode a => exact Takes.seq (takes_encode a) (Nat.le_refl _) fun _ _ => Takes.pure trivial
  | convert a n => exact takes_result (takes_toCoordinateSystem a n)
  | dbl a => exact takes_result (takes_dbl a)
  | negate a => exact takes_result (takes_negate a)
  | add a b => exact takes_result (takes_binary _ a b)
  | subtract a b => exact takes_result (takes_binary _ a b)
  | precomputedAdd a b => exact takes_result (takes_binary _ a b)
  | precomputedSubtract a b => exact takes_result (takes_binary _ a b)
  | select a p b => exact takes_result (takes_select a p b)
  | scalarMultiply a s => exact takes_result (takes_scalarMultiply a s)
  | doubleScalar a A s t => exact takes_result (takes_doubleScalar a A s t)
  | precomputeSingle a => exact Takes.seq (takes_precomputeSingle a) (Nat.le_refl _) fun _ _ => Takes.pure trivial
  | precomputeDouble a => exact Takes.seq (takes_precomputeDouble a) (Nat.le_refl _) fun _ _ => Takes.pure trivial
  | decode raw => exact takes_result (takes_decode raw)

theorem GCall.takes_progs : ∀ cs : List GCall, Takes N (cs.map GCall.limit).sum (GCall.progs cs) Any
  | [] => Takes.pure trivial
  | c :: cs => by
    unfold GCall.progs
    rw [List.map_cons, List.sum_cons]
    exact Takes.seq (Takes.catch_ c.takes) (by omega) fun _ _ =>
      Takes.seq (GCall.takes_progs cs) (by omega) fun _ _ => Takes.pure trivial

/-! ## Schedules -/

theorem readOnce_length : ∀ (r : Reader) (n : Nat), (readOnce r n).1.1.length ≤ n
  | [], n => Nat.zero_le _
  | e :: r, n => by
    unfold readOnce
    split
    · simp
    · split
      · exact readOnce_length r n
      · dsimp only; omega

theorem PHeap.Small.set {h : PHeap} (hs : h.Small N) {a : Addr} {v : Val} (hv : v.Small N) : (h.set a v).Small N := by
  intro b u hb
  unfold PHeap.get PHeap.set at hb
  split at hb
  · rename_i e
    rw [List.getElem?_set] at hb
    split at hb
    · split at hb
      · cases hb; exact hv
      · cases hb
    · exact hs b u hb
  · exact hs b u hb

theorem PHeap.Small.push {h : PHeap} (hs : h.Small N) {g : Nat} {v : Val} (hv : v.Small N) : (h.push g v).Small N := by
  intro b u hb
  unfold PHeap.get PHeap.push at hb
  split at hb
  · rw [List.getElem?_append] at hb
    split at hb
    · exact hs b u hb
    · have := List.mem_of_getElem? hb
      simp only [List.mem_singleton] at this
      rw [this]; exact hv
  · exact hs b u hb

namespace Prog

variable {α : Type}

theorem Modest.step {p : Prog α} {s : St} (g : Nat) (hp : p.Modest N) (hs : s.heap.Small N) :
    (p.step g s).1.heap.Small N ∧ (p.step g s).2.Modest N := by
  cases p with
  | ret r => exact ⟨hs, trivial⟩
  | access a f k =>
    cases hv : s.heap.get a with
    | none => simp only [Prog.step, hv]; exact ⟨hs, trivial⟩
    | some v =>
      simp only [Prog.step, hv]
      have := hs a v hv
      exact ⟨hs.set (hp.1 v this), hp.2 v this⟩
  | alloc v k => exact ⟨hs.push hp.1, hp.2 _⟩
  | ask r n k => exact ⟨hs, hp _ (readOnce_length _ _)⟩

unseal Prog.Takes in
theorem Takes.step {p : Prog α} {s : St} {n : Nat} {Q : α → Prop} (g : Nat) (hp : Takes N (n + 1) p Q) (hs : s.heap.Small N) :
    Takes N n (p.step g s).2 Q := by
  cases p with
  | ret r =>
    have h' : ∀ a, r = .ok a → Q a := hp
    exact Takes.ret h'
  | access a f k =>
    cases hv : s.heap.get a with
    | none => simp only [Prog.step, hv]; exact Takes.ret fun _ e => by cases e
    | some v => simp only [Prog.step, hv]; exact hp.2 v (hs a v hv)
  | alloc v k => exact hp.2 _
  | ask r n k => exact hp _ (readOnce_length _ _)

unseal Prog.Takes in
theorem Takes.done {p : Prog α} {Q : α → Prop} (hp : Takes N 0 p Q) : ∃ r, p = .ret r := by
  cases p with
  | ret r => exact ⟨r, rfl⟩
  | _ => exact hp.elim

theorem Modest.alone {g : Nat} {p : Prog α} : ∀ {h : PHeap} {w : World}, p.Modest N → h.Small N → (p.alone g h w).2.1.Small N := by
  induction p with
  | ret r => exact fun _ hs => hs
  | access a f k ih =>
    intro h w hp hs
    unfold Prog.alone
    cases hv : h.get a with
    | none => exact hs
    | some v =>
      have := hs a v hv
      exact ih v (hp.2 v this) (hs.set (hp.1 v this))
  | alloc v k ih => exact fun hp hs => ih _ (hp.2 _) (hs.push hp.1)
  | ask s n k ih => exact fun hp hs => ih _ (hp _ (readOnce_length _ _)) hs

end Prog

namespace Pool

variable {α : Type}

theorem wait_free {Q : α → Prop} (i : Nat) : ∀ (sched : List Nat) (p : Pool α) (n : Nat), p.st.heap.Small N →
    (∀ j, (p.thread j).Modest N) → Takes N n (p.thread i) Q → n ≤ sched.count i → ∃ r, (p.run sched).thread i = .ret r
  | [], p, n, _, _, ht, hn => by
    have : n = 0 := by simpa using hn
    subst this
    exact ht.done
  | j :: sched, p, n, hs, hm, ht, hn => by
    have key := (hm j).step (j + 1) hs
    have hm' : ∀ k, ((p.step j).thread k).Modest N := by
      intro k
      show (if k = j then _ else _ : Prog α).Modest N
      split
      · exact key.2
      · exact hm k
    show ∃ r, ((p.step j).run sched).thread i = .ret r
    by_cases e : j = i
    · subst e
      rw [List.count_cons_self] at hn
      refine wait_free (Q := Q) j sched (p.step j) (n - 1) key.1 hm' ?_ (by omega)
      show Takes N (n - 1) (if j = j then _ else _ : Prog α) Q
      rw [if_pos rfl]
      exact Takes.step (j + 1) (ht.le (by omega)) hs
    · rw [List.count_cons_of_ne e] at hn
      refine wait_free (Q := Q) i sched (p.step j) n key.1 hm' ?_ hn
      show Takes N n (if i = j then _ else _ : Prog α) Q
      rw [if_neg (Ne.symm e)]
      exact ht

end Pool

/-! ## A small memory with the base point -/

namespace PG

theorem takes_newEntries : ∀ vs : List GC, Takes N (5 * vs.length) (newEntries vs) fun l => l.length = vs.length
  | [] => Takes.ret fun _ e => by cases e; rfl
  | v :: vs => by
    unfold newEntries
    exact Takes.seq (takes_newGC v) (by simp) fun _ _ => Takes.seq (takes_newEntries vs) (by simp; omega) fun as ha =>
      Takes.ret fun _ e => by cases e; simp [ha]

theorem takes_newRows : ∀ vs : List (List GC), (∀ r ∈ vs, r.length ≤ 32) → Takes N (161 * vs.length) (newRows vs) fun l => l.length = vs.length
  | [], _ => Takes.ret fun _ e => by cases e; rfl
  | v :: vs, h => by
    unfold newRows
    have hv : v.length ≤ 32 := h v List.mem_cons_self
    exact Takes.seq (takes_newEntries v) (by simp; omega) fun l hl => Takes.seq (takes_new (show l.length ≤ 32 by omega)) (by simp; omega) fun _ _ =>
      Takes.seq (takes_newRows vs fun r hr => h r (List.mem_cons_of_mem _ hr)) (by simp; omega) fun as ha =>
      Takes.ret fun _ e => by cases e; simp [ha]

theorem takes_newTable {l : List (Option Addr)} (hl : l.length ≤ 32) (b : Bool) : Takes N 1 (newTable l b) Any := by
  cases b with
  | false => exact Takes.ret fun _ _ => trivial
  | true => exact Takes.seq (takes_new hl) (Nat.le_refl _) fun _ _ => Takes.ret fun _ _ => trivial

theorem takes_newGE (v : GE) (h1 : ∀ r ∈ v.single.getD [], r.length ≤ 32) (h2 : (v.single.getD []).length ≤ 32)
    (h3 : (v.double.getD []).length ≤ 32) : Takes N 6000 (newGE v) Any := by
  unfold newGE
  exact Takes.seq (takes_newRows _ h1) (by omega) fun ls hl => Takes.seq (takes_newTable (by rw [hl]; exact h2) _) (by omega) fun _ _ =>
    Takes.seq (takes_newEntries _) (by omega) fun ld hd => Takes.seq (takes_newTable (by rw [hd]; exact h3) _) (by omega) fun _ _ =>
    Takes.seq (takes_new trivial) (by omega) fun _ _ => Takes.seq (takes_new trivial) (by omega) fun _ _ =>
    Takes.seq (takes_new trivial) (by omega) fun _ _ => Takes.seq (takes_newOpt _) (by omega) fun _ _ =>
    Takes.seq (takes_newObj _) (by omega) fun _ _ => Takes.ret fun _ _ => trivial

/-- A memory with the base point in which all objects are small. -/
theorem exists_small_base (N : Nat) : ∃ h bp, IsBase 0 h bp ∧ h.Small N := by
  obtain ⟨v, h1, -⟩ := getBasePoint_spec
  obtain ⟨k1, a, k2, k3, k4⟩ := (alone_of_wpW (wpW_of_wp (w := fun _ => []) (newGE_wp (g := 0) (h := fun _ => []) v))).1
  have hs : v.single = some basePrecSingle ∧ v.double = some basePrecDouble := by
    unfold getBasePoint at h1
    cases hd : GC.decode basePointBytes with
    | ok g => rw [hd] at h1; cases h1; exact ⟨rfl, rfl⟩
    | err e => rw [hd] at h1; cases h1
    | panic => rw [hd] at h1; cases h1
  refine ⟨_, a, ⟨v, h1, k4⟩, Modest.alone (Takes.modest (takes_newGE v ?_ ?_ ?_)) ?_⟩
  · rw [hs.1]; decide
  · rw [hs.1]; decide
  · rw [hs.2]; decide
  · intro b u hb
    unfold PHeap.get at hb
    simp at hb

end PG
end Ed

import Verif.Model.PApi
import Mathlib.Data.List.Forall2

/-!
# What a group element in memory is

`Shows g h a v`: in memory `h` the object at address `a` has the content `v`, and all its parts are in the initial memory (region 0) or in
region `g`.
-/

set_option autoImplicit false

namespace Ed
namespace PG

/-- The address is in the own region or in the initial memory. -/
def Own (g : Nat) (a : Addr) : Prop := a.region = g ∨ a.region = 0

/-- The field element at an address. -/
def ShowsFE (g : Nat) (h : PHeap) (a : Addr) (v : FE) : Prop := Own g a ∧ h.get a = some (.fe v)

/-- The optional field element at an optional address. -/
def ShowsOpt (g : Nat) (h : PHeap) : Option Addr → Option FE → Prop
  | none, none => True
  | some a, some v => ShowsFE g h a v
  | _, _ => False

/-- A header shows the coordinates `v`. -/
def Coords (g : Nat) (h : PHeap) (o : PObj) (v : GC) : Prop :=
  o.sys = v.sys ∧ ShowsFE g h o.X v.X ∧ ShowsFE g h o.Y v.Y ∧ ShowsFE g h o.Z v.Z ∧ ShowsOpt g h o.T v.T

/-- The group element at an address has the coordinates `v`. -/
def ShowsGC (g : Nat) (h : PHeap) (a : Addr) (v : GC) : Prop := Own g a ∧ ∃ o, h.get a = some (.obj o) ∧ Coords g h o v

/-- A slice of pointers can be read and shows the entries `l`. -/
def ShowsArr (g : Nat) (h : PHeap) : Option Addr → List (Option Addr) → Prop
  | none, l => l = []
  | some a, l => Own g a ∧ h.get a = some (.arr l)

/-- A table entry is not nil and has the coordinates `v`. -/
def ShowsEntry (g : Nat) (h : PHeap) (e : Option Addr) (v : GC) : Prop := ∃ a, e = some a ∧ ShowsGC g h a v

/-- A row of the table is not nil and has the entries `vs`. -/
def ShowsRow (g : Nat) (h : PHeap) (e : Option Addr) (vs : List GC) : Prop :=
  ∃ a l, e = some a ∧ Own g a ∧ h.get a = some (.arr l) ∧ List.Forall₂ (ShowsEntry g h) l vs

/-- The group element at `a` has the coordinates and the tables of `v`. -/
def ShowsGE (g : Nat) (h : PHeap) (a : Addr) (v : GE) : Prop :=
  Own g a ∧ ∃ o ls ld, h.get a = some (.obj o) ∧ Coords g h o v.toGC ∧
    o.single.isSome = v.single.isSome ∧ ShowsArr g h o.single ls ∧ List.Forall₂ (ShowsRow g h) ls (v.single.getD []) ∧
    o.double.isSome = v.double.isSome ∧ ShowsArr g h o.double ld ∧ List.Forall₂ (ShowsEntry g h) ld (v.double.getD [])

/-- The shared base point. -/
def IsBase (g : Nat) (h : PHeap) (bp : Addr) : Prop := ∃ v, getBasePoint = .ok v ∧ ShowsGE g h bp v

end PG
end Ed

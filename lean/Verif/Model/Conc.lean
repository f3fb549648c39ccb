import Verif.Model.Reader
import Verif.Model.Group

/-!
# Goroutines and shared memory

A goroutine is a tree of atomic actions on the memory shared by all goroutines.  An action reads or updates one object of the
memory (a field element, the header of a group element, one array of pointers, one array of bytes), allocates an object, or makes one
`Read` call on a shared reader.  Any number of goroutines run; a schedule says which one makes the next action.

An address consists of a region and a position.  Region 0 is what exists when the goroutines start; goroutine i allocates in
region i + 1.  The regions only name the allocating goroutine: a goroutine can use every address it gets hold of.
-/

set_option autoImplicit false

namespace Ed

/-- The address of an object in memory. -/
structure Addr where
  region : Nat
  idx : Nat
deriving DecidableEq

/-- The header of an `Ed25519GroupElement` (ed25519_encode.go:2018-2033).  X, Y, Z are never nil; a nil T, nil tables: `none`.
A slice of pointers is the address of its array (all slices in the code cover their whole array). -/
structure PObj where
  sys : Sys
  X : Addr
  Y : Addr
  Z : Addr
  T : Option Addr
  single : Option Addr
  double : Option Addr

/-- An object in memory. -/
inductive Val
  /-- an `Ed25519FieldElement` -/
  | fe (v : FE)
  /-- an `Ed25519GroupElement` -/
  | obj (o : PObj)
  /-- an array of pointers or of slices; `none` is nil -/
  | arr (l : List (Option Addr))
  /-- an array of bytes -/
  | bytes (b : Bytes)

/-- Memory: the objects of each region. -/
abbrev PHeap := Nat → List Val

namespace PHeap

/-- The object at an address. -/
def get (h : PHeap) (a : Addr) : Option Val := (h a.region)[a.idx]?
/-- Replace the object at an address. -/
def set (h : PHeap) (a : Addr) (v : Val) : PHeap := fun r => if r = a.region then (h r).set a.idx v else h r
/-- A new object of a region. -/
def push (h : PHeap) (g : Nat) (v : Val) : PHeap := fun r => if r = g then h r ++ [v] else h r
/-- The address of the next new object. -/
def fresh (h : PHeap) (g : Nat) : Addr := ⟨g, (h g).length⟩

end PHeap

/-- What one `Read` call delivers. -/
abbrev Ans := Bytes × Option String

/-- One `Read` call with a buffer of `n` bytes.  Answers without bytes and without error are skipped: `io.ReadFull` asks again. -/
def readOnce : Reader → Nat → Ans × Reader
  | [], _ => (([], some "EOF"), [])
  | e :: r, n =>
    if n < e.data.length then ((e.data.take n, none), ⟨e.data.drop n, e.err⟩ :: r)
    else if e.data = [] ∧ e.err = none then readOnce r n
    else ((e.data, e.err), r)

/-- The readers with another reader `s`. -/
def World.put (w : World) (s : Nat) (r : Reader) : World := fun i => if i = s then r else w i

/-- What a goroutine still has to do. -/
inductive Prog (α : Type) : Type
  /-- finished -/
  | ret (r : Out α)
  /-- replace the object at `a` by `f` of it (`f` = identity: a read) and go on with the old object -/
  | access (a : Addr) (f : Val → Val) (k : Val → Prog α)
  /-- allocate -/
  | alloc (v : Val) (k : Addr → Prog α)
  /-- one `Read` call on reader `s` with a buffer of `n + 1` bytes -/
  | ask (s n : Nat) (k : Ans → Prog α)

namespace Prog

variable {α β : Type}

/-- Sequencing; an error or a panic ends the function. -/
def bind : Prog α → (α → Prog β) → Prog β
  | ret (.ok a), f => f a
  | ret (.err m), _ => ret (.err m)
  | ret .panic, _ => ret .panic
  | access a u k, f => access a u fun v => (k v).bind f
  | alloc v k, f => alloc v fun a => (k a).bind f
  | ask s n k, f => ask s n fun x => (k x).bind f

instance : Monad Prog where
  pure a := ret (.ok a)
  bind := bind

/-- A computation on values. -/
def lift (r : Out α) : Prog α := ret r

/-- An error or a panic of a call becomes a value (the caller goes on). -/
def catch_ : Prog α → Prog (Out α)
  | ret r => ret (.ok r)
  | access a u k => access a u fun v => (k v).catch_
  | alloc v k => alloc v fun a => (k a).catch_
  | ask s n k => ask s n fun x => (k x).catch_

/-- A returned error becomes another outcome. -/
def mapOut (f : Out α → Out β) : Prog α → Prog β
  | ret r => ret (f r)
  | access a u k => access a u fun v => (k v).mapOut f
  | alloc v k => alloc v fun a => (k a).mapOut f
  | ask s n k => ask s n fun x => (k x).mapOut f

/-- The memory and the readers. -/
structure St where
  heap : PHeap
  world : World

/-- One action of goroutine region `g`.  An address that does not exist panics (it does not occur). -/
def step (g : Nat) (s : St) : Prog α → St × Prog α
  | ret r => (s, ret r)
  | access a f k =>
    match s.heap.get a with
    | some v => ({ s with heap := s.heap.set a (f v) }, k v)
    | none => (s, ret .panic)
  | alloc v k => ({ s with heap := s.heap.push g v }, k (s.heap.fresh g))
  | ask r n k =>
    let t := readOnce (s.world r) (n + 1)
    ({ s with world := s.world.put r t.2 }, k t.1)

/-- A goroutine alone with memory `h` and readers `w`: its outcome, the memory and the readers afterwards. -/
def alone (g : Nat) : PHeap → World → Prog α → Out α × PHeap × World
  | h, w, ret r => (r, h, w)
  | h, w, access a f k =>
    match h.get a with
    | some v => alone g (h.set a (f v)) w (k v)
    | none => (.panic, h, w)
  | h, w, alloc v k => alone g (h.push g v) w (k (h.fresh g))
  | h, w, ask s n k => alone g h (w.put s (readOnce (w s) (n + 1)).2) (k (readOnce (w s) (n + 1)).1)

end Prog

/-- All goroutines: the memory, what each has to do, and the `Read` calls so far (goroutine, reader, size, answer), oldest first. -/
structure Pool (α : Type) where
  st : Prog.St
  thread : Nat → Prog α
  log : List (Nat × Nat × Nat × Ans)

namespace Pool

variable {α : Type}

/-- The `Read` call that the next action of a goroutine makes. -/
def call (s : Prog.St) (i : Nat) : Prog α → List (Nat × Nat × Nat × Ans)
  | .ask r n _ => [(i, r, n + 1, (readOnce (s.world r) (n + 1)).1)]
  | _ => []

/-- Goroutine `i` makes an action. -/
def step (p : Pool α) (i : Nat) : Pool α :=
  let t := (p.thread i).step (i + 1) p.st
  ⟨t.1, fun j => if j = i then t.2 else p.thread j, p.log ++ call p.st i (p.thread i)⟩

/-- A schedule: the goroutines in the order of their actions. -/
def run (p : Pool α) (sched : List Nat) : Pool α := sched.foldl step p

/-- The answers goroutine `i` got, as readers of its own. -/
def got (p : Pool α) (i : Nat) : World := fun s =>
  (p.log.filter fun e => e.1 == i && e.2.1 == s).map fun e => ⟨e.2.2.2.1, e.2.2.2.2⟩

end Pool

/-- The start: memory `h` in which only region 0 is in use, readers `w`, and the goroutines. -/
def Pool.start {α : Type} (h : PHeap) (w : World) (t : Nat → Prog α) : Pool α := ⟨⟨h, w⟩, t, []⟩

end Ed

/-!
# Outcomes of Go functions

A Go function with an error result either returns a value, returns a non-nil error, or panics.
-/

set_option autoImplicit false

namespace Ed

/-- Outcome of a Go call. -/
inductive Out (α : Type) where
  /-- normal return, `err == nil` -/
  | ok (a : α)
  /-- return with `err != nil` -/
  | err (msg : String)
  /-- run-time panic -/
  | panic
deriving Repr, DecidableEq

namespace Out

/-- Sequencing: errors are propagated as in `if err != nil { return nil, err }`, panics unwind. -/
def bind {α β : Type} (x : Out α) (f : α → Out β) : Out β :=
  match x with
  | ok a => f a
  | err m => err m
  | panic => panic

instance : Monad Out where
  pure := ok
  bind := bind

@[simp] theorem pure_eq {α : Type} (a : α) : (pure a : Out α) = ok a := rfl
@[simp] theorem ok_bind {α β : Type} (a : α) (f : α → Out β) : (ok a >>= f) = f a := rfl
@[simp] theorem err_bind {α β : Type} (m : String) (f : α → Out β) : ((err m : Out α) >>= f) = err m := rfl
@[simp] theorem panic_bind {α β : Type} (f : α → Out β) : ((panic : Out α) >>= f) = panic := rfl

/-- Access through a pointer: nil panics. -/
def deref {α : Type} : Option α → Out α
  | some a => ok a
  | none => panic

/-- Slice access: out of range panics. -/
def index {α : Type} (l : List α) (i : Nat) : Out α := deref l[i]?

end Out
end Ed

import Verif.Model.PApi
import Verif.Model.PShared

/-!
# How many actions a call may take

An action is one access to an object in memory, one allocation or one `Read` call on a reader (Model/Conc).
-/

set_option autoImplicit false

namespace Ed

/-- Arrays of pointers have at most 32 entries, arrays of bytes at most `N`. -/
def Val.Small (N : Nat) : Val → Prop
  | .arr l => l.length ≤ 32
  | .bytes b => b.length ≤ N
  | _ => True

/-- All objects in memory are small. -/
def PHeap.Small (N : Nat) (h : PHeap) : Prop := ∀ a v, h.get a = some v → v.Small N

/-- The goroutine never makes an array of pointers with more than 32 entries or an array of bytes with more than `N`, as long as it
finds none.  Otherwise it can do anything: write anything anywhere, to tables and arguments of others, in any order. -/
def Prog.Modest {α : Type} (N : Nat) : Prog α → Prop
  | .ret _ => True
  | .access _ f k => (∀ v, v.Small N → (f v).Small N) ∧ ∀ v, v.Small N → (k v).Modest N
  | .alloc v k => v.Small N ∧ ∀ a, (k a).Modest N
  | .ask _ m k => ∀ x : Ans, x.1.length ≤ m + 1 → (k x).Modest N

/-- The limit for a call of the API, with arguments of at most `N` bytes. -/
def Call.limit (N : Nat) : Call → Nat
  | .derive _ => N + 2609
  | .sign _ _ => 5 * N + 2613
  | .verify _ _ _ _ => 10 * N + 20589
  | .canonical _ _ => 2 * N + 2
  | .sharedKey _ _ _ _ => 6 * N + 27518
  | .encrypt _ _ keyLength _ _ => 6 * N + 27534 + keyLength
  | .decrypt _ _ _ _ _ => 9 * N + 27521
  | .generate _ => N + 2642

/-- The limit for an operation on a group element, with reading the result. -/
def GCall.limit : GCall → Nat
  | .encode _ => 17
  | .convert _ _ => 16
  | .dbl _ => 15
  | .negate _ => 48
  | .add _ _ | .subtract _ _ | .precomputedAdd _ _ | .precomputedSubtract _ _ => 20
  | .select _ _ _ => 17
  | .scalarMultiply _ _ => 2526
  | .doubleScalar _ _ _ _ => 19722
  | .precomputeSingle _ => 24969
  | .precomputeDouble _ => 770
  | .decode _ => 10

end Ed

import Verif.Model.PShared
import Verif.Spec.Memory

/-!
# What operations on group elements return in a program without concurrency

The operations are those of Model/Group; `val` gives the shared elements as values.
-/

set_option autoImplicit false

namespace Ed

/-- The outcome of a call. -/
def GCall.value (val : Addr → GE) : GCall → Out GRes
  | .encode a => do .ok (.bytes (← (val a).toGC.encode))
  | .convert a n => do .ok (.point (← (val a).toGC.toCoordinateSystem n))
  | .dbl a => do .ok (.point (← (val a).toGC.dbl))
  | .negate a => do .ok (.point (← (val a).toGC.negate))
  | .add a b => do .ok (.point (← (val a).toGC.add (val b).toGC))
  | .subtract a b => do .ok (.point (← (val a).toGC.subtract (val b).toGC))
  | .precomputedAdd a b => do .ok (.point (← (val a).toGC.precomputedAdd (val b).toGC))
  | .precomputedSubtract a b => do .ok (.point (← (val a).toGC.precomputedSubtract (val b).toGC))
  | .select a pos b => do .ok (.point (← (val a).select pos b))
  | .scalarMultiply a s => do .ok (.point (← (val a).scalarMultiply s))
  | .doubleScalar a A s t => do .ok (.point (← (val a).doubleScalarMultiplyVariableTime (val A) s t))
  | .precomputeSingle _ => .ok .done
  | .precomputeDouble _ => .ok .done
  | .decode raw => do .ok (.point (← GC.decode raw))

/-- The shared elements of a call are in the initial memory with the values `val`; precomputation is called only on an element that already
has the table. -/
def GCall.Args (h : PHeap) (val : Addr → GE) : GCall → Prop
  | .encode a | .convert a _ | .dbl a | .negate a | .select a _ _ | .scalarMultiply a _ => PG.ShowsGE 0 h a (val a)
  | .add a b | .subtract a b | .precomputedAdd a b | .precomputedSubtract a b | .doubleScalar a b _ _ =>
    PG.ShowsGE 0 h a (val a) ∧ PG.ShowsGE 0 h b (val b)
  | .precomputeSingle a => PG.ShowsGE 0 h a (val a) ∧ (val a).single.isSome
  | .precomputeDouble a => PG.ShowsGE 0 h a (val a) ∧ ((val a).double.getD []).length > 0
  | .decode _ => True

end Ed

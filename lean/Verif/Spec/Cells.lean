/-
Specification of causal tetrahedra by their four time values.
-/
import Mathlib.Data.List.Count
import Mathlib.Algebra.Order.Ring.Int

namespace CDT.Spec

/-- The four time values put `lower` vertices on one slice and `upper` on the next one. -/
def Occupies (ts : List ℤ) (lower upper : ℕ) : Prop :=
  ts.length = lower + upper ∧ ∃ t, ts.count t = lower ∧ ts.count (t + 1) = upper

end CDT.Spec

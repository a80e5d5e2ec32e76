/-
Specification of the radial foliation: points of space, radii, time values and centroids over
the real numbers.
-/
import Mathlib.Analysis.InnerProductSpace.PiL2
import Mathlib.Algebra.Order.Round

namespace CDT.Spec

/-- Points of Euclidean three-space. -/
abbrev Point := EuclideanSpace ℝ (Fin 3)

/-- Nearest integer, halves away from zero (the C library's `lround`). -/
noncomputable def lround (x : ℝ) : ℤ := if 0 ≤ x then ⌊x + 1 / 2⌋ else -⌊-x + 1 / 2⌋

/-- The time value of a point at distance `r` from the origin when slice 1 has radius `I` and
slices are `S` apart. -/
noncomputable def timevalue (I S r : ℝ) : ℤ := lround ((r - I + S) / S)

/-- The radius of slice `t`. -/
noncomputable def sliceRadius (I S : ℝ) (t : ℤ) : ℝ := I + S * (t - 1)

/-- The centroid of a triangle. -/
noncomputable def centroid (a b c : Point) : Point := (1 / 3 : ℝ) • (a + b + c)

end CDT.Spec

/-
The documented actions and the documented Metropolis-Hastings rule, as formulas over the reals
(include/S3Action.hpp:97-117, 165-179, 227-252; docs of include/Metropolis.hpp:340-415).
Independent of the code model.
-/
import Mathlib.Analysis.SpecialFunctions.Arsinh
import Mathlib.Analysis.SpecialFunctions.Trigonometric.Inverse

namespace CDT.Spec
open Real

/-- The three-dimensional Regge action of a causal triangulation with `N1` timelike edges, `N31`
tetrahedra of type (3,1) or (1,3) and `N22` of type (2,2). -/
noncomputable def action (α k Λ : ℝ) (N1 N31 N22 : ℝ) : ℝ :=
  2 * π * k * √α * N1
  + N31 * (-3 * k * arsinh (1 / (√3 * √(4 * α + 1))) - 3 * k * √α * arccos ((2 * α + 1) / (4 * α + 1))
      - Λ / 12 * √(3 * α + 1))
  + N22 * (2 * k * arsinh (2 * √2 * √(2 * α + 1) / (4 * α + 1)) - 4 * k * √α * arccos (-1 / (4 * α + 1))
      - Λ / 12 * √(4 * α + 2))

/-- The action at α = 1 with the published rounded coefficients. -/
noncomputable def actionOne (k Λ : ℝ) (N1 N31 N22 : ℝ) : ℝ :=
  2 * π * k * N1 + N31 * (-3.548 * k - 0.167 * Λ) + N22 * (-5.355 * k - 0.204 * Λ)

/-- The coefficient of `i` in the action at α = -1 with the published rounded coefficients. -/
noncomputable def actionMinusOne (k Λ : ℝ) (N1 N31 N22 : ℝ) : ℝ :=
  -2 * π * k * N1 + N31 * (2.673 * k + 0.118 * Λ) + N22 * (7.386 * k + 0.118 * Λ)

/-- The Metropolis-Hastings acceptance probability for actions `S`, `S'` and proposal
probabilities `q` (forward) and `q'` (backward). -/
noncomputable def metropolisHastings (S S' q q' : ℝ) : ℝ := min 1 (exp (S - S') * (q' / q))

end CDT.Spec

/-
What a format of double precision guarantees, and points near a sphere.
-/
import Verif.Model.Radius

namespace CDT.Spec
open CDT

/-- Relative rounding error of binary64. -/
def roundoff : ℚ := 1 / 2 ^ 53

/-- Absolute rounding error of binary64 near zero. -/
def tiny : ℚ := 1 / 2 ^ 1075

/-- Rounding as in binary64, to nearest: an error of at most half a unit in the last place, far
enough from overflow. -/
structure Accurate (F : FloatFormat) : Prop extends F.Lawful where
  near : ∀ q : ℚ, |q| ≤ 2 ^ 1000 → ∃ v, F.rnd q = .fin v ∧ |v - q| ≤ roundoff * |q| + tiny

/-- A correctly rounded square root and a square good to two units in the last place. -/
structure AccurateMath (M : MathLib) : Prop where
  sqrt : ∀ q : ℚ, 0 ≤ q → ∃ s, M.sqrt (.fin q) = .fin s ∧ 0 ≤ s ∧
    (1 - roundoff) ^ 2 * q ≤ s ^ 2 ∧ s ^ 2 ≤ (1 + roundoff) ^ 2 * q
  sq : ∀ q : ℚ, |q| ≤ 2 ^ 450 → ∃ v, M.sq (.fin q) = .fin v ∧ |v - q ^ 2| ≤ 4 * roundoff * q ^ 2 + tiny

/-- The point has coordinates of type `double` and its squared distance from the origin is `n`. -/
def AtSquare (F : FloatFormat) (p : FPoint) (n : ℚ) : Prop :=
  ∃ x y z : ℚ, p = ⟨.fin x, .fin y, .fin z⟩ ∧ F.rnd x = .fin x ∧ F.rnd y = .fin y ∧ F.rnd z = .fin z ∧
    x ^ 2 + y ^ 2 + z ^ 2 = n

/-- The point lies on the sphere of radius `ρ` up to a relative error `ε` of the squared radius. -/
def OnShell (F : FloatFormat) (ε ρ : ℚ) (p : FPoint) : Prop :=
  ∃ n, AtSquare F p n ∧ |n - ρ ^ 2| ≤ ε * ρ ^ 2

/-- A length in the range where squares neither overflow nor underflow. -/
def Moderate (q : ℚ) : Prop := 1 / 2 ^ 400 ≤ q ∧ q ≤ 2 ^ 400

end CDT.Spec

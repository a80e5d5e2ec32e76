/-
The accuracy of the multiple-precision arithmetic.
-/
import Verif.Model.Mpfr

namespace CDT.Spec

/-- Rounding to nearest with 256 significant bits: away from underflow the relative error is at most
2^-256 (`MPFR_RNDN` at `PRECISION` = 256, include/Mpfr_value.hpp:28-37, include/Settings.hpp:44).
MPFR's exponents reach far below -2^30. -/
def _root_.CDT.Rounding.Precise (R : Rounding) : Prop :=
  ∀ x y : ℝ, (2 : ℝ) ^ (-(2 ^ 30) : ℤ) ≤ |x| → R.rnd x = .fin y → |y - x| ≤ 2 ^ (-256 : ℤ) * |x|

end CDT.Spec

/-
Model of the MPFR wrappers of include/Mpfr_value.hpp.

An MPFR value is NaN, an infinity or a real number.  Every operation computes the exact real
result and hands it to one rounding function `Rounding.rnd`; the numeric theorems hold for every
rounding function with the properties `Rounding.Lawful`, and for `Rounding.exact`, which does not
round.  Not modelled: the sign of a zero (a quotient by zero gets the sign of the numerator; the
theorems show that no division by zero is reached) and the MPFR flags.
-/
import Mathlib.Analysis.SpecialFunctions.Arsinh
import Mathlib.Analysis.SpecialFunctions.Trigonometric.Inverse
import Verif.Model.Effect

namespace CDT

/-- An MPFR value (`CGAL::Gmpfr`, include/Mpfr_value.hpp:21). -/
inductive Mp
  | nan
  | inf (negative : Bool)
  | fin (x : ℝ)

/-- The rounding applied to an exact result: a real number, or an infinity on overflow
(`MPFR_RNDN` at `PRECISION` = 256 bits, include/Mpfr_value.hpp:28-37, include/Settings.hpp:44). -/
structure Rounding where
  rnd : ℝ → Mp

/-- No rounding at all. -/
def Rounding.exact : Rounding := ⟨.fin⟩

/-- What the theorems use of round-to-nearest with 256 bits and MPFR's default exponent range
(up to 2^62 - 1): integers of up to 256 bits and powers of two in range are exact, no overflow
below 2^(2^30), and the order of numbers is never reversed. -/
structure Rounding.Lawful (R : Rounding) : Prop where
  int : ∀ n : ℤ, |n| ≤ 2 ^ 256 → R.rnd n = .fin n
  pow : ∀ n : ℤ, |n| ≤ 2 ^ 30 → R.rnd ((2 : ℝ) ^ n) = .fin ((2 : ℝ) ^ n)
  negPow : ∀ n : ℤ, |n| ≤ 2 ^ 30 → R.rnd (-((2 : ℝ) ^ n)) = .fin (-((2 : ℝ) ^ n))
  finite : ∀ x : ℝ, |x| ≤ (2 : ℝ) ^ (2 ^ 30 : ℤ) → ∃ y, R.rnd x = .fin y
  notNan : ∀ x, R.rnd x ≠ .nan
  overflow : ∀ x b, R.rnd x = .inf b → (b = true ↔ x < 0)
  mono : ∀ x y x' y', x ≤ y → R.rnd x = .fin x' → R.rnd y = .fin y' → x' ≤ y'

namespace Mp
open Classical

/-- `mpfr_neg` (`negate`, include/Mpfr_value.hpp:159-164). -/
noncomputable def neg (R : Rounding) : Mp → Mp
  | .nan => .nan
  | .inf b => .inf (!b)
  | .fin x => R.rnd (-x)

/-- `zero()` (include/Mpfr_value.hpp:40). -/
def zero : Mp := .fin 0

/-- `from_integer` (include/Mpfr_value.hpp:44-49). -/
noncomputable def fromInteger (R : Rounding) (n : ℤ) : Mp := R.rnd n

/-- `from_long_double` (include/Mpfr_value.hpp:53-58). -/
noncomputable def fromLongDouble (R : Rounding) : LD → Mp
  | .nan => .nan
  | .inf b => .inf b
  | .fin q => R.rnd q

/-- `from_decimal` (include/Mpfr_value.hpp:64-76) of a well-formed decimal text denoting `q`. -/
noncomputable def fromDecimal (R : Rounding) (q : ℚ) : Mp := R.rnd q

/-- `pi()` (include/Mpfr_value.hpp:79-84). -/
noncomputable def pi (R : Rounding) : Mp := R.rnd Real.pi

/-- `add` (include/Mpfr_value.hpp:89-94). -/
noncomputable def add (R : Rounding) : Mp → Mp → Mp
  | .nan, _ | _, .nan => .nan
  | .inf a, .inf b => if a = b then .inf a else .nan
  | .inf a, .fin _ => .inf a
  | .fin _, .inf b => .inf b
  | .fin x, .fin y => R.rnd (x + y)

/-- `subtract` (include/Mpfr_value.hpp:99-105). -/
noncomputable def sub (R : Rounding) : Mp → Mp → Mp
  | .nan, _ | _, .nan => .nan
  | .inf a, .inf b => if a = b then .nan else .inf a
  | .inf a, .fin _ => .inf a
  | .fin _, .inf b => .inf (!b)
  | .fin x, .fin y => R.rnd (x - y)

/-- `multiply` (include/Mpfr_value.hpp:110-116). -/
noncomputable def mul (R : Rounding) : Mp → Mp → Mp
  | .nan, _ | _, .nan => .nan
  | .inf a, .inf b => .inf (a != b)
  | .inf a, .fin y | .fin y, .inf a =>
    if y = 0 then .nan else .inf (a != decide (y < 0))
  | .fin x, .fin y => R.rnd (x * y)

/-- `divide` (include/Mpfr_value.hpp:121-127). -/
noncomputable def div (R : Rounding) : Mp → Mp → Mp
  | .nan, _ | _, .nan => .nan
  | .inf _, .inf _ => .nan
  | .inf a, .fin y => .inf (a != decide (y < 0))
  | .fin _, .inf _ => .fin 0
  | .fin x, .fin y =>
    if y = 0 then (if x = 0 then .nan else .inf (decide (x < 0))) else R.rnd (x / y)

/-- `square_root` (include/Mpfr_value.hpp:131-136). -/
noncomputable def sqrt (R : Rounding) : Mp → Mp
  | .nan | .inf true => .nan
  | .inf false => .inf false
  | .fin x => if x < 0 then .nan else R.rnd (Real.sqrt x)

/-- `inverse_hyperbolic_sine` (include/Mpfr_value.hpp:140-145). -/
noncomputable def asinh (R : Rounding) : Mp → Mp
  | .nan => .nan
  | .inf b => .inf b
  | .fin x => R.rnd (Real.arsinh x)

/-- `arc_cosine` (include/Mpfr_value.hpp:149-154). -/
noncomputable def acos (R : Rounding) : Mp → Mp
  | .nan | .inf _ => .nan
  | .fin x => if x < -1 ∨ 1 < x then .nan else R.rnd (Real.arccos x)

/-- `exponential` (include/Mpfr_value.hpp:168-173). -/
noncomputable def exp (R : Rounding) : Mp → Mp
  | .nan => .nan
  | .inf true => .fin 0
  | .inf false => .inf false
  | .fin x => R.rnd (Real.exp x)

/-- `mpfr_zero_p`. -/
noncomputable def isZero : Mp → Bool
  | .fin x => decide (x = 0)
  | _ => false

/-- `mpfr_cmp(a, b) < 0`; comparisons with NaN return 0. -/
noncomputable def cmpNeg : Mp → Mp → Bool
  | .nan, _ | _, .nan => false
  | .inf true, .inf true => false
  | .inf true, _ => true
  | _, .inf true => false
  | .inf false, _ => false
  | .fin _, .inf false => true
  | .fin x, .fin y => decide (x < y)

/-- `mpfr_cmp_ld(p, u) >= 0` for a finite `u`; comparisons with NaN return 0. -/
noncomputable def cmpLdGe : Mp → ℚ → Bool
  | .nan, _ => true
  | .inf b, _ => !b
  | .fin x, u => decide ((u : ℝ) ≤ x)

end Mp
end CDT

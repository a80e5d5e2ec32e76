/-
The floating-point arithmetic used to size a triangulation (include/Utilities.hpp:2075-2292,
include/Foliated_triangulation.hpp:1231-1303, include/Runtime_config.hpp:240-330): two formats,
`double` and `long double`, over the values of `LD` (NaN, infinities, finite rationals).

Every operation computes the exact rational result and hands it to the format's rounding function.
Not modelled: the sign of a zero and the floating-point flags.
-/
import Mathlib.Data.Rat.Floor
import Verif.Model.Effect

namespace CDT

/-- A floating-point format: how an exact result is rounded (to an infinity on overflow). -/
structure FloatFormat where
  rnd : ℚ → LD

/-- The two formats of the program: `double` and `long double`. -/
structure Floats where
  dbl : FloatFormat
  ext : FloatFormat

namespace FloatFormat

/-- IEEE addition. -/
def add (F : FloatFormat) : LD → LD → LD
  | .nan, _ | _, .nan => .nan
  | .inf a, .inf b => if a = b then .inf a else .nan
  | .inf a, .fin _ => .inf a
  | .fin _, .inf b => .inf b
  | .fin x, .fin y => F.rnd (x + y)

/-- IEEE multiplication. -/
def mul (F : FloatFormat) : LD → LD → LD
  | .nan, _ | _, .nan => .nan
  | .inf a, .inf b => .inf (a != b)
  | .inf a, .fin y => if y = 0 then .nan else .inf (a != decide (y < 0))
  | .fin x, .inf b => if x = 0 then .nan else .inf (b != decide (x < 0))
  | .fin x, .fin y => F.rnd (x * y)

/-- IEEE division (a zero divisor counts as positive). -/
def div (F : FloatFormat) : LD → LD → LD
  | .nan, _ | _, .nan => .nan
  | .inf _, .inf _ => .nan
  | .inf a, .fin y => .inf (a != decide (y < 0))
  | .fin _, .inf _ => .fin 0
  | .fin x, .fin y => if y = 0 then (if x = 0 then .nan else .inf (decide (x < 0))) else F.rnd (x / y)

/-- `static_cast<double>(int)` or `static_cast<long double>(int)`. -/
def ofInt (F : FloatFormat) (n : ℤ) : LD := F.rnd n

/-- What the theorems use of a format: results are never NaN, the order of exact results is never
reversed, and integers of up to 53 bits are exact. -/
structure Lawful (F : FloatFormat) : Prop where
  notNan : ∀ q, F.rnd q ≠ .nan
  mono : ∀ p q, p ≤ q → (F.rnd p).le (F.rnd q) = true
  int : ∀ n : ℤ, |n| ≤ 2 ^ 53 → F.rnd n = .fin n

end FloatFormat

/-- Both formats are lawful. -/
structure Floats.Lawful (F : Floats) : Prop where
  dbl : F.dbl.Lawful
  ext : F.ext.Lawful

/-- `q` is a value of type `double`, which `long double` holds exactly too. -/
structure Floats.IsDouble (F : Floats) (q : ℚ) : Prop where
  dbl : F.dbl.rnd q = .fin q
  ext : F.ext.rnd q = .fin q

/-- `std::numeric_limits<Int_precision>::max()`; `Int_precision` is a 32-bit `int`
(include/Settings.hpp). -/
def intMax : ℤ := 2 ^ 31 - 1

/-- Rational truncation toward zero. -/
def truncQ (q : ℚ) : ℤ := if 0 ≤ q then ⌊q⌋ else ⌈q⌉

/-- `static_cast<Int_precision>(long double)`.  Out of range the C++ conversion is undefined; the
model wraps a finite value and returns `INT_MIN` for infinities and NaN. -/
def LD.toInt32 : LD → ℤ
  | .fin q => Int.bmod (truncQ q) (2 ^ 32)
  | _ => -2 ^ 31

/-- `static_cast<std::uint64_t>(Int_precision)`: wraps negative values. -/
def toU64 (z : ℤ) : ℕ := (z % 2 ^ 64).toNat

end CDT

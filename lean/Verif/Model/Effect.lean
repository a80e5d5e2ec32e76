import Mathlib.Data.Rat.Defs
import Mathlib.Algebra.Order.Ring.Rat
/-
Exceptions and scalar values shared by the models.
-/
namespace CDT

/-- C++ exception classes that the modelled code throws or lets through.
`other n` stands for any exception raised by code outside the model (CGAL,
allocation, streams). -/
inductive Exc
  | invalidArgument | logicError | domainError | outOfRange | lengthError
  | filesystemError | runtimeError | other (n : Nat)
  deriving DecidableEq, Repr

/-- A `long double` argument as the validation code sees it: NaN, an infinity, or a
finite value.  Finite values are rationals (every finite binary floating value is
one); rounding is not modelled here. -/
inductive LD
  | nan
  | inf (negative : Bool)
  | fin (q : ℚ)
  deriving DecidableEq

/-- `std::isfinite`. -/
def LD.isFinite : LD → Bool
  | .fin _ => true
  | _ => false

/-- IEEE `a < b`: false when either operand is NaN. -/
def LD.lt : LD → LD → Bool
  | .nan, _ | _, .nan => false
  | .inf true, .inf true => false
  | .inf true, _ => true
  | _, .inf true => false
  | .inf false, _ => false
  | .fin _, .inf false => true
  | .fin a, .fin b => decide (a < b)

/-- IEEE `a <= b`: false when either operand is NaN. -/
def LD.le : LD → LD → Bool
  | .nan, _ | _, .nan => false
  | .inf true, _ => true
  | _, .inf false => true
  | .fin a, .fin b => decide (a ≤ b)
  | _, _ => false

/-- A computation with effects on a world `W` that may throw; the world keeps the
effects performed before the exception. -/
abbrev Eff (W α : Type) := W → Except Exc α × W

end CDT

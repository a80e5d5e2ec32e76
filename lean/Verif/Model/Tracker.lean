/-
Model of include/Move_tracker.hpp and include/Move_outcome.hpp.
-/
import Mathlib.Logic.Function.Basic
import Mathlib.Data.Fintype.Basic
import Mathlib.Algebra.BigOperators.Fin

namespace CDT

/-- `cdt::move_tracker::MoveType` (include/Move_tracker.hpp:34-41): the five declared enumerators.
A C++ `MoveType` object can also hold an undeclared integer; such raw codes are
modelled by `Int` plus `MoveType.ofCode` below. -/
inductive MoveType
  | twoThree | threeTwo | twoSix | sixTwo | fourFour
  deriving DecidableEq, Repr

/-- `as_integer` (include/Move_tracker.hpp:67-73) on declared enumerators. -/
def MoveType.asInteger : MoveType → Fin 5
  | .twoThree => 0
  | .threeTwo => 1
  | .twoSix => 2
  | .sixTwo => 3
  | .fourFour => 4

/-- `move_from_index` (include/Move_tracker.hpp:80-89): bounds test, then table lookup. -/
def moveFromIndex (i : Nat) : Option MoveType :=
  if i ≥ 5 then none
  else ([MoveType.twoThree, .threeTwo, .twoSix, .sixTwo, .fourFour])[i]?

/-- Interpretation of an arbitrary stored enum value as a `switch` over the five
enumerators sees it (every `switch (move)` in the repo, e.g.
include/Metropolis.hpp:310-318). `none` means that no `case` matches. -/
def MoveType.ofCode : Int → Option MoveType
  | 0 => some .twoThree
  | 1 => some .threeTwo
  | 2 => some .twoSix
  | 3 => some .sixTwo
  | 4 => some .fourFour
  | _ => none

/-- `format_as(MoveType)` (include/Move_tracker.hpp:46-59). -/
def MoveType.format : MoveType → String
  | .twoThree => "(2,3)"
  | .threeTwo => "(3,2)"
  | .twoSix => "(2,6)"
  | .sixTwo => "(6,2)"
  | .fourFour => "(4,4)"

/-- `MoveTracker` (include/Move_tracker.hpp:108-112): an array of five `Int_precision`
(int32) counters.  Modelled with unbounded integers; `Tracker.InRange` states the
int32 range and the theorems of C17 show it is kept for runs below 2^31 attempts
(signed overflow would be undefined behaviour). -/
abbrev Tracker := Fin 5 → Int

/-- The zero-initialised array (include/Move_tracker.hpp:112); also `reset`
(include/Move_tracker.hpp:245). -/
def Tracker.zero : Tracker := fun _ => 0

/-- `operator[](gsl::index)` (include/Move_tracker.hpp:126-135): `gsl::at` terminates the
program for an index outside the array; `none` models that termination. -/
def Tracker.at? (t : Tracker) (i : Int) : Option Int :=
  if h : 0 ≤ i ∧ i < 5 then some (t ⟨i.toNat, by omega⟩) else none

/-- `operator[](MoveType)` read (include/Move_tracker.hpp:142-151). -/
def Tracker.get (t : Tracker) (m : MoveType) : Int := t m.asInteger

/-- `++tracker[move]` (include/Move_tracker.hpp:142-143 used at e.g. include/Metropolis.hpp:498). -/
def Tracker.inc (t : Tracker) (m : MoveType) : Tracker :=
  Function.update t m.asInteger (t m.asInteger + 1)

/-- `operator+=` (include/Move_tracker.hpp:158-165): element-wise loop. -/
def Tracker.add (a b : Tracker) : Tracker := fun i => a i + b i

/-- `total()` (include/Move_tracker.hpp:171-174): `std::accumulate` from 0. -/
def Tracker.total (t : Tracker) : Int :=
  (List.ofFn t).foldl (· + ·) 0

/-- Named accessors (include/Move_tracker.hpp:188-242): literal indices 0..4. -/
def Tracker.twoThreeMoves (t : Tracker) : Int := t 0
def Tracker.threeTwoMoves (t : Tracker) : Int := t 1
def Tracker.twoSixMoves (t : Tracker) : Int := t 2
def Tracker.sixTwoMoves (t : Tracker) : Int := t 3
def Tracker.fourFourMoves (t : Tracker) : Int := t 4

/-- Every counter fits `Int_precision = std::int32_t` (include/Settings.hpp). -/
def Tracker.InRange (t : Tracker) : Prop := ∀ i, -2147483648 ≤ t i ∧ t i ≤ 2147483647

/-- `MoveFailure` (include/Move_outcome.hpp:22-31). -/
inductive MoveFailure
  | noCandidate | invalidTopology | causalInvalidity | staleCandidate
  | executionFailure | invariantViolation | unknownMove
  deriving DecidableEq, Repr

/-- `MoveOutcome` (include/Move_outcome.hpp:83-90). -/
inductive MoveOutcome
  | inapplicable | metropolisAccepted | metropolisRejected | executionFailed | succeeded
  deriving DecidableEq, Repr

/-- The declared enumerator values (include/Move_outcome.hpp:85-89). -/
def MoveOutcome.code : MoveOutcome → Nat
  | .inapplicable => 0
  | .metropolisAccepted => 1
  | .metropolisRejected => 2
  | .executionFailed => 3
  | .succeeded => 4

/-- `outcome_from` (include/Move_outcome.hpp:137-152). -/
def outcomeFrom : MoveFailure → MoveOutcome
  | .noCandidate | .invalidTopology | .causalInvalidity => .inapplicable
  | .staleCandidate | .executionFailure | .invariantViolation | .unknownMove => .executionFailed

/-- `MetropolisTransition::successful` (include/Move_outcome.hpp:118-123). -/
def MoveOutcome.successful (o : MoveOutcome) : Bool :=
  o == .metropolisAccepted || o == .metropolisRejected || o == .succeeded

/-- `MetropolisTransition::accepted` (include/Move_outcome.hpp:126-127). -/
def MoveOutcome.accepted (o : MoveOutcome) : Bool := o == .metropolisAccepted

/-- `MoveError::message` (include/Move_outcome.hpp:52-71). -/
def MoveFailure.message : MoveFailure → String
  | .noCandidate => "No raw proposal site is available."
  | .invalidTopology => "The selected proposal site is not part of the triangulation."
  | .causalInvalidity => "The selected proposal site violates a CDT move invariant."
  | .staleCandidate => "The prepared proposal site no longer exists."
  | .executionFailure => "CGAL rejected execution of the prepared move."
  | .invariantViolation => "The executed move violated a manifold postcondition."
  | .unknownMove => "The requested Pachner move is unknown."

end CDT

/-
What the probability of proposing a manifold is: the move type is drawn uniformly from five, the
site number uniformly from the number of raw sites.
-/
import Verif.Spec.Reverse
import Mathlib.Algebra.BigOperators.Group.Finset.Basic
import Mathlib.Data.Rat.Defs
import Mathlib.Data.Fintype.Basic

namespace CDT
open Spec

variable {V G : Type} [LinearOrder V]

/-- Drawing site number `i` for move type `mv` proposes the manifold `L` (for some state of the
random source that draws `i`). -/
def Proposes (env : Env V G) (mv : MoveType) (K : Tri V) (i : ℕ) (L : Tri V) : Prop :=
  ∃ g K' g', (env.index (Moves.rawSites env K mv).length g).1 = i ∧
    Moves.propose env mv K g = (.ok K', g') ∧ SameManifold L K'

/-- The fraction of site numbers of move type `mv` that propose `L`. -/
noncomputable def siteFraction (env : Env V G) (mv : MoveType) (K L : Tri V) : ℚ :=
  haveI : DecidablePred fun i => Proposes env mv K i L := Classical.decPred _
  (((Finset.range (Moves.rawSites env K mv).length).filter fun i => Proposes env mv K i L).card : ℚ) /
    (Moves.rawSites env K mv).length

/-- The probability of proposing `L` from `K`: uniform over the five move types, then uniform over
the site numbers. -/
noncomputable def proposalMass (env : Env V G) (K L : Tri V) : ℚ :=
  1 / 5 * siteFraction env .twoThree K L + 1 / 5 * siteFraction env .threeTwo K L +
    1 / 5 * siteFraction env .twoSix K L + 1 / 5 * siteFraction env .sixTwo K L +
    1 / 5 * siteFraction env .fourFour K L

end CDT

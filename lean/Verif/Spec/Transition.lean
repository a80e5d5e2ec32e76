/-
The probability that one sampled transition ends in a given manifold: the move type is uniform over
five, the site number uniform over the raw sites of that type, the trial value uniform over an even
grid of [0, 1).
-/
import Verif.Spec.Trajectory
import Verif.Spec.Kernel
import Mathlib.Data.Real.Basic

namespace CDT
open Spec

variable {V G : Type} [LinearOrder V]

/-- The stored value of a move type. -/
def moveCode : MoveType → Int
  | .twoThree => 0 | .threeTwo => 1 | .twoSix => 2 | .sixTwo => 3 | .fourFour => 4

/-- The transition of type `mv` with trial value `u`, run in the variables `v`, is accepted and makes
a manifold that is `L` current. -/
def Reaches (eng : MetroEngine (Mfld V) G Mp) (mv : MoveType) (u : ℚ) (v : MetroVars (Mfld V) G) (L : Tri V) : Prop :=
  (resolve eng (moveCode mv) (.fin u) v).1 = .ok .metropolisAccepted ∧
    SameManifold L (resolve eng (moveCode mv) (.fin u) v).2.current.tri

/-- The transition of type `mv` from `m` at site number `i` with trial value `u` ends in `L` (for
some state of the random source that draws `i`, and some counters). -/
def ReachesAt (env : Env V G) (eng : MetroEngine (Mfld V) G Mp) (mv : MoveType) (m : Mfld V) (i : ℕ) (u : ℚ)
    (L : Tri V) : Prop :=
  ∃ v : MetroVars (Mfld V) G, v.current = m ∧ (env.index (Moves.rawSites env m.tri mv).length v.gen).1 = i ∧
    Reaches eng mv u v L

/-- The fraction of the pairs (site number, trial value) of move type `mv` that end in `L`; the trial
values are 0, 1/n, ..., (n-1)/n. -/
noncomputable def reachFraction (env : Env V G) (eng : MetroEngine (Mfld V) G Mp) (n : ℕ) (mv : MoveType)
    (m : Mfld V) (L : Tri V) : ℚ :=
  haveI : DecidablePred fun x : ℕ × ℕ => ReachesAt env eng mv m x.1 ((x.2 : ℚ) / n) L := Classical.decPred _
  (((Finset.range (Moves.rawSites env m.tri mv).length ×ˢ Finset.range n).filter
      fun x => ReachesAt env eng mv m x.1 ((x.2 : ℚ) / n) L).card : ℚ) /
    ((Moves.rawSites env m.tri mv).length * n)

/-- The probability that a sampled transition from `m` ends in `L`, a different manifold. -/
noncomputable def transitionMass (env : Env V G) (eng : MetroEngine (Mfld V) G Mp) (n : ℕ) (m : Mfld V)
    (L : Tri V) : ℚ :=
  1 / 5 * reachFraction env eng n .twoThree m L + 1 / 5 * reachFraction env eng n .threeTwo m L +
    1 / 5 * reachFraction env eng n .twoSix m L + 1 / 5 * reachFraction env eng n .sixTwo m L +
    1 / 5 * reachFraction env eng n .fourFour m L

/-- How many of the trial values 0, 1/n, ..., (n-1)/n are at most `a`, as a fraction. -/
noncomputable def gridFraction (n : ℕ) (a : ℝ) : ℚ :=
  haveI : DecidablePred fun k : ℕ => ((((k : ℚ) / n : ℚ)) : ℝ) ≤ a := Classical.decPred _
  (((Finset.range n).filter fun k : ℕ => ((((k : ℚ) / n : ℚ)) : ℝ) ≤ a).card : ℚ) / n

end CDT

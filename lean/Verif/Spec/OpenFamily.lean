/-
Finite families of manifolds that the sampler may leave, and in which some moves cannot be undone.
-/
import Verif.Spec.Convergence

namespace CDT
open Spec

variable {V G : Type} [LinearOrder V] {ι : Type}

/-- Pairwise different manifolds, in order. -/
structure InOrder (env : Env V G) (m : ι → Mfld V) : Prop where
  fit : ∀ i, Fit env (m i)
  fresh : ∀ i, FreshCentroids env (m i).tri
  different : ∀ i j, SameManifold (m i).tri (m j).tri → i = j

/-- The transition of type `mv` from member `i` at site number `s` with trial value `u` ends in a
manifold that is no member. -/
def LeavesAt (env : Env V G) (eng : MetroEngine (Mfld V) G Mp) (mv : MoveType) (m : ι → Mfld V) (i : ι) (s : ℕ)
    (u : ℚ) : Prop :=
  ∃ L, ReachesAt env eng mv (m i) s u L ∧ ∀ k, ¬ SameManifold (m k).tri L

/-- The fraction of the pairs (site number, trial value) of move type `mv` with which a transition from
member `i` leaves the family. -/
noncomputable def leaveFraction (env : Env V G) (eng : MetroEngine (Mfld V) G Mp) (n : ℕ) (mv : MoveType)
    (m : ι → Mfld V) (i : ι) : ℚ :=
  haveI : DecidablePred fun x : ℕ × ℕ => LeavesAt env eng mv m i x.1 ((x.2 : ℚ) / n) := Classical.decPred _
  (((Finset.range (Moves.rawSites env (m i).tri mv).length ×ˢ Finset.range n).filter
      fun x => LeavesAt env eng mv m i x.1 ((x.2 : ℚ) / n)).card : ℚ) /
    ((Moves.rawSites env (m i).tri mv).length * n)

/-- The probability that a sampled transition from member `i` leaves the family. -/
noncomputable def leaveMass (env : Env V G) (eng : MetroEngine (Mfld V) G Mp) (n : ℕ) (m : ι → Mfld V) (i : ι) : ℚ :=
  1 / 5 * leaveFraction env eng n .twoThree m i + 1 / 5 * leaveFraction env eng n .threeTwo m i +
    1 / 5 * leaveFraction env eng n .twoSix m i + 1 / 5 * leaveFraction env eng n .sixTwo m i +
    1 / 5 * leaveFraction env eng n .fourFour m i

/-- The probability that one sampled transition leads from member `i` to member `j`; the manifold stays
where it is unless it goes somewhere else, in the family or out of it. -/
noncomputable def openStep [Fintype ι] [DecidableEq ι] (env : Env V G) (eng : MetroEngine (Mfld V) G Mp)
    (n : ℕ) (m : ι → Mfld V) (i j : ι) : ℝ :=
  if i = j then 1 - ∑ k ∈ Finset.univ.erase i, ((transitionMass env eng n (m i) (m k).tri : ℚ) : ℝ) -
    ((leaveMass env eng n m i : ℚ) : ℝ)
  else ((transitionMass env eng n (m i) (m j).tri : ℚ) : ℝ)

open Classical in
/-- The probability, in the distribution `d`, that the next transition is a move between members that no
move undoes. -/
noncomputable def oneWayFlow [Fintype ι] (env : Env V G) (m : ι → Mfld V) (T : ι → ι → ℝ) (d : ι → ℝ) : ℝ :=
  ∑ i, ∑ j, if Joined env m i j ∧ ¬ Joined env m j i then d i * T i j else 0

/-- The probability, in the distribution `d`, that the next transition leaves the family. -/
noncomputable def leaving [Fintype ι] (env : Env V G) (eng : MetroEngine (Mfld V) G Mp) (n : ℕ) (m : ι → Mfld V)
    (d : ι → ℝ) : ℝ :=
  ∑ i, d i * ((leaveMass env eng n m i : ℚ) : ℝ)

end CDT

/-
The Markov chain the sampler runs on a finite family of manifolds, and the distribution it is meant
to sample.
-/
import Verif.Spec.Transition
import Verif.Spec.Representation
import Verif.Props.Acceptance
import Mathlib.Analysis.SpecialFunctions.Exp
import Mathlib.Algebra.BigOperators.Group.Finset.Basic

namespace CDT
open Spec

variable {V G : Type} [LinearOrder V]

/-- A finite family of pairwise different manifolds, in order and with common foliation parameters, that
no causal result of a move leaves and in which every move between two members can be undone. -/
structure ReversibleFamily {ι : Type} (env : Env V G) (m : ι → Mfld V) : Prop where
  fit : ∀ i, Fit env (m i)
  fresh : ∀ i, FreshCentroids env (m i).tri
  radius : ∀ i j, (m i).radius = (m j).radius
  spacing : ∀ i j, (m i).spacing = (m j).spacing
  different : ∀ i j, SameManifold (m i).tri (m j).tri → i = j
  closed : ∀ i mv L, MoveReturns env mv (m i).tri L → Causal L.inf L.time L.cells → ∃ j, SameManifold (m j).tri L
  undone : ∀ i j mv L, MoveReturns env mv (m i).tri L → SameManifold (m j).tri L →
    ∃ K, MoveReturns env mv.reverse (m j).tri K ∧ SameManifold (m i).tri K

/-- The probability that one sampled transition leads from member `i` to member `j`; the manifold stays
where it is unless it goes somewhere else. -/
noncomputable def stepMass {ι : Type} [Fintype ι] [DecidableEq ι] (env : Env V G) (eng : MetroEngine (Mfld V) G Mp)
    (n : ℕ) (m : ι → Mfld V) (i j : ι) : ℝ :=
  if i = j then 1 - ∑ k ∈ Finset.univ.erase i, ((transitionMass env eng n (m i) (m k).tri : ℚ) : ℝ)
  else ((transitionMass env eng n (m i) (m j).tri : ℚ) : ℝ)

/-- The distribution of the manifold after one transition. -/
def evolve {ι : Type} [Fintype ι] (T : ι → ι → ℝ) (d : ι → ℝ) : ι → ℝ := fun j => ∑ i, d i * T i j

/-- The sum of the differences of two distributions (twice their total variation distance). -/
def spread {ι : Type} [Fintype ι] (d d' : ι → ℝ) : ℝ := ∑ j, |d j - d' j|

/-- The Boltzmann distribution `exp (-S)` on the family. -/
noncomputable def boltzmann {ι : Type} [Fintype ι] (α κ Λ : ℚ) (m : ι → Mfld V) : ι → ℝ := fun j =>
  Real.exp (-Props.actionOf α κ Λ (m j).geometry) / ∑ i, Real.exp (-Props.actionOf α κ Λ (m i).geometry)

end CDT

/-
Distributions on a finite family of manifolds, and families connected by moves.
-/
import Verif.Spec.Stationary
import Verif.Spec.Reverse

namespace CDT
open Spec

/-- Probabilities of the members of a family. -/
def IsDistribution {ι : Type} [Fintype ι] (d : ι → ℝ) : Prop := (∀ i, 0 ≤ d i) ∧ ∑ i, d i = 1

variable {V G : Type} [LinearOrder V]

/-- Some move, with some draw, makes member `j` from member `i`. -/
def Joined {ι : Type} (env : Env V G) (m : ι → Mfld V) (i j : ι) : Prop :=
  ∃ mv L, MoveReturns env mv (m i).tri L ∧ SameManifold (m j).tri L

/-- Moves lead from every member to every other. -/
def ConnectedFamily {ι : Type} (env : Env V G) (m : ι → Mfld V) : Prop :=
  ∀ i j, Relation.ReflTransGen (Joined env m) i j

end CDT

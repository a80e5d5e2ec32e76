/-
What it means for two manifold values to be the same, and for a random source to be able to
select every site.
-/
import Verif.Spec.Sound
import Verif.Spec.Sites

namespace CDT
open Spec

variable {V G : Type} [LinearOrder V]

/-- `L` is the same manifold as `K`: same tetrahedra, same time values, same cell labels. -/
structure SameManifold (K L : Tri V) : Prop where
  inf : L.inf = K.inf
  cells : L.cells = K.cells
  times : ∀ v ∈ vertices K.cells, v ≠ K.inf → L.time v = K.time v
  labels : ∀ c ∈ K.cells, K.inf ∉ c → L.info c = K.info c

/-- Every index of every range is drawn by the random source in some of its states. -/
def Onto (env : Env V G) : Prop := ∀ n i, i < n → ∃ g, (env.index n g).1 = i

/-- `i` is the first vertex, in point order, of the cell `c` at which a (2,3) move is possible. -/
def FirstSite23 (K : Tri V) (c : Finset V) (i : V) : Prop :=
  ∀ j < i, ¬ ∃ q x y z, Site23 K.inf K.time K.cells j q x y z ∧ c = {j, x, y, z}

end CDT

/-
What a user sees of a whole `cdt` run: the stored triangulations, in terms of the file's vertices,
cells and labels.
-/
import Verif.Model.Assembled
import Verif.Spec.Program
import Verif.Spec.Sound

namespace CDT.Spec
open CDT

variable {V S T : Type} [LinearOrder V]

/-- `t` is the stored form of `K`: its vertices are the finite vertices of `K`, each once and with its
time value, its cells are the finite tetrahedra of `K`, each once, with their corners and labels. -/
def Depicts (t : Stored) (K : Tri V) : Prop :=
  ∃ (vertex : Fin t.nv → V) (cell : Fin t.nc → Finset V),
    vertex.Injective ∧ cell.Injective ∧
    (∀ v, (∃ i, vertex i = v) ↔ v ∈ (vertices K.cells).erase K.inf) ∧
    (∀ c, (∃ i, cell i = c) ↔ c ∈ finitePart K.inf K.cells) ∧
    (∀ i, cell i = Finset.univ.image fun k => vertex (t.corner i k)) ∧
    (∀ i, t.vinfo i = K.time (vertex i)) ∧ ∀ i, t.cinfo i = K.info (cell i)

/-- The stored triangulation is causal: the corners of every tetrahedron lie on two consecutive
slices, on both of them, and the tetrahedron is labelled by how many lie on which. -/
def CausalFile (t : Stored) : Prop :=
  ∀ c, ∃ slice n, 1 ≤ n ∧ n ≤ 3 ∧
    (Finset.univ.filter fun k => t.vinfo (t.corner c k) = slice).card = n ∧
    (Finset.univ.filter fun k => t.vinfo (t.corner c k) = slice + 1).card = 4 - n ∧
    t.cinfo c = 10 * (n : ℤ) + (4 - n)

/-- The states of a run of `cdt` on which a transition is tried: their triangles' centroids are not
vertices yet, and their counts are away from the edge of the 32-bit range. -/
def Tame (env : Env V (Random S)) (host : Host (Mfld V) S Mp T) (cfg : SimConfig) (start : Mfld V) : Prop :=
  ∀ j < transitionsAfter host cfg start cfg.passes,
    let m := (trajectory (engineOf host cfg) j (origin host cfg start)).1
    FreshCentroids env m.tri ∧ Roomy m.geometry

end CDT.Spec

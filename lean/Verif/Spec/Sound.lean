/-
The state of a manifold object that its own checks accept, in terms of the specification.
-/
import Verif.Model.Manifold
import Verif.Spec.Complex
import Verif.Spec.Contract

namespace CDT
open Spec

variable {V G : Type} [LinearOrder V]

/-- No cell at infinity carries the label 31.  CGAL leaves the info of infinite cells
uninitialised and the library never writes it, so this is an assumption about the environment;
only the (2,6) move reads such a label (see DESIGN.md, finding 14). -/
def QuietInfinity (K : Tri V) : Prop := ∀ c ∈ K.cells, K.inf ∈ c → K.info c ≠ 31

/-- A manifold in the state its public checks describe: the complex is a closed
pseudo-manifold and every finite tetrahedron carries the label of its causal type
(`is_correct()`), and every vertex carries the time value of its radius (`check_vertices()`). -/
structure Sound (env : Env V G) (K : Tri V) : Prop where
  closed : Closed K.cells
  labels : ∀ c ∈ K.cells, K.inf ∉ c →
    (K.info c = 31 ∧ HasType K.time 3 1 c) ∨ (K.info c = 22 ∧ HasType K.time 2 2 c) ∨
    (K.info c = 13 ∧ HasType K.time 1 3 c)
  times : ∀ v ∈ vertices K.cells, v ≠ K.inf → K.time v = env.label v
  quiet : QuietInfinity K

/-- A call of `do_*_move` or of `propose_*_move` for move `mv` on `K` returned `K'`. -/
def MoveReturns (env : Env V G) (mv : MoveType) (K K' : Tri V) : Prop :=
  ∃ g g', Moves.doMove env mv K g = (.ok K', g') ∨ Moves.propose env mv K g = (.ok K', g')

/-- The centroid of a finite triangle of `K` is not already a vertex of `K` (the code does not
check this; see DESIGN.md, finding 15). -/
def FreshCentroids (env : Env V G) (K : Tri V) : Prop :=
  ∀ F ∈ faces K.cells, F.card = 3 → K.inf ∉ F → env.centroid F ∉ vertices K.cells ∧ env.centroid F ≠ K.inf

end CDT

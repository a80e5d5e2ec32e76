/-
The components put together: the manifold objects, moves, postcondition check, action and
acceptance rule that `MoveStrategy<METROPOLIS>`, `MoveCommand` and `MoveStrategy<MOVE_ALWAYS>` use
in the program.
-/
import Verif.Model.Manifold
import Verif.Model.Action
import Verif.Model.Run

namespace CDT
variable {V G F : Type} [LinearOrder V]

/-- A `Manifold<3>` (include/Manifold.hpp:57-61): the foliated triangulation with its caches and the
foliation parameters; the geometry counts are computed from it (`geometryOf`). -/
structure Mfld (V : Type) where
  tri : Tri V
  caches : Caches V
  radius : BitVec 64
  spacing : BitVec 64

/-- The scalar counts of a manifold (include/Geometry.hpp:72-90, read through include/Manifold.hpp:240-312). -/
def Mfld.geometry (m : Mfld V) : Geometry := geometryOf m.tri m.caches

/-- What `check_move` reads from a manifold. -/
def Mfld.view (m : Mfld V) : ManifoldView := viewOf m.radius m.spacing m.tri m.caches

/-- The end of every move function: `make_manifold` (include/Ergodic_moves_3.hpp:198-206) builds a
manifold with the source's parameters from the mutated triangulation; the constructors compute the
caches and may throw (include/Foliated_triangulation.hpp:1640-1665).  A failed move builds nothing.
The relabelling done by the constructor is part of `Moves.doMove` and `Moves.propose`. -/
def wrapMove (env : Env V G) (source : Mfld V) :
    Except MoveFailure (Tri V) × G → Except Exc (Except MoveFailure (Mfld V)) × G
  | (.error f, g) => (.ok (.error f), g)
  | (.ok K, g) =>
    match buildCaches env K with
    | .error e => (.error e, g)
    | .ok cs => (.ok (.ok ⟨K, cs, source.radius, source.spacing⟩), g)

/-- The engine of `MoveStrategy<METROPOLIS>` (include/Metropolis.hpp:429-536): `propose_candidate`
dispatches to the `propose_*_move` functions, candidates are checked with `check_move`, the
acceptance probability is computed with MPFR from the two geometries and the parameters `p`, and
compared with the trial value by `mpfr_cmp_ld`. `drawMove` and `drawTrial` are
`generate_random_move_3` and `generate_probability`. -/
noncomputable def metroEngine (env : Env V G) (R : Rounding) (p : PhysicalParameters)
    (drawMove : G → Fin 5 × G) (drawTrial : G → LD × G) : MetroEngine (Mfld V) G Mp where
  propose mv m g := wrapMove env m (Moves.propose env mv m.tri g)
  check b a mv := checkMove b.view a.view mv
  geometry := Mfld.geometry
  prob := acceptanceProbability R p
  probGe := Mp.cmpLdGe
  drawMove := drawMove
  drawTrial := drawTrial
  n3 m := m.geometry.N3

/-- The engine of `MoveCommand` (include/Move_command.hpp:190-208): the `do_*_move` functions and
`check_move`. -/
def commandEngine (env : Env V G) : CommandEngine (Mfld V) G where
  applyMove mv m g := wrapMove env m (Moves.doMove env mv m.tri g)
  check b a mv := checkMove b.view a.view mv

/-- The engine of `MoveStrategy<MOVE_ALWAYS>` (include/Move_always.hpp:49-65, 180-205). -/
def alwaysEngine (env : Env V G) (drawMove : G → Fin 5 × G)
    (report : Mfld V → CommandResults → Eff (G × F) Unit)
    (checkpoint : Mfld V → CommandResults → Int → Eff (G × F) Unit) : AlwaysEngine (Mfld V) G F where
  toCommandEngine := commandEngine env
  n3 m := m.geometry.N3
  drawMove := drawMove
  report := report
  checkpoint := checkpoint

end CDT

import Verif.Model.Moves
/-
The helpers that try one move at one given site (include/Ergodic_moves_3.hpp: `try_23_move`, `try_32_move`,
`try_62_move`).  The first two change the triangulation they are given.
-/
namespace CDT.Moves
variable {V G : Type} [LinearOrder V]

/-- `try_23_move` (include/Ergodic_moves_3.hpp:624-630): the result and the triangulation afterwards.  A refused CGAL flip
changes nothing. -/
def tryTwoThree (env : Env V G) (K : Tri V) (c : Finset V) : Bool × Tri V :=
  match prepareTwoThree K c with
  | .error _ => (false, K)
  | .ok prepared =>
    match executeTwoThree env K prepared with
    | .error _ => (false, K)
    | .ok K' => (true, K')

/-- `try_32_move` (include/Ergodic_moves_3.hpp:794-800) at the edge between `a` and `b`. -/
def tryThreeTwo (env : Env V G) (K : Tri V) (a b : V) : Bool × Tri V :=
  match prepareThreeTwo K a b with
  | .error _ => (false, K)
  | .ok prepared =>
    match executeThreeTwo env K prepared with
    | .error _ => (false, K)
    | .ok K' => (true, K')

/-- `try_62_move_impl` (include/Ergodic_moves_3.hpp:1306-1322): works on a copy, so the source is unchanged. -/
def trySixTwoImpl (env : Env V G) (validator : Tri V → Bool) (K : Tri V) (v : V) (g : G) : Option (Tri V) × G :=
  match prepareSixTwo K v with
  | .error _ => (none, g)
  | .ok prepared =>
    match executeSixTwo env validator K prepared g with
    | (.error _, g') => (none, g')
    | (.ok K', g') => (some K', g')

/-- `try_62_move` (include/Ergodic_moves_3.hpp:1334-1342). -/
def trySixTwo (env : Env V G) (K : Tri V) (v : V) (g : G) : Option (Tri V) × G :=
  trySixTwoImpl env (fun _ => true) K v g

end CDT.Moves

/-
The cavity patterns of the five ergodic moves.
-/
import Verif.Lemmas.Cavity
import Mathlib.Data.Fin.VecNotation

namespace CDT.Cavity
open CDT.Spec

/-- (2,2) below a (3,1): `0,1` become the new edge, `2,3,4` is the flipped triangle. -/
def p23up : Pattern 5 where
  O := {{0,2,3,4},{1,2,3,4}}
  N := {{0,1,2,3},{0,1,2,4},{0,1,3,4}}
  coreO := {2,3,4}
  coreN := {0,1}
  τ := ![1,0,0,0,1]

/-- The time-reversed pattern: (2,2) next to a (1,3). -/
def p23down : Pattern 5 where
  O := {{0,2,3,4},{1,2,3,4}}
  N := {{0,1,2,3},{0,1,2,4},{0,1,3,4}}
  coreO := {2,3,4}
  coreN := {0,1}
  τ := ![0,1,1,1,0]

/-- Subdivision of the triangle `0,1,2` by the vertex `5` of relative time `d`. -/
def p26 (d : ℤ) : Pattern 6 where
  O := {{0,1,2,3},{0,1,2,4}}
  N := {{0,1,5,3},{0,2,5,3},{1,2,5,3},{0,1,5,4},{0,2,5,4},{1,2,5,4}}
  coreO := {0,1,2}
  coreN := {5}
  τ := ![0,0,0,1,-1,d]

/-- Exchange of the diagonal `0,1` for `2,3` in a spatial quadrilateral. -/
def p44 : Pattern 6 where
  O := {{0,1,2,4},{0,1,3,4},{0,1,2,5},{0,1,3,5}}
  N := {{2,3,0,4},{2,3,1,4},{2,3,0,5},{2,3,1,5}}
  coreO := {0,1}
  coreN := {2,3}
  τ := ![0,0,0,0,1,-1]

theorem good23up : p23up.Good := by constructor <;> decide +kernel
theorem good23down : p23down.Good := by constructor <;> decide +kernel
theorem timed23up : p23up.Timed := by constructor <;> decide +kernel
theorem timed23down : p23down.Timed := by constructor <;> decide +kernel
theorem good23upR : p23up.rev.Good := by constructor <;> decide +kernel
theorem good23downR : p23down.rev.Good := by constructor <;> decide +kernel
theorem timed23upR : p23up.rev.Timed := by constructor <;> decide +kernel
theorem timed23downR : p23down.rev.Timed := by constructor <;> decide +kernel
theorem good26 (d : ℤ) : (p26 d).Good := by
  constructor <;> (simp only [p26]; decide +kernel)
theorem timed26 : (p26 0).Timed := by constructor <;> decide +kernel
theorem good62 : (p26 0).rev.Good := by constructor <;> decide +kernel
theorem timed62 : (p26 0).rev.Timed := by constructor <;> decide +kernel
theorem good44 : p44.Good := by constructor <;> decide +kernel
theorem timed44 : p44.Timed := by constructor <;> decide +kernel
theorem good44R : p44.rev.Good := by constructor <;> decide +kernel

theorem delta23up : p23up.delta = ⟨0, 0, 1, 2, 0, 1, 0, 1⟩ := by decide +kernel
theorem delta23down : p23down.delta = ⟨0, 0, 1, 2, 0, 1, 0, 1⟩ := by decide +kernel
theorem delta32up : p23up.rev.delta = ⟨0, 0, -1, -2, 0, -1, 0, -1⟩ := by decide +kernel
theorem delta32down : p23down.rev.delta = ⟨0, 0, -1, -2, 0, -1, 0, -1⟩ := by decide +kernel
theorem delta26 : (p26 0).delta = ⟨1, 3, 2, 8, 2, 0, 2, 4⟩ := by decide +kernel
theorem delta62 : (p26 0).rev.delta = ⟨-1, -3, -2, -8, -2, 0, -2, -4⟩ := by decide +kernel
theorem delta44 : p44.delta = ⟨0, 0, 0, 0, 0, 0, 0, 0⟩ := by decide +kernel

end CDT.Cavity

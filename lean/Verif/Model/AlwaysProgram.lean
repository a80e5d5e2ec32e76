/-
The artifacts of include/Move_always.hpp and the remaining `write_file` overloads of
include/Utilities.hpp.

Not modelled: console and log output.
-/
import Verif.Model.Program
import Verif.Model.Run

namespace CDT

section
variable {M S P T : Type} (host : Host M S P T) (out : Outside M S)

/-- `write_file(filename, triangulation[, metadata])` (include/Utilities.hpp:1752-1778) as the last
act of the overloads below; a completed write is noted in the log. -/
def writeTo (path : Path) (m : M) (md : Option Metadata) : Eff Machine Unit := fun w =>
  match writePayload host.codec host.text host.build path (host.snapshot m) md w.disk with
  | (.error e, d) => (.error e, { w with disk := d })
  | (.ok _, d) => (.ok (), ⟨d, w.log ++ [⟨path, d.fs path, d.fs (manifestName path)⟩]⟩)

/-- `write_file(universe)` (include/Utilities.hpp:1863-1869): a payload without provenance. -/
def writeUniverse (m : M) : Eff Machine Unit := fun w =>
  writeTo host (makeFilename (nameInfo host m) (out.now w.disk.clock)) m none w

/-- `write_file(universe, seed)` (include/Utilities.hpp:1877-1884). -/
def writeUniverseSeed (m : M) (seed : BitVec 64) : Eff Machine Unit := fun w =>
  match makeMetadata host m seed .finalTriangulation with
  | .error e => (.error e, w)
  | .ok md => writeTo host (makeFilenameSeed (nameInfo host m) seed.toNat (out.now w.disk.clock)) m (some md) w

/-- `write_file(universe, seed, completed_passes)` (include/Utilities.hpp:1893-1902). -/
def writeUniversePass (m : M) (seed : BitVec 64) (completed : ℤ) : Eff Machine Unit := fun w =>
  match makeMetadata host m seed .checkpoint with
  | .error e => (.error e, w)
  | .ok md =>
    writeTo host (makeFilenamePass (nameInfo host m) seed.toNat completed (out.now w.disk.clock)) m
      (some { md with completedPasses := some completed }) w

/-- A `MoveAlways_3` with its outputs (include/Move_always.hpp:180-205): the report prints, the
checkpoint calls `write_file(current, seed(), pass_number)`, where `seed()` is that of the owned
generator (include/Move_always.hpp:146-147).  `moves`, `n3` and `draw` are the rest of the engine. -/
def mover (moves : CommandEngine M (Random S)) (n3 : M → ℤ) (draw : Random S → Fin 5 × Random S) :
    AlwaysEngine M (Random S) Machine where
  toCommandEngine := moves
  n3 := n3
  drawMove := draw
  report _ _ := fun w => (.ok (), w)
  checkpoint m _ pass := fun (g, w) =>
    match writeUniversePass host out m g.seed pass w with
    | (.error e, w') => (.error e, (g, w'))
    | (.ok _, w') => (.ok (), (g, w'))

/-- The constructor from an owned generator (include/Move_always.hpp:123-131). -/
def AlwaysStrategy.make (passes checkpoint : ℤ) (random : Random S) (writeFiles : Bool) :
    Except Exc (AlwaysStrategy (Random S)) := do
  let c ← parseMoveRunCadence passes checkpoint
  return { cadence := c, writesFiles := writeFiles, gen := random }

/-- The constructor from a seed (include/Move_always.hpp:108-115): `Random{seed}` has stream 0
(include/Random.hpp:142-147). -/
def AlwaysStrategy.ofSeed (pcg : Pcg S) (passes checkpoint : ℤ) (seed : BitVec 64) (writeFiles : Bool) :
    Except Exc (AlwaysStrategy (Random S)) :=
  AlwaysStrategy.make passes checkpoint (Random.make pcg seed 0) writeFiles

end

end CDT

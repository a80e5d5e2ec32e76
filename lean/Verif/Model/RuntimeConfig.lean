/-
Model of include/Runtime_config.hpp: validation of command-line options.
-/
import Verif.Model.Population

namespace CDT

/-- `Topology` (include/Settings.hpp). -/
inductive Topology
  | toroidal | spherical
  deriving DecidableEq, Repr

/-- `runtime_config::Triangulation` (include/Runtime_config.hpp:27-105). -/
structure TriConfig where
  topology : Topology
  simplices : ℤ
  timeslices : ℤ
  dimensions : ℤ
  initialRadius : LD
  foliationSpacing : LD
  seed : BitVec 64
  threads : ℕ
  deriving DecidableEq

/-- `runtime_config::Simulation` (include/Runtime_config.hpp:110-180). -/
structure SimConfig where
  triangulation : TriConfig
  alpha : LD
  k : LD
  lambda : LD
  passes : ℤ
  checkpoint : ℤ
  writeFiles : Bool
  deriving DecidableEq

namespace RuntimeConfig

/-- `checked_finite` (include/Runtime_config.hpp:184-195). -/
def checkedFinite (x : LD) : Except Exc LD :=
  if !x.isFinite then .error .invalidArgument else .ok x

/-- `checked_int` (include/Runtime_config.hpp:197-207). -/
def checkedInt (v : ℤ) : Except Exc ℤ :=
  if ¬ (-2 ^ 31 ≤ v ∧ v ≤ 2 ^ 31 - 1) then .error .outOfRange else .ok v

/-- `checked_threads` (include/Runtime_config.hpp:209-231); `parallel` is the build option
`CDT_ENABLE_PARALLEL_TRIANGULATION`. -/
def checkedThreads (parallel : Bool) (v : ℤ) : Except Exc ℕ :=
  if v ≤ 0 then .error .invalidArgument
  else if ¬ (0 ≤ v ∧ v ≤ 2 ^ 64 - 1) then .error .outOfRange
  else if !parallel && decide (v ≠ 1) then .error .invalidArgument
  else .ok v.toNat

/-- `select_topology` (include/Runtime_config.hpp:233-247). -/
def selectTopology (spherical toroidal : Bool) : Except Exc Topology :=
  if spherical = toroidal then .error .invalidArgument
  else if toroidal then .error .invalidArgument
  else .ok .spherical

/-- `make_generated_population` (include/Runtime_config.hpp:251-286). -/
def makeGeneratedPopulation (F : Floats) (N T : ℤ) (r s : LD) : Except Exc PopulationBounds := do
  let b ← generatedPopulationBounds F 3 N T r s
  if b.pointsPerTimeslice < 2 then throw .invalidArgument
  if (F.ext.mul (F.ext.ofInt b.pointsPerTimeslice) r).lt (.fin 2) then throw .invalidArgument
  if !b.lastLayerPoints.isFinite || (F.ext.ofInt intMax).lt b.lastLayerPoints then throw .outOfRange
  return b

/-- `make_triangulation` (include/Runtime_config.hpp:305-354). -/
def makeTriangulation (F : Floats) (parallel : Bool) (spherical toroidal : Bool)
    (simplices timeslices dimensions : ℤ) (r s : LD) (seed : BitVec 64) (threads : ℤ) :
    Except Exc TriConfig := do
  let topology ← selectTopology spherical toroidal
  let N ← checkedInt simplices
  let T ← checkedInt timeslices
  let d ← checkedInt dimensions
  if d ≠ 3 then throw .invalidArgument
  if N < 2 ∨ T < 2 then throw .invalidArgument
  let r' ← checkedFinite r
  let s' ← checkedFinite s
  if r'.le (.fin 0) then throw .invalidArgument
  if s'.le (.fin 0) then throw .invalidArgument
  let _ ← makeGeneratedPopulation F N T r' s'
  let th ← checkedThreads parallel threads
  return ⟨topology, N, T, d, r', s', seed, th⟩

/-- `make_simulation` (include/Runtime_config.hpp:370-401). -/
def makeSimulation (t : TriConfig) (alpha k lambda : LD) (passes checkpoint : ℤ) (writeFiles : Bool) :
    Except Exc SimConfig := do
  let a ← checkedFinite alpha
  let k' ← checkedFinite k
  let l ← checkedFinite lambda
  if a.le (.fin (1 / 2)) then throw .domainError
  let p ← checkedInt passes
  let c ← checkedInt checkpoint
  if p ≤ 0 then throw .invalidArgument
  if c ≤ 0 then throw .invalidArgument
  return ⟨t, a, k', l, p, c, writeFiles⟩

end RuntimeConfig
end CDT

/-
`Metropolis_3` used as a library object: construction and every call of its interface.
-/
import Verif.Model.Program

namespace CDT
variable {M S P T : Type}

/-- What is passed to the main constructor (include/Metropolis.hpp:163-169). -/
structure SamplerArgs (S : Type) where
  alpha : LD
  k : LD
  lambda : LD
  passes : ℤ
  checkpoint : ℤ
  writeFiles : Bool := true
  random : Random S
  reproducibility : Option Metadata := none

/-- The main constructor (include/Metropolis.hpp:163-193). -/
def Sampler.ofArgs (a : SamplerArgs S) : Except Exc (Sampler S) :=
  Sampler.make a.alpha a.k a.lambda a.passes a.checkpoint a.writeFiles a.random a.reproducibility

/-- The constructor with a seed (include/Metropolis.hpp:206-217). -/
def Sampler.ofSeed (pcg : Pcg S) (alpha k lambda : LD) (passes checkpoint : ℤ) (writeFiles : Bool)
    (seed : BitVec 64) : Except Exc (Sampler S) :=
  Sampler.ofArgs ⟨alpha, k, lambda, passes, checkpoint, writeFiles, Random.make pcg seed transitionsStream, none⟩

/-- The constructor without a generator (include/Metropolis.hpp:133-145): `Random{}` has an entropy
seed (include/Random.hpp:134), of which the transition stream is used. -/
def Sampler.ofEntropy (pcg : Pcg S) (alpha k lambda : LD) (passes checkpoint : ℤ) (writeFiles : Bool)
    (entropy : BitVec 64) : Except Exc (Sampler S) :=
  Sampler.ofArgs ⟨alpha, k, lambda, passes, checkpoint, writeFiles,
    (Random.make pcg entropy initializationStream).split pcg transitionsStream, none⟩

/-- One call of the interface (include/Metropolis.hpp:642-714) on the object and the machine. -/
def Sampler.call (host : Host M S P T) (out : Outside M S) (s : Sampler S) (c : MetroCall M) (w : Machine) :
    CallResult M × Sampler S × Machine :=
  let (r, strategy, w') :=
    s.strategy.call (host.engine s.parameters) (Sampler.output host out s.reproducibility) w c
  (r, { s with strategy }, w')

/-- The public `reproducibility_metadata` (include/Metropolis.hpp:265-273). -/
def Sampler.published (host : Host M S P T) (s : Sampler S) (m : M) (kind : ArtifactKind) (completed : ℤ) :
    Except Exc Metadata :=
  Sampler.metadata host s.reproducibility m kind completed s.strategy.stats

end CDT

import Verif.Model.Processes
import Verif.Spec.Program
/-
Several programs started in one directory.
-/
namespace CDT.Spec
variable {M S P T I : Type}

/-- The two programs that write artifacts. -/
inductive Tool | cdt | initialize

/-- A program to be started: which, with which words, and what its surroundings are (its entropy, its
clock, how its universe comes out, the fates of its file operations). -/
structure Job (M S : Type) where
  tool : Tool
  words : List Bytes
  out : Outside M S
  fates : ℕ → Fate

/-- The options its words say. -/
def Job.options (F : CastFloats) (j : Job M S) : Option Options :=
  match j.tool with
  | .cdt => readCommandLine cdtTable F j.words
  | .initialize => readCommandLine initializeTable F j.words

/-- Its accesses to the files. -/
def Job.steps (host : Host M S P T) (F : CastFloats) (j : Job M S) : Proc ℤ :=
  match j.tool with
  | .cdt => cdtSteps host j.out (j.options F)
  | .initialize => initializeSteps host j.out (j.options F)

/-- What it does in a directory of its own: exit status, files, artifacts. -/
def Job.alone (host : Host M S P T) (F : CastFloats) (j : Job M S) (fs : Files) : ℤ × Machine :=
  match j.tool with
  | .cdt => cdtProgram host j.out F j.words (startingWith fs j.fates)
  | .initialize => initializeProgram host j.out F j.words (startingWith fs j.fates)

/-- Its seed: the given one or else the entropy. -/
def Job.seed (F : CastFloats) (j : Job M S) : Option (BitVec 64) :=
  (j.options F).map fun o => o.seed.getD j.out.entropy

/-- The names with its seed. -/
def Job.Owns (F : CastFloats) (j : Job M S) (p : Path) : Prop := ∃ s, j.seed F = some s ∧ OwnFile s p

/-- The jobs have just been started in a directory. -/
def started (host : Host M S P T) (F : CastFloats) (jobs : I → Job M S) (fs : Files) : Directory I :=
  ⟨fs, fun i => { code := (jobs i).steps host F, fates := (jobs i).fates }⟩

end CDT.Spec

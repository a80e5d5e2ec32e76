import Verif.Spec.Directory
/-
What a program that is still running, or was killed, has left on disk.
-/
namespace CDT.Spec

/-- The name of an artifact of a program with this seed. -/
def ArtifactName (seed : BitVec 64) (p : Path) : Prop :=
  ∃ info now, p = makeFilenameSeed info seed.toNat now ∨ ∃ pass, p = makeFilenamePass info seed.toNat pass now

/-- The artifact and its manifest are there. -/
def InPlace (fs : Files) (a : Written) : Prop :=
  fs a.path = a.payload ∧ fs (a.path ++ ascii ".meta") = a.manifest

/-- Under this name nothing has changed. -/
def AsBefore (before fs : Files) (p : Path) : Prop :=
  fs p = before p ∧ fs (p ++ ascii ".meta") = before (p ++ ascii ".meta")

/-- The artifact is being published: its manifest is there, its payload is there or not yet. -/
def BeingPublished (before fs : Files) (a : Written) : Prop :=
  fs (a.path ++ ascii ".meta") = a.manifest ∧ (fs a.path = before a.path ∨ fs a.path = a.payload)

end CDT.Spec

import Verif.Model.ViewerObserved
import Verif.Spec.Viewer
import Verif.Spec.Killed
/-
Looking at universes while they are being simulated.
-/
namespace CDT.Spec
variable {M S P T I : Type} [DecidableEq I]

/-- The files at a moment: what they are after the accesses of `schedule`. -/
def filesAfter (host : Host M S P T) (F : CastFloats) (jobs : I → Job M S) (fs : Files) (schedule : List I) : Files :=
  ((started host F jobs fs).after schedule).fs

/-- The files as the viewer names them: `name` gives the name in the directory of the programs (the viewer makes
its paths absolute). -/
def underNames (name : Path → Path) (fs : Files) : Files := fun p => fs (name p)

/-- The moments follow each other. -/
def InOrder (moments : ℕ → List I) : Prop := ∀ k, moments k <+: moments (k + 1)

/-- The triangulation is what the render manifest describes, and made for these versions. -/
structure Agrees (vh : ViewerHost T) (m : ViewerManifest) (t : T) : Prop where
  versions : m.cgalVersion = vh.cgalVersion ∧ m.qtVersion = vh.qtVersion
  valid : vh.isValid t = true
  dimension : vh.codec.dimension t = 3
  nonempty : 0 < (vh.codec.view t).nv
  vertices : ((vh.codec.view t).nv : ℤ) = m.expected.vertices
  edges : (vh.codec.edges t : ℤ) = m.expected.edges
  faces : (vh.codec.facets t : ℤ) = m.expected.faces
  simplices : ((vh.codec.view t).nc : ℤ) = m.expected.simplices
  minTime : IsLeast (Set.range (vh.codec.view t).vinfo) m.expected.minimumTimeslice
  maxTime : IsGreatest (Set.range (vh.codec.view t).vinfo) m.expected.maximumTimeslice

/-- The labels of a triangulation are values of `Int_precision`. -/
def IntLabels (vh : ViewerHost T) (t : T) : Prop :=
  ∀ v, -2 ^ 31 ≤ (vh.codec.view t).vinfo v ∧ (vh.codec.view t).vinfo v < 2 ^ 31

end CDT.Spec

/-
What the viewer promises: it draws only a fixture that is the one the manifest describes.
-/
import Verif.Model.Viewer
import Verif.Spec.RenderManifest
import Verif.Spec.RenderImage
import Verif.Spec.RenderScene
import Mathlib.Data.Set.Card
import Mathlib.Order.Bounds.Basic

namespace CDT.Spec

variable {T : Type}

/-- The file the viewer is to draw: the manifest's, or the one given instead. -/
def fixturePath (host : ViewerHost T) (o : ViewerOptions) (m : ViewerManifest) : Except Exc Path :=
  if o.fixture = [] then .ok m.fixture else host.canonical o.fixture

/-- `m` is what the document named on the command line means. -/
def NamesManifest (host : ViewerHost T) (o : ViewerOptions) (fs : Files) (m : ViewerManifest) : Prop :=
  ∃ path contents doc, o.manifest = some path ∧ fs path = some contents ∧
    host.json contents = some doc ∧ Means host.flt (host.resolve path) (.obj doc) m

/-- The manifest `m` and the triangulation `t` are what the command line names, and agree: the
manifest is well formed, made for these versions of CGAL and Qt; the fixture has the digest it
declares, is an intact stored triangulation, valid, three-dimensional and not empty, and has the counts
and time range it declares. -/
structure Validated (host : ViewerHost T) (o : ViewerOptions) (fs : Files) (m : ViewerManifest) (t : T) :
    Prop where
  manifest : NamesManifest host o fs m
  fixture : ∃ path contents, fixturePath host o m = .ok path ∧ fs path = some contents ∧
    host.sha256 contents = m.sha256 ∧ readFile host.codec host.text path fs = .ok t
  versions : m.cgalVersion = host.cgalVersion ∧ m.qtVersion = host.qtVersion
  valid : host.isValid t = true
  dimension : host.codec.dimension t = 3
  nonempty : 0 < (host.codec.view t).nv
  vertices : ((host.codec.view t).nv : ℤ) = m.expected.vertices
  edges : (host.codec.edges t : ℤ) = m.expected.edges
  faces : (host.codec.facets t : ℤ) = m.expected.faces
  simplices : ((host.codec.view t).nc : ℤ) = m.expected.simplices
  minTime : IsLeast (Set.range (host.codec.view t).vinfo) m.expected.minimumTimeslice
  maxTime : IsGreatest (Set.range (host.codec.view t).vinfo) m.expected.maximumTimeslice

/-- The labels of the triangulation the viewer is to draw, if it can be read, are values of
`Int_precision`, the type `Vertex::info()` has. -/
def ReadsInts (host : ViewerHost T) (o : ViewerOptions) (fs : Files) : Prop :=
  ∀ m path t, NamesManifest host o fs m → fixturePath host o m = .ok path →
    readFile host.codec host.text path fs = .ok t →
    ∀ v, -2 ^ 31 ≤ (host.codec.view t).vinfo v ∧ (host.codec.view t).vinfo v < 2 ^ 31

/-- The application is not told to quit from outside. -/
def Unattended (events : List UiEvent) : Prop := ∀ s, UiEvent.quit s ∉ events

/-- The image has the declared size and enough foreground. -/
structure ImageOk (r : RenderConfig) (i : Image) : Prop where
  width : (i.width : ℤ) = r.width
  height : (i.height : ℤ) = r.height
  foreground : r.minimumForeground ≤ Set.ncard {p | Foreground r i p}

end CDT.Spec

import Verif.Model.ViewerConsole
import Verif.Spec.Viewer
import Verif.Spec.Console
/-
What cdt-viewer prints, stated from the fixture and the image.
-/
namespace CDT.Spec
open CDT
variable {T : Type}

/-- The announcement of reading the fixture. -/
def readingText (fixture : Path) : Bytes := sentence ["Reading from file ", "\n"] [fixture]

/-- The confirmation of the fixture: its numbers of vertices, edges, faces and tetrahedra. -/
def confirmationText (host : ViewerHost T) (fixture : Path) (t : T) : Bytes :=
  sentence ["Validated viewer fixture ", " with V/E/F/T=", "/", "/", "/", ".\n"]
    [fixture, decimal (host.codec.view t).nv, decimal (host.codec.edges t), decimal (host.codec.facets t),
     decimal (host.codec.view t).nc]

/-- The announcement of an image. -/
def imageText (width height : ℤ) (output : Path) : Bytes :=
  sentence ["Rendered ", "x", " artifact to ", ".\n"] [decimalInt width, decimalInt height, output]

/-- A message on standard error. -/
def complaint (message : Bytes) : Bytes := sentence ["cdt-viewer: ", "\n"] [message]

/-- The file holds a readable image of the manifest's size and foreground. -/
def ImageInPlace (host : ViewerHost T) (r : RenderConfig) (output : Path) (fs : Files) : Prop :=
  ∃ contents image, fs output = some contents ∧ host.decode contents = some image ∧ ImageOk r image

end CDT.Spec

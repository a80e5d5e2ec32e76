import Verif.Model.Viewer
/-
The viewer while other programs change the files: its preparation looks at the file system six times.
-/
namespace CDT

/-- Everything before the viewer starts (src/cdt-viewer.cpp:1070-1095) when other programs are running:
`look k` is the state of the files when it looks for the `k`-th time.  It reads the render manifest
(src/cdt-viewer.cpp:329-345), the fixture for its SHA-256 (lines 539-554, 1077-1081), and then `read_file`
(include/Utilities.hpp:1935-1951) looks whether there is a manifest, at the manifest, at the payload for
its checksum and at the payload for its contents.  Simplified: a file is read at one moment. -/
def prepareObserved {T : Type} (host : ViewerHost T) (o : ViewerOptions) (look : ℕ → Files) : Except Exc (Scene × RenderConfig) := do
  let path ← requiredManifest o
  let m ← loadManifest host path (look 0)
  let fixture ← chosenFixture host o m
  let contents ← orFilesystemError (look 1 fixture)
  refuseIf (decide (host.sha256 contents ≠ m.sha256))
  checkVersions host m
  let t ← readObserved host.codec host.text fixture (look 2) (look 3) (look 4) (look 5)
  validateFixture host t m
  let scene ← makeScene (host.mesh t) m.render
  return (scene, m.render)

end CDT

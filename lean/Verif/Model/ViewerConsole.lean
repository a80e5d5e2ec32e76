import Verif.Model.Viewer
import Verif.Model.Console
/-
The program src/cdt-viewer.cpp with what it prints on standard output and standard error.

Not modelled: messages of Qt and OpenGL.
-/
namespace CDT

/-- Texts from outside this model, all arbitrary: help, version and the messages of exceptions. -/
structure ViewerVoice where
  usage : Bytes
  version : Bytes
  /-- `error.what()` -/
  what : Exc → Bytes

/-- How the program ends: by returning from `main`, or by `std::terminate` because a handler of `main`
threw (`fmt::print(stderr, …)` can). -/
inductive ViewerEnd
  | exits (status : ℤ)
  | aborts
  deriving DecidableEq

/-- The files, standard output and standard error. -/
structure ViewerWorld where
  files : Files
  out : Console := {}
  err : Console := {}

section
variable {T : Type} (voice : ViewerVoice) (faults errFaults : PrintFaults) (host : ViewerHost T)

/-- `fmt::print` on standard output. -/
def sayOut (text : Bytes) : Eff ViewerWorld Unit := fun w =>
  let (r, c) := say faults text w.out
  (r, { w with out := c })

/-- A computation that reads files and prints nothing. -/
def reading {α : Type} (f : Files → Except Exc α) : Eff ViewerWorld α := fun w => (f w.files, w)

/-- `read_file` (include/Utilities.hpp:1935-1951) with its message. -/
def readFileAloud (path : Path) : Eff ViewerWorld T := fun w =>
  match sayOut faults (format "Reading from file {}\n" [path]) w with
  | (.error e, w1) => (.error e, w1)
  | (.ok _, w1) => reading (readFile host.codec host.text path) w1

/-- What happens before the fixture is read (src/cdt-viewer.cpp:1070-1091): the manifest, with the
fixture of the command line in place of its own. -/
def checkedManifest (o : ViewerOptions) (fs : Files) : Except Exc ViewerManifest := do
  let path ← requiredManifest o
  let m ← loadManifest host path fs
  let fixture ← chosenFixture host o m
  let contents ← orFilesystemError (fs fixture)
  refuseIf (decide (host.sha256 contents ≠ m.sha256))
  checkVersions host m
  return { m with fixture }

/-- src/cdt-viewer.cpp:1095-1096: validation, then the scene. -/
def validatedScene (t : T) (m : ViewerManifest) : Except Exc Scene := do
  validateFixture host t m
  makeScene (host.mesh t) m.render

/-- src/cdt-viewer.cpp:1098-1101. -/
def validatedLine (m : ViewerManifest) : Bytes :=
  format "Validated viewer fixture {} with V/E/F/T={}/{}/{}/{}.\n"
    [m.fixture, decimalInt m.expected.vertices, decimalInt m.expected.edges, decimalInt m.expected.faces,
     decimalInt m.expected.simplices]

/-- src/cdt-viewer.cpp:1106-1107. -/
def renderedLine (r : RenderConfig) (output : Path) : Bytes :=
  format "Rendered {}x{} artifact to {}.\n" [decimalInt r.width, decimalInt r.height, output]

/-- The body of `main` after the help and version options (src/cdt-viewer.cpp:1070-1110); `none` if
it never returns.  What `run_viewer` throws is a `std::runtime_error`. -/
def viewerRunAloud (o : ViewerOptions) (events : List UiEvent) (w : ViewerWorld) :
    Option (Except Exc ℤ × ViewerWorld) :=
  match reading (checkedManifest host o) w with
  | (.error e, w1) => some (.error e, w1)
  | (.ok m, w1) =>
    match readFileAloud faults host m.fixture w1 with
    | (.error e, w2) => some (.error e, w2)
    | (.ok t, w2) =>
      match validatedScene host t m with
      | .error e => some (.error e, w2)
      | .ok scene =>
        match sayOut faults (validatedLine m) w2 with
        | (.error e, w3) => some (.error e, w3)
        | (.ok _, w3) =>
          match eventLoop host scene m.render o.output events w3.files with
          | none => none
          | some (_, true, fs) => some (.error .runtimeError, { w3 with files := fs })
          | some (status, false, fs) =>
            if o.output.isEmpty then some (.ok status, { w3 with files := fs })
            else
              match sayOut faults (renderedLine m.render o.output) { w3 with files := fs } with
              | (.error e, w4) => some (.error e, w4)
              | (.ok _, w4) => some (.ok status, w4)

/-- The handlers of `main` (src/cdt-viewer.cpp:1111-1120). -/
def viewerEnd (r : Except Exc ℤ) (w : ViewerWorld) : ViewerEnd × ViewerWorld :=
  match r with
  | .ok status => (.exits status, w)
  | .error e =>
    match say errFaults (format "cdt-viewer: {}\n" [voice.what e]) w.err with
    | (.error _, c) => (.aborts, { w with err := c })
    | (.ok _, c) => (.exits 1, { w with err := c })

/-- `main` (src/cdt-viewer.cpp:1040-1120) with its output; `none` if it never returns.  An argument
list Boost refuses throws `e`. -/
def viewerMainAloud (parsed : Except Exc ViewerOptions) (events : List UiEvent) (fs : Files) :
    Option (ViewerEnd × ViewerWorld) :=
  match parsed with
  | .error e => some (viewerEnd voice errFaults (.error e) { files := fs })
  | .ok o =>
    if o.help then
      let (r, w) := sayOut faults (format "{}\n" [voice.usage]) { files := fs }
      some (viewerEnd voice errFaults (r.map fun _ => 0) w)
    else if o.version then
      let (r, w) := sayOut faults (format "cdt-viewer version {} (CGAL {}, Qt {})\n"
        [voice.version, host.cgalVersion, host.qtVersion]) { files := fs }
      some (viewerEnd voice errFaults (r.map fun _ => 0) w)
    else
      (viewerRunAloud faults host o events { files := fs }).map fun (r, w) => viewerEnd voice errFaults r w

end
end CDT

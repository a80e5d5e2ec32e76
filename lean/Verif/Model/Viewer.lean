import Verif.Model.RenderScene
import Verif.Model.Storage
/-
The program src/cdt-viewer.cpp: validation of the fixture, rendering under Qt's event loop, exit
status.

Not modelled: Boost's parsing of the argument strings, console output, OpenGL and Qt beyond the
functions of `ViewerHost`, other processes changing the files meanwhile.
-/
namespace CDT

/-- The parts of the program that are not modelled, all arbitrary. -/
structure ViewerHost (T : Type) where
  /-- `long double` -/
  ext : FloatFormat
  /-- `float` -/
  flt : FloatFormat
  codec : Codec T
  text : FloatText
  /-- `QJsonDocument::fromJson`; `none` unless the text is that of an object -/
  json : Bytes → Option (String → Json)
  /-- `weakly_canonical(path.parent_path() / s)` for a manifest at `path` -/
  resolve : Path → Bytes → Except Exc Path
  /-- `weakly_canonical` -/
  canonical : Bytes → Except Exc Path
  /-- SHA-256 in hexadecimal -/
  sha256 : Bytes → Bytes
  /-- `CGAL_VERSION_STR` -/
  cgalVersion : Bytes
  /-- `qVersion()` -/
  qtVersion : Bytes
  /-- `Delaunay::is_valid()` -/
  isValid : T → Bool
  /-- what `make_scene` reads -/
  mesh : T → Mesh
  /-- `create_directories` of the parent directory, then `saveSnapshot`: whether they return without an
  exception, and what becomes of the files.  `saveSnapshot` does not report failure. -/
  snapshot : Scene → RenderConfig → Path → Files → Bool × Files
  /-- reading an image file -/
  decode : Bytes → Option Image
  /-- `QImage::save`: the new contents of the file, or failure -/
  encode : Image → Option Bytes

/-- The command line (src/cdt-viewer.cpp:1043-1069); empty strings are absent options. -/
structure ViewerOptions where
  help : Bool := false
  version : Bool := false
  manifest : Option Bytes := none
  fixture : Bytes := []
  output : Bytes := []

/-- What Qt's event loop delivers: the viewer is initialized and its callback runs, the watchdog's
60 s are over, or the application is told to quit for another reason (its last window is closed). -/
inductive UiEvent
  | initialized
  | timeout
  | quit (status : ℤ)

section
variable {T : Type} (host : ViewerHost T)

/-- `parse_manifest` (src/cdt-viewer.cpp:327-537). -/
def loadManifest (path : Bytes) (fs : Files) : Except Exc ViewerManifest := do
  let contents ← orFilesystemError (fs path)
  match host.json contents with
  | none => .error .invalidArgument
  | some root => parseManifest host.ext host.flt (host.resolve path) root

/-- `topology_counts` (src/cdt-viewer.cpp:556-583). -/
def topologyCounts (t : T) : Except Exc TopologyCounts :=
  if !host.isValid t || decide (host.codec.dimension t ≠ 3) then .error .invalidArgument
  else if (host.codec.view t).nv = 0 then .error .invalidArgument
  else
    let labels := List.ofFn (host.codec.view t).vinfo
    .ok {
      vertices := (host.codec.view t).nv
      edges := host.codec.edges t
      faces := host.codec.facets t
      simplices := (host.codec.view t).nc
      minimumTimeslice := labels.foldl min (2 ^ 31 - 1)
      maximumTimeslice := labels.foldl max (-2 ^ 31) }

/-- `validate_fixture` (src/cdt-viewer.cpp:585-607). -/
def validateFixture (t : T) (m : ViewerManifest) : Except Exc PUnit := do
  let actual ← topologyCounts host t
  refuseIf (decide (actual.vertices ≠ m.expected.vertices ∨ actual.edges ≠ m.expected.edges ∨
    actual.faces ≠ m.expected.faces ∨ actual.simplices ≠ m.expected.simplices ∨
    actual.minimumTimeslice ≠ m.expected.minimumTimeslice ∨
    actual.maximumTimeslice ≠ m.expected.maximumTimeslice))

/-- `outline_face_boundaries` (src/cdt-viewer.cpp:820-910). -/
def outlineFile (r : RenderConfig) (path : Path) (fs : Files) : Except Exc Files :=
  if !r.drawsScreenSpaceEdges then .ok fs
  else match (fs path).bind host.decode with
    | none => .error .runtimeError
    | some source =>
      match host.encode (outline r source) with
      | none => .error .runtimeError
      | some contents => .ok (fs.put path (some contents))

/-- `validate_image` (src/cdt-viewer.cpp:935-966); the size in the header of an image file is that of
the image. -/
def validateImage (r : RenderConfig) (path : Path) (fs : Files) : Except Exc Unit :=
  match (fs path).bind host.decode with
  | none => .error .runtimeError
  | some image =>
    if (image.width : ℤ) ≠ r.width ∨ (image.height : ℤ) ≠ r.height then .error .runtimeError
    else if (foregroundPixels image r : ℤ) < r.minimumForeground then .error .runtimeError
    else .ok ()

/-- The callback of a run with `--output` (src/cdt-viewer.cpp:987-1019): the exit status it asks for,
whether `render_error` is set, and the files. -/
def renderCallback (scene : Scene) (r : RenderConfig) (output : Path) (fs : Files) : ℤ × Bool × Files :=
  match host.snapshot scene r output fs with
  | (false, fs) => (1, true, fs)
  | (true, fs) =>
    match outlineFile host r output fs with
    | .error _ => (1, true, fs)
    | .ok fs =>
      match validateImage host r output fs with
      | .error _ => (1, true, fs)
      | .ok _ => (0, false, fs)

/-- `application.exec()` with the callbacks of `run_viewer` (src/cdt-viewer.cpp:984-1036): events are
handled one at a time until one asks for the end; `none` if none does.  Without an output file there is
no watchdog, and the callback only configures the camera. -/
def eventLoop (scene : Scene) (r : RenderConfig) (output : Path) : List UiEvent → Files → Option (ℤ × Bool × Files)
  | [], _ => none
  | .quit status :: _, fs => some (status, false, fs)
  | .timeout :: rest, fs => if output.isEmpty then eventLoop scene r output rest fs else some (1, true, fs)
  | .initialized :: rest, fs =>
    if output.isEmpty then eventLoop scene r output rest fs
    else some (renderCallback host scene r output fs)

/-- `po::notify` with the required option (src/cdt-viewer.cpp:1050-1052, 1070). -/
def requiredManifest (o : ViewerOptions) : Except Exc Bytes :=
  match o.manifest with
  | none => .error .logicError
  | some p => .ok p

/-- The fixture to draw (src/cdt-viewer.cpp:1072-1076). -/
def chosenFixture (o : ViewerOptions) (m : ViewerManifest) : Except Exc Path :=
  if o.fixture.isEmpty then .ok m.fixture else host.canonical o.fixture

/-- The version check (src/cdt-viewer.cpp:1082-1090). -/
def checkVersions (m : ViewerManifest) : Except Exc Unit :=
  if m.cgalVersion ≠ host.cgalVersion ∨ m.qtVersion ≠ host.qtVersion then .error .runtimeError else .ok ()

/-- Everything before the viewer starts (src/cdt-viewer.cpp:1070-1095). -/
def prepareScene (o : ViewerOptions) (fs : Files) : Except Exc (Scene × RenderConfig) := do
  let path ← requiredManifest o
  let m ← loadManifest host path fs
  let fixture ← chosenFixture host o m
  let contents ← orFilesystemError (fs fixture)
  refuseIf (decide (host.sha256 contents ≠ m.sha256))
  checkVersions host m
  let t ← readFile host.codec host.text fixture fs
  validateFixture host t m
  let scene ← makeScene (host.mesh t) m.render
  return (scene, m.render)

/-- `main` (src/cdt-viewer.cpp:1040-1120) on a parsed command line (`none` if parsing threw): exit
status and files; `none` if it never returns. -/
def viewerMain (parsed : Option ViewerOptions) (events : List UiEvent) (fs : Files) : Option (ℤ × Files) :=
  match parsed with
  | none => some (1, fs)
  | some o =>
    if o.help then some (0, fs)
    else if o.version then some (0, fs)
    else match prepareScene host o fs with
      | .error _ => some (1, fs)
      | .ok (scene, r) =>
        match eventLoop host scene r o.output events fs with
        | none => none
        | some (_, true, fs') => some (1, fs')
        | some (status, false, fs') => some (status, fs')

end
end CDT

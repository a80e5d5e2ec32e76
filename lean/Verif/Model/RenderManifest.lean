import Verif.Model.Float
import Verif.Model.Trailer
/-
The render manifest of the viewer (src/cdt-viewer.cpp:87-537).

Not modelled: the text form of JSON (`QJsonDocument::fromJson`) and the wording of error messages.
-/
namespace CDT

/-- A `QJsonValue`.  An object is the function `QJsonObject::value`, which gives `undefined` for a
missing key. -/
inductive Json
  | undefined
  | null
  | bool (b : Bool)
  | num (x : LD)
  | str (s : Bytes)
  | arr (items : List Json)
  | obj (value : String → Json)

/-- `if (condition) throw std::invalid_argument`. -/
def refuseIf (condition : Bool) : Except Exc PUnit :=
  if condition then .error .invalidArgument else .ok .unit

/-- A colour with channels 0..255: `QColor` made from channels, `QRgb`, a pixel of an RGBA8888
image. -/
structure Rgba where
  r : Fin 256
  g : Fin 256
  b : Fin 256
  a : Fin 256
  deriving DecidableEq

/-- `Topology_counts` (src/cdt-viewer.cpp:87-95). -/
structure TopologyCounts where
  vertices : ℤ
  edges : ℤ
  faces : ℤ
  simplices : ℤ
  minimumTimeslice : ℤ
  maximumTimeslice : ℤ
  deriving DecidableEq

/-- `Camera_config` (src/cdt-viewer.cpp:97-104). -/
structure CameraConfig where
  projection : Bytes
  position : ℚ × ℚ × ℚ
  target : ℚ × ℚ × ℚ
  up : ℚ × ℚ × ℚ
  fieldOfView : ℚ
  deriving DecidableEq

/-- `Render_config` (src/cdt-viewer.cpp:106-129). -/
structure RenderConfig where
  width : ℤ
  height : ℤ
  transparentBackground : Bool
  oversampling : ℚ
  expandFrustum : Bool
  background : Rgba
  drawVertices : Bool
  drawEdges : Bool
  drawFaces : Bool
  vertexScope : Bytes
  edgeScope : Bytes
  pointSize : LD
  lineWidth : LD
  edgeThreshold : ℤ
  pointTolerance : ℤ
  flatShading : Bool
  pointColor : Rgba
  edgeColor : Rgba
  facePalette : List (Fin 256 × Fin 256 × Fin 256)
  camera : CameraConfig
  minimumForeground : ℤ
  deriving DecidableEq

/-- `Viewer_manifest` (src/cdt-viewer.cpp:142-150). -/
structure ViewerManifest where
  fixture : Bytes
  sha256 : Bytes
  expected : TopologyCounts
  cgalVersion : Bytes
  qtVersion : Bytes
  render : RenderConfig
  deriving DecidableEq

namespace Json

/-- `require_object` (src/cdt-viewer.cpp:179-189). -/
def requireObject (parent : String → Json) (key : String) : Except Exc (String → Json) :=
  match parent key with
  | .obj f => .ok f
  | _ => .error .invalidArgument

/-- `require_array` (src/cdt-viewer.cpp:191-201). -/
def requireArray (parent : String → Json) (key : String) : Except Exc (List Json) :=
  match parent key with
  | .arr l => .ok l
  | _ => .error .invalidArgument

/-- `require_string` (src/cdt-viewer.cpp:203-214). -/
def requireString (parent : String → Json) (key : String) : Except Exc Bytes :=
  match parent key with
  | .str s => if s.isEmpty then .error .invalidArgument else .ok s
  | _ => .error .invalidArgument

/-- `require_bool` (src/cdt-viewer.cpp:216-226). -/
def requireBool (parent : String → Json) (key : String) : Except Exc Bool :=
  match parent key with
  | .bool b => .ok b
  | _ => .error .invalidArgument

/-- `value.isDouble() && std::isfinite(value.toDouble())`. -/
def finiteNumber : Json → Except Exc ℚ
  | .num (.fin q) => .ok q
  | _ => .error .invalidArgument

/-- `require_number` (src/cdt-viewer.cpp:228-239). -/
def requireNumber (parent : String → Json) (key : String) : Except Exc ℚ := finiteNumber (parent key)

/-- `MAX_EXACT_JSON_INTEGER` (src/cdt-viewer.cpp:241). -/
def maxExactInteger : ℚ := 9007199254740991

/-- `require_integer` (src/cdt-viewer.cpp:243-264) for an integer type with the given limits, which
`long double` holds exactly. -/
def requireInteger (least greatest : ℤ) (parent : String → Json) (key : String) : Except Exc ℤ := do
  let number ← requireNumber parent key
  refuseIf (decide ((truncQ number : ℚ) ≠ number ∨ number < least ∨ number > greatest ∨
    number < -maxExactInteger ∨ number > maxExactInteger))
  return truncQ number

/-- `require_integer<int>` and `require_integer<Int_precision>`. -/
def requireInt := requireInteger (-2 ^ 31) (2 ^ 31 - 1)

/-- `require_integer<std::size_t>`. -/
def requireSize := requireInteger 0 (2 ^ 64 - 1)

/-- `require_vector` (src/cdt-viewer.cpp:266-289). -/
def requireVector (parent : String → Json) (key : String) : Except Exc (ℚ × ℚ × ℚ) := do
  match ← requireArray parent key with
  | [x, y, z] => do
    let x ← finiteNumber x
    let y ← finiteNumber y
    let z ← finiteNumber z
    return (x, y, z)
  | _ => .error .invalidArgument

/-- One colour channel (src/cdt-viewer.cpp:301-316, 378-391).  NaN differs from its truncation, and
infinities are out of range, so both are refused like other non-integers. -/
def channel : Json → Except Exc (Fin 256)
  | .num (.fin q) =>
    if (truncQ q : ℚ) ≠ q ∨ q < 0 ∨ q > 255 then .error .invalidArgument
    else .ok (Fin.ofNat 256 (truncQ q).toNat)
  | _ => .error .invalidArgument

/-- `require_color` (src/cdt-viewer.cpp:291-317). -/
def requireColor (parent : String → Json) (key : String) : Except Exc Rgba := do
  match ← requireArray parent key with
  | [r, g, b, a] => do
    let r ← channel r
    let g ← channel g
    let b ← channel b
    let a ← channel a
    return ⟨r, g, b, a⟩
  | _ => .error .invalidArgument

/-- One entry of the face palette (src/cdt-viewer.cpp:365-393). -/
def paletteEntry : Json → Except Exc (Fin 256 × Fin 256 × Fin 256)
  | .arr [r, g, b] => do
    let r ← channel r
    let g ← channel g
    let b ← channel b
    return (r, g, b)
  | _ => .error .invalidArgument

end Json

/-- `std::ceil`. -/
def LD.ceil : LD → LD
  | .fin q => .fin ⌈q⌉
  | x => x

/-- `std::numeric_limits<float>::max()`. -/
def floatMax : ℚ := (2 ^ 24 - 1) * 2 ^ 104

/-- `std::numbers::pi`, the `double` nearest to π. -/
def piDouble : ℚ := 884279719003555 / 281474976710656

/-- `MAX_SNAPSHOT_PIXELS` (src/cdt-viewer.cpp:419). -/
def maxSnapshotPixels : ℤ := 268435456

/-- The frame-buffer checks (src/cdt-viewer.cpp:419-434): `true` means refused. -/
def frameTooLarge (F : FloatFormat) (width height : ℤ) (oversampling : ℚ) : Bool :=
  let sampledWidth := (F.mul (F.ofInt width) (.fin oversampling)).ceil
  let sampledHeight := (F.mul (F.ofInt height) (.fin oversampling)).ceil
  (F.ofInt (2 ^ 31 - 1)).lt sampledWidth || (F.ofInt (2 ^ 31 - 1)).lt sampledHeight ||
    (F.ofInt maxSnapshotPixels).lt (F.mul sampledWidth sampledHeight)

section
open Json

/-- `parse_manifest` from the root object on (src/cdt-viewer.cpp:346-537).  `resolve` is
`weakly_canonical(path.parent_path() / s)`; `ext` is `long double`, `flt` is `float`. -/
def parseManifest (ext flt : FloatFormat) (resolve : Bytes → Except Exc Bytes) (root : String → Json) :
    Except Exc ViewerManifest := do
  let schema ← requireInt root "schema_version"
  refuseIf (decide (schema ≠ 1))
  let fixture ← requireObject root "fixture"
  let topology ← requireObject fixture "expected_topology"
  let renderer ← requireObject root "renderer"
  let render ← requireObject root "render"
  let geometry ← requireObject render "geometry"
  let style ← requireObject render "style"
  let camera ← requireObject render "camera"
  let checks ← requireObject root "comparison"
  let fixturePath ← resolve (← requireString fixture "path")
  let palette ← (← requireArray style "face_palette").mapM paletteEntry
  refuseIf palette.isEmpty
  let width ← requireInt render "width"
  let height ← requireInt render "height"
  let pointSize ← requireNumber style "point_size"
  let lineWidth ← requireNumber style "line_width"
  let oversampling ← requireNumber render "oversampling"
  refuseIf (decide (width ≤ 0 ∨ height ≤ 0 ∨ pointSize ≤ 0 ∨ lineWidth ≤ 0 ∨ pointSize > floatMax ∨
    lineWidth > floatMax))
  refuseIf (decide (oversampling < 1 ∨ oversampling > 8))
  refuseIf (frameTooLarge ext width height oversampling)
  let minimumForeground ← requireSize checks "minimum_foreground_pixels"
  refuseIf (decide (width > (2 ^ 64 - 1) / height ∨ minimumForeground > width * height))
  let format ← requireString render "output_format"
  refuseIf (decide (format ≠ ascii "png"))
  let sha256 ← requireString fixture "sha256"
  let vertices ← requireSize topology "vertices"
  let edges ← requireSize topology "edges"
  let faces ← requireSize topology "faces"
  let simplices ← requireSize topology "simplices"
  let minimumTimeslice ← requireInt topology "minimum_timeslice"
  let maximumTimeslice ← requireInt topology "maximum_timeslice"
  let cgalVersion ← requireString renderer "cgal_version"
  let qtVersion ← requireString renderer "qt_version"
  let transparentBackground ← requireBool render "transparent_background"
  let expandFrustum ← requireBool render "expand_frustum"
  let background ← requireColor style "background_rgba"
  let drawVertices ← requireBool geometry "vertices"
  let drawEdges ← requireBool geometry "edges"
  let drawFaces ← requireBool geometry "faces"
  let vertexScope ← requireString geometry "vertex_scope"
  let edgeScope ← requireString geometry "edge_scope"
  let edgeThreshold ← requireInt style "edge_color_difference_threshold"
  let pointTolerance ← requireInt style "point_color_match_tolerance"
  let flatShading ← requireBool style "flat_shading"
  let pointColor ← requireColor style "point_rgba"
  let edgeColor ← requireColor style "edge_rgba"
  let projection ← requireString camera "projection"
  let position ← requireVector camera "position"
  let target ← requireVector camera "target"
  let up ← requireVector camera "up"
  let fieldOfView ← requireNumber camera "vertical_field_of_view_radians"
  refuseIf (decide (projection ≠ ascii "perspective" ∧ projection ≠ ascii "orthographic"))
  refuseIf (decide (edgeScope ≠ ascii "all" ∧ edgeScope ≠ ascii "screen_space_face_boundaries"))
  refuseIf (decide (vertexScope ≠ ascii "all" ∧ vertexScope ≠ ascii "convex_hull"))
  refuseIf (decide (edgeThreshold < 0 ∨ edgeThreshold > 765))
  refuseIf (decide (pointTolerance < 0 ∨ pointTolerance > 765))
  refuseIf (decide (fieldOfView ≤ 0 ∨ fieldOfView ≥ piDouble))
  return {
    fixture := fixturePath, sha256, cgalVersion, qtVersion
    expected := { vertices, edges, faces, simplices, minimumTimeslice, maximumTimeslice }
    render := {
      width, height, transparentBackground, oversampling, expandFrustum, background, drawVertices,
      drawEdges, drawFaces, vertexScope, edgeScope, pointSize := flt.rnd pointSize,
      lineWidth := flt.rnd lineWidth, edgeThreshold, pointTolerance, flatShading, pointColor,
      edgeColor, facePalette := palette, minimumForeground
      camera := { projection, position, target, up, fieldOfView } } }

end
end CDT

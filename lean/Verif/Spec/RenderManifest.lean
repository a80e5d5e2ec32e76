/-
The schema of a render manifest, read off docs and error messages: which JSON documents are accepted
and what they mean.
-/
import Verif.Model.RenderManifest

namespace CDT.Spec

/-- The value at a path of keys. -/
def look : Json → List String → Json
  | j, [] => j
  | .obj f, k :: ks => look (f k) ks
  | _, _ :: _ => .undefined

/-- A JSON integer in the given range that a `double` cannot have rounded. -/
def IsInteger (least greatest : ℤ) (j : Json) (n : ℤ) : Prop :=
  j = .num (.fin n) ∧ least ≤ n ∧ n ≤ greatest ∧ |n| < 2 ^ 53

/-- A value of a 32-bit `int`. -/
abbrev IsJsonInt := IsInteger (-2 ^ 31) (2 ^ 31 - 1)

/-- A nonnegative count. -/
abbrev IsCount := IsInteger 0 (2 ^ 64 - 1)

/-- A nonempty string. -/
def IsText (j : Json) (s : Bytes) : Prop := j = .str s ∧ s ≠ []

/-- A colour channel. -/
def chan (c : Fin 256) : Json := .num (.fin (c.val : ℚ))

/-- An RGBA colour. -/
def IsColor (j : Json) (c : Rgba) : Prop := j = .arr [chan c.r, chan c.g, chan c.b, chan c.a]

/-- A list of RGB colours. -/
def IsPalette (j : Json) (l : List (Fin 256 × Fin 256 × Fin 256)) : Prop :=
  j = .arr (l.map fun c => .arr [chan c.1, chan c.2.1, chan c.2.2])

/-- Three coordinates. -/
def IsVector (j : Json) (v : ℚ × ℚ × ℚ) : Prop :=
  j = .arr [.num (.fin v.1), .num (.fin v.2.1), .num (.fin v.2.2)]

/-- The document means the manifest `m`: every field is there, has the right kind, lies in its range
and has the value `m` holds.  Sizes of points and lines are rounded to `float`. -/
structure Means (flt : FloatFormat) (resolve : Bytes → Except Exc Bytes) (doc : Json)
    (m : ViewerManifest) : Prop where
  schema : look doc ["schema_version"] = .num (.fin 1)
  fixture : ∃ s, IsText (look doc ["fixture", "path"]) s ∧ resolve s = .ok m.fixture
  sha256 : IsText (look doc ["fixture", "sha256"]) m.sha256
  vertices : IsCount (look doc ["fixture", "expected_topology", "vertices"]) m.expected.vertices
  edges : IsCount (look doc ["fixture", "expected_topology", "edges"]) m.expected.edges
  faces : IsCount (look doc ["fixture", "expected_topology", "faces"]) m.expected.faces
  simplices : IsCount (look doc ["fixture", "expected_topology", "simplices"]) m.expected.simplices
  minTime : IsJsonInt (look doc ["fixture", "expected_topology", "minimum_timeslice"])
    m.expected.minimumTimeslice
  maxTime : IsJsonInt (look doc ["fixture", "expected_topology", "maximum_timeslice"])
    m.expected.maximumTimeslice
  cgal : IsText (look doc ["renderer", "cgal_version"]) m.cgalVersion
  qt : IsText (look doc ["renderer", "qt_version"]) m.qtVersion
  width : IsJsonInt (look doc ["render", "width"]) m.render.width ∧ 0 < m.render.width
  height : IsJsonInt (look doc ["render", "height"]) m.render.height ∧ 0 < m.render.height
  format : look doc ["render", "output_format"] = .str (ascii "png")
  transparent : look doc ["render", "transparent_background"] = .bool m.render.transparentBackground
  oversampling : look doc ["render", "oversampling"] = .num (.fin m.render.oversampling) ∧
    1 ≤ m.render.oversampling ∧ m.render.oversampling ≤ 8
  frustum : look doc ["render", "expand_frustum"] = .bool m.render.expandFrustum
  drawVertices : look doc ["render", "geometry", "vertices"] = .bool m.render.drawVertices
  drawEdges : look doc ["render", "geometry", "edges"] = .bool m.render.drawEdges
  drawFaces : look doc ["render", "geometry", "faces"] = .bool m.render.drawFaces
  vertexScope : look doc ["render", "geometry", "vertex_scope"] = .str m.render.vertexScope ∧
    m.render.vertexScope ∈ [ascii "all", ascii "convex_hull"]
  edgeScope : look doc ["render", "geometry", "edge_scope"] = .str m.render.edgeScope ∧
    m.render.edgeScope ∈ [ascii "all", ascii "screen_space_face_boundaries"]
  background : IsColor (look doc ["render", "style", "background_rgba"]) m.render.background
  pointColor : IsColor (look doc ["render", "style", "point_rgba"]) m.render.pointColor
  edgeColor : IsColor (look doc ["render", "style", "edge_rgba"]) m.render.edgeColor
  palette : IsPalette (look doc ["render", "style", "face_palette"]) m.render.facePalette ∧
    m.render.facePalette ≠ []
  pointSize : ∃ q, look doc ["render", "style", "point_size"] = .num (.fin q) ∧ 0 < q ∧ q ≤ floatMax ∧
    m.render.pointSize = flt.rnd q
  lineWidth : ∃ q, look doc ["render", "style", "line_width"] = .num (.fin q) ∧ 0 < q ∧ q ≤ floatMax ∧
    m.render.lineWidth = flt.rnd q
  edgeThreshold : look doc ["render", "style", "edge_color_difference_threshold"] =
    .num (.fin m.render.edgeThreshold) ∧ 0 ≤ m.render.edgeThreshold ∧ m.render.edgeThreshold ≤ 765
  pointTolerance : look doc ["render", "style", "point_color_match_tolerance"] =
    .num (.fin m.render.pointTolerance) ∧ 0 ≤ m.render.pointTolerance ∧ m.render.pointTolerance ≤ 765
  flat : look doc ["render", "style", "flat_shading"] = .bool m.render.flatShading
  projection : look doc ["render", "camera", "projection"] = .str m.render.camera.projection ∧
    m.render.camera.projection ∈ [ascii "perspective", ascii "orthographic"]
  position : IsVector (look doc ["render", "camera", "position"]) m.render.camera.position
  target : IsVector (look doc ["render", "camera", "target"]) m.render.camera.target
  up : IsVector (look doc ["render", "camera", "up"]) m.render.camera.up
  fieldOfView : look doc ["render", "camera", "vertical_field_of_view_radians"] =
    .num (.fin m.render.camera.fieldOfView) ∧ 0 < m.render.camera.fieldOfView ∧
    m.render.camera.fieldOfView < piDouble
  foreground : IsCount (look doc ["comparison", "minimum_foreground_pixels"]) m.render.minimumForeground ∧
    m.render.minimumForeground ≤ m.render.width * m.render.height

/-- A frame buffer of `width` by `height` pixels is practical: its sides are `int`s and it has at most
2²⁸ pixels. -/
def Practical (width height : ℤ) : Prop :=
  width < 2 ^ 31 ∧ height < 2 ^ 31 ∧ width * height ≤ 2 ^ 28

end CDT.Spec

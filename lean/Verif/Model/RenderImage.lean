import Verif.Model.RenderManifest
/-
Image post-processing of the viewer (src/cdt-viewer.cpp:795-966).

Not modelled: the PNG format and colour-space conversion; an image is its RGBA8888 pixels
(`convertToFormat` is the identity on them).
-/
namespace CDT

/-- A `QImage` in format RGBA8888: its size and the pixel in column `x` of row `y`. -/
structure Image where
  width : ℕ
  height : ℕ
  pixel : ℕ → ℕ → Rgba

/-- `color_distance` (src/cdt-viewer.cpp:795-800). -/
def colorDistance (p q : Rgba) : ℤ :=
  |(p.r.val : ℤ) - q.r.val| + |(p.g.val : ℤ) - q.g.val| + |(p.b.val : ℤ) - q.b.val|

/-- `set_rgba_pixel` (src/cdt-viewer.cpp:811-818). -/
def Image.set (i : Image) (x y : ℕ) (c : Rgba) : Image :=
  { i with pixel := fun x' y' => if x' = x ∧ y' = y then c else i.pixel x' y' }

/-- `draws_scene_edges` (src/cdt-viewer.cpp:131-133). -/
def RenderConfig.drawsSceneEdges (r : RenderConfig) : Bool :=
  r.drawEdges && decide (r.edgeScope = ascii "all")

/-- `draws_screen_space_edges` (src/cdt-viewer.cpp:135-140). -/
def RenderConfig.drawsScreenSpaceEdges (r : RenderConfig) : Bool :=
  r.drawEdges && decide (r.edgeScope = ascii "screen_space_face_boundaries")

/-- `boundary_with` (src/cdt-viewer.cpp:847-851). -/
def boundaryWith (r : RenderConfig) (color neighbor : Rgba) : Bool :=
  decide (neighbor.a ≠ 0) && decide (colorDistance color neighbor > r.edgeThreshold)

/-- The body of the first loop nest at one pixel (src/cdt-viewer.cpp:843-873). -/
def outlineStep (r : RenderConfig) (source : Image) (y : ℕ) (outlined : Image) (x : ℕ) : Image :=
  let color := source.pixel x y
  if color.a = 0 then outlined
  else
    let right := decide (x + 1 < source.width) && boundaryWith r color (source.pixel (x + 1) y)
    let lower := decide (y + 1 < source.height) && boundaryWith r color (source.pixel x (y + 1))
    if right || lower then
      let outlined := outlined.set x y r.edgeColor
      if LD.lt (.fin 1) r.lineWidth then
        let outlined := if right then outlined.set (x + 1) y r.edgeColor else outlined
        if lower then outlined.set x (y + 1) r.edgeColor else outlined
      else outlined
    else outlined

/-- `is_point` (src/cdt-viewer.cpp:877-880). -/
def isPoint (r : RenderConfig) (color : Rgba) : Bool :=
  decide (color.a ≠ 0) && decide (colorDistance color r.pointColor ≤ r.pointTolerance)

/-- The body of the second loop nest at one pixel (src/cdt-viewer.cpp:889-903). -/
def pointStep (r : RenderConfig) (source : Image) (y : ℕ) (outlined : Image) (x : ℕ) : Image :=
  if !isPoint r (source.pixel x y) then outlined
  else
    let interior := decide (x > 0) && decide (x + 1 < source.width) && decide (y > 0) &&
      decide (y + 1 < source.height) && isPoint r (source.pixel (x - 1) y) &&
      isPoint r (source.pixel (x + 1) y) && isPoint r (source.pixel x (y - 1)) &&
      isPoint r (source.pixel x (y + 1))
    if !interior then outlined.set x y r.edgeColor else outlined

/-- A loop nest over rows and, within a row, columns. -/
def forPixels (source : Image) (body : ℕ → Image → ℕ → Image) (start : Image) : Image :=
  (List.range source.height).foldl (fun i y => (List.range source.width).foldl (body y) i) start

/-- The outlined image of `outline_face_boundaries` (src/cdt-viewer.cpp:831-904). -/
def outline (r : RenderConfig) (source : Image) : Image :=
  forPixels source (pointStep r source) (forPixels source (outlineStep r source) source)

/-- `foreground_pixels` (src/cdt-viewer.cpp:912-933). -/
def foregroundPixels (i : Image) (r : RenderConfig) : ℕ :=
  (List.range i.height).foldl (fun count y =>
    (List.range i.width).foldl (fun count x =>
      let color := i.pixel x y
      if (if r.transparentBackground then decide (color.a ≠ 0) else decide (color ≠ r.background))
      then count + 1 else count) count) 0

end CDT

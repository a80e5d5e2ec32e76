/-
What outlining does to each pixel, and what counts as foreground.
-/
import Verif.Model.RenderImage

namespace CDT.Spec

variable (r : RenderConfig) (source : Image)

/-- Position `(x, y)` lies in the image and is not fully transparent. -/
def Opaque (x y : ℕ) : Prop := x < source.width ∧ y < source.height ∧ (source.pixel x y).a ≠ 0

/-- Two positions are separated by a visible boundary: both are in the image, neither is transparent,
and their colours differ by more than the threshold. -/
def Separated (x y x' y' : ℕ) : Prop :=
  Opaque source x y ∧ Opaque source x' y' ∧
    r.edgeThreshold < colorDistance (source.pixel x y) (source.pixel x' y')

/-- The position has the colour of a vertex mark. -/
def Mark (x y : ℕ) : Prop :=
  Opaque source x y ∧ colorDistance (source.pixel x y) r.pointColor ≤ r.pointTolerance

/-- The position is inside a vertex mark: it and its four neighbours belong to marks. -/
def MarkInterior (x y : ℕ) : Prop :=
  0 < x ∧ 0 < y ∧ Mark r source (x - 1) y ∧ Mark r source (x + 1) y ∧ Mark r source x (y - 1) ∧
    Mark r source x (y + 1)

/-- The positions painted in the edge colour: those separated from their right or lower neighbour,
with wide lines also those separated from their left or upper neighbour, and the rims of marks. -/
def Painted (x y : ℕ) : Prop :=
  Separated r source x y (x + 1) y ∨ Separated r source x y x (y + 1) ∨
  (LD.lt (.fin 1) r.lineWidth = true ∧
    (0 < x ∧ Separated r source (x - 1) y x y ∨ 0 < y ∧ Separated r source x (y - 1) x y)) ∨
  (Mark r source x y ∧ ¬ MarkInterior r source x y)

/-- The position counts as foreground. -/
def Foreground (i : Image) (p : ℕ × ℕ) : Prop :=
  p.1 < i.width ∧ p.2 < i.height ∧
    if r.transparentBackground then (i.pixel p.1 p.2).a ≠ 0 else i.pixel p.1 p.2 ≠ r.background

end CDT.Spec

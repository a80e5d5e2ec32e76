/-
Points and boxes.
-/
import Verif.Model.LockBox

namespace CDT.Spec
open CDT

/-- The point with these coordinates, each a value of type `double`. -/
def PointAt (F : FloatFormat) (p : FPoint) (x y z : ℚ) : Prop :=
  p = ⟨.fin x, .fin y, .fin z⟩ ∧ F.rnd x = .fin x ∧ F.rnd y = .fin y ∧ F.rnd z = .fin z

/-- All coordinates are finite values of type `double`. -/
def DoublePoints (F : FloatFormat) (ps : List FPoint) : Prop := ∀ p ∈ ps, ∃ x y z, PointAt F p x y z

/-- The box contains the position, faces included. -/
structure Covers (b : BBox) (x y z : ℚ) : Prop where
  x : b.xmin.le (.fin x) = true ∧ (LD.fin x).le b.xmax = true
  y : b.ymin.le (.fin y) = true ∧ (LD.fin y).le b.ymax = true
  z : b.zmin.le (.fin z) = true ∧ (LD.fin z).le b.zmax = true

/-- The distance of the position from each face is more than zero. -/
structure StrictlyInside (b : BBox) (x y z : ℚ) : Prop where
  x : b.xmin.lt (.fin x) = true ∧ (LD.fin x).lt b.xmax = true
  y : b.ymin.lt (.fin y) = true ∧ (LD.fin y).lt b.ymax = true
  z : b.zmin.lt (.fin z) = true ∧ (LD.fin z).lt b.zmax = true

/-- The distance of the position from each face is at least `m`. -/
structure Margin (b : BBox) (m x y z : ℚ) : Prop where
  x : b.xmin.le (.fin (x - m)) = true ∧ (LD.fin (x + m)).le b.xmax = true
  y : b.ymin.le (.fin (y - m)) = true ∧ (LD.fin (y + m)).le b.ymax = true
  z : b.zmin.le (.fin (z - m)) = true ∧ (LD.fin (z + m)).le b.zmax = true

/-- The position is, in each coordinate, between two of the points: every position in their convex
hull is. -/
def BetweenPoints (F : FloatFormat) (ps : List FPoint) (x y z : ℚ) : Prop :=
  (∃ p ∈ ps, ∃ a b c, PointAt F p a b c ∧ a ≤ x) ∧ (∃ p ∈ ps, ∃ a b c, PointAt F p a b c ∧ x ≤ a) ∧
  (∃ p ∈ ps, ∃ a b c, PointAt F p a b c ∧ b ≤ y) ∧ (∃ p ∈ ps, ∃ a b c, PointAt F p a b c ∧ y ≤ b) ∧
  (∃ p ∈ ps, ∃ a b c, PointAt F p a b c ∧ c ≤ z) ∧ (∃ p ∈ ps, ∃ a b c, PointAt F p a b c ∧ z ≤ c)

/-- Two of the points are at least `e` apart along some axis. -/
def SpreadBy (F : FloatFormat) (ps : List FPoint) (e : ℚ) : Prop :=
  ∃ p ∈ ps, ∃ q ∈ ps, ∃ x y z x' y' z', PointAt F p x y z ∧ PointAt F q x' y' z' ∧
    (e ≤ x' - x ∨ e ≤ y' - y ∨ e ≤ z' - z)

end CDT.Spec

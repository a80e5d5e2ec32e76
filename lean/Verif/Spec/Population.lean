/-
Specification of the size of a generated triangulation, independent of the program's control flow.
-/
import Mathlib.Algebra.BigOperators.Group.Finset.Basic
import Verif.Model.Float

namespace CDT.Spec
open CDT

/-- The historical schedules: simplices per slice times 2/5, 1/5, 3/20 and 1/10, each with its own
ceiling on the request. -/
def populationSchedule (N T : ℕ) : ℕ :=
  ([2 * min N 1000 / (5 * T), min N 10000 / (5 * T), 3 * min N 100000 / (20 * T), N / (10 * T)] : List ℕ).foldr max 0

/-- The smallest base population that is ever requested. -/
def leastPopulation (N T : ℕ) : ℕ := if N ≤ T then 2 else 8

/-- The base population: the schedules plus a quarter, rounded up, and at least the least. -/
def estimate (N T : ℕ) : ℕ := max (leastPopulation N T) ⌈(5 / 4 : ℚ) * populationSchedule N T⌉₊

/-- With base population `p`, layer `i` of a ball with first radius `r` and spacing `s` gets `n`
points: `p (r + i s)` is evaluated in floating point without overflow and truncated, and the result
fits a 32-bit integer. -/
def LayerCount (F : Floats) (p : ℕ) (r s : ℚ) (i n : ℕ) : Prop :=
  ∃ x y z, F.dbl.rnd (i * s) = .fin x ∧ F.dbl.rnd (r + x) = .fin y ∧ F.ext.rnd (p * y) = .fin z ∧
    0 ≤ z ∧ z ≤ 2 ^ 31 - 1 ∧ (n : ℤ) = ⌊z⌋

/-- The base population `p` fits under the largest value that the last radius allows. -/
def FitsLastRadius (F : Floats) (p : ℕ) (T : ℕ) (r s : ℚ) : Prop :=
  (p : ℤ) ≤ 2 ^ 31 - 1 ∧
  ∃ x y, F.ext.rnd ((T - 1 : ℤ) * s) = .fin x ∧ F.ext.rnd (r + x) = .fin y ∧
    (LD.fin p).le (F.ext.rnd ((2 ^ 31 - 1) / y)) = true

/-- A positive 32-bit count. -/
def Count32 (n : ℕ) : Prop := 1 ≤ n ∧ n ≤ 2 ^ 31 - 1

/-- Arguments that are not refused outright: three dimensions, positive counts, a positive radius and
a positive spacing, both finite. -/
def Proper (dim N T : ℤ) (r s : LD) : Prop :=
  dim = 3 ∧ 0 < N ∧ 0 < T ∧ (∃ a : ℚ, 0 < a ∧ r = .fin a) ∧ ∃ b : ℚ, 0 < b ∧ s = .fin b

/-- A request whose generated population is feasible: every layer gets at least two points and at
most `INT_MAX`, and so does the closed form evaluated for the last layer. -/
def Feasible (F : Floats) (N T : ℕ) (r s : ℚ) : Prop :=
  FitsLastRadius F (estimate N T) T r s ∧
  (∀ i < T, ∃ n, 2 ≤ n ∧ LayerCount F (estimate N T) r s i n) ∧
  ∃ x y z, F.ext.rnd ((T - 1 : ℤ) * s) = .fin x ∧ F.ext.rnd (r + x) = .fin y ∧
    F.ext.rnd (estimate N T * y) = .fin z ∧ z ≤ 2 ^ 31 - 1

end CDT.Spec

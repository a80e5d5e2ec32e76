/-
C40: generated layers carry their layer's time value.
-/
import Verif.Lemmas.Geometry

namespace CDT.Props
open CDT Spec

/-- `make_foliated_ball` radius of layer `i` (include/Foliated_triangulation.hpp:1279-1280), over
the reals; the points of that layer are emitted with time `i + 1` (line 1297). -/
noncomputable def layerRadius (I S : ℝ) (i : ℕ) : ℝ := I + i * S

/-- `lround` of a number strictly within one half of an integer is that integer. -/
theorem lround_near {x : ℝ} {t : ℤ} (h : |x - t| < 1 / 2) : lround x = t := by
  rw [abs_lt] at h
  unfold lround
  split
  · rw [Int.floor_eq_iff]; constructor <;> linarith
  · have : ⌊-x + 1 / 2⌋ = -t := by
      rw [Int.floor_eq_iff]; push_cast; constructor <;> linarith
    rw [this]; ring

/-- C40.  Every point closer than half a spacing to the radius of slice `t` gets time value `t`, for
every initial radius and every positive spacing (also for slices below the first). -/
theorem C40_near_slice {I S r : ℝ} (hS : 0 < S) {t : ℤ} (h : |r - sliceRadius I S t| < S / 2) :
    timevalue I S r = t := by
  apply lround_near
  have e : (r - I + S) / S - t = (r - sliceRadius I S t) / S := by
    unfold sliceRadius; field_simp; ring
  rw [e, abs_div, abs_of_pos hS, div_lt_iff₀ hS]
  linarith

/-- C40.  The half spacing is sharp: at exactly half a spacing above a positive slice the point
already belongs to the next slice. -/
theorem C40_half_is_sharp {I S : ℝ} (hS : 0 < S) {t : ℤ} (ht : 0 ≤ t) :
    timevalue I S (sliceRadius I S t + S / 2) = t + 1 := by
  have e : (sliceRadius I S t + S / 2 - I + S) / S = t + 1 / 2 := by
    unfold sliceRadius; field_simp; ring
  have ht' : (0 : ℝ) ≤ t := by exact_mod_cast ht
  unfold timevalue lround
  rw [e, if_pos (by linarith), Int.floor_eq_iff]
  push_cast
  constructor <;> linarith

/-- C40.  Points generated for layer `i` carry time value `i + 1`, the value stored with them. -/
theorem C40_generated_layer {I S : ℝ} (hS : 0 < S) (i : ℕ) :
    timevalue I S (layerRadius I S i) = i + 1 := by
  apply C40_near_slice hS
  have : layerRadius I S i - sliceRadius I S (i + 1) = 0 := by
    unfold layerRadius sliceRadius; push_cast; ring
  rw [this, abs_zero]; linarith

/-- C40.  Expected radius and time value are mutually inverse: the time value of the expected radius
is the time, and the expected radius of a point's time value differs from its radius by at most
half a spacing, with equality of radii exactly on the slices. -/
theorem C40_mutually_inverse {I S : ℝ} (hS : 0 < S) :
    (∀ t, timevalue I S (sliceRadius I S t) = t) ∧
    (∀ r, |r - sliceRadius I S (timevalue I S r)| ≤ S / 2) ∧
    (∀ r, sliceRadius I S (timevalue I S r) = r ↔ ∃ t, r = sliceRadius I S t) := by
  have h1 : ∀ t, timevalue I S (sliceRadius I S t) = t := fun t => timevalue_slice hS t
  refine ⟨h1, ?_, ?_⟩
  · intro r
    have key : ∀ x : ℝ, |x - lround x| ≤ 1 / 2 := by
      intro x
      unfold lround
      split
      · have a := Int.floor_le (x + 1 / 2)
        have b := Int.lt_floor_add_one (x + 1 / 2)
        rw [abs_le]; constructor <;> linarith
      · have a := Int.floor_le (-x + 1 / 2)
        have b := Int.lt_floor_add_one (-x + 1 / 2)
        push_cast
        rw [abs_le]; constructor <;> linarith
    have e : r - sliceRadius I S (timevalue I S r) =
        S * ((r - I + S) / S - (timevalue I S r : ℤ)) := by
      unfold sliceRadius; field_simp; ring
    rw [e, abs_mul, abs_of_pos hS]
    have := key ((r - I + S) / S)
    have h2 : |(r - I + S) / S - (timevalue I S r : ℤ)| ≤ 1 / 2 := this
    nlinarith
  · intro r
    constructor
    · intro h; exact ⟨_, h.symm⟩
    · rintro ⟨t, rfl⟩; rw [h1]

/-- C40.  Rounding errors do not matter below the half-spacing margin: if the quotient that is
rounded has been computed with an error smaller than what separates the exact point from the edge
of its slice, the label is still `t`. -/
theorem C40_robust {I S r q : ℝ} (hS : 0 < S) {t : ℤ} {d e : ℝ}
    (hd : |r - sliceRadius I S t| ≤ d) (hq : |q - (r - I + S) / S| ≤ e) (h : d / S + e < 1 / 2) :
    lround q = t := by
  apply lround_near
  have e1 : (r - I + S) / S - t = (r - sliceRadius I S t) / S := by
    unfold sliceRadius; field_simp; ring
  have e2 : |(r - I + S) / S - t| ≤ d / S := by
    rw [e1, abs_div, abs_of_pos hS]
    exact div_le_div_of_nonneg_right hd hS.le
  calc |q - t| = |(q - (r - I + S) / S) + ((r - I + S) / S - t)| := by ring_nf
    _ ≤ |q - (r - I + S) / S| + |(r - I + S) / S - t| := abs_add_le _ _
    _ < 1 / 2 := by linarith

theorem lround_add_one (x : ℝ) : lround x + 1 ≤ lround (x + 1) := by
  unfold lround
  split_ifs with h1 h2 h2
  · rw [show x + 1 + 1 / 2 = x + 1 / 2 + 1 by ring, Int.floor_add_one]
  · linarith
  · by_cases h : -x < 1 / 2
    · have e : ⌊-x + 1 / 2⌋ = 0 := by rw [Int.floor_eq_iff]; push_cast; constructor <;> linarith
      have : 1 ≤ ⌊x + 1 + 1 / 2⌋ := by rw [Int.le_floor]; push_cast; linarith
      omega
    · have e : ⌊-x + 1 / 2⌋ = 1 := by rw [Int.floor_eq_iff]; push_cast; constructor <;> linarith
      have : 0 ≤ ⌊x + 1 + 1 / 2⌋ := by rw [Int.le_floor]; push_cast; linarith
      omega
  · have : -x + 1 / 2 = -(x + 1) + 1 / 2 + 1 := by ring
    rw [this, Int.floor_add_one]; omega

/-- C40.  Radii at least one spacing apart get different labels, in the same order. -/
theorem C40_layers_ordered {I S r s : ℝ} (hS : 0 < S) (h : r + S ≤ s) :
    timevalue I S r < timevalue I S s := by
  have h1 : timevalue I S r + 1 ≤ timevalue I S (r + S) := by
    have e : (r + S - I + S) / S = (r - I + S) / S + 1 := by field_simp; ring
    unfold timevalue
    rw [e]
    exact lround_add_one _
  have h2 : timevalue I S (r + S) ≤ timevalue I S s := timevalue_mono hS h
  omega

example : timevalue 1 1 (layerRadius 1 1 4) = 5 := by
  rw [C40_generated_layer (by norm_num)]; norm_num

example : |(1.3 : ℝ) - sliceRadius 1 1 1| < 1 / 2 := by
  unfold sliceRadius; norm_num [abs_lt]

end CDT.Props

/-
Facts about rounding, radii and centroids.
-/
import Verif.Spec.Geometry
import Mathlib.Tactic.Linarith
import Mathlib.Tactic.Ring
import Mathlib.Tactic.FieldSimp

namespace CDT.Spec

theorem lround_le_iff {x : ℝ} {t : ℤ} (ht : 0 ≤ t) : lround x ≤ t ↔ x < t + 1 / 2 := by
  unfold lround
  split
  · rw [← Int.lt_add_one_iff, Int.floor_lt]; push_cast; constructor <;> intro h <;> linarith
  · rename_i hx
    have : 0 ≤ ⌊-x + 1 / 2⌋ := Int.floor_nonneg.2 (by linarith)
    have ht' : (0 : ℝ) ≤ t := by exact_mod_cast ht
    constructor
    · intro _; linarith
    · intro _; omega

theorem le_lround_iff {x : ℝ} {t : ℤ} (ht : 1 ≤ t) : t ≤ lround x ↔ t - 1 / 2 ≤ x := by
  rw [← not_lt, ← Int.le_sub_one_iff, lround_le_iff (by omega), not_lt]
  push_cast
  constructor <;> intro h <;> linarith

theorem lround_mono {x y : ℝ} (h : x ≤ y) : lround x ≤ lround y := by
  unfold lround
  split <;> split
  · exact Int.floor_le_floor (by linarith)
  · linarith
  · rename_i h1 h2
    have a : 0 ≤ ⌊-x + 1 / 2⌋ := Int.floor_nonneg.2 (by linarith)
    have b : 0 ≤ ⌊y + 1 / 2⌋ := Int.floor_nonneg.2 (by linarith)
    omega
  · have := Int.floor_le_floor (a := -y + 1 / 2) (b := -x + 1 / 2) (by linarith)
    omega

theorem timevalue_mono {I S r s : ℝ} (hS : 0 < S) (h : r ≤ s) : timevalue I S r ≤ timevalue I S s :=
  lround_mono ((div_le_div_iff_of_pos_right hS).2 (by linarith))

theorem le_timevalue_iff {I S r : ℝ} {t : ℤ} (hS : 0 < S) (ht : 1 ≤ t) :
    t ≤ timevalue I S r ↔ sliceRadius I S t - S / 2 ≤ r := by
  unfold timevalue sliceRadius
  rw [le_lround_iff ht, le_div_iff₀ hS]
  constructor <;> intro h <;> nlinarith

theorem timevalue_slice {I S : ℝ} (hS : 0 < S) (t : ℤ) : timevalue I S (sliceRadius I S t) = t := by
  have e : (sliceRadius I S t - I + S) / S = t := by
    unfold sliceRadius; field_simp; ring
  unfold timevalue
  rw [e]
  unfold lround
  split
  · rw [Int.floor_eq_iff]; constructor <;> linarith
  · rw [← Int.cast_neg, neg_eq_iff_eq_neg, Int.floor_eq_iff]; push_cast; constructor <;> linarith

theorem norm_centroid_le {a b c : Point} {r : ℝ} (ha : ‖a‖ ≤ r) (hb : ‖b‖ ≤ r) (hc : ‖c‖ ≤ r) :
    ‖centroid a b c‖ ≤ r := by
  have h1 := norm_add_le (a + b) c
  have h2 := norm_add_le a b
  unfold centroid
  rw [norm_smul, Real.norm_of_nonneg (by norm_num)]
  linarith

/-- The centroid's radius in terms of the radii and the edge lengths. -/
theorem norm_centroid_sq (a b c : Point) :
    ‖centroid a b c‖ ^ 2 = (‖a‖ ^ 2 + ‖b‖ ^ 2 + ‖c‖ ^ 2) / 3 -
      (‖a - b‖ ^ 2 + ‖b - c‖ ^ 2 + ‖a - c‖ ^ 2) / 9 := by
  simp only [centroid, EuclideanSpace.norm_sq_eq, Fin.sum_univ_three, PiLp.sub_apply, PiLp.add_apply,
    PiLp.smul_apply, Real.norm_eq_abs, sq_abs, smul_eq_mul]
  ring

end CDT.Spec

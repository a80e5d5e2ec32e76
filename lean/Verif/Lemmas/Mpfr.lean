/-
Enclosures of rounded MPFR results.
-/
import Verif.Model.Mpfr
import Mathlib.Tactic.Linarith
import Mathlib.Tactic.NormNum
import Mathlib.Tactic.Positivity
import Mathlib.Tactic.Ring

namespace CDT.Mp
variable {R : Rounding}

/-- `m` is a real number between `-2^n` and `2^n`. -/
def B (n : ℤ) (m : Mp) : Prop := ∃ x, m = .fin x ∧ |x| ≤ (2 : ℝ) ^ n

theorem pow_le {m n : ℤ} (h : m ≤ n) : (2 : ℝ) ^ m ≤ (2 : ℝ) ^ n := zpow_le_zpow_right₀ (by norm_num) h

theorem B.mono {m n : ℤ} {a : Mp} (h : B m a) (hn : m ≤ n) : B n a := by
  obtain ⟨x, e, hx⟩ := h
  exact ⟨x, e, hx.trans (pow_le hn)⟩

theorem rnd_fin (hR : R.Lawful) {x : ℝ} {n : ℤ} (hn : n ≤ 2 ^ 30) (h : |x| ≤ (2 : ℝ) ^ n) :
    ∃ y, R.rnd x = .fin y :=
  hR.finite x (h.trans (pow_le hn))

theorem rnd_B (hR : R.Lawful) {x : ℝ} {n : ℤ} (h0 : 0 ≤ n) (hn : n ≤ 2 ^ 30) (h : |x| ≤ (2 : ℝ) ^ n) :
    B n (R.rnd x) := by
  obtain ⟨y, hy⟩ := rnd_fin hR hn h
  have ha : |n| ≤ 2 ^ 30 := by rw [abs_of_nonneg h0]; exact hn
  rw [abs_le] at h
  refine ⟨y, hy, abs_le.2 ⟨?_, ?_⟩⟩
  · exact hR.mono _ _ _ _ h.1 (hR.negPow n ha) hy
  · exact hR.mono _ _ _ _ h.2 hy (hR.pow n ha)

/-- Rounding does not cross an integer. -/
theorem rnd_ge (hR : R.Lawful) {x y : ℝ} {n : ℤ} (hn : |n| ≤ 2 ^ 256) (h : (n : ℝ) ≤ x) (hy : R.rnd x = .fin y) :
    (n : ℝ) ≤ y := hR.mono _ _ _ _ h (hR.int n hn) hy

theorem rnd_le (hR : R.Lawful) {x y : ℝ} {n : ℤ} (hn : |n| ≤ 2 ^ 256) (h : x ≤ n) (hy : R.rnd x = .fin y) :
    y ≤ (n : ℝ) := hR.mono _ _ _ _ h hy (hR.int n hn)

theorem int_B (hR : R.Lawful) {z : ℤ} {n : ℤ} (h0 : 0 ≤ n) (hn : n ≤ 2 ^ 30) (h : |(z : ℝ)| ≤ (2 : ℝ) ^ n) :
    B n (fromInteger R z) := rnd_B hR h0 hn h

theorem mul_B (hR : R.Lawful) {m n : ℤ} {a b : Mp} (ha : B m a) (hb : B n b) (h0 : 0 ≤ m + n)
    (h : m + n ≤ 2 ^ 30) : B (m + n) (mul R a b) := by
  obtain ⟨x, rfl, hx⟩ := ha
  obtain ⟨y, rfl, hy⟩ := hb
  refine rnd_B hR h0 h ?_
  rw [abs_mul, zpow_add₀ (by norm_num : (2 : ℝ) ≠ 0)]
  gcongr

theorem add_B (hR : R.Lawful) {n : ℤ} {a b : Mp} (ha : B n a) (hb : B n b) (h0 : 0 ≤ n + 1)
    (h : n + 1 ≤ 2 ^ 30) : B (n + 1) (add R a b) := by
  obtain ⟨x, rfl, hx⟩ := ha
  obtain ⟨y, rfl, hy⟩ := hb
  refine rnd_B hR h0 h ?_
  rw [zpow_add₀ (by norm_num : (2 : ℝ) ≠ 0)]
  have := abs_add_le x y
  have e : (2 : ℝ) ^ (1 : ℤ) = 2 := by norm_num
  rw [e]; linarith

theorem sub_B (hR : R.Lawful) {n : ℤ} {a b : Mp} (ha : B n a) (hb : B n b) (h0 : 0 ≤ n + 1)
    (h : n + 1 ≤ 2 ^ 30) : B (n + 1) (sub R a b) := by
  obtain ⟨x, rfl, hx⟩ := ha
  obtain ⟨y, rfl, hy⟩ := hb
  refine rnd_B hR h0 h ?_
  rw [zpow_add₀ (by norm_num : (2 : ℝ) ≠ 0)]
  have := abs_sub x y
  have e : (2 : ℝ) ^ (1 : ℤ) = 2 := by norm_num
  rw [e]; linarith

theorem neg_B (hR : R.Lawful) {n : ℤ} {a : Mp} (ha : B n a) (h0 : 0 ≤ n) (h : n ≤ 2 ^ 30) :
    B n (neg R a) := by
  obtain ⟨x, rfl, hx⟩ := ha
  refine rnd_B hR h0 h ?_
  rwa [abs_neg]

/-- Division by a number at least one does not increase magnitudes. -/
theorem div_B (hR : R.Lawful) {n : ℤ} {a : Mp} {y : ℝ} (ha : B n a) (hy : 1 ≤ y) (h0 : 0 ≤ n) (h : n ≤ 2 ^ 30) :
    B n (div R a (.fin y)) := by
  obtain ⟨x, rfl, hx⟩ := ha
  have : y ≠ 0 := by linarith
  simp only [div, this, if_false]
  refine rnd_B hR h0 h ?_
  rw [abs_div, abs_of_pos (by linarith : 0 < y)]
  exact (div_le_self (abs_nonneg x) hy).trans hx

theorem sqrt_bound {x : ℝ} {n : ℤ} (h0 : 0 ≤ n) (hx : |x| ≤ (2 : ℝ) ^ n) : |Real.sqrt x| ≤ (2 : ℝ) ^ n := by
  rw [abs_of_nonneg (Real.sqrt_nonneg x)]
  have h1 : (1 : ℝ) ≤ 2 ^ n := one_le_zpow₀ (by norm_num) h0
  rw [Real.sqrt_le_left (by linarith)]
  calc x ≤ |x| := le_abs_self x
    _ ≤ 2 ^ n := hx
    _ = 1 * 2 ^ n := by ring
    _ ≤ 2 ^ n * 2 ^ n := by gcongr
    _ = (2 ^ n) ^ 2 := by ring

/-- The square root of a number at least `z ∈ {0, 1}` is a number at least `z`. -/
theorem sqrt_B (hR : R.Lawful) {n : ℤ} {x : ℝ} (hx : |x| ≤ (2 : ℝ) ^ n) (hp : 0 ≤ x) (h0 : 0 ≤ n) (h : n ≤ 2 ^ 30) :
    ∃ y, sqrt R (.fin x) = .fin y ∧ |y| ≤ (2 : ℝ) ^ n ∧ 0 ≤ y ∧ (1 ≤ x → 1 ≤ y) := by
  obtain ⟨y, e, hy⟩ := rnd_B hR h0 h (sqrt_bound h0 hx)
  refine ⟨y, ?_, hy, ?_, ?_⟩
  · simp only [sqrt, not_lt.2 hp, if_false]; exact e
  · have := rnd_ge hR (n := 0) (by norm_num) (by simpa using Real.sqrt_nonneg x) e
    simpa using this
  · intro h1
    have := rnd_ge hR (n := 1) (by norm_num) (by simpa using h1) e
    simpa using this

theorem arsinh_le {x : ℝ} (hx : 0 ≤ x) : Real.arsinh x ≤ x := by
  rw [← Real.sinh_le_sinh, Real.sinh_arsinh]
  exact Real.self_le_sinh_iff.2 hx

theorem asinh_B (hR : R.Lawful) {n : ℤ} {a : Mp} (ha : B n a) (h0 : 0 ≤ n) (h : n ≤ 2 ^ 30) :
    B n (asinh R a) := by
  obtain ⟨x, rfl, hx⟩ := ha
  refine rnd_B hR h0 h (le_trans ?_ hx)
  rcases le_total 0 x with hp | hp
  · rw [abs_of_nonneg hp, abs_of_nonneg (Real.arsinh_nonneg_iff.2 hp)]
    exact arsinh_le hp
  · have h2 := arsinh_le (x := -x) (by linarith)
    rw [Real.arsinh_neg] at h2
    rw [abs_of_nonpos hp, abs_of_nonpos (Real.arsinh_nonpos_iff.2 hp)]
    exact h2

theorem acos_B (hR : R.Lawful) {x : ℝ} (h1 : -1 ≤ x) (h2 : x ≤ 1) : B 2 (acos R (.fin x)) := by
  have : ¬ (x < -1 ∨ 1 < x) := by rintro (h | h) <;> linarith
  simp only [acos, this, if_false]
  refine rnd_B hR (by norm_num) (by norm_num) ?_
  rw [abs_of_nonneg (Real.arccos_nonneg x)]
  have e : (2 : ℝ) ^ (2 : ℤ) = 4 := by norm_num
  rw [e]
  exact (Real.arccos_le_pi x).trans Real.pi_le_four

theorem pi_B (hR : R.Lawful) : B 2 (pi R) := by
  refine rnd_B hR (by norm_num) (by norm_num) ?_
  rw [abs_of_nonneg Real.pi_pos.le]
  have e : (2 : ℝ) ^ (2 : ℤ) = 4 := by norm_num
  rw [e]; exact Real.pi_le_four

end CDT.Mp

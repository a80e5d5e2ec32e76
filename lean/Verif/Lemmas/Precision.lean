/-
Error propagation through the MPFR operations: `Near k M v x` says that the computed value `v` is a
number within `k` units of 2^-255 of `x`, relative to a scale `M ≥ 1` that bounds `x`.
-/
import Verif.Spec.Precision
import Verif.Lemmas.Mpfr
import Mathlib.Analysis.Calculus.MeanValue
import Mathlib.Analysis.SpecialFunctions.Trigonometric.InverseDeriv

namespace CDT.Mp
open CDT Spec
variable {R : Rounding}

/-- The unit in which errors are counted. -/
noncomputable def du : ℝ := 2 ^ (-255 : ℤ)

theorem du_pos : 0 < du := by unfold du; positivity
theorem du_small : 1000000 * du ≤ 1 / 8 := by unfold du; norm_num

/-- Scales that cannot overflow. -/
noncomputable def top : ℝ := (2 : ℝ) ^ (2 ^ 29 : ℤ)

theorem two_top : 4 * top ≤ (2 : ℝ) ^ (2 ^ 30 : ℤ) := by
  unfold top
  have : (4 : ℝ) * 2 ^ (2 ^ 29 : ℤ) = 2 ^ (2 + 2 ^ 29 : ℤ) := by
    rw [zpow_add₀ (by norm_num)]; norm_num
  rw [this]
  exact pow_le (by norm_num)

/-- The computed value `v` is within `k` units of `x` relative to the scale `M`. -/
def Near (k M : ℝ) (v : Mp) (x : ℝ) : Prop :=
  ∃ y, v = .fin y ∧ |y - x| ≤ k * du * M ∧ |x| ≤ M

theorem rnd_near (hR : R.Lawful) (hP : R.Precise) {x M : ℝ} (hx : |x| ≤ M) (h1 : 1 ≤ M) (hM : M ≤ 4 * top) :
    ∃ y, R.rnd x = .fin y ∧ |y - x| ≤ du * M := by
  obtain ⟨y, hy⟩ := hR.finite x (hx.trans (hM.trans two_top))
  refine ⟨y, hy, ?_⟩
  have e : du = 2 * (2 : ℝ) ^ (-256 : ℤ) := by unfold du; norm_num
  have p : (0 : ℝ) < 2 ^ (-256 : ℤ) := by positivity
  by_cases h : (2 : ℝ) ^ (-(2 ^ 30) : ℤ) ≤ |x|
  · have := hP x y h hy
    nlinarith [abs_nonneg x]
  · have hlt := (not_le.1 h).le
    have hx' := abs_le.1 hlt
    have a1 := hR.mono x _ _ _ hx'.2 hy (hR.pow (-(2 ^ 30)) (by norm_num))
    have a2 := hR.mono _ x _ _ hx'.1 (hR.negPow (-(2 ^ 30)) (by norm_num)) hy
    have s : (2 : ℝ) ^ (-(2 ^ 30) : ℤ) ≤ 2 ^ (-256 : ℤ) := pow_le (by norm_num)
    have : |y - x| ≤ 2 * 2 ^ (-(2 ^ 30) : ℤ) := by
      rw [abs_le]; constructor <;> linarith [hx'.1, hx'.2]
    nlinarith

/-- Rounding an approximation costs two more units. -/
theorem round_near (hR : R.Lawful) (hP : R.Precise) {z x M k : ℝ} (hz : |z - x| ≤ k * du * M) (hx : |x| ≤ M)
    (h1 : 1 ≤ M) (hM : M ≤ top) (hk : k ≤ 1000) : Near (k + 2) M (R.rnd z) x := by
  have h2 : |z| ≤ 2 * M := by
    have := abs_sub_abs_le_abs_sub z x
    have d := du_small
    have : k * du ≤ 1000 * du := by nlinarith [du_pos]
    nlinarith [du_pos]
  obtain ⟨y, hy, he⟩ := rnd_near hR hP h2 (by linarith) (by linarith)
  refine ⟨y, hy, ?_, hx⟩
  have := abs_sub_le y z x
  linarith

theorem Near.mono {k k' M M' : ℝ} {v : Mp} {x : ℝ} (h : Near k M v x) (hk : k ≤ k') (hM : M ≤ M') (h0 : 0 ≤ k)
    : Near k' M' v x := by
  obtain ⟨y, hy, he, hx⟩ := h
  refine ⟨y, hy, he.trans ?_, hx.trans hM⟩
  have hM0 : 0 ≤ M := (abs_nonneg x).trans hx
  have := du_pos
  have : 0 ≤ k' := h0.trans hk
  gcongr

/-- An exact number. -/
theorem near_self {x M : ℝ} (h : |x| ≤ M) : Near 0 M (.fin x) x := ⟨x, rfl, by simp, h⟩

theorem near_rnd (hR : R.Lawful) (hP : R.Precise) {x M : ℝ} (h : |x| ≤ M) (h1 : 1 ≤ M) (hM : M ≤ top) :
    Near 2 M (R.rnd x) x := by
  have := round_near hR hP (z := x) (x := x) (k := 0) (by simp) h h1 hM (by norm_num)
  simpa using this

theorem near_mul (hR : R.Lawful) (hP : R.Precise) {k₁ k₂ M₁ M₂ : ℝ} {v w : Mp} {x z : ℝ}
    (h : Near k₁ M₁ v x) (h' : Near k₂ M₂ w z) (M : ℝ) (hm : M₁ * M₂ ≤ M) (h1 : 1 ≤ M) (hM : M ≤ top)
    (k01 : 0 ≤ k₁) (k02 : 0 ≤ k₂) (k1 : k₁ ≤ 400) (k2 : k₂ ≤ 400) :
    Near (k₁ + k₂ + 3) M (Mp.mul R v w) (x * z) := by
  obtain ⟨a, rfl, ea, bx⟩ := h
  obtain ⟨b, rfl, eb, bz⟩ := h'
  have M10 : 0 ≤ M₁ := (abs_nonneg x).trans bx
  have M20 : 0 ≤ M₂ := (abs_nonneg z).trans bz
  have d := du_pos
  have ds := du_small
  have hb : |b| ≤ M₂ + k₂ * du * M₂ := by have := abs_sub_abs_le_abs_sub b z; linarith
  have e : |a * b - x * z| ≤ (k₁ + k₂ + 1) * du * M := by
    have e1 : a * b - x * z = (a - x) * b + x * (b - z) := by ring
    have h1 : |(a - x) * b| ≤ (k₁ * du * M₁) * (M₂ + k₂ * du * M₂) := by
      rw [abs_mul]; gcongr
    have h2 : |x * (b - z)| ≤ M₁ * (k₂ * du * M₂) := by
      rw [abs_mul]; gcongr
    have h3 := abs_add_le ((a - x) * b) (x * (b - z))
    have hkk : k₁ * k₂ * du ≤ 1 := by
      have : k₁ * k₂ ≤ 400 * 400 := by gcongr
      nlinarith
    have h4 : (k₁ * du * M₁) * (M₂ + k₂ * du * M₂) + M₁ * (k₂ * du * M₂) =
        (k₁ + k₂) * du * (M₁ * M₂) + (k₁ * k₂ * du) * du * (M₁ * M₂) := by ring
    have h5 : (k₁ * k₂ * du) * du * (M₁ * M₂) ≤ 1 * du * (M₁ * M₂) := by gcongr
    have h6 : (k₁ + k₂ + 1) * du * (M₁ * M₂) ≤ (k₁ + k₂ + 1) * du * M := by gcongr
    rw [e1]
    linarith [show (k₁ + k₂ + 1) * du * (M₁ * M₂) = (k₁ + k₂) * du * (M₁ * M₂) + 1 * du * (M₁ * M₂) by ring]
  have bm : |x * z| ≤ M := by
    rw [abs_mul]
    exact (mul_le_mul bx bz (abs_nonneg _) M10).trans hm
  have := round_near hR hP e bm h1 hM (by linarith)
  have ek : k₁ + k₂ + 1 + 2 = k₁ + k₂ + 3 := by ring
  rw [ek] at this
  exact this

theorem near_add (hR : R.Lawful) (hP : R.Precise) {k M₁ M₂ : ℝ} {v w : Mp} {x z : ℝ}
    (h : Near k M₁ v x) (h' : Near k M₂ w z) (M : ℝ) (hm : M₁ + M₂ ≤ M) (h1 : 1 ≤ M) (hM : M ≤ top)
    (k0 : 0 ≤ k) (k1 : k ≤ 1000) : Near (k + 2) M (Mp.add R v w) (x + z) := by
  obtain ⟨a, rfl, ea, bx⟩ := h
  obtain ⟨b, rfl, eb, bz⟩ := h'
  have d := du_pos
  refine round_near hR hP (z := a + b) ?_ ?_ h1 hM k1
  · have e1 : a + b - (x + z) = (a - x) + (b - z) := by ring
    rw [e1]
    have h3 := abs_add_le (a - x) (b - z)
    have h6 : k * du * (M₁ + M₂) ≤ k * du * M := by gcongr
    linarith [show k * du * (M₁ + M₂) = k * du * M₁ + k * du * M₂ by ring]
  · exact (abs_add_le x z).trans (by linarith)

theorem near_sub (hR : R.Lawful) (hP : R.Precise) {k M₁ M₂ : ℝ} {v w : Mp} {x z : ℝ}
    (h : Near k M₁ v x) (h' : Near k M₂ w z) (M : ℝ) (hm : M₁ + M₂ ≤ M) (h1 : 1 ≤ M) (hM : M ≤ top)
    (k0 : 0 ≤ k) (k1 : k ≤ 1000) : Near (k + 2) M (Mp.sub R v w) (x - z) := by
  obtain ⟨a, rfl, ea, bx⟩ := h
  obtain ⟨b, rfl, eb, bz⟩ := h'
  have d := du_pos
  refine round_near hR hP (z := a - b) ?_ ?_ h1 hM k1
  · have e1 : a - b - (x - z) = (a - x) - (b - z) := by ring
    rw [e1]
    have h3 := abs_sub (a - x) (b - z)
    have h6 : k * du * (M₁ + M₂) ≤ k * du * M := by gcongr
    linarith [show k * du * (M₁ + M₂) = k * du * M₁ + k * du * M₂ by ring]
  · exact (abs_sub x z).trans (by linarith)

theorem near_neg (hR : R.Lawful) (hP : R.Precise) {k M : ℝ} {v : Mp} {x : ℝ} (h : Near k M v x)
    (h1 : 1 ≤ M) (hM : M ≤ top) (k1 : k ≤ 1000) : Near (k + 2) M (Mp.neg R v) (-x) := by
  obtain ⟨a, rfl, ea, bx⟩ := h
  refine round_near hR hP (z := -a) ?_ (by rwa [abs_neg]) h1 hM k1
  have : -a - -x = -(a - x) := by ring
  rw [this, abs_neg]; exact ea

/-- Division by a number of at least one, known to a relative error. -/
theorem near_div (hR : R.Lawful) (hP : R.Precise) {k₁ k₂ M₁ : ℝ} {v w : Mp} {x z : ℝ}
    (h : Near k₁ M₁ v x) (h' : Near k₂ z w z) (hz : 1 ≤ z) (M : ℝ) (hm : M₁ ≤ M * z) (h1 : 1 ≤ M) (hM : M ≤ top)
    (k01 : 0 ≤ k₁) (k02 : 0 ≤ k₂) (k1 : k₁ ≤ 200) (k2 : k₂ ≤ 200) :
    Near (k₁ + k₂ + 3) M (Mp.div R v w) (x / z) := by
  obtain ⟨a, rfl, ea, bx⟩ := h
  obtain ⟨b, rfl, eb, -⟩ := h'
  have z0 : 0 < z := by linarith
  have M10 : 0 ≤ M₁ := (abs_nonneg x).trans bx
  have d := du_pos
  have ds := du_small
  have kd : k₂ * du ≤ 1 / 1000 := by nlinarith
  have hbz : z * (1 - k₂ * du) ≤ b := by have := (abs_le.1 eb).1; linarith
  have hb0 : 0 < b := by nlinarith
  have e : |a / b - x / z| ≤ (k₁ + k₂ + 1) * du * M := by
    have e1 : a / b - x / z = ((a - x) * z - x * (b - z)) / (b * z) := by
      field_simp; ring
    rw [e1, abs_div, abs_of_pos (mul_pos hb0 z0), div_le_iff₀ (mul_pos hb0 z0)]
    have t1 : |(a - x) * z| ≤ k₁ * du * M₁ * z := by rw [abs_mul, abs_of_pos z0]; gcongr
    have t2 : |x * (b - z)| ≤ M₁ * (k₂ * du * z) := by rw [abs_mul]; gcongr
    have t3 := abs_sub ((a - x) * z) (x * (b - z))
    have t4 : k₁ * du * M₁ * z + M₁ * (k₂ * du * z) = (k₁ + k₂) * du * M₁ * z := by ring
    have t5 : (k₁ + k₂) * du * M₁ * z ≤ (k₁ + k₂) * du * (M * z) * z := by gcongr
    have t6 : (k₁ + k₂ + 1) * du * M * ((z * (1 - k₂ * du)) * z) ≤ (k₁ + k₂ + 1) * du * M * (b * z) := by gcongr
    have t7 : (k₁ + k₂) ≤ (k₁ + k₂ + 1) * (1 - k₂ * du) := by
      have : (k₁ + k₂ + 1) * (k₂ * du) ≤ 401 * (k₂ * du) := by
        have : 0 ≤ k₂ * du := by positivity
        gcongr; linarith
      nlinarith
    have t8 : (k₁ + k₂) * (du * (M * z) * z) ≤ (k₁ + k₂ + 1) * (1 - k₂ * du) * (du * (M * z) * z) := by gcongr
    nlinarith [t1, t2, t3, t4, t5, t6, t8]
  have bm : |x / z| ≤ M := by
    rw [abs_div, abs_of_pos z0, div_le_iff₀ z0]; exact bx.trans hm
  have hne : b ≠ 0 := hb0.ne'
  have := round_near hR hP e bm h1 hM (by linarith)
  have ek : k₁ + k₂ + 1 + 2 = k₁ + k₂ + 3 := by ring
  rw [ek] at this
  simp only [Mp.div, hne, if_false]
  exact this

/-- Square root of a positive number. -/
theorem near_sqrt (hR : R.Lawful) (hP : R.Precise) {k M : ℝ} {v : Mp} {x : ℝ} (h : Near k M v x) (hx : 0 < x)
    (hMx : M ≤ 2 * x) (M' : ℝ) (hm : M ≤ M' * √x) (h1 : 1 ≤ M') (hs : √x ≤ M') (hM : M' ≤ top) (k0 : 0 ≤ k)
    (k1 : k ≤ 400) : Near (k + 2) M' (Mp.sqrt R v) (√x) := by
  obtain ⟨a, rfl, ea, bx⟩ := h
  have d := du_pos
  have ds := du_small
  have kd : k * du ≤ 1 / 1000 := by nlinarith
  have ha : 0 ≤ a := by
    have h1 := (abs_le.1 ea).1
    have h2 : 0 ≤ M := (abs_nonneg x).trans bx
    have h3 : k * du * M ≤ 1 / 1000 * M := by gcongr
    linarith
  have s0 : 0 < √x := Real.sqrt_pos.2 hx
  have e : |√a - √x| ≤ k * du * M' := by
    have e1 : (√a - √x) * (√a + √x) = a - x := by
      have h1 := Real.mul_self_sqrt ha
      have h2 := Real.mul_self_sqrt hx.le
      nlinarith
    have e2 : |√a - √x| * √x ≤ |a - x| := by
      rw [← e1, abs_mul, abs_of_pos (show 0 < √a + √x by positivity)]
      have : √x ≤ √a + √x := by linarith [Real.sqrt_nonneg a]
      gcongr
    have e3 : k * du * M ≤ k * du * (M' * √x) := by gcongr
    have e4 : |√a - √x| * √x ≤ (k * du * M') * √x := by linarith
    exact le_of_mul_le_mul_right e4 s0
  have := round_near hR hP e (by rw [abs_of_pos s0]; exact hs) h1 hM (by linarith)
  simp only [Mp.sqrt, not_lt.2 ha, if_false]
  exact this

theorem arsinh_lipschitz (x y : ℝ) : |Real.arsinh y - Real.arsinh x| ≤ |y - x| := by
  have := Convex.norm_image_sub_le_of_norm_deriv_le (f := Real.arsinh) (C := 1) (s := Set.univ) (x := x) (y := y)
    (fun z _ => Real.differentiable_arsinh z) (fun z _ => ?_) convex_univ trivial trivial
  · simpa using this
  · rw [(Real.hasDerivAt_arsinh z).deriv, Real.norm_eq_abs, abs_of_pos (by positivity)]
    have h1 : (1 : ℝ) ≤ √(1 + z ^ 2) := Real.one_le_sqrt.2 (by nlinarith [sq_nonneg z])
    exact inv_le_one_of_one_le₀ h1

theorem arccos_lipschitz {x y : ℝ} (hx : |x| ≤ 3 / 4) (hy : |y| ≤ 3 / 4) :
    |Real.arccos y - Real.arccos x| ≤ 2 * |y - x| := by
  have hs : ∀ z ∈ Set.Icc (-(3 / 4) : ℝ) (3 / 4), z ≠ -1 ∧ z ≠ 1 := by
    intro z hz
    constructor <;> intro h <;> rw [h] at hz <;> have := hz.1 <;> have := hz.2 <;> norm_num at *
  have := Convex.norm_image_sub_le_of_norm_deriv_le (f := Real.arccos) (C := 2)
    (s := Set.Icc (-(3 / 4) : ℝ) (3 / 4)) (x := x) (y := y)
    (fun z hz => Real.differentiableAt_arccos.2 (hs z hz)) (fun z hz => ?_) (convex_Icc _ _)
    (abs_le.1 hx) (abs_le.1 hy)
  · simpa using this
  · rw [(Real.hasDerivAt_arccos (hs z hz).1 (hs z hz).2).deriv, Real.norm_eq_abs, abs_neg]
    have hz2 : 1 / 4 ≤ 1 - z ^ 2 := by nlinarith [hz.1, hz.2]
    have h1 : (1 : ℝ) / 2 ≤ √(1 - z ^ 2) := by
      rw [Real.le_sqrt' (by norm_num)]; linarith
    rw [abs_of_pos (div_pos one_pos (by linarith)), div_le_iff₀ (by linarith)]
    linarith

theorem near_asinh (hR : R.Lawful) (hP : R.Precise) {k M : ℝ} {v : Mp} {x : ℝ} (h : Near k M v x)
    (h1 : 1 ≤ M) (hM : M ≤ top) (k1 : k ≤ 1000) : Near (k + 2) M (Mp.asinh R v) (Real.arsinh x) := by
  obtain ⟨a, rfl, ea, bx⟩ := h
  refine round_near hR hP ((arsinh_lipschitz x a).trans ea) ?_ h1 hM k1
  have := arsinh_lipschitz 0 x
  simp only [Real.arsinh_zero, sub_zero] at this
  exact this.trans bx

theorem near_acos (hR : R.Lawful) (hP : R.Precise) {k : ℝ} {v : Mp} {x : ℝ} (h : Near k 1 v x)
    (hx : |x| ≤ 2 / 3) (k0 : 0 ≤ k) (k1 : k ≤ 400) : Near (k + 2) 4 (Mp.acos R v) (Real.arccos x) := by
  obtain ⟨a, rfl, ea, -⟩ := h
  have d := du_pos
  have ds := du_small
  have ha : |a| ≤ 3 / 4 := by
    have := abs_sub_abs_le_abs_sub a x
    nlinarith
  have e : |Real.arccos a - Real.arccos x| ≤ k * du * 4 := by
    have := arccos_lipschitz (by linarith) ha (x := x)
    have : 0 ≤ k * du := by positivity
    linarith
  have hb : |Real.arccos x| ≤ 4 := by
    rw [abs_of_nonneg (Real.arccos_nonneg x)]
    exact (Real.arccos_le_pi x).trans Real.pi_le_four
  have ht : (4 : ℝ) ≤ top := by
    unfold top
    have : (4 : ℝ) = 2 ^ (2 : ℤ) := by norm_num
    rw [this]; exact pow_le (by norm_num)
  have hh := abs_le.1 ha
  have hn : ¬ (a < -1 ∨ 1 < a) := by
    rintro (h | h) <;> linarith [hh.1, hh.2]
  have := round_near hR hP e hb (by norm_num) ht (by linarith)
  simp only [Mp.acos, hn, if_false]
  exact this

end CDT.Mp

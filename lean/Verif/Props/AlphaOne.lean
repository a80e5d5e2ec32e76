/-
C80: the alpha = 1 and alpha = -1 shortcuts against the general action.
-/
import Verif.Props.Precision
import Mathlib.Analysis.Real.Pi.Bounds
import Mathlib.Analysis.SpecialFunctions.Trigonometric.Bounds

namespace CDT.Props
open CDT Spec Mp Real

theorem triple_le {t lo hi : ℝ} (h0 : 0 ≤ lo) (h1 : lo ≤ sin t) (h2 : sin t ≤ hi) (h3 : hi ≤ 1 / 2) :
    3 * lo - 4 * lo ^ 3 ≤ sin (3 * t) ∧ sin (3 * t) ≤ 3 * hi - 4 * hi ^ 3 := by
  rw [sin_three_mul]
  generalize sin t = s at *
  have p1 : 0 ≤ (hi - s) * (3 - 4 * (hi ^ 2 + hi * s + s ^ 2)) := by
    apply mul_nonneg (by linarith); nlinarith
  have p2 : 0 ≤ (s - lo) * (3 - 4 * (s ^ 2 + s * lo + lo ^ 2)) := by
    apply mul_nonneg (by linarith); nlinarith
  constructor <;> nlinarith

theorem sin_small {t : ℝ} (h0 : 0 ≤ t) (h1 : t ≤ 1) :
    t - t ^ 3 / 6 - t ^ 5 / 100 ≤ sin t ∧ sin t ≤ t - t ^ 3 / 6 + t ^ 5 / 100 := by
  have := abs_le.1 (sin_bound (x := t) (by rwa [abs_of_nonneg h0]))
  rw [abs_of_nonneg h0] at this
  constructor <;> linarith [this.1, this.2]

theorem sin_near_fifth : sin 0.20135 ≤ 1 / 5 ∧ 1 / 5 ≤ sin 0.20137 := by
  constructor
  · have h := sin_small (t := 0.20135 / 3) (by norm_num) (by norm_num)
    have := (triple_le (lo := 0) le_rfl (by norm_num at h ⊢; linarith [h.1]) h.2 (by norm_num)).2
    rw [show 3 * (0.20135 / 3 : ℝ) = 0.20135 by norm_num] at this
    refine this.trans (by norm_num)
  · have h := sin_small (t := 0.20137 / 3) (by norm_num) (by norm_num)
    have := (triple_le (hi := 1 / 2) (by norm_num) h.1 (by norm_num at h ⊢; linarith [h.2]) le_rfl).1
    rw [show 3 * (0.20137 / 3 : ℝ) = 0.20137 by norm_num] at this
    refine le_trans (by norm_num) this

theorem sin_near_three_fifths : sin 0.64345 ≤ 3 / 5 ∧ 3 / 5 ≤ sin 0.64355 := by
  constructor
  · have h := sin_small (t := 0.64345 / 9) (by norm_num) (by norm_num)
    have h3 := triple_le (by norm_num) h.1 h.2 (by norm_num)
    have := (triple_le (by norm_num) h3.1 h3.2 (by norm_num)).2
    rw [show 3 * (3 * (0.64345 / 9 : ℝ)) = 0.64345 by norm_num] at this
    refine this.trans (by norm_num)
  · have h := sin_small (t := 0.64355 / 9) (by norm_num) (by norm_num)
    have h3 := triple_le (by norm_num) h.1 h.2 (by norm_num)
    have := (triple_le (by norm_num) h3.1 h3.2 (by norm_num)).1
    rw [show 3 * (3 * (0.64355 / 9 : ℝ)) = 0.64355 by norm_num] at this
    refine le_trans (by norm_num) this

theorem arccos_three_fifths : 0.92724 ≤ arccos (3 / 5) ∧ arccos (3 / 5) ≤ 0.92736 := by
  have p1 := pi_gt_d6
  have p2 := pi_lt_d6
  obtain ⟨h1, h2⟩ := sin_near_three_fifths
  have a1 : (0.64345 : ℝ) ≤ arcsin (3 / 5) := (le_arcsin_iff_sin_le ⟨by linarith, by linarith⟩ ⟨by norm_num, by norm_num⟩).2 h1
  have a2 : arcsin (3 / 5) ≤ 0.64355 := (arcsin_le_iff_le_sin ⟨by norm_num, by norm_num⟩ ⟨by linarith, by linarith⟩).2 h2
  unfold arccos
  constructor <;> linarith

theorem arccos_minus_fifth : 1.772146 ≤ arccos (-1 / 5) ∧ arccos (-1 / 5) ≤ 1.772167 := by
  have p1 := pi_gt_d6
  have p2 := pi_lt_d6
  obtain ⟨h1, h2⟩ := sin_near_fifth
  have a1 : (0.20135 : ℝ) ≤ arcsin (1 / 5) := (le_arcsin_iff_sin_le ⟨by linarith, by linarith⟩ ⟨by norm_num, by norm_num⟩).2 h1
  have a2 : arcsin (1 / 5) ≤ 0.20137 := (arcsin_le_iff_le_sin ⟨by norm_num, by norm_num⟩ ⟨by linarith, by linarith⟩).2 h2
  rw [neg_div]
  unfold arccos
  rw [arcsin_neg]
  constructor <;> linarith

theorem exp_upper {x : ℝ} (h0 : 0 ≤ x) (h1 : x ≤ 1) :
    exp x ≤ 1 + x + x ^ 2 / 2 + x ^ 3 / 6 + x ^ 4 / 24 + x ^ 5 / 120 + x ^ 6 / 720 + x ^ 7 / 5040 + x ^ 8 * 9 / (40320 * 8) := by
  have := exp_bound' h0 h1 (n := 8) (by norm_num)
  simp only [Finset.sum_range_succ, Finset.sum_range_zero, Nat.factorial] at this
  norm_num at this ⊢
  linarith

theorem exp_lower {x : ℝ} (h0 : 0 ≤ x) :
    1 + x + x ^ 2 / 2 + x ^ 3 / 6 + x ^ 4 / 24 + x ^ 5 / 120 + x ^ 6 / 720 + x ^ 7 / 5040 ≤ exp x := by
  have := sum_le_exp_of_nonneg h0 8
  simp only [Finset.sum_range_succ, Finset.sum_range_zero, Nat.factorial] at this
  norm_num at this ⊢
  linarith

/-- arsinh x = y iff x + sqrt(1 + x^2) = exp y: bounds by comparing exponentials. -/
theorem arsinh_between {x a b v : ℝ} (hv : x + √(1 + x ^ 2) = v) (ha : exp a ≤ v) (hb : v ≤ exp b) :
    a ≤ arsinh x ∧ arsinh x ≤ b := by
  have e : exp (arsinh x) = v := by rw [exp_arsinh, hv]
  constructor
  · exact exp_le_exp.1 (by rw [e]; exact ha)
  · exact exp_le_exp.1 (by rw [e]; exact hb)

theorem sqrt_between {x a b : ℝ} (hb : 0 ≤ b) (h1 : a ^ 2 ≤ x) (h2 : x ≤ b ^ 2) :
    a ≤ √x ∧ √x ≤ b :=
  ⟨le_sqrt_of_sq_le h1, (sqrt_le_left hb).2 h2⟩

theorem arsinh_first : 0.2554 ≤ arsinh (1 / (√3 * √(4 * 1 + 1))) ∧ arsinh (1 / (√3 * √(4 * 1 + 1))) ≤ 0.25542 := by
  have e15 : √3 * √(4 * 1 + 1) = √15 := by
    rw [← sqrt_mul (by norm_num)]; norm_num
  rw [e15]
  have p15 : 0 < √(15 : ℝ) := sqrt_pos.2 (by norm_num)
  have s15 := mul_self_sqrt (by norm_num : (0 : ℝ) ≤ 15)
  obtain ⟨l, u⟩ := sqrt_between (x := 15) (a := 3.872983) (b := 3.872984) (by norm_num) (by norm_num) (by norm_num)
  have hv : 1 / √15 + √(1 + (1 / √15) ^ 2) = √15 / 3 := by
    have e1 : 1 + (1 / √(15 : ℝ)) ^ 2 = (4 / √15) ^ 2 := by
      rw [div_pow, div_pow, sq_sqrt (by norm_num)]; norm_num
    rw [e1, sqrt_sq (by positivity)]
    field_simp
    nlinarith
  refine arsinh_between hv ?_ ?_
  · refine (exp_upper (by norm_num) (by norm_num)).trans (le_trans ?_ (div_le_div_of_nonneg_right l (by norm_num)))
    norm_num
  · refine le_trans (le_trans (div_le_div_of_nonneg_right u (by norm_num)) ?_) (exp_lower (by norm_num))
    norm_num

theorem arsinh_second : 0.86701 ≤ arsinh (2 * √2 * √(2 * 1 + 1) / (4 * 1 + 1)) ∧
    arsinh (2 * √2 * √(2 * 1 + 1) / (4 * 1 + 1)) ≤ 0.86702 := by
  have e6 : 2 * √2 * √(2 * 1 + 1) / (4 * 1 + 1) = 2 * √6 / 5 := by
    rw [mul_assoc, ← sqrt_mul (by norm_num)]; norm_num
  rw [e6]
  have s6 := mul_self_sqrt (by norm_num : (0 : ℝ) ≤ 6)
  obtain ⟨l, u⟩ := sqrt_between (x := 6) (a := 2.4494897) (b := 2.4494898) (by norm_num) (by norm_num) (by norm_num)
  have hv : 2 * √6 / 5 + √(1 + (2 * √6 / 5) ^ 2) = (2 * √6 + 7) / 5 := by
    have e1 : 1 + (2 * √6 / 5) ^ 2 = ((7 : ℝ) / 5) ^ 2 := by nlinarith
    rw [e1, sqrt_sq (by norm_num)]; ring
  refine arsinh_between hv ?_ ?_
  · refine (exp_upper (by norm_num) (by norm_num)).trans ?_
    norm_num; linarith
  · refine le_trans ?_ (exp_lower (by norm_num))
    norm_num; linarith

/-- C80.  At alpha = 1 the shortcut's documented coefficients agree with the general action to within
five units of the fourth decimal per coupling and tetrahedron (half a unit of the last printed digit),
for all couplings and all counts; the timelike-edge term agrees exactly. -/
theorem C80_formula_agrees (κ Λ n1 n31 n22 : ℝ) :
    |actionOne κ Λ n1 n31 n22 - action 1 κ Λ n1 n31 n22| ≤
      0.0005 * (|κ| + |Λ|) * (|n31| + |n22|) := by
  obtain ⟨a1, a2⟩ := arsinh_first
  obtain ⟨b1, b2⟩ := arsinh_second
  obtain ⟨c1, c2⟩ := arccos_three_fifths
  obtain ⟨d1, d2⟩ := arccos_minus_fifth
  obtain ⟨l, u⟩ := sqrt_between (x := 6) (a := 2.4494) (b := 2.4495) (by norm_num) (by norm_num) (by norm_num)
  unfold action actionOne
  have e1 : √(3 * 1 + 1 : ℝ) = 2 := by
    rw [show (3 * 1 + 1 : ℝ) = 2 ^ 2 by norm_num, sqrt_sq (by norm_num)]
  have e2 : √(4 * 1 + 2 : ℝ) = √6 := by norm_num
  have e3 : ((2 * 1 + 1) / (4 * 1 + 1) : ℝ) = 3 / 5 := by norm_num
  have e4 : (-1 / (4 * 1 + 1) : ℝ) = -1 / 5 := by norm_num
  rw [e1, e2, e3, e4, sqrt_one]
  generalize arsinh (1 / (√3 * √(4 * 1 + 1))) = X at *
  generalize arsinh (2 * √2 * √(2 * 1 + 1) / (4 * 1 + 1)) = Y at *
  generalize arccos (3 / 5) = Z at *
  generalize arccos (-1 / 5) = W at *
  generalize √(6 : ℝ) = S at *
  have e : 2 * π * κ * n1 + n31 * (-3.548 * κ - 0.167 * Λ) + n22 * (-5.355 * κ - 0.204 * Λ) -
      (2 * π * κ * 1 * n1 + n31 * (-3 * κ * X - 3 * κ * 1 * Z - Λ / 12 * 2) +
        n22 * (2 * κ * Y - 4 * κ * 1 * W - Λ / 12 * S)) =
      n31 * (κ * (3 * X + 3 * Z - 3.548) + Λ * (1 / 6 - 0.167)) +
      n22 * (κ * (4 * W - 2 * Y - 5.355) + Λ * (S / 12 - 0.204)) := by ring
  rw [e]
  have k1 : |3 * X + 3 * Z - 3.548| ≤ 0.0005 := by rw [abs_le]; constructor <;> linarith
  have k2 : |4 * W - 2 * Y - 5.355| ≤ 0.0005 := by rw [abs_le]; constructor <;> linarith
  have k3 : |(1 / 6 - 0.167 : ℝ)| ≤ 0.0005 := by rw [abs_le]; constructor <;> norm_num
  have k4 : |S / 12 - 0.204| ≤ 0.0005 := by rw [abs_le]; constructor <;> linarith
  have t : ∀ n c d : ℝ, |c| ≤ 0.0005 → |d| ≤ 0.0005 → |n * (κ * c + Λ * d)| ≤ 0.0005 * (|κ| + |Λ|) * |n| := by
    intro n c d hc hd
    rw [abs_mul]
    have : |κ * c + Λ * d| ≤ |κ| * 0.0005 + |Λ| * 0.0005 := by
      refine (abs_add_le _ _).trans ?_
      rw [abs_mul, abs_mul]
      gcongr
    have := mul_le_mul_of_nonneg_left this (abs_nonneg n)
    linarith
  refine (abs_add_le _ _).trans ?_
  have := t n31 _ _ k1 k3
  have := t n22 _ _ k2 k4
  linarith

/-- C80.  What a caller sees: on the same counts and couplings the alpha = 1 program and the general
program at alpha = 1, both in 256-bit arithmetic, agree to that tolerance (plus rounding). -/
theorem C80_programs_agree {R : Rounding} (hR : R.Lawful) (hP : R.Precise) {κ Λ : ℚ}
    (hk : InLongDouble κ) (hl : InLongDouble Λ)
    {n1 n31 n22 : ℤ} (h1 : InInt32 n1) (h31 : InInt32 n31) (h22 : InInt32 n22) :
    ∃ s s' : ℝ, s3ActionAlphaOne R n1 n31 n22 (.fin κ) (.fin Λ) = .ok (.fin s) ∧
      s3BulkAction R n1 n31 n22 ⟨.fin 1, .fin κ, .fin Λ⟩ = .fin s' ∧
      |s - s'| ≤ 0.0005 * (|(κ : ℝ)| + |(Λ : ℝ)|) * (|(n31 : ℝ)| + |(n22 : ℝ)|) +
        2 ^ (-242 : ℤ) * (max 1 (max |(κ : ℝ)| |(Λ : ℝ)|) * max 1 (max |(n1 : ℝ)| (max |(n31 : ℝ)| |(n22 : ℝ)|))) := by
  set C := max 1 (max |(κ : ℝ)| |(Λ : ℝ)|) with hC
  set N := max 1 (max |(n1 : ℝ)| (max |(n31 : ℝ)| |(n22 : ℝ)|)) with hN
  have C1 : 1 ≤ C := le_max_left _ _
  have N1 : 1 ≤ N := le_max_left _ _
  have cκ : |(κ : ℝ)| ≤ C := (le_max_left _ _).trans (le_max_right _ _)
  have cΛ : |(Λ : ℝ)| ≤ C := (le_max_right _ _).trans (le_max_right _ _)
  have m1 : |(n1 : ℝ)| ≤ N := (le_max_left _ _).trans (le_max_right _ _)
  have m2 : |(n31 : ℝ)| ≤ N := ((le_max_left _ _).trans (le_max_right _ _)).trans (le_max_right _ _)
  have m3 : |(n22 : ℝ)| ≤ N := ((le_max_right _ _).trans (le_max_right _ _)).trans (le_max_right _ _)
  have a1 : InLongDouble 1 := by
    unfold InLongDouble
    norm_num only [Rat.cast_one, abs_one]
    exact one_le_zpow₀ (by norm_num) (by norm_num)
  have i32 : ∀ {n : ℤ}, InInt32 n → |(n : ℝ)| ≤ 2 ^ (31 : ℤ) := by
    intro n h
    have : ((|n| : ℤ) : ℝ) ≤ ((2 ^ 31 : ℤ) : ℝ) := by exact_mod_cast h
    rw [Int.cast_abs] at this
    exact this.trans (le_of_eq (by norm_num))
  have hT : C * N ≤ 2 ^ (100000 : ℤ) := by
    have hc : C ≤ 2 ^ (16384 : ℤ) := max_le (one_le_zpow₀ (by norm_num) (by norm_num)) (max_le hk hl)
    have hn : N ≤ 2 ^ (31 : ℤ) :=
      max_le (one_le_zpow₀ (by norm_num) (by norm_num)) (max_le (i32 h1) (max_le (i32 h31) (i32 h22)))
    have : C * N ≤ 2 ^ (16384 : ℤ) * 2 ^ (31 : ℤ) := mul_le_mul hc hn (by linarith) (by positivity)
    refine this.trans ?_
    rw [← zpow_add₀ (by norm_num)]
    exact pow_le (by norm_num)
  obtain ⟨s, hs, es⟩ := C79_alpha_one_error hR hP C1 N1 cκ cΛ m1 m2 m3 hT
  obtain ⟨s', hs', es'⟩ := C79_action_error hR hP (α := 1) (by norm_num) a1 hk hl h1 h31 h22 C1 (le_refl 1) N1 cκ cΛ
    (by simp) m1 m2 m3
  have ef := C80_formula_agrees κ Λ n1 n31 n22
  refine ⟨s, s', hs, hs', ?_⟩
  rw [mul_one, Rat.cast_one, abs_sub_comm] at es'
  clear hT hs hs'
  have e1 : |s - s'| ≤ |s - actionOne κ Λ n1 n31 n22| + (|actionOne κ Λ n1 n31 n22 - action 1 κ Λ n1 n31 n22| +
      |action 1 κ Λ n1 n31 n22 - s'|) := by
    refine (abs_sub_le s (actionOne κ Λ n1 n31 n22) s').trans ?_
    gcongr
    exact abs_sub_le _ _ _
  have p1 : (2 : ℝ) ^ (-246 : ℤ) = 2 ^ (-242 : ℤ) / 16 := by norm_num
  have p2 : (2 : ℝ) ^ (-243 : ℤ) = 2 ^ (-242 : ℤ) / 2 := by norm_num
  rw [p1] at es
  rw [p2] at es'
  have pos : 0 ≤ (2 : ℝ) ^ (-242 : ℤ) * (C * N) := mul_nonneg (by positivity) (mul_nonneg (by linarith) (by linarith))
  generalize (2 : ℝ) ^ (-242 : ℤ) = u at *
  generalize 0.0005 * (|(κ : ℝ)| + |(Λ : ℝ)|) * (|(n31 : ℝ)| + |(n22 : ℝ)|) = v at *
  generalize C * N = w at *
  linarith

/-- The hypotheses of `C80_programs_agree` are met by 256-bit rounding and ordinary arguments. -/
example : InLongDouble (11 / 10) ∧ InInt32 96 ∧ Fixture.nearest.Lawful ∧ Fixture.nearest.Precise := by
  refine ⟨?_, by norm_num [InInt32], Fixture.nearestLawful, nearestPrecise⟩
  unfold InLongDouble
  have h2 : |((11 / 10 : ℚ) : ℝ)| ≤ 2 ^ (1 : ℤ) := by norm_num
  exact h2.trans (pow_le (by norm_num))

/-! ### alpha = -1 -/

/-- The general action formula with the four square roots and the four inverse functions left open:
`r = √α`, `r31 = √(3α+1)`, `r42 = √(4α+2)`, `A₁`, `A₂` the two inverse hyperbolic sines and `B₁`, `B₂`
the two arccosines (`Spec.action` is this formula for the real branches). -/
noncomputable def actionVia (k Λ N1 N31 N22 r r31 r42 A₁ B₁ A₂ B₂ : ℂ) : ℂ :=
  2 * π * k * r * N1 + N31 * (-3 * k * A₁ - 3 * k * r * B₁ - Λ / 12 * r31) +
    N22 * (2 * k * A₂ - 4 * k * r * B₂ - Λ / 12 * r42)

/-- For an accepted alpha the real branches give the action. -/
theorem actionVia_real (α k Λ N1 N31 N22 : ℝ) :
    actionVia k Λ N1 N31 N22 (√α : ℝ) (√(3 * α + 1) : ℝ) (√(4 * α + 2) : ℝ)
      (arsinh (1 / (√3 * √(4 * α + 1))) : ℝ) (arccos ((2 * α + 1) / (4 * α + 1)) : ℝ)
      (arsinh (2 * √2 * √(2 * α + 1) / (4 * α + 1)) : ℝ) (arccos (-1 / (4 * α + 1)) : ℝ) =
      (action α k Λ N1 N31 N22 : ℝ) := by
  unfold actionVia action
  push_cast
  ring

theorem sin_near_third : sin 0.33982 ≤ 1 / 3 ∧ 1 / 3 ≤ sin 0.33985 := by
  constructor
  · have h := sin_small (t := 0.33982 / 3) (by norm_num) (by norm_num)
    have := (triple_le (by norm_num) h.1 h.2 (by norm_num)).2
    rw [show 3 * (0.33982 / 3 : ℝ) = 0.33982 by norm_num] at this
    refine this.trans (by norm_num)
  · have h := sin_small (t := 0.33985 / 3) (by norm_num) (by norm_num)
    have := (triple_le (by norm_num) h.1 h.2 (by norm_num)).1
    rw [show 3 * (0.33985 / 3 : ℝ) = 0.33985 by norm_num] at this
    refine le_trans (by norm_num) this

theorem arcsin_third : 0.33982 ≤ arcsin (1 / 3) ∧ arcsin (1 / 3) ≤ 0.33985 := by
  have p1 := pi_gt_d6
  obtain ⟨h1, h2⟩ := sin_near_third
  exact ⟨(le_arcsin_iff_sin_le ⟨by linarith, by linarith⟩ ⟨by norm_num, by norm_num⟩).2 h1,
    (arcsin_le_iff_le_sin ⟨by norm_num, by norm_num⟩ ⟨by linarith, by linarith⟩).2 h2⟩

theorem arcsin_two_root_two_thirds : arcsin (2 * √2 / 3) = arccos (1 / 3) := by
  have h2 := mul_self_sqrt (by norm_num : (0 : ℝ) ≤ 2)
  have p2 := sqrt_nonneg (2 : ℝ)
  rw [arccos_eq_arcsin (by norm_num)]
  congr 1
  rw [show (1 - (1 / 3) ^ 2 : ℝ) = (2 * √2 / 3) ^ 2 by nlinarith, sqrt_sq (by positivity)]

/-- C80.  At alpha = -1 the shortcut's documented coefficient is, to within half a unit of the last
printed digit per coupling and tetrahedron, the coefficient of `i` in the general formula: with
square roots of the (now negative) radicands, inverse hyperbolic sines and arccosines of the
documented arguments, all on the same side of the branch cut. -/
theorem C80_alpha_minus_one_agrees (κ Λ n1 n31 n22 : ℝ) :
    ∃ r r41 r31 r21 r42 A₁ B₁ A₂ B₂ : ℂ,
      r ^ 2 = -1 ∧ r41 ^ 2 = 4 * (-1) + 1 ∧ r31 ^ 2 = 3 * (-1) + 1 ∧ r21 ^ 2 = 2 * (-1) + 1 ∧
      r42 ^ 2 = 4 * (-1) + 2 ∧ Complex.sinh A₁ = 1 / ((√3 : ℝ) * r41) ∧
      Complex.cos B₁ = (2 * (-1) + 1) / (4 * (-1) + 1) ∧
      Complex.sinh A₂ = 2 * (√2 : ℝ) * r21 / (4 * (-1) + 1) ∧ Complex.cos B₂ = -1 / (4 * (-1) + 1) ∧
      (∃ e : ℝ, actionVia κ Λ n1 n31 n22 r r31 r42 A₁ B₁ A₂ B₂ =
          ((actionMinusOne κ Λ n1 n31 n22 + e : ℝ) : ℂ) * Complex.I ∧
        |e| ≤ 0.0005 * (|κ| + |Λ|) * (|n31| + |n22|)) := by
  have h2 : ((√2 : ℝ) : ℂ) ^ 2 = 2 := by exact_mod_cast sq_sqrt (by norm_num : (0 : ℝ) ≤ 2)
  have h3 : ((√3 : ℝ) : ℂ) ^ 2 = 3 := by exact_mod_cast sq_sqrt (by norm_num : (0 : ℝ) ≤ 3)
  have q2 : √(2 : ℝ) ≤ 3 / 2 := (sqrt_le_left (by norm_num)).2 (by norm_num)
  have cc : Complex.cos (arccos (1 / 3) : ℝ) = 1 / 3 := by
    rw [← Complex.ofReal_cos, cos_arccos (by norm_num) (by norm_num)]; push_cast; rfl
  refine ⟨-Complex.I, -(√3 : ℝ) * Complex.I, -(√2 : ℝ) * Complex.I, -Complex.I, -(√2 : ℝ) * Complex.I,
    (arcsin (1 / 3) : ℝ) * Complex.I, (arccos (1 / 3) : ℝ), (arcsin (2 * √2 / 3) : ℝ) * Complex.I,
    (arccos (1 / 3) : ℝ), ?_, ?_, ?_, ?_, ?_, ?_, ?_, ?_, ?_, ?_⟩
  · rw [neg_sq, Complex.I_sq]
  · rw [mul_pow, neg_sq, h3, Complex.I_sq]; norm_num
  · rw [mul_pow, neg_sq, h2, Complex.I_sq]; norm_num
  · rw [neg_sq, Complex.I_sq]; norm_num
  · rw [mul_pow, neg_sq, h2, Complex.I_sq]; norm_num
  · rw [Complex.sinh_mul_I, ← Complex.ofReal_sin, sin_arcsin (by norm_num) (by norm_num)]
    have e : ((√3 : ℝ) : ℂ) * (-(√3 : ℝ) * Complex.I) = -3 * Complex.I := by rw [← h3]; ring
    rw [e, eq_div_iff (by simp)]
    push_cast
    linear_combination (-1 : ℂ) * Complex.I_sq
  · rw [cc]; norm_num
  · rw [Complex.sinh_mul_I, ← Complex.ofReal_sin, sin_arcsin (by have := sqrt_nonneg (2 : ℝ); linarith) (by linarith)]
    push_cast
    ring
  · rw [cc]; norm_num
  · obtain ⟨x1, x2⟩ := arcsin_third
    have p1 := pi_gt_d6
    have p2 := pi_lt_d6
    obtain ⟨l, u⟩ := sqrt_between (x := 2) (a := 1.4142) (b := 1.4143) (by norm_num) (by norm_num) (by norm_num)
    refine ⟨n31 * (κ * (3 * arccos (1 / 3) - 3 * arcsin (1 / 3) - 2.673) + Λ * (√2 / 12 - 0.118)) +
      n22 * (κ * (6 * arccos (1 / 3) - 7.386) + Λ * (√2 / 12 - 0.118)), ?_, ?_⟩
    · rw [arcsin_two_root_two_thirds]
      unfold actionVia actionMinusOne
      push_cast
      ring
    · have t : ∀ n c d : ℝ, |c| ≤ 0.0005 → |d| ≤ 0.0005 → |n * (κ * c + Λ * d)| ≤ 0.0005 * (|κ| + |Λ|) * |n| := by
        intro n c d hc hd
        rw [abs_mul]
        have : |κ * c + Λ * d| ≤ |κ| * 0.0005 + |Λ| * 0.0005 := by
          refine (abs_add_le _ _).trans ?_
          rw [abs_mul, abs_mul]
          gcongr
        have := mul_le_mul_of_nonneg_left this (abs_nonneg n)
        linarith
      have k1 : |3 * arccos (1 / 3) - 3 * arcsin (1 / 3) - 2.673| ≤ 0.0005 := by
        unfold arccos; rw [abs_le]; constructor <;> linarith
      have k2 : |6 * arccos (1 / 3) - 7.386| ≤ 0.0005 := by
        unfold arccos; rw [abs_le]; constructor <;> linarith
      have k3 : |√2 / 12 - 0.118| ≤ 0.0005 := by rw [abs_le]; constructor <;> linarith
      refine (abs_add_le _ _).trans ?_
      have := t n31 _ _ k1 k3
      have := t n22 _ _ k2 k3
      linarith

end CDT.Props

/-
C79: how far the computed action and acceptance probability are from the documented formulas.
-/
import Verif.Lemmas.ActionError
import Verif.Props.Acceptance
import Verif.Fixture.Rounding

namespace CDT.Props
open CDT Spec Mp

/-- Bounds can be cut down to the range of the machine types. -/
theorem cut_scale {C A N a : ℝ} {α κ Λ : ℚ} (hC : 1 ≤ C) (hA : 1 ≤ A) (hN : 1 ≤ N) (ea : (α : ℝ) = a)
    (ha : InLongDouble α) (hk : InLongDouble κ) (hl : InLongDouble Λ)
    (hκ : |(κ : ℝ)| ≤ C) (hΛ : |(Λ : ℝ)| ≤ C) (hαA : √(α : ℝ) ≤ A) :
    ∃ C' A' N' : ℝ, 1 ≤ C' ∧ 1 ≤ A' ∧ 1 ≤ N' ∧ |(κ : ℝ)| ≤ C' ∧ |(Λ : ℝ)| ≤ C' ∧ √(α : ℝ) ≤ A' ∧
      (∀ n : ℤ, InInt32 n → |(n : ℝ)| ≤ N → |(n : ℝ)| ≤ N') ∧ C' * A' * N' ≤ 2 ^ (100000 : ℤ) ∧
      C' * A' * N' ≤ C * A * N := by
  have e1 : (1 : ℝ) ≤ 2 ^ (16384 : ℤ) := one_le_zpow₀ (by norm_num) (by norm_num)
  refine ⟨min C (2 ^ (16384 : ℤ)), min A (2 ^ (16384 : ℤ)), min N (2 ^ (31 : ℤ)), le_min hC e1, le_min hA e1,
    le_min hN (one_le_zpow₀ (by norm_num) (by norm_num)), le_min hκ hk, le_min hΛ hl, le_min hαA ?_, ?_, ?_, ?_⟩
  · have h0 : (α : ℝ) ≤ 2 ^ (16384 : ℤ) := (le_abs_self _).trans ha
    have : √(α : ℝ) ≤ √((2 : ℝ) ^ (16384 : ℤ)) := Real.sqrt_le_sqrt h0
    refine this.trans ?_
    rw [Real.sqrt_le_left (by positivity), sq]
    generalize (2 : ℝ) ^ (16384 : ℤ) = P at *
    nlinarith
  · intro n h hn
    refine le_min hn ?_
    have : ((|n| : ℤ) : ℝ) ≤ ((2 ^ 31 : ℤ) : ℝ) := by exact_mod_cast h
    rw [Int.cast_abs] at this
    refine this.trans (le_of_eq ?_)
    norm_num
  · have h : min C (2 ^ (16384 : ℤ)) * min A (2 ^ (16384 : ℤ)) * min N (2 ^ (31 : ℤ)) ≤
        2 ^ (16384 : ℤ) * 2 ^ (16384 : ℤ) * (2 ^ (31 : ℤ)) := by
      have c0 : 0 ≤ min C (2 ^ (16384 : ℤ)) := le_min (by linarith) (by positivity)
      have a0 : 0 ≤ min A (2 ^ (16384 : ℤ)) := le_min (by linarith) (by positivity)
      have n0 : 0 ≤ min N (2 ^ (31 : ℤ)) := le_min (by linarith) (by positivity)
      exact mul_le_mul (mul_le_mul (min_le_right _ _) (min_le_right _ _) a0 (by positivity)) (min_le_right _ _) n0
        (by positivity)
    refine h.trans ?_
    rw [← zpow_add₀ (by norm_num), ← zpow_add₀ (by norm_num)]
    exact pow_le (by norm_num)
  · have c0 : 0 ≤ min C (2 ^ (16384 : ℤ)) := le_min (by linarith) (by positivity)
    have a0 : 0 ≤ min A (2 ^ (16384 : ℤ)) := le_min (by linarith) (by positivity)
    have n0 : 0 ≤ min N (2 ^ (31 : ℤ)) := le_min (by linarith) (by positivity)
    exact mul_le_mul (mul_le_mul (min_le_left _ _) (min_le_left _ _) a0 (by linarith)) (min_le_left _ _) n0
      (mul_nonneg (by linarith) (by linarith))

/-- C79.  In 256-bit arithmetic the evaluated bulk action differs from the documented formula by at
most 2^-243 times (bound on the couplings) * (bound on the root of alpha) * (bound on the counts),
for every accepted alpha (also close to 1/2), all couplings and all counts. -/
theorem C79_action_error {R : Rounding} (hR : R.Lawful) (hP : R.Precise) {α κ Λ : ℚ} (hα : 1 / 2 < α)
    (ha : InLongDouble α) (hk : InLongDouble κ) (hl : InLongDouble Λ)
    {n1 n31 n22 : ℤ} (h1 : InInt32 n1) (h31 : InInt32 n31) (h22 : InInt32 n22)
    {C A N : ℝ} (hC : 1 ≤ C) (hA : 1 ≤ A) (hN : 1 ≤ N)
    (hκ : |(κ : ℝ)| ≤ C) (hΛ : |(Λ : ℝ)| ≤ C) (hαA : √(α : ℝ) ≤ A)
    (h1N : |(n1 : ℝ)| ≤ N) (h31N : |(n31 : ℝ)| ≤ N) (h22N : |(n22 : ℝ)| ≤ N) :
    ∃ s : ℝ, s3BulkAction R n1 n31 n22 ⟨.fin α, .fin κ, .fin Λ⟩ = .fin s ∧
      |s - action α κ Λ n1 n31 n22| ≤ 2 ^ (-243 : ℤ) * (C * A * N) := by
  obtain ⟨C', A', N', c1, c2, c3, c4, c5, c6, c7, c8, c9⟩ := cut_scale hC hA hN rfl ha hk hl hκ hΛ hαA
  obtain ⟨s, hs, he, -⟩ := action_near hR hP hα c1 c2 c3 c4 c5 c6 (c7 _ h1 h1N) (c7 _ h31 h31N) (c7 _ h22 h22N) c8
  clear c8
  refine ⟨s, hs, he.trans ?_⟩
  have e2 : (2 : ℝ) ^ (-243 : ℤ) = 4096 * du := by unfold du; norm_num
  rw [e2]
  have d := du_pos
  generalize du = D at *
  have h3 : 0 ≤ C' * A' * N' := by positivity
  nlinarith

/-- Propagation through the product of the two ratios. -/
theorem perturb {X H D y h P E u t : ℝ} (hX : 0 < X) (hH : 0 < H) (hE : 0 ≤ E) (hE1 : E ≤ 1 / 8) (hu : 0 ≤ u)
    (huE : 64 * u ≤ E) (ht : 0 ≤ t) (htE : 16 * t * (H + 1) ≤ E)
    (h1 : |D - X| ≤ 2 * E * X) (h2 : |y - D| ≤ u * D + t) (h3 : |h - H| ≤ 8 * u * H)
    (h4 : |P - h * y| ≤ u * |h * y| + t) : |P - X * H| ≤ 4 * E * (X * H) + E := by
  have hw : 0 < X * H := mul_pos hX hH
  have D1 := abs_le.1 h1
  have dX : D ≤ 2 * X := by nlinarith
  have uD : u * D ≤ u * (2 * X) := by gcongr
  have y1 : |y - X| ≤ (2 * u + 2 * E) * X + t := by
    have := abs_sub_le y D X
    linarith
  have hh := abs_le.1 h3
  have hb : |h| ≤ 9 / 8 * H := by
    rw [abs_le]; constructor <;> nlinarith
  have tH : t * H ≤ E / 16 := by nlinarith
  have m1 : |h * y - X * H| ≤ 9 / 8 * H * ((2 * u + 2 * E) * X + t) + X * (8 * u * H) := by
    have e : h * y - X * H = h * (y - X) + X * (h - H) := by ring
    rw [e]
    refine (abs_add_le _ _).trans ?_
    rw [abs_mul, abs_mul, abs_of_pos hX]
    gcongr
  have m2 : 9 / 8 * H * ((2 * u + 2 * E) * X + t) + X * (8 * u * H) =
      (9 / 4 * E + 41 / 4 * u) * (X * H) + 9 / 8 * (t * H) := by ring
  have uw : u * (X * H) ≤ E / 64 * (X * H) := by gcongr; linarith
  have hy2 : |h * y| ≤ 2 * (X * H) + E := by
    have := abs_sub_abs_le_abs_sub (h * y) (X * H)
    rw [abs_of_pos hw] at this
    have : E * (X * H) ≤ 1 / 8 * (X * H) := by gcongr
    nlinarith
  have m3 := abs_sub_le P (h * y) (X * H)
  have m4 : u * |h * y| ≤ u * (2 * (X * H) + E) := by gcongr
  have m5 : t ≤ E / 16 := by nlinarith
  have m6 : u * E ≤ 1 / 64 * E := by gcongr; linarith
  have Ew : 0 ≤ E * (X * H) := by positivity
  nlinarith

theorem min_near {P w E : ℝ} (hE : 0 ≤ E) (hE1 : E ≤ 1 / 8) (hw : 0 ≤ w) (h : |P - w| ≤ 4 * E * w + E) :
    |min 1 P - min 1 w| ≤ 5 * E := by
  have hh := abs_le.1 h
  rcases le_total w 1 with h1 | h1
  · rw [min_eq_right h1]
    have : E * w ≤ E := by nlinarith
    rcases le_total P 1 with h2 | h2
    · rw [min_eq_right h2, abs_le]; constructor <;> linarith
    · rw [min_eq_left h2, abs_le]; constructor <;> linarith
  · rw [min_eq_left h1]
    have : 1 - 5 * E ≤ P := by nlinarith
    rcases le_total P 1 with h2 | h2
    · rw [min_eq_right h2, abs_le]; constructor <;> linarith
    · rw [min_eq_left h2]; simp; linarith

theorem rnd_error {R : Rounding} (hR : R.Lawful) (hP : R.Precise) {x y : ℝ} (h : R.rnd x = .fin y) :
    |y - x| ≤ 2 ^ (-256 : ℤ) * |x| + 2 * 2 ^ (-(2 ^ 30) : ℤ) := by
  have p : (0 : ℝ) < 2 ^ (-(2 ^ 30) : ℤ) := by positivity
  by_cases hx : (2 : ℝ) ^ (-(2 ^ 30) : ℤ) ≤ |x|
  · exact (hP x y hx h).trans (by linarith)
  · have hx' := abs_le.1 (not_le.1 hx).le
    have a1 := hR.mono x _ _ _ hx'.2 h (hR.pow (-(2 ^ 30)) (by norm_num))
    have a2 := hR.mono _ x _ _ hx'.1 (hR.negPow (-(2 ^ 30)) (by norm_num)) h
    have q : 0 ≤ (2 : ℝ) ^ (-256 : ℤ) * |x| := by positivity
    have : |y - x| ≤ 2 * 2 ^ (-(2 ^ 30) : ℤ) := by
      rw [abs_le]; constructor <;> linarith [hx'.1, hx'.2]
    linarith

/-- A quotient of two approximations, rounded. -/
theorem ratio_near {q q' s s' h u : ℝ} (s0 : 0 < s) (s0' : 0 < s') (u0 : 0 < u) (u1 : u ≤ 1 / 100)
    (hq0 : 0 < q) (er : |q - s| ≤ u * s) (er' : |q' - s'| ≤ u * s') (e3 : |h - q' / q| ≤ u * (q' / q)) :
    |h - s' / s| ≤ 8 * u * (s' / s) := by
  have a1 := abs_le.1 er
  have a2 := abs_le.1 er'
  have a3 := abs_le.1 e3
  have w0 : 0 < s' / s := by positivity
  have k1 : q' / q ≤ (1 + 3 * u) * (s' / s) := by
    rw [div_le_iff₀ hq0]
    have h1 : (1 + 3 * u) * (s' / s) * ((1 - u) * s) ≤ (1 + 3 * u) * (s' / s) * q := by
      gcongr; linarith
    have e : (1 + 3 * u) * (s' / s) * ((1 - u) * s) = (1 + 3 * u) * (1 - u) * s' := by field_simp
    have h2 : (1 + u) * s' ≤ (1 + 3 * u) * (1 - u) * s' := by gcongr; nlinarith
    linarith
  have k2 : (1 - 3 * u) * (s' / s) ≤ q' / q := by
    rw [le_div_iff₀ hq0]
    have h1 : (1 - 3 * u) * (s' / s) * q ≤ (1 - 3 * u) * (s' / s) * ((1 + u) * s) := by
      have : 0 ≤ (1 - 3 * u) * (s' / s) := mul_nonneg (by linarith) w0.le
      gcongr; linarith
    have e : (1 - 3 * u) * (s' / s) * ((1 + u) * s) = (1 - 3 * u) * (1 + u) * s' := by field_simp
    have h2 : (1 - 3 * u) * (1 + u) * s' ≤ (1 - u) * s' := by gcongr; nlinarith
    linarith
  generalize q' / q = r at *
  generalize s' / s = w at *
  have uw : 0 ≤ u * w := by positivity
  have ur : u * r ≤ u * ((1 + 3 * u) * w) := by gcongr
  have uu : u * (u * w) ≤ 1 / 100 * (u * w) := by gcongr
  rw [abs_le]
  constructor <;> nlinarith

/-- The computed Hastings ratio. -/
theorem hastings_near {R : Rounding} (hR : R.Lawful) (hP : R.Precise) {g g' : Geometry} {m : MoveType}
    (hg : Counts32 g) (hg' : Counts32 g') (hp : 0 < proposalSiteCount g m)
    (hp' : 0 < proposalSiteCount g' m.reverse) :
    let H := siteProbability (proposalSiteCount g' m.reverse) / siteProbability (proposalSiteCount g m)
    ∃ h, hastingsRatio R g g' m = .ok (.fin h) ∧ 0 < h ∧ |h - H| ≤ 8 * 2 ^ (-256 : ℤ) * H ∧
      2 ^ (-34 : ℤ) ≤ H ∧ H ≤ 2 ^ (34 : ℤ) := by
  intro H
  obtain ⟨b1, b2⟩ := siteProbability_bounds (siteCount32 hg m) hp
  obtain ⟨b1', b2'⟩ := siteProbability_bounds (siteCount32 hg' m.reverse) hp'
  obtain ⟨q, hq, q1, q2⟩ := proposalProbability_pos hR (siteCount32 hg m) hp
  obtain ⟨q', hq', q1', q2'⟩ := proposalProbability_pos hR (siteCount32 hg' m.reverse) hp'
  have tiny : (2 : ℝ) ^ (-(2 ^ 30) : ℤ) ≤ 2 ^ (-34 : ℤ) := pow_le (by norm_num)
  have pos : (0 : ℝ) < 2 ^ (-34 : ℤ) := by positivity
  have er : |q - siteProbability (proposalSiteCount g m)| ≤
      2 ^ (-256 : ℤ) * siteProbability (proposalSiteCount g m) := by
    have e := proposalProbability_eq hR (siteCount32 hg m) hp
    rw [hq] at e
    have := hP _ q (by rw [abs_of_pos (by linarith)]; linarith) e.symm
    rwa [abs_of_pos (a := siteProbability _) (by linarith)] at this
  have er' : |q' - siteProbability (proposalSiteCount g' m.reverse)| ≤
      2 ^ (-256 : ℤ) * siteProbability (proposalSiteCount g' m.reverse) := by
    have e := proposalProbability_eq hR (siteCount32 hg' m.reverse) hp'
    rw [hq'] at e
    have := hP _ q' (by rw [abs_of_pos (by linarith)]; linarith) e.symm
    rwa [abs_of_pos (a := siteProbability _) (by linarith)] at this
  unfold H
  unfold hastingsRatio
  have hq0 : 0 < q := lt_of_lt_of_le pos q1
  have hq0' : 0 < q' := lt_of_lt_of_le pos q1'
  have hz : (proposalProbability R g m).isZero = false := by rw [hq]; simp [isZero, hq0.ne']
  have hz' : (proposalProbability R g' m.reverse).isZero = false := by rw [hq']; simp [isZero, hq0'.ne']
  simp only [hz, hz', Bool.or_self, Bool.false_eq_true, if_false]
  rw [hq, hq']
  generalize siteProbability (proposalSiteCount g m) = s at *
  generalize siteProbability (proposalSiteCount g' m.reverse) = s' at *
  have e34 : (2 : ℝ) ^ (34 : ℤ) * 2 ^ (-34 : ℤ) = 1 := by norm_num
  have s0 : 0 < s := by linarith
  have s0' : 0 < s' := by linarith
  have hr1 : (2 : ℝ) ^ (-34 : ℤ) ≤ q' / q := by
    rw [le_div_iff₀ hq0]
    exact (mul_le_of_le_one_right pos.le q2).trans q1'
  have hr2 : q' / q ≤ (2 : ℝ) ^ (34 : ℤ) := by
    rw [div_le_iff₀ hq0]
    have : (2 : ℝ) ^ (34 : ℤ) * 2 ^ (-34 : ℤ) ≤ 2 ^ (34 : ℤ) * q := by gcongr
    linarith
  obtain ⟨h, eh⟩ := rnd_fin hR (n := 34) (by norm_num) (x := q' / q) (by rw [abs_of_pos (by linarith)]; exact hr2)
  have h0 : 0 < h := lt_of_lt_of_le pos (hR.mono _ _ _ _ hr1 (hR.pow _ (by norm_num)) eh)
  refine ⟨h, by simp [Mp.div, hq0.ne', eh], h0, ?_, ?_, ?_⟩
  · have e3 := hP _ h (by rw [abs_of_pos (by linarith)]; exact tiny.trans hr1) eh
    rw [abs_of_pos (a := q' / q) (by linarith)] at e3
    exact ratio_near s0 s0' (by positivity) (by norm_num) hq0 er er' e3
  · rw [le_div_iff₀ s0]
    exact (mul_le_of_le_one_right pos.le b2).trans b1'
  · rw [div_le_iff₀ s0]
    have : (2 : ℝ) ^ (34 : ℤ) * 2 ^ (-34 : ℤ) ≤ 2 ^ (34 : ℤ) * s := by gcongr
    linarith

theorem top96 {T : ℝ} (h1 : 1 ≤ T) (h : T ≤ 2 ^ (100000 : ℤ)) : 96 * T ≤ top := by
  have h2 : (2 : ℝ) ^ ((7 : ℤ) + 100000) ≤ top := pow_le (by norm_num)
  refine le_trans ?_ h2
  rw [zpow_add₀ (by norm_num)]
  have e : (2 : ℝ) ^ (7 : ℤ) = 128 := by norm_num
  rw [e]
  generalize (2 : ℝ) ^ (100000 : ℤ) = P at *
  linarith

/-- C79.  In 256-bit arithmetic the computed acceptance probability differs from the exact
Metropolis-Hastings probability of the documented action and proposal densities by at most 2^-239
times (bound on the couplings) * (bound on the root of alpha) * (bound on the counts): for the
couplings and sizes used in practice, far below the resolution of the trial value. -/
theorem C79_acceptance_error {R : Rounding} (hR : R.Lawful) (hP : R.Precise) {α κ Λ : ℚ} (hα : 1 / 2 < α)
    (ha : InLongDouble α) (hk : InLongDouble κ) (hl : InLongDouble Λ) {g g' : Geometry} {m : MoveType}
    (hg : Counts32 g) (hg' : Counts32 g') (hp : 0 < proposalSiteCount g m)
    (hp' : 0 < proposalSiteCount g' m.reverse)
    {C A N : ℝ} (hC : 1 ≤ C) (hA : 1 ≤ A) (hN : 1 ≤ N)
    (hκ : |(κ : ℝ)| ≤ C) (hΛ : |(Λ : ℝ)| ≤ C) (hαA : √(α : ℝ) ≤ A)
    (hgN : |(g.N1_TL : ℝ)| ≤ N ∧ |(g.N3_31_13 : ℝ)| ≤ N ∧ |(g.N3_22 : ℝ)| ≤ N)
    (hgN' : |(g'.N1_TL : ℝ)| ≤ N ∧ |(g'.N3_31_13 : ℝ)| ≤ N ∧ |(g'.N3_22 : ℝ)| ≤ N) :
    ∃ a : ℝ, acceptanceProbability R ⟨.fin α, .fin κ, .fin Λ⟩ g g' m = .ok (.fin a) ∧
      |a - metropolisHastings (actionOf α κ Λ g) (actionOf α κ Λ g')
        (siteProbability (proposalSiteCount g m)) (siteProbability (proposalSiteCount g' m.reverse))| ≤
        2 ^ (-239 : ℤ) * (C * A * N) := by
  obtain ⟨a, ea, a0, a1⟩ := C07_unit_interval hR hα ha hk hl hg hg' hp hp'
  refine ⟨a, ea, ?_⟩
  obtain ⟨h, eh, h0, hH, H1, H2⟩ := hastings_near hR hP hg hg' hp hp'
  obtain ⟨C', A', N', c1, c2, c3, c4, c5, c6, c7, c8, c9⟩ := cut_scale hC hA hN rfl ha hk hl hκ hΛ hαA
  refine le_trans ?_ (mul_le_mul_of_nonneg_left c9 (by positivity))
  obtain ⟨-, -, g1, -, g2, g3⟩ := hg
  obtain ⟨-, -, g1', -, g2', g3'⟩ := hg'
  obtain ⟨n1, n2, n3⟩ := hgN
  obtain ⟨n1', n2', n3'⟩ := hgN'
  have SN := action_near hR hP hα c1 c2 c3 c4 c5 c6 (c7 _ g1 n1) (c7 _ g3 n2) (c7 _ g2 n3) c8
  have SN' := action_near hR hP hα c1 c2 c3 c4 c5 c6 (c7 _ g1' n1') (c7 _ g3' n2') (c7 _ g2' n3') c8
  have T1 : 1 ≤ C' * A' * N' := one_le_mul_of_one_le_of_one_le (one_le_mul_of_one_le_of_one_le c1 c2) c3
  have c8' := c8
  clear c8 c9
  generalize C' * A' * N' = T at *
  obtain ⟨d, ed, hd, -⟩ := near_sub hR hP SN SN' (96 * T) (by linarith) (by linarith) (top96 T1 c8') (by norm_num)
    (by norm_num)
  unfold acceptanceProbability actionRatio at ea
  rw [eh, ed] at ea
  change _ = Except.ok (Mp.fin a) at ea
  have e1 : fromInteger R 1 = .fin 1 := by have := small_int hR 1; push_cast at this; exact this
  rw [e1] at ea
  have ew : metropolisHastings (actionOf α κ Λ g) (actionOf α κ Λ g')
        (siteProbability (proposalSiteCount g m)) (siteProbability (proposalSiteCount g' m.reverse)) =
      min 1 (Real.exp (actionOf α κ Λ g - actionOf α κ Λ g') *
        (siteProbability (proposalSiteCount g' m.reverse) / siteProbability (proposalSiteCount g m))) := rfl
  rw [ew]
  have hx : |d - (actionOf α κ Λ g - actionOf α κ Λ g')| ≤ 5568 * du * T := by
    refine hd.trans (le_of_eq (by ring))
  clear hd ew eh ed SN SN'
  generalize actionOf α κ Λ g - actionOf α κ Λ g' = x at *
  generalize siteProbability (proposalSiteCount g' m.reverse) / siteProbability (proposalSiteCount g m) = H at *
  have H0 : 0 < H := lt_of_lt_of_le (by positivity) H1
  set E : ℝ := 2 ^ (-242 : ℤ) * T with hE
  have E0 : 0 < E := by positivity
  have goal8 : 2 ^ (-239 : ℤ) * T = 8 * E := by
    rw [hE]; have : (2 : ℝ) ^ (-239 : ℤ) = 8 * 2 ^ (-242 : ℤ) := by norm_num
    rw [this]; ring
  rw [goal8]
  have hxE : |d - x| ≤ E := by
    refine hx.trans ?_
    have : (2 : ℝ) ^ (-242 : ℤ) = 8192 * du := by unfold du; norm_num
    rw [hE, this]
    have := du_pos
    nlinarith
  have w0 : 0 < Real.exp x * H := mul_pos (Real.exp_pos x) H0
  -- a large bound is trivial
  have m0 : 0 ≤ min 1 (Real.exp x * H) := le_min (by norm_num) w0.le
  have m1 : min 1 (Real.exp x * H) ≤ 1 := min_le_left _ _
  by_cases hbig : 1 / 8 < E
  · rw [abs_le]; constructor <;> linarith
  have hE8 := not_lt.1 hbig
  clear hbig
  have hEu : 64 * (2 : ℝ) ^ (-256 : ℤ) ≤ E := by
    have : 64 * (2 : ℝ) ^ (-256 : ℤ) ≤ 2 ^ (-242 : ℤ) := by norm_num
    rw [hE]; nlinarith [(by positivity : (0 : ℝ) < 2 ^ (-242 : ℤ))]
  have hEt : 16 * (2 * (2 : ℝ) ^ (-(2 ^ 30) : ℤ)) * (H + 1) ≤ E := by
    have e1 : (2 : ℝ) ^ (-(2 ^ 30) : ℤ) ≤ 2 ^ (-300 : ℤ) := pow_le (by norm_num)
    have e2 : 16 * (2 * (2 : ℝ) ^ (-(2 ^ 30) : ℤ)) * (H + 1) ≤ 16 * (2 * (2 : ℝ) ^ (-300 : ℤ)) * (2 ^ (34 : ℤ) + 1) := by
      gcongr
    refine e2.trans (le_trans ?_ hEu)
    have e3 : (2 : ℝ) ^ (-300 : ℤ) = 2 ^ (-44 : ℤ) * 2 ^ (-256 : ℤ) := by
      rw [← zpow_add₀ (by norm_num)]; norm_num
    rw [e3]
    have p : (0 : ℝ) < 2 ^ (-256 : ℤ) := by positivity
    generalize (2 : ℝ) ^ (-256 : ℤ) = u at *
    norm_num
    linarith only [p]
  have hD : |Real.exp d - Real.exp x| ≤ 2 * E * Real.exp x := by
    have e : Real.exp d - Real.exp x = (Real.exp (d - x) - 1) * Real.exp x := by
      rw [sub_mul, ← Real.exp_add]; ring_nf
    rw [e, abs_mul, abs_of_pos (Real.exp_pos x)]
    have := Real.abs_exp_sub_one_le (x := d - x) (by linarith)
    have h2 : |Real.exp (d - x) - 1| ≤ 2 * E := by linarith
    gcongr
  have hDX : Real.exp d ≤ 2 * Real.exp x := by
    have := (abs_le.1 hD).2
    nlinarith [Real.exp_pos x]
  have omega_big : (2 : ℝ) ^ (40 : ℤ) ≤ 2 ^ (2 ^ 30 : ℤ) := pow_le (by norm_num)
  have e34 : (2 : ℝ) ^ (40 : ℤ) * 2 ^ (-34 : ℤ) = 64 := by norm_num
  have ovf : ∀ {z : ℝ}, 0 ≤ z → R.rnd z = .inf false → (2 : ℝ) ^ (40 : ℤ) < z := by
    intro z hz hi
    by_contra hlt
    obtain ⟨y, hy⟩ := hR.finite z (by rw [abs_of_nonneg hz]; exact (not_lt.1 hlt).trans omega_big)
    rw [hy] at hi; cases hi
  simp only at ea
  rcases exp_nonneg_rnd hR (Real.exp_pos d).le with hinf | ⟨y, hy, y0⟩
  · have big := ovf (Real.exp_pos d).le hinf
    have : a = 1 := by
      simp [Mp.exp, hinf, Mp.mul, h0.ne', not_lt.2 h0.le, cmpNeg] at ea
      exact ea.symm
    have hw : 1 ≤ Real.exp x * H := by
      have : (2 : ℝ) ^ (40 : ℤ) / 2 * 2 ^ (-34 : ℤ) ≤ Real.exp x * H := by
        have := Real.exp_pos x
        gcongr
        linarith
      linarith
    rw [this, min_eq_left hw]; simp; linarith
  · have ey := rnd_error hR hP hy
    rw [abs_of_pos (Real.exp_pos d)] at ey
    simp only [Mp.exp, hy, Mp.mul] at ea
    rcases exp_nonneg_rnd hR (mul_nonneg h0.le y0) with hinf | ⟨P, hPr, P0⟩
    · have big := ovf (mul_nonneg h0.le y0) hinf
      have : a = 1 := by
        simp [hinf, cmpNeg] at ea
        exact ea.symm
      have hw : 1 ≤ Real.exp x * H := by
        have p1 := perturb (P := h * y) (Real.exp_pos x) H0 E0.le hE8 (by positivity) hEu (by positivity) hEt hD ey hH
          (by rw [sub_self, abs_zero]; positivity)
        have p2 := (abs_le.1 p1).2
        have hEw : E * (Real.exp x * H) ≤ 1 / 8 * (Real.exp x * H) := by gcongr
        have p3 : (2 : ℝ) ≤ 2 ^ (40 : ℤ) := by norm_num
        linarith only [p2, hEw, p3, big, hE8]
      rw [this, min_eq_left hw]; simp; linarith
    · rw [hPr] at ea
      have haP : a = min 1 P := by
        by_cases hlt : P < 1
        · simp [cmpNeg, hlt] at ea
          rw [min_eq_right hlt.le]; exact ea.symm
        · simp [cmpNeg, hlt] at ea
          rw [min_eq_left (not_lt.1 hlt)]; exact ea.symm
      rw [haP]
      have := perturb (P := P) (Real.exp_pos x) H0 E0.le hE8 (by positivity) hEu (by positivity) hEt hD ey hH
        (rnd_error hR hP hPr)
      exact (min_near E0.le hE8 w0.le this).trans (by linarith)

/-- C79.  The Metropolis decision is the one exact arithmetic would make, unless the trial value is
within the error bound of the exact acceptance probability. -/
theorem C79_decision {R : Rounding} (hR : R.Lawful) (hP : R.Precise) {α κ Λ : ℚ} (hα : 1 / 2 < α)
    (ha : InLongDouble α) (hk : InLongDouble κ) (hl : InLongDouble Λ) {g g' : Geometry} {m : MoveType}
    (hg : Counts32 g) (hg' : Counts32 g') (hp : 0 < proposalSiteCount g m)
    (hp' : 0 < proposalSiteCount g' m.reverse)
    {C A N : ℝ} (hC : 1 ≤ C) (hA : 1 ≤ A) (hN : 1 ≤ N)
    (hκ : |(κ : ℝ)| ≤ C) (hΛ : |(Λ : ℝ)| ≤ C) (hαA : √(α : ℝ) ≤ A)
    (hgN : |(g.N1_TL : ℝ)| ≤ N ∧ |(g.N3_31_13 : ℝ)| ≤ N ∧ |(g.N3_22 : ℝ)| ≤ N)
    (hgN' : |(g'.N1_TL : ℝ)| ≤ N ∧ |(g'.N3_31_13 : ℝ)| ≤ N ∧ |(g'.N3_22 : ℝ)| ≤ N) (u : ℚ)
    (hu : 2 ^ (-239 : ℤ) * (C * A * N) < |(u : ℝ) - metropolisHastings (actionOf α κ Λ g) (actionOf α κ Λ g')
        (siteProbability (proposalSiteCount g m)) (siteProbability (proposalSiteCount g' m.reverse))|) :
    ∃ p, acceptanceProbability R ⟨.fin α, .fin κ, .fin Λ⟩ g g' m = .ok p ∧
      (p.cmpLdGe u = true ↔ (u : ℝ) ≤ metropolisHastings (actionOf α κ Λ g) (actionOf α κ Λ g')
        (siteProbability (proposalSiteCount g m)) (siteProbability (proposalSiteCount g' m.reverse))) := by
  obtain ⟨a, ea, he⟩ := C79_acceptance_error hR hP hα ha hk hl hg hg' hp hp' hC hA hN hκ hΛ hαA hgN hgN'
  refine ⟨_, ea, ?_⟩
  rw [C07_accepts_iff]
  generalize metropolisHastings _ _ _ _ = w at *
  generalize 2 ^ (-239 : ℤ) * (C * A * N) = e at *
  have h1 := abs_le.1 he
  rcases le_total (u : ℝ) w with h | h
  · rw [abs_of_nonpos (by linarith)] at hu
    exact ⟨fun _ => h, fun _ => by linarith⟩
  · rw [abs_of_nonneg (by linarith)] at hu
    exact ⟨fun h' => by linarith, fun h' => by linarith⟩

/-- C79.  The shortcut for alpha = 1 against its documented formula. -/
theorem C79_alpha_one_error {R : Rounding} (hR : R.Lawful) (hP : R.Precise) {κ Λ : ℚ}
    {n1 n31 n22 : ℤ} {C N : ℝ} (hC : 1 ≤ C) (hN : 1 ≤ N) (hκ : |(κ : ℝ)| ≤ C) (hΛ : |(Λ : ℝ)| ≤ C)
    (h1 : |(n1 : ℝ)| ≤ N) (h31 : |(n31 : ℝ)| ≤ N) (h22 : |(n22 : ℝ)| ≤ N) (hT : C * N ≤ 2 ^ (100000 : ℤ)) :
    ∃ s : ℝ, s3ActionAlphaOne R n1 n31 n22 (.fin κ) (.fin Λ) = .ok (.fin s) ∧
      |s - actionOne κ Λ n1 n31 n22| ≤ 2 ^ (-246 : ℤ) * (C * N) := by
  have c1 : C ≤ C * N := le_mul_of_one_le_right (by linarith) hN
  have c2 : N ≤ C * N := le_mul_of_one_le_left (by linarith) hC
  have tt : 96 * (C * N) ≤ top := top96 (by linarith) hT
  clear hT
  have N1 : Near 2 N (fromInteger R n1) n1 := near_rnd hR hP h1 hN (by linarith)
  have N31 : Near 2 N (fromInteger R n31) n31 := near_rnd hR hP h31 hN (by linarith)
  have N22 : Near 2 N (fromInteger R n22) n22 := near_rnd hR hP h22 hN (by linarith)
  have K : Near 2 C (fromLongDouble R (.fin κ)) κ := near_rnd hR hP hκ hC (by linarith)
  have L : Near 2 C (fromLongDouble R (.fin Λ)) Λ := near_rnd hR hP hΛ hC (by linarith)
  have PI : Near 2 4 (Mp.pi R) Real.pi :=
    near_rnd hR hP (by rw [abs_of_pos Real.pi_pos]; exact Real.pi_le_four) (by norm_num) (by linarith)
  have i2 : Near 0 2 (fromInteger R 2) 2 := by rw [small_int hR 2]; push_cast; exact near_self (by norm_num)
  have d0 : Near 2 4 (fromDecimal R (-3548 / 1000)) ((-3548 / 1000 : ℚ) : ℝ) := near_rnd hR hP (by push_cast; norm_num [abs_le]) (by norm_num) (by linarith)
  have d1 : Near 2 1 (fromDecimal R (-167 / 1000)) ((-167 / 1000 : ℚ) : ℝ) := near_rnd hR hP (by push_cast; norm_num [abs_le]) (by norm_num) (by linarith)
  have d2 : Near 2 6 (fromDecimal R (-5355 / 1000)) ((-5355 / 1000 : ℚ) : ℝ) := near_rnd hR hP (by push_cast; norm_num [abs_le]) (by norm_num) (by linarith)
  have d3 : Near 2 1 (fromDecimal R (-204 / 1000)) ((-204 / 1000 : ℚ) : ℝ) := near_rnd hR hP (by push_cast; norm_num [abs_le]) (by norm_num) (by linarith)
  have r1 := near_mul hR hP i2 PI 8 (by norm_num) (by norm_num) (by linarith) (by norm_num) (by norm_num) (by norm_num) (by norm_num)
  have r2 := near_mul hR hP r1 K (8 * C) le_rfl (by linarith) (by linarith) (by norm_num) (by norm_num) (by norm_num) (by norm_num)
  have r3 := near_mul hR hP r2 N1 (8 * (C * N)) (le_of_eq (by ring)) (by linarith) (by linarith) (by norm_num) (by norm_num) (by norm_num) (by norm_num)
  have r4 := near_mul hR hP d0 K (4 * C) le_rfl (by linarith) (by linarith) (by norm_num) (by norm_num) (by norm_num) (by norm_num)
  have r5 := near_mul hR hP d1 L (1 * C) le_rfl (by linarith) (by linarith) (by norm_num) (by norm_num) (by norm_num) (by norm_num)
  have r6 := near_add hR hP r4 r5 (5 * C) (by linarith) (by linarith) (by linarith) (by norm_num) (by norm_num)
  have r7 := near_mul hR hP N31 r6 (5 * (C * N)) (le_of_eq (by ring)) (by linarith) (by linarith) (by norm_num) (by norm_num) (by norm_num) (by norm_num)
  have r8 := near_mul hR hP d2 K (6 * C) le_rfl (by linarith) (by linarith) (by norm_num) (by norm_num) (by norm_num) (by norm_num)
  have r9 := near_mul hR hP d3 L (1 * C) le_rfl (by linarith) (by linarith) (by norm_num) (by norm_num) (by norm_num) (by norm_num)
  have r10 := near_add hR hP r8 r9 (7 * C) (by linarith) (by linarith) (by linarith) (by norm_num) (by norm_num)
  have r11 := near_mul hR hP N22 r10 (7 * (C * N)) (le_of_eq (by ring)) (by linarith) (by linarith) (by norm_num) (by norm_num) (by norm_num) (by norm_num)
  have r12 := near_add hR hP (r3.mono (by norm_num : _ ≤ (15 : ℝ)) le_rfl (by norm_num)) (r7.mono (by norm_num : _ ≤ (15 : ℝ)) le_rfl (by norm_num)) (13 * (C * N)) (by linarith) (by linarith) (by linarith) (by norm_num) (by norm_num)
  have r13 := near_add hR hP (r11.mono (by norm_num : _ ≤ (15 + 2 : ℝ)) le_rfl (by norm_num)) r12 (20 * (C * N)) (by linarith) (by linarith) (by linarith) (by norm_num) (by norm_num)
  obtain ⟨s, hs, he, -⟩ := r13
  refine ⟨s, by rw [← hs]; rfl, ?_⟩
  have e2 : (2 : ℝ) ^ (-246 : ℤ) = 512 * du := by unfold du; norm_num
  have d := du_pos
  have dT : 0 ≤ du * (C * N) := mul_nonneg d.le (by linarith)
  rw [e2]
  generalize du = D at *
  refine le_trans (le_of_eq ?_) (he.trans ?_)
  · unfold actionOne
    congr 1
    push_cast
    ring
  · linarith only [dT, show (15 + 2 + 2 : ℝ) * D * (20 * (C * N)) = 380 * (D * (C * N)) by ring,
      show (512 : ℝ) * D * (C * N) = 512 * (D * (C * N)) by ring]

/-- C79.  The shortcut for alpha = -1 against its documented formula. -/
theorem C79_alpha_minus_one_error {R : Rounding} (hR : R.Lawful) (hP : R.Precise) {κ Λ : ℚ}
    {n1 n31 n22 : ℤ} {C N : ℝ} (hC : 1 ≤ C) (hN : 1 ≤ N) (hκ : |(κ : ℝ)| ≤ C) (hΛ : |(Λ : ℝ)| ≤ C)
    (h1 : |(n1 : ℝ)| ≤ N) (h31 : |(n31 : ℝ)| ≤ N) (h22 : |(n22 : ℝ)| ≤ N) (hT : C * N ≤ 2 ^ (100000 : ℤ)) :
    ∃ s : ℝ, s3ActionAlphaMinusOne R n1 n31 n22 (.fin κ) (.fin Λ) = .ok (.fin s) ∧
      |s - actionMinusOne κ Λ n1 n31 n22| ≤ 2 ^ (-246 : ℤ) * (C * N) := by
  have c1 : C ≤ C * N := le_mul_of_one_le_right (by linarith) hN
  have c2 : N ≤ C * N := le_mul_of_one_le_left (by linarith) hC
  have tt : 96 * (C * N) ≤ top := top96 (by linarith) hT
  clear hT
  have N1 : Near 2 N (fromInteger R n1) n1 := near_rnd hR hP h1 hN (by linarith)
  have N31 : Near 2 N (fromInteger R n31) n31 := near_rnd hR hP h31 hN (by linarith)
  have N22 : Near 2 N (fromInteger R n22) n22 := near_rnd hR hP h22 hN (by linarith)
  have K : Near 2 C (fromLongDouble R (.fin κ)) κ := near_rnd hR hP hκ hC (by linarith)
  have L : Near 2 C (fromLongDouble R (.fin Λ)) Λ := near_rnd hR hP hΛ hC (by linarith)
  have PI : Near 2 4 (Mp.pi R) Real.pi :=
    near_rnd hR hP (by rw [abs_of_pos Real.pi_pos]; exact Real.pi_le_four) (by norm_num) (by linarith)
  have i2 : Near 0 2 (fromInteger R 2) 2 := by rw [small_int hR 2]; push_cast; exact near_self (by norm_num)
  have d0 : Near 2 3 (fromDecimal R (2673 / 1000)) ((2673 / 1000 : ℚ) : ℝ) := near_rnd hR hP (by push_cast; norm_num [abs_le]) (by norm_num) (by linarith)
  have d1 : Near 2 1 (fromDecimal R (118 / 1000)) ((118 / 1000 : ℚ) : ℝ) := near_rnd hR hP (by push_cast; norm_num [abs_le]) (by norm_num) (by linarith)
  have d2 : Near 2 8 (fromDecimal R (7386 / 1000)) ((7386 / 1000 : ℚ) : ℝ) := near_rnd hR hP (by push_cast; norm_num [abs_le]) (by norm_num) (by linarith)
  have d3 : Near 2 1 (fromDecimal R (118 / 1000)) ((118 / 1000 : ℚ) : ℝ) := near_rnd hR hP (by push_cast; norm_num [abs_le]) (by norm_num) (by linarith)
  have r1 := near_mul hR hP i2 PI 8 (by norm_num) (by norm_num) (by linarith) (by norm_num) (by norm_num) (by norm_num) (by norm_num)
  have r2 := near_mul hR hP r1 K (8 * C) le_rfl (by linarith) (by linarith) (by norm_num) (by norm_num) (by norm_num) (by norm_num)
  have r3 := near_mul hR hP r2 N1 (8 * (C * N)) (le_of_eq (by ring)) (by linarith) (by linarith) (by norm_num) (by norm_num) (by norm_num) (by norm_num)
  have r4 := near_mul hR hP d0 K (3 * C) le_rfl (by linarith) (by linarith) (by norm_num) (by norm_num) (by norm_num) (by norm_num)
  have r5 := near_mul hR hP d1 L (1 * C) le_rfl (by linarith) (by linarith) (by norm_num) (by norm_num) (by norm_num) (by norm_num)
  have r6 := near_add hR hP r4 r5 (4 * C) (by linarith) (by linarith) (by linarith) (by norm_num) (by norm_num)
  have r7 := near_mul hR hP N31 r6 (4 * (C * N)) (le_of_eq (by ring)) (by linarith) (by linarith) (by norm_num) (by norm_num) (by norm_num) (by norm_num)
  have r8 := near_mul hR hP d2 K (8 * C) le_rfl (by linarith) (by linarith) (by norm_num) (by norm_num) (by norm_num) (by norm_num)
  have r9 := near_mul hR hP d3 L (1 * C) le_rfl (by linarith) (by linarith) (by norm_num) (by norm_num) (by norm_num) (by norm_num)
  have r10 := near_add hR hP r8 r9 (9 * C) (by linarith) (by linarith) (by linarith) (by norm_num) (by norm_num)
  have r11 := near_mul hR hP N22 r10 (9 * (C * N)) (le_of_eq (by ring)) (by linarith) (by linarith) (by norm_num) (by norm_num) (by norm_num) (by norm_num)
  have r12 := near_sub hR hP (r7.mono (by norm_num : _ ≤ (15 : ℝ)) le_rfl (by norm_num)) (r3.mono (by norm_num : _ ≤ (15 : ℝ)) le_rfl (by norm_num)) (12 * (C * N)) (by linarith) (by linarith) (by linarith) (by norm_num) (by norm_num)
  have r13 := near_add hR hP (r11.mono (by norm_num : _ ≤ (15 + 2 : ℝ)) le_rfl (by norm_num)) r12 (21 * (C * N)) (by linarith) (by linarith) (by linarith) (by norm_num) (by norm_num)
  obtain ⟨s, hs, he, -⟩ := r13
  refine ⟨s, by rw [← hs]; rfl, ?_⟩
  have e2 : (2 : ℝ) ^ (-246 : ℤ) = 512 * du := by unfold du; norm_num
  have d := du_pos
  have dT : 0 ≤ du * (C * N) := mul_nonneg d.le (by linarith)
  rw [e2]
  generalize du = D at *
  refine le_trans (le_of_eq ?_) (he.trans ?_)
  · unfold actionMinusOne
    congr 1
    push_cast
    ring
  · linarith only [dT, show (15 + 2 + 2 : ℝ) * D * (21 * (C * N)) = 399 * (D * (C * N)) by ring,
      show (512 : ℝ) * D * (C * N) = 512 * (D * (C * N)) by ring]

/-- 256-bit rounding to nearest meets the accuracy assumption; so does exact arithmetic. -/
theorem exactPrecise : Rounding.exact.Precise := by
  intro x y _ h
  injection h with h
  rw [← h, sub_self, abs_zero]; positivity

theorem nearestPrecise : Fixture.nearest.Precise := by
  intro x y hx h
  injection h with h
  have hx0 : x ≠ 0 := by
    rintro rfl
    rw [abs_zero] at hx
    exact absurd hx (not_le.2 (by positivity))
  have p := Fixture.two_pos_zpow (Fixture.ulpExp x)
  have e1 : |Fixture.fl x - x| ≤ 1 / 2 * 2 ^ Fixture.ulpExp x := by
    have e : Fixture.fl x - x = (round (x / 2 ^ Fixture.ulpExp x) - x / 2 ^ Fixture.ulpExp x) * 2 ^ Fixture.ulpExp x := by
      unfold Fixture.fl; field_simp
    rw [e, abs_mul, abs_of_pos p]
    have := abs_sub_round (x / 2 ^ Fixture.ulpExp x)
    rw [abs_sub_comm] at this
    gcongr
  have b := (Fixture.binade hx0).1
  rw [le_div_iff₀ p] at b
  rw [← h]
  have e3 : (2 : ℝ) ^ (-256 : ℤ) * (2 ^ (255 : ℤ) * 2 ^ Fixture.ulpExp x) = 1 / 2 * 2 ^ Fixture.ulpExp x := by
    rw [← mul_assoc, ← zpow_add₀ (by norm_num)]; norm_num
  have : (2 : ℝ) ^ (-256 : ℤ) * (2 ^ (255 : ℤ) * 2 ^ Fixture.ulpExp x) ≤ 2 ^ (-256 : ℤ) * |x| := by gcongr
  exact e1.trans (e3.symm.le.trans this)

/-- The hypotheses are met by 256-bit rounding, the couplings of the test suite and the counts of a
small triangulation before and after a (2,3) move; the bound is then below 2^-230. -/
example :
    let g : Geometry := { N0 := 10, N1 := 33, N1_SL := 10, N1_TL := 23, N2 := 40, N3 := 16, N3_31 := 6, N3_13 := 6, N3_22 := 4, N3_31_13 := 12 }
    let g' : Geometry := { N0 := 10, N1 := 34, N1_SL := 10, N1_TL := 24, N2 := 42, N3 := 17, N3_31 := 6, N3_13 := 6, N3_22 := 5, N3_31_13 := 12 }
    ∃ a : ℝ, acceptanceProbability Fixture.nearest ⟨.fin (3 / 5), .fin (11 / 10), .fin (1 / 10)⟩ g g' .twoThree = .ok (.fin a) ∧
      |a - metropolisHastings (actionOf (3 / 5) (11 / 10) (1 / 10) g) (actionOf (3 / 5) (11 / 10) (1 / 10) g')
        (siteProbability 4) (siteProbability 24)| ≤ 2 ^ (-230 : ℤ) := by
  intro g g'
  have big : ∀ q : ℚ, |q| ≤ 2 → InLongDouble q := by
    intro q hq
    have h2 : |(q : ℝ)| ≤ 2 := by exact_mod_cast hq
    refine h2.trans ?_
    have : (2 : ℝ) = 2 ^ (1 : ℤ) := by norm_num
    conv_lhs => rw [this]
    exact pow_le (by norm_num)
  obtain ⟨a, ea, he⟩ := C79_acceptance_error Fixture.nearestLawful nearestPrecise (α := 3 / 5) (κ := 11 / 10)
    (Λ := 1 / 10) (by norm_num) (big _ (by norm_num [abs_le])) (big _ (by norm_num [abs_le]))
    (big _ (by norm_num [abs_le])) (g := g) (g' := g') (m := .twoThree) (by simp [Counts32, InInt32, g])
    (by simp [Counts32, InInt32, g']) (by decide) (by decide) (C := 2) (A := 1) (N := 24) (by norm_num) le_rfl (by norm_num)
    (by norm_num [abs_le]) (by norm_num [abs_le])
    (by rw [Real.sqrt_le_left (by norm_num)]; norm_num) (by norm_num [g]) (by norm_num [g'])
  refine ⟨a, ea, he.trans ?_⟩
  norm_num

end CDT.Props

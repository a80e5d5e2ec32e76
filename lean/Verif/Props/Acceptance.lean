/-
C07: the acceptance probability.
-/
import Verif.Props.Action

namespace CDT.Props
open CDT Spec Mp

/-- The documented probability of proposing one particular raw site: one of five move types, then
one of the sites of that type. -/
noncomputable def siteProbability (sites : ℤ) : ℝ := 1 / (5 * sites)

/-- The action of a geometry. -/
noncomputable def actionOf (α κ Λ : ℚ) (g : Geometry) : ℝ :=
  action α κ Λ g.N1_TL g.N3_31_13 g.N3_22

/-- Counts of a geometry that the library's 32-bit counters can hold. -/
def Counts32 (g : Geometry) : Prop :=
  InInt32 g.N0 ∧ InInt32 g.N1_SL ∧ InInt32 g.N1_TL ∧ InInt32 g.N3_13 ∧ InInt32 g.N3_22 ∧ InInt32 g.N3_31_13

theorem siteCount32 {g : Geometry} (h : Counts32 g) (m : MoveType) : InInt32 (proposalSiteCount g m) := by
  obtain ⟨h0, h1, h2, h3, h4, -⟩ := h
  cases m <;> assumption

theorem proposalProbability_zero {R : Rounding} {g : Geometry} {m : MoveType}
    (hp : proposalSiteCount g m ≤ 0) : proposalProbability R g m = .fin 0 := by
  unfold proposalProbability
  simp only [hp, if_true]
  rfl

theorem proposalProbability_eq {R : Rounding} (hR : R.Lawful) {g : Geometry} {m : MoveType}
    (h : InInt32 (proposalSiteCount g m)) (hp : 0 < proposalSiteCount g m) :
    proposalProbability R g m = R.rnd (siteProbability (proposalSiteCount g m)) := by
  unfold proposalProbability siteProbability
  simp only [not_le.2 hp, if_false]
  generalize hs : proposalSiteCount g m = s at *
  have h1 : s ≤ 2 ^ 31 := (le_abs_self s).trans h
  have e5 : fromInteger R 5 = .fin ((5 : ℤ) : ℝ) := small_int hR 5
  have e1 : fromInteger R 1 = .fin ((1 : ℤ) : ℝ) := small_int hR 1
  have es : fromInteger R s = .fin (s : ℝ) := small_int hR s (by rw [abs_of_pos hp]; exact h1.trans (by norm_num))
  have em : Mp.mul R (.fin ((5 : ℤ) : ℝ)) (.fin (s : ℝ)) = .fin ((5 * s : ℤ) : ℝ) := by
    have := hR.int (5 * s) (by rw [abs_of_pos (by omega)]; omega)
    rw [← this]; simp [Mp.mul]
  rw [e5, e1, es, em]
  have hne : ((5 * s : ℤ) : ℝ) ≠ 0 := by exact_mod_cast (by omega : 5 * s ≠ 0)
  simp only [Mp.div, hne, if_false]
  push_cast; rfl

theorem siteProbability_bounds {s : ℤ} (h : InInt32 s) (hp : 0 < s) :
    (2 : ℝ) ^ (-34 : ℤ) ≤ siteProbability s ∧ siteProbability s ≤ 1 := by
  have hs' : (s : ℝ) ≤ 2 ^ 31 := by exact_mod_cast (le_abs_self s).trans h
  have hp' : (1 : ℝ) ≤ s := by exact_mod_cast hp
  unfold siteProbability
  constructor
  · rw [le_div_iff₀ (by linarith)]
    have e : (2 : ℝ) ^ (-34 : ℤ) = 1 / 2 ^ 34 := by norm_num
    rw [e, div_mul_eq_mul_div, div_le_one (by norm_num)]
    linarith
  · rw [div_le_one (by linarith)]; linarith

theorem proposalProbability_pos {R : Rounding} (hR : R.Lawful) {g : Geometry} {m : MoveType}
    (h : InInt32 (proposalSiteCount g m)) (hp : 0 < proposalSiteCount g m) :
    ∃ q, proposalProbability R g m = .fin q ∧ (2 : ℝ) ^ (-34 : ℤ) ≤ q ∧ q ≤ 1 := by
  obtain ⟨h1, h2⟩ := siteProbability_bounds h hp
  have pos : (0 : ℝ) < 2 ^ (-34 : ℤ) := by positivity
  rw [proposalProbability_eq hR h hp]
  obtain ⟨q, hq⟩ := rnd_fin hR (n := 0) (by norm_num) (x := siteProbability (proposalSiteCount g m))
    (by rw [abs_of_nonneg (by linarith)]; simpa using h2)
  refine ⟨q, hq, hR.mono _ _ _ _ h1 (hR.pow _ (by norm_num)) hq, ?_⟩
  have := rnd_le hR (n := 1) (by norm_num) (by push_cast; exact h2) hq
  exact_mod_cast this

/-- C07.  The acceptance probability is an error exactly when one of the two site counts is not
positive, and the error is then a `logic_error` (in any lawful arithmetic). -/
theorem C07_error_iff {R : Rounding} (hR : R.Lawful) (p : PhysicalParameters) {g g' : Geometry}
    (hg : Counts32 g) (hg' : Counts32 g') (m : MoveType) (e : Exc) :
    acceptanceProbability R p g g' m = .error e ↔
      e = .logicError ∧ (proposalSiteCount g m ≤ 0 ∨ proposalSiteCount g' m.reverse ≤ 0) := by
  have key : ∀ (g : Geometry) (m : MoveType), Counts32 g →
      ((proposalProbability R g m).isZero = true ↔ proposalSiteCount g m ≤ 0) := by
    intro g m h
    constructor
    · intro hz
      by_contra hp
      obtain ⟨q, hq, h1, -⟩ := proposalProbability_pos hR (siteCount32 h m) (not_le.1 hp)
      rw [hq] at hz
      have pos : (0 : ℝ) < 2 ^ (-34 : ℤ) := by positivity
      simp only [isZero, decide_eq_true_eq] at hz
      linarith
    · intro hp
      rw [proposalProbability_zero hp]; simp [isZero]
  unfold acceptanceProbability hastingsRatio
  simp only [Bool.or_eq_true, key g m hg, key g' m.reverse hg']
  by_cases hc : proposalSiteCount g m ≤ 0 ∨ proposalSiteCount g' m.reverse ≤ 0
  · simp [hc, eq_comm]
  · simp [hc]

theorem exp_nonneg_rnd {R : Rounding} (hR : R.Lawful) {x : ℝ} (h : 0 ≤ x) :
    R.rnd x = .inf false ∨ ∃ y, R.rnd x = .fin y ∧ 0 ≤ y := by
  cases hx : R.rnd x with
  | nan => exact absurd hx (hR.notNan x)
  | inf b =>
    left
    cases b with
    | false => rfl
    | true => exact absurd ((hR.overflow x true hx).1 rfl) (not_lt.2 h)
  | fin y =>
    right
    refine ⟨y, rfl, ?_⟩
    have := rnd_ge hR (n := 0) (by norm_num) (by push_cast; exact h) hx
    exact_mod_cast this

/-- C07.  In every lawful arithmetic (in particular MPFR's), for all accepted couplings and all
geometries with positive site counts, the acceptance probability is a number in [0, 1]; overflow of
the exponential gives 1 and underflow gives 0, never a NaN. -/
theorem C07_unit_interval {R : Rounding} (hR : R.Lawful) {α κ Λ : ℚ} (hα : 1 / 2 < α)
    (ha : InLongDouble α) (hk : InLongDouble κ) (hl : InLongDouble Λ) {g g' : Geometry} {m : MoveType}
    (hg : Counts32 g) (hg' : Counts32 g') (hp : 0 < proposalSiteCount g m)
    (hp' : 0 < proposalSiteCount g' m.reverse) :
    ∃ A : ℝ, acceptanceProbability R ⟨.fin α, .fin κ, .fin Λ⟩ g g' m = .ok (.fin A) ∧ 0 ≤ A ∧ A ≤ 1 := by
  obtain ⟨q, hq, q1, q2⟩ := proposalProbability_pos hR (siteCount32 hg m) hp
  obtain ⟨q', hq', q1', q2'⟩ := proposalProbability_pos hR (siteCount32 hg' m.reverse) hp'
  have pos : (0 : ℝ) < 2 ^ (-34 : ℤ) := by positivity
  have e34 : (2 : ℝ) ^ (34 : ℤ) * 2 ^ (-34 : ℤ) = 1 := by norm_num
  have hq0 : 0 < q := lt_of_lt_of_le pos q1
  have hq0' : 0 < q' := lt_of_lt_of_le pos q1'
  -- the Hastings ratio
  have hr1 : (2 : ℝ) ^ (-34 : ℤ) ≤ q' / q := by rw [le_div_iff₀ hq0]; nlinarith
  have hr2 : q' / q ≤ (2 : ℝ) ^ (34 : ℤ) := by
    rw [div_le_iff₀ hq0]
    have : (2 : ℝ) ^ (34 : ℤ) * 2 ^ (-34 : ℤ) ≤ 2 ^ (34 : ℤ) * q := by gcongr
    linarith
  obtain ⟨r, er⟩ := rnd_fin hR (n := 34) (by norm_num) (x := q' / q) (by rw [abs_of_pos (by linarith)]; exact hr2)
  have r0 : 0 < r := lt_of_lt_of_le pos (hR.mono _ _ _ _ hr1 (hR.pow _ (by norm_num)) er)
  -- the action ratio
  obtain ⟨-, -, g1, -, g2, g3⟩ := hg
  obtain ⟨-, -, g1', -, g2', g3'⟩ := hg'
  obtain ⟨S, eS, bS⟩ := C44_action_is_real hR hα ha hk hl g1 g3 g2
  obtain ⟨S', eS', bS'⟩ := C44_action_is_real hR hα ha hk hl g1' g3' g2'
  obtain ⟨d, ed, -⟩ := sub_B hR (n := 40000) ⟨S, rfl, bS⟩ ⟨S', rfl, bS'⟩ (by norm_num) (by norm_num)
  have hz : (proposalProbability R g m).isZero = false := by rw [hq]; simp [isZero, hq0.ne']
  have hz' : (proposalProbability R g' m.reverse).isZero = false := by rw [hq']; simp [isZero, hq0'.ne']
  unfold acceptanceProbability hastingsRatio actionRatio
  simp only [hz, hz', Bool.or_self, Bool.false_eq_true, if_false]
  rw [hq, hq', eS, eS', ed]
  have ediv : Mp.div R (.fin q') (.fin q) = .fin r := by simp [Mp.div, hq0.ne', er]
  rw [ediv]
  have e1 : fromInteger R 1 = .fin 1 := by have := small_int hR 1; push_cast at this; exact this
  rw [e1]
  rcases exp_nonneg_rnd hR (Real.exp_pos d).le with h | ⟨E, hE, hE0⟩
  · refine ⟨1, ?_, by norm_num, le_rfl⟩
    simp [Mp.exp, h, Mp.mul, r0.ne', not_lt.2 r0.le, cmpNeg]
  · simp only [Mp.exp, hE, Mp.mul]
    rcases exp_nonneg_rnd hR (mul_nonneg r0.le hE0) with h | ⟨P, hP, hP0⟩
    · exact ⟨1, by simp [h, cmpNeg], by norm_num, le_rfl⟩
    · rw [hP]
      by_cases hlt : P < 1
      · exact ⟨P, by simp [cmpNeg, hlt], hP0, hlt.le⟩
      · exact ⟨1, by simp [cmpNeg, hlt], by norm_num, le_rfl⟩

/-- C07.  A candidate is accepted exactly when the trial value does not exceed the acceptance
probability (so a uniform trial value in [0, 1] accepts with that probability). -/
theorem C07_accepts_iff (A : ℝ) (u : ℚ) : (Mp.fin A).cmpLdGe u = true ↔ (u : ℝ) ≤ A := by
  simp [cmpLdGe]

/-- C07.  Without rounding the acceptance probability is the documented Metropolis-Hastings rule
for the documented action and proposal probabilities. -/
theorem C07_metropolis_hastings {α κ Λ : ℚ} (hα : 1 / 2 < α) {g g' : Geometry} {m : MoveType}
    (hg : Counts32 g) (hg' : Counts32 g') (hp : 0 < proposalSiteCount g m)
    (hp' : 0 < proposalSiteCount g' m.reverse) :
    acceptanceProbability .exact ⟨.fin α, .fin κ, .fin Λ⟩ g g' m =
      .ok (.fin (metropolisHastings (actionOf α κ Λ g) (actionOf α κ Λ g')
        (siteProbability (proposalSiteCount g m)) (siteProbability (proposalSiteCount g' m.reverse)))) := by
  have hR := Fixture.exactLawful
  have b := siteProbability_bounds (siteCount32 hg m) hp
  have b' := siteProbability_bounds (siteCount32 hg' m.reverse) hp'
  have pos : (0 : ℝ) < 2 ^ (-34 : ℤ) := by positivity
  have hq := proposalProbability_eq hR (siteCount32 hg m) hp
  have hq' := proposalProbability_eq hR (siteCount32 hg' m.reverse) hp'
  have h0 : siteProbability (proposalSiteCount g m) ≠ 0 := by linarith [b.1]
  have h0' : siteProbability (proposalSiteCount g' m.reverse) ≠ 0 := by linarith [b'.1]
  have er : ∀ x, Rounding.exact.rnd x = .fin x := fun _ => rfl
  rw [er] at hq hq'
  unfold acceptanceProbability hastingsRatio actionRatio
  rw [hq, hq', C45_general hα, C45_general hα]
  simp only [isZero, h0, h0', decide_false, Bool.or_self, Bool.false_eq_true, if_false, Mp.div, er,
    Mp.sub, Mp.exp, Mp.mul, fromInteger, cmpNeg, decide_eq_true_eq]
  unfold metropolisHastings actionOf
  rw [mul_comm (Real.exp _)]
  push_cast
  split
  · rename_i h
    rw [min_eq_right h.le]
  · rename_i h
    rw [min_eq_left (not_lt.1 h)]

/-- C07.  Detailed balance of the documented chain: for every pair of geometries with positive site
counts, the probability flow `e^{-S} q A` is the same in both directions. -/
theorem C07_detailed_balance {α κ Λ : ℚ} (hα : 1 / 2 < α) {g g' : Geometry} {m : MoveType}
    (hg : Counts32 g) (hg' : Counts32 g') (hp : 0 < proposalSiteCount g m)
    (hp' : 0 < proposalSiteCount g' m.reverse) :
    ∃ A A' : ℝ,
      acceptanceProbability .exact ⟨.fin α, .fin κ, .fin Λ⟩ g g' m = .ok (.fin A) ∧
      acceptanceProbability .exact ⟨.fin α, .fin κ, .fin Λ⟩ g' g m.reverse = .ok (.fin A') ∧
      Real.exp (-actionOf α κ Λ g) * siteProbability (proposalSiteCount g m) * A =
        Real.exp (-actionOf α κ Λ g') * siteProbability (proposalSiteCount g' m.reverse) * A' := by
  have hrr : m.reverse.reverse = m := by cases m <;> rfl
  refine ⟨_, _, C07_metropolis_hastings hα hg hg' hp hp',
    C07_metropolis_hastings hα hg' hg hp' (by rw [hrr]; exact hp), ?_⟩
  rw [hrr]
  have b := siteProbability_bounds (siteCount32 hg m) hp
  have b' := siteProbability_bounds (siteCount32 hg' m.reverse) hp'
  have pos : (0 : ℝ) < 2 ^ (-34 : ℤ) := by positivity
  generalize siteProbability (proposalSiteCount g m) = q at *
  generalize siteProbability (proposalSiteCount g' m.reverse) = q' at *
  generalize actionOf α κ Λ g = S
  generalize actionOf α κ Λ g' = S'
  have q0 : 0 < q := by linarith [b.1]
  have q0' : 0 < q' := by linarith [b'.1]
  unfold metropolisHastings
  have w : 0 ≤ Real.exp (-S) * q := by positivity
  have w' : 0 ≤ Real.exp (-S') * q' := by positivity
  rw [mul_min_of_nonneg _ _ w, mul_min_of_nonneg _ _ w', min_comm, mul_one, mul_one]
  have e1 : Real.exp (-S) * q * (Real.exp (S - S') * (q' / q)) = Real.exp (-S') * q' := by
    have : Real.exp (-S) * Real.exp (S - S') = Real.exp (-S') := by rw [← Real.exp_add]; congr 1; ring
    rw [← this]; field_simp
  have e2 : Real.exp (-S') * q' * (Real.exp (S' - S) * (q / q')) = Real.exp (-S) * q := by
    have : Real.exp (-S') * Real.exp (S' - S) = Real.exp (-S) := by rw [← Real.exp_add]; congr 1; ring
    rw [← this]; field_simp
  rw [e1, e2]

/-- The hypotheses are met by the counts of a small triangulation before and after a (2,3) move. -/
example : ∃ g g' : Geometry, Counts32 g ∧ Counts32 g' ∧ 0 < proposalSiteCount g .twoThree ∧
    0 < proposalSiteCount g' MoveType.twoThree.reverse ∧ g ≠ g' := by
  refine ⟨{ N0 := 10, N1 := 33, N1_SL := 10, N1_TL := 23, N2 := 40, N3 := 16, N3_31 := 6, N3_13 := 6, N3_22 := 4, N3_31_13 := 12 },
    { N0 := 10, N1 := 34, N1_SL := 10, N1_TL := 24, N2 := 42, N3 := 17, N3_31 := 6, N3_13 := 6, N3_22 := 5, N3_31_13 := 12 }, ?_, ?_, ?_, ?_, ?_⟩
  · simp [Counts32, InInt32]
  · simp [Counts32, InInt32]
  · decide
  · decide
  · decide

end CDT.Props

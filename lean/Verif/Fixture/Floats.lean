/-
Two lawful floating-point formats: no rounding at all, and no rounding below an overflow threshold.
-/
import Verif.Lemmas.Population

namespace CDT.Fixture
open CDT

/-- No rounding. -/
def exactFmt : FloatFormat := ⟨.fin⟩

/-- Overflow to an infinity at the threshold `M`, no rounding below it. -/
def overflowFmt (M : ℚ) : FloatFormat := ⟨fun q => if M ≤ |q| then .inf (decide (q < 0)) else .fin q⟩

theorem exactFmt_lawful : exactFmt.Lawful where
  notNan _ h := by injection h
  mono p q h := by simpa [exactFmt, LD.le] using h
  int _ _ := rfl

theorem overflowFmt_lawful {M : ℚ} (hM : 2 ^ 53 < M) : (overflowFmt M).Lawful where
  notNan q h := by
    unfold overflowFmt at h
    dsimp only at h
    split at h <;> cases h
  mono p q h := by
    unfold overflowFmt
    dsimp only
    have hM0 : 0 < M := lt_trans (by norm_num) hM
    by_cases hp : M ≤ |p| <;> by_cases hq : M ≤ |q| <;> simp only [hp, hq, if_true, if_false]
    · by_cases h1 : p < 0 <;> by_cases h2 : q < 0 <;> simp only [h1, h2, decide_true, decide_false, LD.le]
      exact absurd (lt_of_le_of_lt h h2) h1
    · by_cases h1 : p < 0
      · simp [h1, LD.le]
      · rw [abs_of_nonneg (not_lt.1 h1)] at hp
        rw [abs_of_nonneg (by linarith)] at hq
        exact absurd (hp.trans h) hq
    · by_cases h2 : q < 0
      · rw [abs_of_neg h2] at hq
        rw [abs_of_neg (by linarith)] at hp
        exact absurd (by linarith) hp
      · simp [h2, LD.le]
    · simpa [LD.le] using h
  int n h := by
    have : |(n : ℚ)| ≤ 2 ^ 53 := by exact_mod_cast h
    simp only [overflowFmt]
    rw [if_neg (by linarith)]

/-- Both formats exact. -/
def exactFloats : Floats := ⟨exactFmt, exactFmt⟩

theorem exactFloats_lawful : exactFloats.Lawful := ⟨exactFmt_lawful, exactFmt_lawful⟩

theorem exactFloats_double (q : ℚ) : exactFloats.IsDouble q := ⟨rfl, rfl⟩

/-- Overflow thresholds of binary64 and of the x87 extended format. -/
def boundedFloats : Floats := ⟨overflowFmt (2 ^ 1024), overflowFmt (2 ^ 16384)⟩

theorem boundedFloats_lawful : boundedFloats.Lawful :=
  ⟨overflowFmt_lawful (pow_lt_pow_right₀ (by norm_num) (by norm_num)),
   overflowFmt_lawful (pow_lt_pow_right₀ (by norm_num) (by norm_num))⟩

end CDT.Fixture

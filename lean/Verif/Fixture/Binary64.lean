/-
IEEE binary64 with rounding to nearest (ties upward), subnormal numbers and overflow, and a
mathematical library with an almost exact square root.
-/
import Mathlib.Data.Int.Log
import Mathlib.Algebra.Order.Round
import Mathlib.Data.Rat.Sqrt
import Mathlib.Analysis.Real.Sqrt
import Verif.Lemmas.Radius
import Verif.Fixture.Floats

namespace CDT.Fixture
open CDT CDT.Spec

set_option exponentiation.threshold 4000

/-- Exponent of the last place. -/
def lastPlace (q : ℚ) : ℤ := max (Int.log 2 |q| - 52) (-1074)

/-- Unit in the last place. -/
def ulp (q : ℚ) : ℚ := 2 ^ lastPlace q

/-- The nearest multiple of the unit in the last place. -/
def b64Nearest (q : ℚ) : ℚ := round (q / ulp q) * ulp q

/-- Binary64. -/
def binary64 : FloatFormat :=
  ⟨fun q => if 2 ^ 1024 ≤ |b64Nearest q| then .inf (decide (q < 0)) else .fin (b64Nearest q)⟩

theorem ulp_pos (q : ℚ) : 0 < ulp q := zpow_pos (by norm_num) _

theorem b64Nearest_err (q : ℚ) : |b64Nearest q - q| ≤ ulp q / 2 := by
  have h := abs_sub_round (q / ulp q)
  have hp := ulp_pos q
  have e : b64Nearest q - q = -((q / ulp q - round (q / ulp q)) * ulp q) := by
    unfold b64Nearest; field_simp; ring
  rw [e, abs_neg, abs_mul, abs_of_pos hp]
  nlinarith

theorem round_le_of_le {x : ℚ} {k : ℤ} (h : x ≤ k) : round x ≤ k := by
  rw [round_eq]
  have : ⌊x + 1 / 2⌋ < k + 1 := by
    rw [Int.floor_lt]; push_cast; linarith
  omega

theorem le_round_of_le {x : ℚ} {k : ℤ} (h : (k : ℚ) ≤ x) : k ≤ round x := by
  rw [round_eq, Int.le_floor]; linarith

/-- Multiples of the unit in the last place are not crossed. -/
theorem b64Nearest_le {q : ℚ} {k : ℤ} (h : q ≤ k * ulp q) : b64Nearest q ≤ k * ulp q := by
  have hp := ulp_pos q
  have : q / ulp q ≤ k := (div_le_iff₀ hp).2 h
  unfold b64Nearest
  exact mul_le_mul_of_nonneg_right (by exact_mod_cast round_le_of_le this) hp.le

theorem le_b64Nearest {q : ℚ} {k : ℤ} (h : k * ulp q ≤ q) : k * ulp q ≤ b64Nearest q := by
  have hp := ulp_pos q
  have : (k : ℚ) ≤ q / ulp q := (le_div_iff₀ hp).2 h
  unfold b64Nearest
  exact mul_le_mul_of_nonneg_right (by exact_mod_cast le_round_of_le this) hp.le

theorem b64Nearest_eq {q : ℚ} {k : ℤ} (h : q = k * ulp q) : b64Nearest q = q :=
  le_antisymm ((b64Nearest_le h.le).trans h.ge) (h.le.trans (le_b64Nearest h.ge))

theorem two_zpow_multiple {a e : ℤ} (h : a ≤ e) : ∃ k : ℤ, (2 : ℚ) ^ e = k * 2 ^ a := by
  obtain ⟨m, rfl⟩ := Int.le.dest h
  refine ⟨2 ^ m, ?_⟩
  rw [zpow_add₀ (by norm_num)]
  push_cast
  rw [zpow_natCast]; ring

/-- Between numbers of different magnitude lies a power of two that both formats hold. -/
theorem binade_gap {p q : ℚ} (hq : 0 < |q|) (h : lastPlace p < lastPlace q) :
    ∃ e : ℤ, |p| ≤ 2 ^ e ∧ (2 : ℚ) ^ e ≤ |q| ∧ lastPlace p ≤ e ∧ lastPlace q ≤ e := by
  have hlt : Int.log 2 |p| < Int.log 2 |q| := by unfold lastPlace at h; omega
  have hbig : -1074 < Int.log 2 |q| - 52 := by unfold lastPlace at h; omega
  refine ⟨Int.log 2 |q|, ?_, ?_, by unfold lastPlace at *; omega, by unfold lastPlace at *; omega⟩
  · have h1 := (Int.lt_zpow_succ_log_self (b := 2) (by norm_num) |p|).le
    refine h1.trans ?_
    push_cast
    exact zpow_le_zpow_right₀ (by norm_num) (by omega)
  · have := Int.zpow_log_le_self (b := 2) (by norm_num) hq
    exact_mod_cast this

theorem b64Nearest_mono {p q : ℚ} (h : p ≤ q) : b64Nearest p ≤ b64Nearest q := by
  have eqcase : lastPlace p = lastPlace q → b64Nearest p ≤ b64Nearest q := by
    intro e
    have eu : ulp p = ulp q := by unfold ulp; rw [e]
    unfold b64Nearest
    rw [eu]
    have hp := ulp_pos q
    refine mul_le_mul_of_nonneg_right ?_ hp.le
    have : p / ulp q ≤ q / ulp q := div_le_div_of_nonneg_right h hp.le
    have h2 : round (p / ulp q) ≤ round (q / ulp q) := by
      rw [round_eq, round_eq]; exact Int.floor_le_floor (by linarith)
    exact_mod_cast h2
  rcases le_total 0 p with hp | hp
  · rcases eq_or_lt_of_le hp with rfl | hp0
    · have : b64Nearest 0 = 0 := by simp [b64Nearest]
      rw [this]
      have := le_b64Nearest (q := q) (k := 0) (by simpa using h)
      simpa using this
    · have hq0 : 0 < q := hp0.trans_le h
      have hle : lastPlace p ≤ lastPlace q := by
        have := Int.log_mono_right (b := 2) (abs_pos.2 hp0.ne') (by rwa [abs_of_pos hp0, abs_of_pos hq0] : |p| ≤ |q|)
        unfold lastPlace; omega
      rcases eq_or_lt_of_le hle with e | hlt
      · exact eqcase e
      · obtain ⟨e, h1, h2, h3, h4⟩ := binade_gap (abs_pos.2 hq0.ne') hlt
        rw [abs_of_pos hp0] at h1
        rw [abs_of_pos hq0] at h2
        obtain ⟨k, hk⟩ := two_zpow_multiple h3
        obtain ⟨k', hk'⟩ := two_zpow_multiple h4
        calc b64Nearest p ≤ k * ulp p := b64Nearest_le (h1.trans hk.le)
          _ = k' * ulp q := hk.symm.trans hk'
          _ ≤ b64Nearest q := le_b64Nearest (hk'.ge.trans h2)
  · rcases le_total 0 q with hq | hq
    · have a := b64Nearest_le (q := p) (k := 0) (by simpa using hp)
      have b := le_b64Nearest (q := q) (k := 0) (by simpa using hq)
      simp only [Int.cast_zero, zero_mul] at a b
      exact a.trans b
    · rcases eq_or_lt_of_le hq with rfl | hq0
      · have : b64Nearest 0 = 0 := by simp [b64Nearest]
        rw [this]
        have := b64Nearest_le (q := p) (k := 0) (by simpa using hp)
        simpa using this
      · have hp0 : p < 0 := lt_of_le_of_lt h hq0
        have hle : lastPlace q ≤ lastPlace p := by
          have := Int.log_mono_right (b := 2) (abs_pos.2 hq0.ne) (by rw [abs_of_neg hp0, abs_of_neg hq0]; linarith : |q| ≤ |p|)
          unfold lastPlace; omega
        rcases eq_or_lt_of_le hle with e | hlt
        · exact eqcase e.symm
        · obtain ⟨e, h1, h2, h3, h4⟩ := binade_gap (abs_pos.2 hp0.ne) hlt
          rw [abs_of_neg hq0] at h1
          rw [abs_of_neg hp0] at h2
          obtain ⟨k, hk⟩ := two_zpow_multiple h3
          obtain ⟨k', hk'⟩ := two_zpow_multiple h4
          have a : p ≤ ((-k' : ℤ) : ℚ) * ulp p := by
            have : (2 : ℚ) ^ e = k' * ulp p := hk'
            push_cast; linarith
          have b : ((-k : ℤ) : ℚ) * ulp q ≤ q := by
            have : (2 : ℚ) ^ e = k * ulp q := hk
            push_cast; linarith
          calc b64Nearest p ≤ ((-k' : ℤ) : ℚ) * ulp p := b64Nearest_le a
            _ = ((-k : ℤ) : ℚ) * ulp q := by
              have h5 : (2 : ℚ) ^ e = k' * ulp p := hk'
              have h6 : (2 : ℚ) ^ e = k * ulp q := hk
              push_cast; linarith
            _ ≤ b64Nearest q := le_b64Nearest b

theorem b64Nearest_int {n : ℤ} (h : |n| ≤ 2 ^ 53) : b64Nearest n = n := by
  rcases eq_or_ne n 0 with rfl | hn
  · simp [b64Nearest]
  have hq : (0 : ℚ) < |(n : ℚ)| := abs_pos.2 (by exact_mod_cast hn)
  have hq53 : |(n : ℚ)| ≤ 2 ^ 53 := by exact_mod_cast h
  rcases eq_or_lt_of_le hq53 with e | hlt
  · -- the boundary
    have hl : Int.log 2 |(n : ℚ)| = 53 := by
      rw [e]
      have := Int.log_zpow (R := ℚ) (b := 2) (by norm_num) 53
      simpa using this
    have hp : ulp (n : ℚ) = 2 := by unfold ulp lastPlace; rw [hl]; norm_num
    rcases abs_eq (by positivity : (0 : ℚ) ≤ 2 ^ 53) |>.1 e with e' | e'
    · exact b64Nearest_eq (k := 2 ^ 52) (by rw [hp, e']; norm_num)
    · exact b64Nearest_eq (k := -2 ^ 52) (by rw [hp, e']; norm_num)
  · have hl : Int.log 2 |(n : ℚ)| < 53 := by
      have := (Int.lt_zpow_iff_log_lt (R := ℚ) (b := 2) (by norm_num) (x := 53) hq).1 (by exact_mod_cast hlt)
      exact this
    have ha : lastPlace (n : ℚ) ≤ 0 := by unfold lastPlace; omega
    obtain ⟨k, hk⟩ := two_zpow_multiple ha
    rw [zpow_zero] at hk
    refine b64Nearest_eq (k := n * k) ?_
    push_cast
    rw [mul_assoc]
    have : (k : ℚ) * ulp n = 1 := hk.symm
    rw [this, mul_one]

theorem b64Nearest_near (q : ℚ) : |b64Nearest q - q| ≤ roundoff * |q| + tiny := by
  rcases eq_or_ne q 0 with rfl | hq
  · have := tiny_nonneg
    simpa [b64Nearest] using this
  refine (b64Nearest_err q).trans ?_
  have hq0 := abs_pos.2 hq
  have hu : ulp q ≤ 2 ^ (Int.log 2 |q| - 52) + 2 ^ (-1074 : ℤ) := by
    unfold ulp lastPlace
    rcases max_cases (Int.log 2 |q| - 52) (-1074) with ⟨e, -⟩ | ⟨e, -⟩ <;> rw [e]
    · exact le_add_of_nonneg_right (zpow_pos (by norm_num) _).le
    · exact le_add_of_nonneg_left (zpow_pos (by norm_num) _).le
  have hl : (2 : ℚ) ^ (Int.log 2 |q|) ≤ |q| := by
    have := Int.zpow_log_le_self (b := 2) (by norm_num) hq0
    exact_mod_cast this
  have e1 : (2 : ℚ) ^ (Int.log 2 |q| - 52) = 2 ^ (Int.log 2 |q|) / 2 ^ 52 := by
    rw [zpow_sub₀ (by norm_num)]; norm_cast
  have e2 : (2 : ℚ) ^ (-1074 : ℤ) = 2 * tiny := by unfold tiny; norm_num
  have e3 : roundoff * |q| = |q| / 2 ^ 53 := by unfold roundoff; ring
  rw [e1, e2] at hu
  rw [e3]
  linarith

theorem b64Nearest_bound {q : ℚ} (h : |q| ≤ 2 ^ 1000) : |b64Nearest q| < 2 ^ 1024 := by
  have h1 := b64Nearest_near q
  have h2 : |b64Nearest q| ≤ |q| + |b64Nearest q - q| := by
    calc |b64Nearest q| = |q + (b64Nearest q - q)| := by ring_nf
      _ ≤ _ := abs_add_le _ _
  have h3 : roundoff * |q| ≤ 1 * |q| := by
    refine mul_le_mul_of_nonneg_right ?_ (abs_nonneg _)
    unfold roundoff; norm_num
  have h4 : tiny ≤ 1 := by unfold tiny; apply div_le_one_of_le₀ <;> norm_num
  have h5 : (2 : ℚ) ^ 1000 + 2 ^ 1000 + 1 < 2 ^ 1024 := by norm_num
  linarith

theorem binary64_rnd {q : ℚ} (h : |q| ≤ 2 ^ 1000) : binary64.rnd q = .fin (b64Nearest q) := by
  unfold binary64
  dsimp only
  rw [if_neg (not_le.2 (b64Nearest_bound h))]

theorem b64Nearest_sign {q : ℚ} (h : q < 0) : b64Nearest q ≤ 0 := by
  have := b64Nearest_le (q := q) (k := 0) (by simpa using h.le)
  simpa using this

theorem b64Nearest_nonneg {q : ℚ} (h : 0 ≤ q) : 0 ≤ b64Nearest q := by
  have := le_b64Nearest (q := q) (k := 0) (by simpa using h)
  simpa using this

/-- Binary64 meets the specification. -/
theorem binary64_accurate : Accurate binary64 where
  notNan q h := by
    unfold binary64 at h
    dsimp only at h
    split at h <;> cases h
  mono p q h := by
    have hm := b64Nearest_mono h
    unfold binary64
    dsimp only
    by_cases hp : (2 : ℚ) ^ 1024 ≤ |b64Nearest p| <;> by_cases hq : (2 : ℚ) ^ 1024 ≤ |b64Nearest q| <;>
      simp only [hp, hq, if_true, if_false]
    · by_cases h1 : p < 0 <;> by_cases h2 : q < 0 <;> simp only [h1, h2, decide_true, decide_false, LD.le]
      exact absurd (lt_of_le_of_lt h h2) h1
    · by_cases h1 : p < 0
      · simp [h1, LD.le]
      · have h1' := not_lt.1 h1
        rw [abs_of_nonneg (b64Nearest_nonneg h1')] at hp
        rw [abs_of_nonneg (b64Nearest_nonneg (h1'.trans h))] at hq
        exact absurd (hp.trans hm) hq
    · by_cases h2 : q < 0
      · rw [abs_of_nonpos (b64Nearest_sign h2)] at hq
        rw [abs_of_nonpos (b64Nearest_sign (lt_of_le_of_lt h h2))] at hp
        exact absurd (by linarith) hp
      · simp [h2, LD.le]
    · simpa [LD.le] using hm
  int n h := by
    have h1 : |(n : ℚ)| ≤ 2 ^ 53 := by exact_mod_cast h
    rw [binary64_rnd (h1.trans (pow_le_pow_right₀ (by norm_num) (by norm_num))), b64Nearest_int h]
  near q h := ⟨_, binary64_rnd h, b64Nearest_near q⟩

theorem almost_sqrt {q : ℚ} (hq : 0 ≤ q) : ∃ s : ℚ, 0 ≤ s ∧
    (1 - roundoff) ^ 2 * q ≤ s ^ 2 ∧ s ^ 2 ≤ (1 + roundoff) ^ 2 * q := by
  rcases eq_or_lt_of_le hq with rfl | hq
  · exact ⟨0, le_rfl, by simp, by simp⟩
  have hr : (0 : ℝ) < Real.sqrt q := Real.sqrt_pos.2 (by exact_mod_cast hq)
  have hu : (0 : ℚ) < roundoff := by unfold roundoff; positivity
  have hu' : roundoff < 1 := by unfold roundoff; norm_num
  have huR : (0 : ℝ) < (roundoff : ℚ) := by exact_mod_cast hu
  have huR' : ((roundoff : ℚ) : ℝ) < 1 := by exact_mod_cast hu'
  obtain ⟨s, h1, h2⟩ := exists_rat_btwn (show (1 - (roundoff : ℚ) : ℝ) * Real.sqrt q < (1 + (roundoff : ℚ) : ℝ) * Real.sqrt q by
    nlinarith)
  have hs : (0 : ℝ) < s := lt_trans (mul_pos (by linarith) hr) h1
  have hsq : Real.sqrt (q : ℝ) ^ 2 = q := Real.sq_sqrt (by exact_mod_cast hq.le)
  refine ⟨s, by exact_mod_cast hs.le, ?_, ?_⟩
  · have : ((1 - (roundoff : ℚ) : ℝ)) ^ 2 * q ≤ (s : ℝ) ^ 2 := by
      rw [← hsq, ← mul_pow]; exact pow_le_pow_left₀ (mul_pos (by linarith) hr).le h1.le 2
    exact_mod_cast this
  · have : (s : ℝ) ^ 2 ≤ ((1 + (roundoff : ℚ) : ℝ)) ^ 2 * q := by
      rw [← hsq, ← mul_pow]; exact pow_le_pow_left₀ hs.le h2.le 2
    exact_mod_cast this

/-- The square root: exact for squares. -/
noncomputable def sqrtFun (q : ℚ) : ℚ :=
  if _ : Rat.sqrt q * Rat.sqrt q = q then Rat.sqrt q
  else if h : 0 ≤ q then (almost_sqrt h).choose else 0

/-- The mathematical library. -/
noncomputable def mathLib : MathLib where
  sqrt | .fin q => .fin (sqrtFun q)
       | x => x
  sq | .fin q => .fin (q ^ 2)
     | x => x

theorem mathLib_accurate : AccurateMath mathLib where
  sqrt q hq := by
    refine ⟨sqrtFun q, rfl, ?_⟩
    unfold sqrtFun
    rw [dif_pos hq]
    split
    · rename_i h
      have hu : (0 : ℚ) ≤ roundoff := roundoff_nonneg
      have hu' : roundoff ≤ 1 := roundoff_small.trans (by norm_num)
      refine ⟨Rat.sqrt_nonneg q, ?_, ?_⟩ <;> rw [pow_two (Rat.sqrt q), h]
      · exact mul_le_of_le_one_left hq (pow_le_one₀ (by linarith) (by linarith))
      · exact le_mul_of_one_le_left hq (one_le_pow₀ (by linarith))
    · exact (almost_sqrt hq).choose_spec
  sq q _ := ⟨q ^ 2, rfl, by
    have := tiny_nonneg
    have := roundoff_nonneg
    rw [sub_self, abs_zero]; positivity⟩

/-- Both C++ types binary64, as with compilers whose `long double` is `double`. -/
def doubles : Floats := ⟨binary64, binary64⟩

end CDT.Fixture

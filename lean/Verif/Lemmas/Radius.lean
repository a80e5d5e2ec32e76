/-
Rounding errors of radii and time values.
-/
import Verif.Spec.Radius
import Mathlib.Tactic.Linarith
import Mathlib.Tactic.Positivity
import Mathlib.Tactic.FieldSimp
import Mathlib.Tactic.NormNum
import Mathlib.Tactic.GCongr

set_option exponentiation.threshold 4000

namespace CDT
open Spec

/-- Triangle inequality for a rounded result of a perturbed operand. -/
theorem round_step {u τ a a' v d B : ℚ} (hu : 0 ≤ u) (h : |a' - a| ≤ d) (hB : |a| ≤ B)
    (hv : |v - a'| ≤ u * |a'| + τ) : |v - a| ≤ d + u * (B + d) + τ := by
  have h1 : |a'| ≤ B + d := by
    calc |a'| = |a + (a' - a)| := by ring_nf
      _ ≤ |a| + |a' - a| := abs_add_le _ _
      _ ≤ B + d := add_le_add hB h
  calc |v - a| = |(v - a') + (a' - a)| := by ring_nf
    _ ≤ |v - a'| + |a' - a| := abs_add_le _ _
    _ ≤ (u * |a'| + τ) + d := add_le_add hv h
    _ ≤ (u * (B + d) + τ) + d := by gcongr
    _ = _ := by ring

/-- The rounded sum of three rounded squares. -/
theorem sum_squares_err {u τ x y z a b c s N : ℚ} (hu : 0 ≤ u) (hu' : u ≤ 1 / 1000) (hτ : 0 ≤ τ)
    (ha : |a - x ^ 2| ≤ u * |x ^ 2| + τ) (hb : |b - y ^ 2| ≤ u * |y ^ 2| + τ)
    (hc : |c - z ^ 2| ≤ u * |z ^ 2| + τ) (hs : |s - (a + b)| ≤ u * |a + b| + τ)
    (hN : |N - (s + c)| ≤ u * |s + c| + τ) :
    |N - (x ^ 2 + y ^ 2 + z ^ 2)| ≤ 4 * u * (x ^ 2 + y ^ 2 + z ^ 2) + 8 * τ := by
  have px : 0 ≤ x ^ 2 := sq_nonneg _
  have py : 0 ≤ y ^ 2 := sq_nonneg _
  have pz : 0 ≤ z ^ 2 := sq_nonneg _
  rw [abs_of_nonneg px] at ha
  rw [abs_of_nonneg py] at hb
  rw [abs_of_nonneg pz] at hc
  set p := x ^ 2
  set q := y ^ 2
  set r := z ^ 2
  have h1 : |(a + b) - (p + q)| ≤ u * (p + q) + 2 * τ := by
    calc |(a + b) - (p + q)| = |(a - p) + (b - q)| := by ring_nf
      _ ≤ |a - p| + |b - q| := abs_add_le _ _
      _ ≤ (u * p + τ) + (u * q + τ) := add_le_add ha hb
      _ = _ := by ring
  have h2 := round_step hu h1 (le_of_eq (abs_of_nonneg (add_nonneg px py))) hs
  have h3 : |(s + c) - (p + q + r)| ≤
      (u * (p + q) + 2 * τ + u * ((p + q) + (u * (p + q) + 2 * τ)) + τ) + (u * r + τ) := by
    calc |(s + c) - (p + q + r)| = |(s - (p + q)) + (c - r)| := by ring_nf
      _ ≤ |s - (p + q)| + |c - r| := abs_add_le _ _
      _ ≤ _ := add_le_add h2 hc
  have h4 := round_step hu h3 (le_of_eq (abs_of_nonneg (add_nonneg (add_nonneg px py) pz))) hN
  refine h4.trans ?_
  have u2 : u * u ≤ u / 1000 := by nlinarith
  have u3 : u * u * u ≤ u / 1000000 := by nlinarith
  have e1 := mul_le_mul_of_nonneg_right u2 px
  have e2 := mul_le_mul_of_nonneg_right u2 py
  have e3 := mul_le_mul_of_nonneg_right u2 pz
  have e4 := mul_le_mul_of_nonneg_right u3 px
  have e5 := mul_le_mul_of_nonneg_right u3 py
  have e6 := mul_le_mul_of_nonneg_right u2 hτ
  have e7 := mul_le_mul_of_nonneg_right hu' hτ
  have f1 := mul_nonneg hu px
  have f2 := mul_nonneg hu py
  have f3 := mul_nonneg hu pz
  have f4 := mul_nonneg hu hτ
  nlinarith

/-- The rounded radius of a layer. -/
theorem shell_err {u τ I S k a ρ : ℚ} (hu : 0 ≤ u) (hu' : u ≤ 1 / 1000) (hτ : 0 ≤ τ) (hI : 0 ≤ I)
    (hkS : 0 ≤ k * S) (ha : |a - k * S| ≤ u * |k * S| + τ) (hρ : |ρ - (I + a)| ≤ u * |I + a| + τ)
    (hsmall : 4 * τ ≤ u / 2 * (I + k * S)) : |ρ - (I + k * S)| ≤ 3 * u * (I + k * S) := by
  rw [abs_of_nonneg hkS] at ha
  have h1 : |(I + a) - (I + k * S)| ≤ u * (k * S) + τ := by
    have : (I + a) - (I + k * S) = a - k * S := by ring
    rwa [this]
  have h2 := round_step hu h1 (le_of_eq (abs_of_nonneg (add_nonneg hI hkS))) hρ
  refine h2.trans ?_
  have u2 : u * u ≤ u / 1000 := by nlinarith
  have e1 := mul_le_mul_of_nonneg_right u2 hkS
  have e2 := mul_le_mul_of_nonneg_right hu' hτ
  have f1 := mul_nonneg hu hkS
  have f2 := mul_nonneg hu hI
  nlinarith

theorem le_of_sq_le_sq' {a b : ℚ} (h : a ^ 2 ≤ b ^ 2) (hb : 0 ≤ b) : a ≤ b := by
  by_contra hc
  push Not at hc
  nlinarith

/-- The square root of the computed square. -/
theorem radius_bounds {u η n N R X : ℚ} (hu : 0 ≤ u) (hu' : u ≤ 1 / 1000) (hη : 0 ≤ η) (hη' : η ≤ 1 / 20)
    (hX : 0 ≤ X) (hR : 0 ≤ R) (hN : |N - n| ≤ 5 * u * n) (hn : |n - X ^ 2| ≤ η * X ^ 2)
    (h1 : (1 - u) ^ 2 * N ≤ R ^ 2) (h2 : R ^ 2 ≤ (1 + u) ^ 2 * N) :
    |R - X| ≤ (5 * u + η) * X := by
  have hX2 : 0 ≤ X ^ 2 := sq_nonneg _
  rw [abs_le] at hN hn ⊢
  have n0 : 0 ≤ n := by nlinarith
  have u2 : u * u ≤ u / 1000 := by nlinarith
  have hi : N ≤ (1 + 5 * u) * (1 + η) * X ^ 2 := by nlinarith [mul_nonneg hu hX2, mul_nonneg hu n0]
  have lo : (1 - 5 * u) * (1 - η) * X ^ 2 ≤ N := by nlinarith [mul_nonneg hu hX2, mul_nonneg hu n0]
  have hη2 : η * η ≤ η / 20 := by nlinarith
  have huη : u * η ≤ η / 1000 := by nlinarith
  have huη0 : 0 ≤ u * η := mul_nonneg hu hη
  have up : R ^ 2 ≤ ((1 + (5 * u + η)) * X) ^ 2 := by
    have c1 : (1 + u) ^ 2 ≤ 1 + 3 * u := by nlinarith
    have c2 : (1 + 3 * u) * ((1 + 5 * u) * (1 + η)) ≤ (1 + (5 * u + η)) ^ 2 := by
      nlinarith [mul_nonneg hu huη0, mul_le_mul_of_nonneg_right huη hu]
    calc R ^ 2 ≤ (1 + u) ^ 2 * N := h2
      _ ≤ (1 + u) ^ 2 * ((1 + 5 * u) * (1 + η) * X ^ 2) := by gcongr
      _ ≤ (1 + 3 * u) * ((1 + 5 * u) * (1 + η) * X ^ 2) := by gcongr
      _ = (1 + 3 * u) * ((1 + 5 * u) * (1 + η)) * X ^ 2 := by ring
      _ ≤ (1 + (5 * u + η)) ^ 2 * X ^ 2 := by gcongr
      _ = _ := by ring
  have dn : ((1 - (5 * u + η)) * X) ^ 2 ≤ R ^ 2 := by
    have c1 : 1 - 2 * u ≤ (1 - u) ^ 2 := by nlinarith
    have c2 : (1 - (5 * u + η)) ^ 2 ≤ (1 - 2 * u) * ((1 - 5 * u) * (1 - η)) := by
      nlinarith [mul_nonneg hu huη0, mul_le_mul_of_nonneg_right huη hu]
    have hA : 0 ≤ (1 - 5 * u) * (1 - η) * X ^ 2 := by
      apply mul_nonneg _ hX2; apply mul_nonneg <;> linarith
    calc ((1 - (5 * u + η)) * X) ^ 2 = (1 - (5 * u + η)) ^ 2 * X ^ 2 := by ring
      _ ≤ (1 - 2 * u) * ((1 - 5 * u) * (1 - η)) * X ^ 2 := by gcongr
      _ = (1 - 2 * u) * ((1 - 5 * u) * (1 - η) * X ^ 2) := by ring
      _ ≤ (1 - u) ^ 2 * ((1 - 5 * u) * (1 - η) * X ^ 2) := by gcongr
      _ ≤ (1 - u) ^ 2 * N := by gcongr
      _ ≤ R ^ 2 := h1
  have a1 : R ≤ (1 + (5 * u + η)) * X := by
    apply le_of_sq_le_sq' up
    apply mul_nonneg <;> linarith
  have a2 : (1 - (5 * u + η)) * X ≤ R := le_of_sq_le_sq' dn hR
  constructor <;> nlinarith
/-- The three roundings from a radius to a time value. -/
theorem time_err {u τ I S k R w1 w2 w3 A : ℚ} (hu : 0 ≤ u) (hu' : u ≤ 1 / 1000) (hτ : 0 ≤ τ) (hS : 0 < S)
    (hk : 1 ≤ k) (hA : |R - (I + (k - 1) * S)| ≤ A) (hA' : A ≤ 7 / 16 * S) (huk : u * k ≤ 1 / 128) (hτS : τ ≤ u * S) (hτ1 : τ ≤ u)
    (h1 : |w1 - (R - I)| ≤ u * |R - I| + τ) (h2 : |w2 - (w1 + S)| ≤ u * |w1 + S| + τ)
    (h3 : |w3 - w2 / S| ≤ u * |w2 / S| + τ) : |w3 - k| < 1 / 2 := by
  have hA0 : 0 ≤ A := (abs_nonneg _).trans hA
  have k0 : 0 ≤ k - 1 := by linarith
  have b0 : |(R - I) - (k - 1) * S| ≤ A := by
    have : (R - I) - (k - 1) * S = R - (I + (k - 1) * S) := by ring
    rwa [this]
  have g1 := round_step hu b0 (le_of_eq (abs_of_nonneg (mul_nonneg k0 hS.le))) h1
  have g1' : |(w1 + S) - k * S| ≤ A + u * ((k - 1) * S + A) + τ := by
    have : (w1 + S) - k * S = w1 - (k - 1) * S := by ring
    rwa [this]
  have g2 := round_step hu g1' (le_of_eq (abs_of_nonneg (mul_nonneg (by linarith) hS.le))) h2
  have hw : w2 / S - k = (w2 - k * S) / S := by field_simp
  -- everything in units of the spacing
  have e1 : u * k * S ≤ 1 / 128 * S := by gcongr
  have u1 : u ≤ 1 / 128 := by nlinarith
  have hbound : A + u * ((k - 1) * S + A) + τ + u * (k * S + (A + u * ((k - 1) * S + A) + τ)) + τ ≤
      (7 / 16 + 5 * (u * k)) * S := by
    have hkS : 0 ≤ (k - 1) * S := mul_nonneg k0 hS.le
    have t1 : u * A ≤ u * (7 / 16 * S) := by gcongr
    have t2 : u * (u * ((k - 1) * S)) ≤ 1 / 1000 * (u * ((k - 1) * S)) := by
      have := mul_nonneg hu hkS; gcongr
    have t3 : u * (u * A) ≤ 1 / 1000 * (u * A) := by
      have := mul_nonneg hu hA0; gcongr
    have t4 : u * τ ≤ 1 / 1000 * τ := by gcongr
    have t5 : 0 ≤ u * S := mul_nonneg hu hS.le
    have t6 : u * S ≤ u * k * S := by nlinarith
    have t7 : 0 ≤ u * ((k - 1) * S) := mul_nonneg hu hkS
    nlinarith
  have g3 : |w2 / S - k| ≤ 7 / 16 + 5 * (u * k) := by
    rw [hw, abs_div, abs_of_pos hS, div_le_iff₀ hS]
    exact g2.trans hbound
  have g4 := round_step hu g3 (le_of_eq (abs_of_nonneg (by linarith : (0:ℚ) ≤ k))) h3
  refine lt_of_le_of_lt g4 ?_
  have t : u * (k + (7 / 16 + 5 * (u * k))) ≤ u * k + u * (7 / 16 + 5 / 128) := by nlinarith
  have : u ≤ u * k := by nlinarith
  nlinarith

/-! ### The model's functions -/

theorem roundoff_nonneg : (0 : ℚ) ≤ roundoff := by unfold roundoff; positivity
theorem roundoff_small : roundoff ≤ 1 / 1000 := by unfold roundoff; norm_num
theorem tiny_nonneg : (0 : ℚ) ≤ tiny := by unfold tiny; positivity

/-- The computed squared radius. -/
theorem squaredRadius_near {F : FloatFormat} (hF : Accurate F) {p : FPoint} {n : ℚ} (h : AtSquare F p n)
    (hbig : n ≤ 2 ^ 990) (hsmall : 8 * tiny ≤ roundoff * n) :
    ∃ N, squaredRadius F p = .fin N ∧ |N - n| ≤ 5 * roundoff * n := by
  obtain ⟨x, y, z, rfl, hx, hy, hz, rfl⟩ := h
  have px : 0 ≤ x ^ 2 := sq_nonneg _
  have py : 0 ≤ y ^ 2 := sq_nonneg _
  have pz : 0 ≤ z ^ 2 := sq_nonneg _
  have hu := roundoff_nonneg
  have hu' := roundoff_small
  have hτ := tiny_nonneg
  have hτ' : tiny ≤ 1 := by unfold tiny; apply div_le_one_of_le₀ <;> norm_num
  have big : ∀ q : ℚ, |q| ≤ 4 * 2 ^ 990 + 4 → |q| ≤ 2 ^ 1000 := fun q hq =>
    hq.trans (by norm_num)
  obtain ⟨a, ea, ha⟩ := hF.near (x ^ 2) (big _ (by rw [abs_of_nonneg px]; linarith))
  obtain ⟨b, eb, hb⟩ := hF.near (y ^ 2) (big _ (by rw [abs_of_nonneg py]; linarith))
  obtain ⟨c, ec, hc⟩ := hF.near (z ^ 2) (big _ (by rw [abs_of_nonneg pz]; linarith))
  have bnd : ∀ {v q : ℚ}, 0 ≤ q → |v - q| ≤ roundoff * |q| + tiny → |v| ≤ 1001 / 1000 * q + 1 := by
    intro v q hq hv
    rw [abs_of_nonneg hq] at hv
    rw [abs_le] at hv ⊢
    have : roundoff * q ≤ 1 / 1000 * q := by gcongr
    constructor <;> linarith
  have ba := bnd px ha
  have bb := bnd py hb
  have bc := bnd pz hc
  have bab : |a + b| ≤ 1001 / 1000 * (x ^ 2 + y ^ 2) + 2 := (abs_add_le _ _).trans (by linarith)
  obtain ⟨s, es, hs⟩ := hF.near (a + b) (big _ (by linarith))
  have bs : |s| ≤ 1001 / 1000 * (1001 / 1000 * (x ^ 2 + y ^ 2) + 2) + 1 := by
    calc |s| = |(s - (a + b)) + (a + b)| := by ring_nf
      _ ≤ |s - (a + b)| + |a + b| := abs_add_le _ _
      _ ≤ (roundoff * |a + b| + tiny) + |a + b| := by linarith
      _ ≤ (1 / 1000 * |a + b| + 1) + |a + b| := by gcongr
      _ = 1001 / 1000 * |a + b| + 1 := by ring
      _ ≤ _ := by gcongr
  have bsc : |s + c| ≤ 4 * 2 ^ 990 + 4 := (abs_add_le _ _).trans (by nlinarith)
  obtain ⟨N, eN, hN⟩ := hF.near (s + c) (big _ bsc)
  refine ⟨N, ?_, ?_⟩
  · unfold squaredRadius FloatFormat.sub FloatFormat.add FloatFormat.mul
    simp only [sub_zero, hx, hy, hz]
    rw [← sq, ← sq, ← sq, ea, eb, ec]
    simp only
    rw [es]
    simp only
    exact eN
  · have := sum_squares_err hu hu' hτ ha hb hc hs hN
    linarith

theorem lroundQ_near {q : ℚ} {t : ℤ} (h : |q - t| < 1 / 2) : lroundQ q = t := by
  rw [abs_lt] at h
  unfold lroundQ
  split
  · rw [Int.floor_eq_iff]; constructor <;> linarith
  · have : ⌊-q + 1 / 2⌋ = -t := by
      rw [Int.floor_eq_iff]; push_cast; constructor <;> linarith
    rw [this]; ring

theorem bmod_of_range {t : ℤ} (h1 : -2 ^ 31 ≤ t) (h2 : t < 2 ^ 31) : Int.bmod t (2 ^ 32) = t := by
  rw [Int.bmod_def]; omega

/-- The time value of a point whose squared radius is close to that of slice `k`. -/
theorem timevalue_near {F : FloatFormat} (hF : Accurate F) {M : MathLib} (hM : AccurateMath M) {I S n η : ℚ}
    {p : FPoint} {k : ℤ} (hp : AtSquare F p n) (hI : Moderate I) (hS : Moderate S) (hk : 1 ≤ k)
    (hk' : k < 2 ^ 31) (hη : 0 ≤ η) (hη' : η ≤ 1 / 20)
    (hn : |n - (I + (k - 1) * S) ^ 2| ≤ η * (I + (k - 1) * S) ^ 2)
    (hA : (5 * roundoff + η) * (I + (k - 1) * S) ≤ 7 / 16 * S) :
    expectedTimevalue F M (.fin I) (.fin S) p = k := by
  have hu := roundoff_nonneg
  have hu' := roundoff_small
  have hτ := tiny_nonneg
  have hkq : (1 : ℚ) ≤ k := by exact_mod_cast hk
  have hkq' : (k : ℚ) ≤ 2 ^ 31 := by exact_mod_cast hk'.le
  have hI0 : (0 : ℚ) < I := lt_of_lt_of_le (by positivity) hI.1
  have hS0 : (0 : ℚ) < S := lt_of_lt_of_le (by positivity) hS.1
  have hkS : 0 ≤ ((k : ℚ) - 1) * S := mul_nonneg (by linarith) hS0.le
  set X := I + ((k : ℚ) - 1) * S with hX
  have hXI : I ≤ X := by linarith
  have hX0 : 0 < X := by linarith
  have hXub : X ≤ 2 ^ 432 := by
    have : ((k : ℚ) - 1) * S ≤ 2 ^ 31 * 2 ^ 400 :=
      mul_le_mul (by linarith) hS.2 hS0.le (by positivity)
    have := hI.2
    calc X ≤ 2 ^ 400 + 2 ^ 31 * 2 ^ 400 := by linarith
      _ ≤ 2 ^ 432 := by norm_num
  have hX2ub : X ^ 2 ≤ 2 ^ 864 := by
    calc X ^ 2 ≤ (2 ^ 432) ^ 2 := by gcongr
      _ = 2 ^ 864 := by norm_num
  have hX2lb : 1 / 2 ^ 800 ≤ X ^ 2 := by
    calc (1 : ℚ) / 2 ^ 800 = (1 / 2 ^ 400) ^ 2 := by norm_num
      _ ≤ X ^ 2 := by
        have := hI.1
        gcongr
        linarith
  have hX2 : 0 ≤ X ^ 2 := sq_nonneg _
  have hn' := abs_le.1 hn
  have hηX : η * X ^ 2 ≤ 1 / 20 * X ^ 2 := by gcongr
  have nlb : 1 / 2 ^ 801 ≤ n := by
    have : (1 : ℚ) / 2 ^ 801 = 1 / 2 * (1 / 2 ^ 800) := by norm_num
    linarith
  have nub : n ≤ 2 ^ 990 := by
    have : (2 : ℚ) * 2 ^ 864 ≤ 2 ^ 990 := by norm_num
    linarith
  have hsm : 8 * tiny ≤ roundoff * n := by
    calc 8 * tiny ≤ roundoff * (1 / 2 ^ 801) := by unfold tiny roundoff; norm_num
      _ ≤ roundoff * n := by gcongr
  obtain ⟨N, eN, hN⟩ := squaredRadius_near hF hp nub hsm
  have hN' := abs_le.1 hN
  have N0 : 0 ≤ N := by nlinarith [mul_le_mul_of_nonneg_right hu' (by linarith [show (0:ℚ) ≤ 1 / 2 ^ 801 by positivity] : (0:ℚ) ≤ n)]
  obtain ⟨R, eR, hR0, hR1, hR2⟩ := hM.sqrt N N0
  have hRX := radius_bounds hu hu' hη hη' hX0.le hR0 hN hn hR1 hR2
  have hRX' := abs_le.1 hRX
  have Rub : R ≤ 2 ^ 434 := by
    have : (5 * roundoff + η) * X ≤ 1 * X := by gcongr; linarith
    have : (2 : ℚ) * 2 ^ 432 ≤ 2 ^ 434 := by norm_num
    linarith
  have b1 : |R - I| ≤ 2 ^ 1000 := by
    rw [abs_le]
    have : (2 : ℚ) ^ 434 ≤ 2 ^ 1000 := pow_le_pow_right₀ (by norm_num) (by norm_num)
    have h4 : (2 : ℚ) ^ 400 ≤ 2 ^ 1000 := pow_le_pow_right₀ (by norm_num) (by norm_num)
    have := hI.2
    constructor <;> linarith
  obtain ⟨w1, e1, h1⟩ := hF.near (R - I) b1
  have hτ1 : tiny ≤ 1 := by unfold tiny; apply div_le_one_of_le₀ <;> norm_num
  have w1b : |w1| ≤ 2 ^ 440 := by
    have hRI : |R - I| ≤ 2 ^ 435 := by
      rw [abs_le]
      have : (2 : ℚ) ^ 434 ≤ 2 ^ 435 := pow_le_pow_right₀ (by norm_num) (by norm_num)
      have h4 : (2 : ℚ) ^ 400 ≤ 2 ^ 435 := pow_le_pow_right₀ (by norm_num) (by norm_num)
      have := hI.2
      constructor <;> linarith
    calc |w1| = |(w1 - (R - I)) + (R - I)| := by ring_nf
      _ ≤ |w1 - (R - I)| + |R - I| := abs_add_le _ _
      _ ≤ (roundoff * |R - I| + tiny) + |R - I| := by gcongr
      _ ≤ (1 / 1000 * |R - I| + 1) + |R - I| := by gcongr
      _ ≤ 2 ^ 440 := by
        have : (1001 / 1000 : ℚ) * 2 ^ 435 + 1 ≤ 2 ^ 440 := by norm_num
        linarith
  have w1Sb : |w1 + S| ≤ 2 ^ 441 := by
    have := hS.2
    have h4 : (2 : ℚ) ^ 440 + 2 ^ 400 ≤ 2 ^ 441 := by norm_num
    calc |w1 + S| ≤ |w1| + |S| := abs_add_le _ _
      _ ≤ 2 ^ 441 := by rw [abs_of_pos hS0]; linarith
  obtain ⟨w2, e2, h2⟩ := hF.near (w1 + S) (w1Sb.trans (pow_le_pow_right₀ (by norm_num) (by norm_num)))
  have w2b : |w2| ≤ 2 ^ 442 := by
    calc |w2| = |(w2 - (w1 + S)) + (w1 + S)| := by ring_nf
      _ ≤ |w2 - (w1 + S)| + |w1 + S| := abs_add_le _ _
      _ ≤ (roundoff * |w1 + S| + tiny) + |w1 + S| := by gcongr
      _ ≤ (1 / 1000 * |w1 + S| + 1) + |w1 + S| := by gcongr
      _ ≤ 2 ^ 442 := by
        have : (1001 / 1000 : ℚ) * 2 ^ 441 + 1 ≤ 2 ^ 442 := by norm_num
        linarith
  have w2Sb : |w2 / S| ≤ 2 ^ 1000 := by
    rw [abs_div, abs_of_pos hS0, div_le_iff₀ hS0]
    calc |w2| ≤ 2 ^ 442 := w2b
      _ ≤ 2 ^ 1000 * (1 / 2 ^ 400) := by norm_num
      _ ≤ 2 ^ 1000 * S := by gcongr; exact hS.1
  obtain ⟨w3, e3, h3⟩ := hF.near (w2 / S) w2Sb
  have huk : roundoff * k ≤ 1 / 128 := by
    calc roundoff * k ≤ roundoff * 2 ^ 31 := by gcongr
      _ ≤ 1 / 128 := by unfold roundoff; norm_num
  have hτS : tiny ≤ roundoff * S := by
    calc tiny ≤ roundoff * (1 / 2 ^ 400) := by unfold tiny roundoff; norm_num
      _ ≤ roundoff * S := by gcongr; exact hS.1
  have hτu : tiny ≤ roundoff := by unfold tiny roundoff; norm_num
  have fin := time_err hu hu' hτ hS0 hkq hRX hA huk hτS hτu h1 h2 h3
  unfold expectedTimevalue
  rw [eN]
  simp only
  rw [eR]
  simp only [FloatFormat.sub, FloatFormat.add, FloatFormat.div]
  rw [e1]
  simp only
  rw [e2]
  simp only
  rw [if_neg hS0.ne', e3]
  simp only [LD.lroundInt]
  rw [lroundQ_near fin]
  exact bmod_of_range (by omega) hk'

/-! ### Layers and the radius check -/

theorem expectedRadius_near {F : FloatFormat} (hF : Accurate F) {I S : ℚ} {k : ℤ} (hI : Moderate I)
    (hS : Moderate S) (hk : 1 ≤ k) (hk' : k < 2 ^ 31) :
    (∃ ρ, expectedRadius F (.fin I) (.fin S) k = .fin ρ ∧
      |ρ - (I + (k - 1) * S)| ≤ 3 * roundoff * (I + (k - 1) * S)) ∧
    ∀ ρ, F.add (.fin I) (F.mul (F.ofInt (k - 1)) (.fin S)) = .fin ρ →
      |ρ - (I + (k - 1) * S)| ≤ 3 * roundoff * (I + (k - 1) * S) := by
  have hu := roundoff_nonneg
  have hu' := roundoff_small
  have hτ := tiny_nonneg
  have hkq : (1 : ℚ) ≤ k := by exact_mod_cast hk
  have hkq' : (k : ℚ) ≤ 2 ^ 31 := by exact_mod_cast hk'.le
  have hI0 : (0 : ℚ) < I := lt_of_lt_of_le (by positivity) hI.1
  have hS0 : (0 : ℚ) < S := lt_of_lt_of_le (by positivity) hS.1
  have hkS : 0 ≤ ((k : ℚ) - 1) * S := mul_nonneg (by linarith) hS0.le
  have hkSb : ((k : ℚ) - 1) * S ≤ 2 ^ 431 := by
    calc ((k : ℚ) - 1) * S ≤ 2 ^ 31 * 2 ^ 400 := mul_le_mul (by linarith) hS.2 hS0.le (by positivity)
      _ = 2 ^ 431 := by norm_num
  have hint : F.ofInt (k - 1) = .fin ((k : ℚ) - 1) := by
    unfold FloatFormat.ofInt
    rw [hF.int (k - 1) (by rw [abs_of_nonneg (by omega)]; omega)]
    push_cast; rfl
  obtain ⟨a, ea, ha⟩ := hF.near (((k : ℚ) - 1) * S) (by
    rw [abs_of_nonneg hkS]; exact hkSb.trans (by norm_num))
  have ab : |I + a| ≤ 2 ^ 1000 := by
    have hτ1 : tiny ≤ 1 := by unfold tiny; norm_num
    have h1 : |a| ≤ 2 ^ 433 := by
      calc |a| = |(a - ((k : ℚ) - 1) * S) + ((k : ℚ) - 1) * S| := by ring_nf
        _ ≤ |a - ((k : ℚ) - 1) * S| + |((k : ℚ) - 1) * S| := abs_add_le _ _
        _ ≤ (roundoff * |((k : ℚ) - 1) * S| + tiny) + |((k : ℚ) - 1) * S| := by gcongr
        _ ≤ (1 / 1000 * |((k : ℚ) - 1) * S| + 1) + |((k : ℚ) - 1) * S| := by gcongr
        _ ≤ 2 ^ 433 := by
          rw [abs_of_nonneg hkS]
          have : (1001 / 1000 : ℚ) * 2 ^ 431 + 1 ≤ 2 ^ 433 := by norm_num
          linarith
    calc |I + a| ≤ |I| + |a| := abs_add_le _ _
      _ ≤ 2 ^ 400 + 2 ^ 433 := by rw [abs_of_pos hI0]; have := hI.2; linarith
      _ ≤ 2 ^ 1000 := by norm_num
  obtain ⟨ρ, eρ, hρ⟩ := hF.near (I + a) ab
  have hsmall : 4 * tiny ≤ roundoff / 2 * (I + ((k : ℚ) - 1) * S) := by
    calc 4 * tiny ≤ roundoff / 2 * (1 / 2 ^ 400) := by unfold tiny roundoff; norm_num
      _ ≤ roundoff / 2 * (I + ((k : ℚ) - 1) * S) := by
        have := hI.1
        gcongr
        linarith
  have key := shell_err hu hu' hτ hI0.le hkS ha hρ hsmall
  constructor
  · refine ⟨ρ, ?_, key⟩
    unfold expectedRadius
    rw [hint]
    simp only [FloatFormat.mul]
    rw [mul_comm, ea]
    simp only [FloatFormat.add]
    exact eρ
  · intro ρ' h
    rw [hint] at h
    simp only [FloatFormat.mul] at h
    rw [ea] at h
    simp only [FloatFormat.add] at h
    rw [eρ] at h
    cases h
    exact key

theorem slice_range {I S : ℚ} {k : ℤ} (hI : Moderate I) (hS : Moderate S) (hk : 1 ≤ k) (hk' : k < 2 ^ 31) :
    1 / 2 ^ 400 ≤ I + (k - 1) * S ∧ I + (k - 1) * S ≤ 2 ^ 432 := by
  have hkq : (1 : ℚ) ≤ k := by exact_mod_cast hk
  have hkq' : (k : ℚ) ≤ 2 ^ 31 := by exact_mod_cast hk'.le
  have hS0 : (0 : ℚ) < S := lt_of_lt_of_le (by positivity) hS.1
  have hkS : 0 ≤ ((k : ℚ) - 1) * S := mul_nonneg (by linarith) hS0.le
  constructor
  · have := hI.1; linarith
  · have : ((k : ℚ) - 1) * S ≤ 2 ^ 31 * 2 ^ 400 := mul_le_mul (by linarith) hS.2 hS0.le (by positivity)
    have := hI.2
    calc I + ((k : ℚ) - 1) * S ≤ 2 ^ 400 + 2 ^ 31 * 2 ^ 400 := by linarith
      _ ≤ 2 ^ 432 := by norm_num

/-- A product of two nearly known factors, rounded. -/
theorem product_near {F : FloatFormat} (hF : Accurate F) {v c Y c₀ : ℚ} (hY : 1 / 2 ^ 900 ≤ Y) (hY' : Y ≤ 2 ^ 900)
    (hv : |v - Y| ≤ 13 * roundoff * Y) (hc0 : 9 / 10 ≤ c₀) (hc0' : c₀ ≤ 11 / 10) (hc : |c - c₀| ≤ 5 * roundoff) :
    ∃ L, F.mul (.fin v) (.fin c) = .fin L ∧ |L - c₀ * Y| ≤ 30 * roundoff * Y := by
  have hu := roundoff_nonneg
  have hu' : roundoff ≤ 1 / 100000 := by unfold roundoff; norm_num
  have hτ := tiny_nonneg
  have Y0 : 0 < Y := lt_of_lt_of_le (by positivity) hY
  have huY : 0 ≤ roundoff * Y := mul_nonneg hu Y0.le
  have d : |v * c - c₀ * Y| ≤ 21 * roundoff * Y := by
    have e : v * c - c₀ * Y = (v - Y) * c + Y * (c - c₀) := by ring
    have hcb : |c| ≤ 6 / 5 := by
      calc |c| = |(c - c₀) + c₀| := by ring_nf
        _ ≤ |c - c₀| + |c₀| := abs_add_le _ _
        _ ≤ 6 / 5 := by rw [abs_of_pos (by linarith : (0:ℚ) < c₀)]; linarith
    rw [e]
    calc |(v - Y) * c + Y * (c - c₀)| ≤ |(v - Y) * c| + |Y * (c - c₀)| := abs_add_le _ _
      _ = |v - Y| * |c| + Y * |c - c₀| := by rw [abs_mul, abs_mul, abs_of_pos Y0]
      _ ≤ 13 * roundoff * Y * |c| + Y * (5 * roundoff) := by gcongr
      _ ≤ 13 * roundoff * Y * (6 / 5) + Y * (5 * roundoff) := by gcongr
      _ ≤ _ := by linarith
  have b : |c₀ * Y| ≤ 11 / 10 * Y := by
    rw [abs_of_nonneg (mul_nonneg (by linarith) Y0.le)]; gcongr
  have bb : |v * c| ≤ 2 ^ 1000 := by
    calc |v * c| = |(v * c - c₀ * Y) + c₀ * Y| := by ring_nf
      _ ≤ |v * c - c₀ * Y| + |c₀ * Y| := abs_add_le _ _
      _ ≤ 21 * roundoff * Y + 11 / 10 * Y := add_le_add d b
      _ ≤ 2 * Y := by nlinarith
      _ ≤ 2 * 2 ^ 900 := by gcongr
      _ ≤ 2 ^ 1000 := by norm_num
  obtain ⟨L, eL, hL⟩ := hF.near (v * c) bb
  refine ⟨L, ?_, ?_⟩
  · simp only [FloatFormat.mul]; exact eL
  · have := round_step hu d b hL
    have t : tiny ≤ roundoff * Y := by
      calc tiny ≤ roundoff * (1 / 2 ^ 900) := by unfold tiny roundoff; norm_num
        _ ≤ roundoff * Y := by gcongr
    have : roundoff * (roundoff * Y) ≤ 1 / 100000 * (roundoff * Y) := by gcongr
    nlinarith

theorem tolerance_near {F : FloatFormat} (hF : Accurate F) :
    ∃ lo hi, F.sub (.fin 1) (tolerance F) = .fin lo ∧ F.add (.fin 1) (tolerance F) = .fin hi ∧
      |lo - 99 / 100| ≤ 5 * roundoff ∧ |hi - 101 / 100| ≤ 5 * roundoff := by
  have hu := roundoff_nonneg
  have hu' := roundoff_small
  have u2 : roundoff * roundoff ≤ roundoff / 1000 := by nlinarith
  have hτu : tiny ≤ roundoff := by unfold tiny roundoff; norm_num
  have one : (1 : ℚ) ≤ 2 ^ 1000 := one_le_pow₀ (by norm_num)
  obtain ⟨tol, etol, htol⟩ := hF.near (1 / 100) (by rw [abs_of_pos (by norm_num)]; linarith)
  have htol2 : |tol - 1 / 100| ≤ 2 * roundoff := by
    rw [abs_of_pos (by norm_num : (0:ℚ) < 1 / 100)] at htol; linarith
  have htol' := abs_le.1 htol2
  obtain ⟨lo, elo, hlo⟩ := hF.near (1 - tol) (by rw [abs_le]; constructor <;> linarith)
  obtain ⟨hi, ehi, hhi⟩ := hF.near (1 + tol) (by
    have : (2 : ℚ) ≤ 2 ^ 1000 := by norm_num
    rw [abs_le]; constructor <;> linarith)
  have hlo2 : |lo - 99 / 100| ≤ 5 * roundoff := by
    have h1 : |(1 - tol) - 99 / 100| ≤ 2 * roundoff := by
      rw [abs_le]; constructor <;> linarith
    have := round_step (B := 99 / 100) hu h1 (by rw [abs_of_pos (by norm_num)]) hlo
    linarith
  have hhi2 : |hi - 101 / 100| ≤ 5 * roundoff := by
    have h1 : |(1 + tol) - 101 / 100| ≤ 2 * roundoff := by
      rw [abs_le]; constructor <;> linarith
    have := round_step (B := 101 / 100) hu h1 (by rw [abs_of_pos (by norm_num)]) hhi
    linarith
  refine ⟨lo, hi, ?_, ?_, hlo2, hhi2⟩
  · unfold tolerance; rw [etol]; exact elo
  · unfold tolerance; rw [etol]; exact ehi

/-- The radius check compares the computed square with 0.99 and 1.01 of the slice's square, up to
rounding. -/
theorem radiusMatches_near {F : FloatFormat} (hF : Accurate F) {M : MathLib} (hM : AccurateMath M) {I S n : ℚ}
    {p : FPoint} {k : ℤ} (hp : AtSquare F p n) (hn1 : 1 / 2 ^ 1000 ≤ n) (hn2 : n ≤ 2 ^ 990)
    (hI : Moderate I) (hS : Moderate S) (hk : 1 ≤ k) (hk' : k < 2 ^ 31) :
    ∃ N L U : ℚ, |N - n| ≤ 5 * roundoff * n ∧
      |L - 99 / 100 * (I + (k - 1) * S) ^ 2| ≤ 30 * roundoff * (I + (k - 1) * S) ^ 2 ∧
      |U - 101 / 100 * (I + (k - 1) * S) ^ 2| ≤ 30 * roundoff * (I + (k - 1) * S) ^ 2 ∧
      (radiusMatches F M (.fin I) (.fin S) p k = true ↔ L < N ∧ N < U) := by
  have hu := roundoff_nonneg
  have hu' := roundoff_small
  have hτ := tiny_nonneg
  obtain ⟨r1, r2⟩ := slice_range hI hS hk hk'
  obtain ⟨⟨ρ, eρ, hρ⟩, -⟩ := expectedRadius_near hF hI hS hk hk'
  set X := I + ((k : ℚ) - 1) * S with hX
  have X0 : 0 < X := lt_of_lt_of_le (by positivity) r1
  have hX2 : 0 < X ^ 2 := by positivity
  have hX2lb : 1 / 2 ^ 800 ≤ X ^ 2 := by
    calc (1 : ℚ) / 2 ^ 800 = (1 / 2 ^ 400) ^ 2 := by norm_num
      _ ≤ X ^ 2 := by gcongr
  have hX2ub : X ^ 2 ≤ 2 ^ 864 := by
    calc X ^ 2 ≤ (2 ^ 432) ^ 2 := by gcongr
      _ = 2 ^ 864 := by norm_num
  obtain ⟨N, eN, hN⟩ := squaredRadius_near hF hp hn2 (by
    calc 8 * tiny ≤ roundoff * (1 / 2 ^ 1000) := by unfold tiny roundoff; norm_num
      _ ≤ roundoff * n := by gcongr)
  have hρ' := abs_le.1 hρ
  have huX : 0 ≤ roundoff * X := mul_nonneg hu X0.le
  have huX' : roundoff * X ≤ 1 / 1000 * X := by gcongr
  have ρ0 : 0 ≤ ρ := by nlinarith
  have ρb : |ρ| ≤ 2 ^ 450 := by
    rw [abs_of_nonneg ρ0]
    have : (2 : ℚ) * 2 ^ 432 ≤ 2 ^ 450 := by norm_num
    nlinarith
  obtain ⟨v, ev, hv⟩ := hM.sq ρ ρb
  have hsq : |ρ ^ 2 - X ^ 2| ≤ 7 * roundoff * X ^ 2 := by
    have e : ρ ^ 2 - X ^ 2 = (ρ - X) * (ρ + X) := by ring
    rw [e, abs_mul]
    have h1 : |ρ + X| ≤ 2003 / 1000 * X := by rw [abs_of_nonneg (by linarith)]; nlinarith
    calc |ρ - X| * |ρ + X| ≤ (3 * roundoff * X) * (2003 / 1000 * X) := by gcongr
      _ ≤ 7 * roundoff * X ^ 2 := by nlinarith [mul_nonneg hu hX2.le]
  have hvX : |v - X ^ 2| ≤ 13 * roundoff * X ^ 2 := by
    have t : tiny ≤ roundoff * X ^ 2 := by
      calc tiny ≤ roundoff * (1 / 2 ^ 800) := by unfold tiny roundoff; norm_num
        _ ≤ roundoff * X ^ 2 := by gcongr
    have hb := abs_le.1 hsq
    have u2 : roundoff * X ^ 2 ≤ 1 / 1000 * X ^ 2 := by gcongr
    have h1 : ρ ^ 2 ≤ 1007 / 1000 * X ^ 2 := by linarith
    calc |v - X ^ 2| = |(v - ρ ^ 2) + (ρ ^ 2 - X ^ 2)| := by ring_nf
      _ ≤ |v - ρ ^ 2| + |ρ ^ 2 - X ^ 2| := abs_add_le _ _
      _ ≤ (4 * roundoff * ρ ^ 2 + tiny) + 7 * roundoff * X ^ 2 := add_le_add hv hsq
      _ ≤ (4 * roundoff * (1007 / 1000 * X ^ 2) + roundoff * X ^ 2) + 7 * roundoff * X ^ 2 := by gcongr
      _ ≤ 13 * roundoff * X ^ 2 := by nlinarith [mul_nonneg hu hX2.le]
  obtain ⟨lo, hi, t1, t2, hlo2, hhi2⟩ := tolerance_near hF
  have Y1 : (1 : ℚ) / 2 ^ 900 ≤ X ^ 2 := le_trans (by norm_num) hX2lb
  have Y2 : X ^ 2 ≤ 2 ^ 900 := hX2ub.trans (by norm_num)
  obtain ⟨L, eL, hL⟩ := product_near hF Y1 Y2 hvX (by norm_num) (by norm_num) hlo2
  obtain ⟨U, eU, hU⟩ := product_near hF Y1 Y2 hvX (by norm_num) (by norm_num) hhi2
  refine ⟨N, L, U, hN, hL, hU, ?_⟩
  unfold radiusMatches
  simp only
  rw [eN, eρ, ev]
  rw [t1, t2, eL, eU]
  simp [LD.lt]

end CDT

/-
Two roundings that satisfy `Rounding.Lawful`: no rounding, and rounding to 256 significant bits.
-/
import Verif.Lemmas.Mpfr
import Mathlib.Data.Int.Log
import Mathlib.Algebra.Order.Round

namespace CDT.Fixture
open CDT

theorem exactLawful : Rounding.exact.Lawful where
  int _ _ := rfl
  pow _ _ := rfl
  negPow _ _ := rfl
  finite x _ := ⟨x, rfl⟩
  notNan _ h := by injection h
  overflow _ _ h := by injection h
  mono x y x' y' h hx hy := by
    injection hx with hx; injection hy with hy; rw [← hx, ← hy]; exact h

/-- Exponent of the last of 256 significant bits. -/
noncomputable def ulpExp (x : ℝ) : ℤ := Int.log 2 |x| - 255

/-- Round to nearest with 256 significant bits (unbounded exponent, ties upwards). -/
noncomputable def fl (x : ℝ) : ℝ := (round (x / 2 ^ ulpExp x) : ℝ) * 2 ^ ulpExp x

theorem round_mono {x y : ℝ} (h : x ≤ y) : round x ≤ round y := by
  rw [round_eq, round_eq]
  exact Int.floor_le_floor (by linarith)

theorem two_pos_zpow (n : ℤ) : (0 : ℝ) < 2 ^ n := by positivity

/-- The binade of a nonzero number. -/
theorem binade {x : ℝ} (h : x ≠ 0) :
    (2 : ℝ) ^ (255 : ℤ) ≤ |x| / 2 ^ ulpExp x ∧ |x| / 2 ^ ulpExp x ≤ 2 ^ (256 : ℤ) := by
  have hp : 0 < |x| := abs_pos.2 h
  have h1 := Int.zpow_log_le_self (b := 2) (by norm_num) hp
  have h2 := Int.lt_zpow_succ_log_self (b := 2) (by norm_num) |x|
  push_cast at h1 h2
  constructor
  · rw [le_div_iff₀ (two_pos_zpow _), ← zpow_add₀ (by norm_num)]
    unfold ulpExp; ring_nf; exact h1
  · rw [div_le_iff₀ (two_pos_zpow _), ← zpow_add₀ (by norm_num)]
    unfold ulpExp
    have e : (256 : ℤ) + (Int.log 2 |x| - 255) = Int.log 2 |x| + 1 := by ring
    rw [e]; exact h2.le

theorem round_zpow (n : ℕ) : round ((2 : ℝ) ^ (n : ℤ)) = 2 ^ n := by
  have : (2 : ℝ) ^ (n : ℤ) = ((2 ^ n : ℤ) : ℝ) := by push_cast; norm_cast
  rw [this, round_intCast]

theorem fl_pos {x : ℝ} (h : 0 < x) :
    (2 : ℝ) ^ Int.log 2 |x| ≤ fl x ∧ fl x ≤ 2 ^ (Int.log 2 |x| + 1) := by
  obtain ⟨h1, h2⟩ := binade h.ne'
  have r1 := round_mono h1
  have r2 := round_mono h2
  rw [show (255 : ℤ) = ((255 : ℕ) : ℤ) by norm_num, round_zpow] at r1
  rw [show (256 : ℤ) = ((256 : ℕ) : ℤ) by norm_num, round_zpow] at r2
  have r1' : ((2 : ℝ) ^ 255) ≤ (round (|x| / 2 ^ ulpExp x) : ℝ) := by exact_mod_cast r1
  have r2' : (round (|x| / 2 ^ ulpExp x) : ℝ) ≤ (2 : ℝ) ^ 256 := by exact_mod_cast r2
  have ax : |x| = x := abs_of_pos h
  have key : fl x = (round (|x| / 2 ^ ulpExp x) : ℝ) * 2 ^ ulpExp x := by unfold fl; rw [ax]
  have e1 : (2 : ℝ) ^ Int.log 2 |x| = 2 ^ 255 * 2 ^ ulpExp x := by
    rw [show (2 : ℝ) ^ 255 = 2 ^ (255 : ℤ) by norm_cast, ← zpow_add₀ (by norm_num)]
    unfold ulpExp; congr 1; ring
  have e2 : (2 : ℝ) ^ (Int.log 2 |x| + 1) = 2 ^ 256 * 2 ^ ulpExp x := by
    rw [show (2 : ℝ) ^ 256 = 2 ^ (256 : ℤ) by norm_cast, ← zpow_add₀ (by norm_num)]
    unfold ulpExp; congr 1; ring
  rw [e1, e2, key]
  constructor <;> gcongr

theorem fl_neg {x : ℝ} (h : x < 0) :
    -(2 : ℝ) ^ (Int.log 2 |x| + 1) ≤ fl x ∧ fl x ≤ -2 ^ (Int.log 2 |x|) := by
  obtain ⟨h1, h2⟩ := binade h.ne
  have ax : |x| = -x := abs_of_neg h
  have h1' : x / 2 ^ ulpExp x ≤ -((2 : ℝ) ^ (255 : ℤ)) := by
    have : |x| / 2 ^ ulpExp x = -(x / 2 ^ ulpExp x) := by rw [ax, neg_div]
    rw [this] at h1; linarith
  have h2' : -((2 : ℝ) ^ (256 : ℤ)) ≤ x / 2 ^ ulpExp x := by
    have : |x| / 2 ^ ulpExp x = -(x / 2 ^ ulpExp x) := by rw [ax, neg_div]
    rw [this] at h2; linarith
  have c : ∀ n : ℕ, -((2 : ℝ) ^ (n : ℤ)) = ((-(2 ^ n) : ℤ) : ℝ) := by intro n; push_cast; norm_cast
  have r1 := round_mono h1'
  have r2 := round_mono h2'
  rw [show (255 : ℤ) = ((255 : ℕ) : ℤ) by norm_num, c, round_intCast] at r1
  rw [show (256 : ℤ) = ((256 : ℕ) : ℤ) by norm_num, c, round_intCast] at r2
  have r1' : (round (x / 2 ^ ulpExp x) : ℝ) ≤ -((2 : ℝ) ^ 255) := by exact_mod_cast r1
  have r2' : -((2 : ℝ) ^ 256) ≤ (round (x / 2 ^ ulpExp x) : ℝ) := by exact_mod_cast r2
  have e1 : (2 : ℝ) ^ Int.log 2 |x| = 2 ^ 255 * 2 ^ ulpExp x := by
    rw [show (2 : ℝ) ^ 255 = 2 ^ (255 : ℤ) by norm_cast, ← zpow_add₀ (by norm_num)]
    unfold ulpExp; congr 1; ring
  have e2 : (2 : ℝ) ^ (Int.log 2 |x| + 1) = 2 ^ 256 * 2 ^ ulpExp x := by
    rw [show (2 : ℝ) ^ 256 = 2 ^ (256 : ℤ) by norm_cast, ← zpow_add₀ (by norm_num)]
    unfold ulpExp; congr 1; ring
  rw [e1, e2, ← neg_mul, ← neg_mul]
  unfold fl
  constructor <;> gcongr

theorem fl_zero : fl 0 = 0 := by simp [fl]

theorem fl_mono {x y : ℝ} (h : x ≤ y) : fl x ≤ fl y := by
  rcases lt_trichotomy x 0 with hx | rfl | hx
  · rcases lt_trichotomy y 0 with hy | rfl | hy
    · rcases eq_or_ne (Int.log 2 |x|) (Int.log 2 |y|) with e | e
      · have : ulpExp x = ulpExp y := by unfold ulpExp; rw [e]
        unfold fl; rw [this]
        have h2 : round (x / 2 ^ ulpExp y) ≤ round (y / 2 ^ ulpExp y) :=
          round_mono (div_le_div_of_nonneg_right h (two_pos_zpow _).le)
        have h3 : (round (x / 2 ^ ulpExp y) : ℝ) ≤ round (y / 2 ^ ulpExp y) := by exact_mod_cast h2
        gcongr
      · have l : Int.log 2 |y| ≤ Int.log 2 |x| :=
          Int.log_mono_right (abs_pos.2 hy.ne) (by rw [abs_of_neg hx, abs_of_neg hy]; linarith)
        have l' : Int.log 2 |y| + 1 ≤ Int.log 2 |x| := by omega
        have := (fl_neg hx).2
        have := (fl_neg hy).1
        have := Mp.pow_le l'
        linarith
    · rw [fl_zero]
      have := (fl_neg hx).2
      have := two_pos_zpow (Int.log 2 |x|)
      linarith
    · have := (fl_neg hx).2
      have := two_pos_zpow (Int.log 2 |x|)
      have := (fl_pos hy).1
      have := two_pos_zpow (Int.log 2 |y|)
      linarith
  · rcases h.eq_or_lt with rfl | hy
    · exact le_rfl
    · rw [fl_zero]
      have := (fl_pos hy).1
      have := two_pos_zpow (Int.log 2 |y|)
      linarith
  · have hy : 0 < y := lt_of_lt_of_le hx h
    rcases eq_or_ne (Int.log 2 |x|) (Int.log 2 |y|) with e | e
    · have : ulpExp x = ulpExp y := by unfold ulpExp; rw [e]
      unfold fl; rw [this]
      have h2 : round (x / 2 ^ ulpExp y) ≤ round (y / 2 ^ ulpExp y) :=
        round_mono (div_le_div_of_nonneg_right h (two_pos_zpow _).le)
      have h3 : (round (x / 2 ^ ulpExp y) : ℝ) ≤ round (y / 2 ^ ulpExp y) := by exact_mod_cast h2
      gcongr
    · have l : Int.log 2 |x| ≤ Int.log 2 |y| :=
        Int.log_mono_right (abs_pos.2 hx.ne') (by rw [abs_of_pos hx, abs_of_pos hy]; exact h)
      have l' : Int.log 2 |x| + 1 ≤ Int.log 2 |y| := by omega
      have := (fl_pos hx).2
      have := (fl_pos hy).1
      have := Mp.pow_le l'
      linarith

/-- Multiples of the last place are not changed. -/
theorem fl_of_multiple {x : ℝ} {z : ℤ} (h : x / 2 ^ ulpExp x = z) : fl x = x := by
  unfold fl
  rw [h, round_intCast, ← h, div_mul_cancel₀ _ (two_pos_zpow _).ne']

theorem fl_int {n : ℤ} (hn : |n| ≤ 2 ^ 256) : fl n = n := by
  rcases eq_or_ne n 0 with rfl | h0
  · simpa using fl_zero
  by_cases hb : |n| = 2 ^ 256
  · -- ±2^256
    have e : ulpExp (n : ℝ) = 1 := by
      unfold ulpExp
      rw [← Int.cast_abs, hb]
      have : (((2 ^ 256 : ℤ)) : ℝ) = ((2 : ℕ) : ℝ) ^ (256 : ℤ) := by norm_num
      rw [this, Int.log_zpow (by norm_num)]; norm_num
    rcases abs_eq (by norm_num : (0 : ℤ) ≤ 2 ^ 256) |>.1 hb with h | h
    · exact fl_of_multiple (z := 2 ^ 255) (by rw [e, h]; norm_num)
    · exact fl_of_multiple (z := -2 ^ 255) (by rw [e, h]; norm_num)
  · have hlt : |n| < 2 ^ 256 := lt_of_le_of_ne hn hb
    have hpos : (0 : ℝ) < |(n : ℝ)| := abs_pos.2 (by exact_mod_cast h0)
    have hle : ulpExp (n : ℝ) ≤ 0 := by
      unfold ulpExp
      have h1 := Int.zpow_log_le_self (b := 2) (by norm_num) hpos
      have h2 : |(n : ℝ)| < 2 ^ (256 : ℤ) := by
        rw [← Int.cast_abs]; exact_mod_cast hlt
      push_cast at h1
      have := (zpow_lt_zpow_iff_right₀ (by norm_num : (1 : ℝ) < 2)).1 (lt_of_le_of_lt h1 h2)
      omega
    obtain ⟨k, hk⟩ : ∃ k : ℕ, ulpExp (n : ℝ) = -(k : ℤ) := ⟨(-ulpExp (n : ℝ)).toNat, by omega⟩
    refine fl_of_multiple (z := n * 2 ^ k) ?_
    rw [hk, zpow_neg, div_inv_eq_mul]
    push_cast; norm_cast

theorem fl_pow (n : ℤ) : fl ((2 : ℝ) ^ n) = 2 ^ n := by
  have e : ulpExp ((2 : ℝ) ^ n) = n - 255 := by
    unfold ulpExp
    rw [abs_of_pos (two_pos_zpow n)]
    have := Int.log_zpow (R := ℝ) (b := 2) (by norm_num) n
    push_cast at this
    rw [this]
  refine fl_of_multiple (z := 2 ^ 255) ?_
  rw [e, ← zpow_sub₀ (by norm_num)]
  have : n - (n - 255) = ((255 : ℕ) : ℤ) := by push_cast; ring
  rw [this, zpow_natCast]
  norm_num

theorem fl_negPow (n : ℤ) : fl (-((2 : ℝ) ^ n)) = -2 ^ n := by
  have e : ulpExp (-((2 : ℝ) ^ n)) = n - 255 := by
    unfold ulpExp
    rw [abs_neg, abs_of_pos (two_pos_zpow n)]
    have := Int.log_zpow (R := ℝ) (b := 2) (by norm_num) n
    push_cast at this
    rw [this]
  refine fl_of_multiple (z := -2 ^ 255) ?_
  rw [e, neg_div, ← zpow_sub₀ (by norm_num)]
  have : n - (n - 255) = ((255 : ℕ) : ℤ) := by push_cast; ring
  rw [this, zpow_natCast]
  norm_num

/-- Rounding to nearest with 256 significant bits. -/
noncomputable def nearest : Rounding := ⟨fun x => .fin (fl x)⟩

theorem nearestLawful : nearest.Lawful where
  int n h := by show Mp.fin _ = _; rw [fl_int h]
  pow n _ := by show Mp.fin _ = _; rw [fl_pow]
  negPow n _ := by show Mp.fin _ = _; rw [fl_negPow]
  finite x _ := ⟨fl x, rfl⟩
  notNan _ h := by injection h
  overflow _ _ h := by injection h
  mono x y x' y' h hx hy := by
    injection hx with hx; injection hy with hy; rw [← hx, ← hy]; exact fl_mono h

end CDT.Fixture

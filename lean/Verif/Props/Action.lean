/-
C44, C45, C46 (actions and physical parameters).
-/
import Verif.Model.Action
import Verif.Spec.Action
import Verif.Lemmas.Mpfr
import Verif.Fixture.Rounding
import Mathlib.Tactic.Linarith
import Mathlib.Tactic.Ring
import Mathlib.Tactic.NormNum
import Mathlib.Tactic.FieldSimp
import Mathlib.Tactic.Positivity

namespace CDT.Props
open CDT Spec Mp

/-! ### C46 -/

/-- C46.  Parameters exist exactly when all three numbers are finite and alpha exceeds one half;
they then hold the given numbers. -/
theorem C46_accepted_iff (a k l : LD) (p : PhysicalParameters) :
    makePhysicalParameters a k l = .ok p ↔
      ∃ α κ Λ : ℚ, a = .fin α ∧ k = .fin κ ∧ l = .fin Λ ∧ 1 / 2 < α ∧ p = ⟨.fin α, .fin κ, .fin Λ⟩ := by
  unfold makePhysicalParameters
  cases a <;> cases k <;> cases l <;> simp [LD.isFinite, LD.le]
  rename_i α κ Λ
  constructor
  · intro h
    split at h
    · simp at h
    · rename_i h'
      injection h with h
      exact ⟨by simpa using h', h.symm⟩
  · rintro ⟨h, rfl⟩
    rw [if_neg (by simpa using h)]

/-- C46.  A number that is not finite is reported as `invalid_argument` whatever alpha is. -/
theorem C46_non_finite_first (a k l : LD) :
    makePhysicalParameters a k l = .error .invalidArgument ↔
      ¬ (∃ α κ Λ : ℚ, a = .fin α ∧ k = .fin κ ∧ l = .fin Λ) := by
  unfold makePhysicalParameters
  cases a <;> cases k <;> cases l <;> simp [LD.isFinite, LD.le]
  split <;> simp

/-- C46.  A `domain_error` means exactly: all finite and alpha at most one half. -/
theorem C46_domain_error_iff (a k l : LD) :
    makePhysicalParameters a k l = .error .domainError ↔
      ∃ α κ Λ : ℚ, a = .fin α ∧ k = .fin κ ∧ l = .fin Λ ∧ α ≤ 1 / 2 := by
  unfold makePhysicalParameters
  cases a <;> cases k <;> cases l <;> simp [LD.isFinite, LD.le]

/-- C46.  The two fixed-alpha actions are evaluated exactly when both couplings are finite; the only
error is `invalid_argument`. -/
theorem C46_fixed_alpha_validation (R : Rounding) (n1 n31 n22 : ℤ) (k l : LD) :
    ((∃ s, s3ActionAlphaOne R n1 n31 n22 k l = .ok s) ↔ ∃ κ Λ : ℚ, k = .fin κ ∧ l = .fin Λ) ∧
    ((∃ s, s3ActionAlphaMinusOne R n1 n31 n22 k l = .ok s) ↔ ∃ κ Λ : ℚ, k = .fin κ ∧ l = .fin Λ) ∧
    (∀ e, s3ActionAlphaOne R n1 n31 n22 k l = .error e → e = .invalidArgument) ∧
    (∀ e, s3ActionAlphaMinusOne R n1 n31 n22 k l = .error e → e = .invalidArgument) := by
  unfold s3ActionAlphaOne s3ActionAlphaMinusOne makeFiniteCouplings
  cases k <;> cases l <;> simp [LD.isFinite, eq_comm]

example : makePhysicalParameters (.fin 1) .nan (.fin 3) = .error .invalidArgument ∧
    makePhysicalParameters (.fin 0) (.fin 2) (.fin 3) = .error .domainError ∧
    makePhysicalParameters (.fin 1) (.fin 2) (.fin 3) = .ok ⟨.fin 1, .fin 2, .fin 3⟩ := by
  refine ⟨?_, ?_, ?_⟩ <;> simp [makePhysicalParameters, LD.isFinite, LD.le] <;> norm_num

/-! ### C45 -/

theorem exact_div {x y : ℝ} (h : y ≠ 0) : Mp.div .exact (.fin x) (.fin y) = .fin (x / y) := by
  simp [Mp.div, h, Rounding.exact]

theorem exact_sqrt {x : ℝ} (h : 0 ≤ x) : Mp.sqrt .exact (.fin x) = .fin (√x) := by
  simp [Mp.sqrt, not_lt.2 h, Rounding.exact]

theorem exact_acos {x : ℝ} (h : -1 ≤ x) (h' : x ≤ 1) : Mp.acos .exact (.fin x) = .fin (Real.arccos x) := by
  simp [Mp.acos, not_lt.2 h, not_lt.2 h', Rounding.exact]

/-- C45.  Without rounding the general action program evaluates to the documented formula, for all
counts and all accepted parameters. -/
theorem C45_general {α κ Λ : ℚ} (hα : 1 / 2 < α) (n1 n31 n22 : ℤ) :
    s3BulkAction .exact n1 n31 n22 ⟨.fin α, .fin κ, .fin Λ⟩ =
      .fin (action α κ Λ n1 n31 n22) := by
  have ha : (1 : ℝ) / 2 < α := by have := (Rat.cast_lt (K := ℝ)).2 hα; push_cast at this; exact this
  have h4 : (0 : ℝ) < 1 + 4 * α := by linarith
  have h3 : (0 : ℝ) < √3 * √(1 + 4 * α) := by positivity
  unfold s3BulkAction
  simp only [fromInteger, fromLongDouble, Mp.pi]
  have e : ∀ x, Rounding.exact.rnd x = .fin x := fun _ => rfl
  have am : ∀ x y, Mp.mul .exact (.fin x) (.fin y) = .fin (x * y) := fun _ _ => rfl
  have aa : ∀ x y, Mp.add .exact (.fin x) (.fin y) = .fin (x + y) := fun _ _ => rfl
  have an : ∀ x, Mp.neg .exact (.fin x) = .fin (-x) := fun _ => rfl
  have as : ∀ x, Mp.asinh .exact (.fin x) = .fin (Real.arsinh x) := fun _ => rfl
  simp only [e, am, aa, an]
  push_cast
  rw [exact_sqrt (by linarith : (0 : ℝ) ≤ α), exact_sqrt (by norm_num : (0 : ℝ) ≤ 3), exact_sqrt h4.le]
  simp only [am]
  rw [exact_div h3.ne', exact_div h4.ne',
    exact_acos (by rw [le_div_iff₀ h4]; linarith) (by rw [div_le_iff₀ h4]; linarith),
    exact_sqrt (by linarith : (0 : ℝ) ≤ 3 * α + 1), exact_div (by norm_num),
    exact_sqrt (by norm_num : (0 : ℝ) ≤ 2), exact_sqrt (by linarith : (0 : ℝ) ≤ 2 * α + 1)]
  simp only [am, aa, as]
  rw [exact_div h4.ne', exact_div h4.ne',
    exact_acos (by rw [le_div_iff₀ h4]; linarith) (by rw [div_le_iff₀ h4]; linarith),
    exact_sqrt (by linarith : (0 : ℝ) ≤ 4 * α + 2)]
  simp only [am, aa, as]
  unfold action
  rw [add_comm (1 : ℝ) (4 * α)]
  congr 1
  ring

/-- C45.  The alpha = 1 program. -/
theorem C45_alpha_one {κ Λ : ℚ} (n1 n31 n22 : ℤ) :
    s3ActionAlphaOne .exact n1 n31 n22 (.fin κ) (.fin Λ) = .ok (.fin (actionOne κ Λ n1 n31 n22)) := by
  unfold s3ActionAlphaOne makeFiniteCouplings
  simp only [LD.isFinite, Bool.not_true, Bool.or_self, Bool.false_eq_true, if_false, fromInteger,
    fromLongDouble, fromDecimal, Mp.pi, Rounding.exact, Mp.mul, Mp.add]
  unfold actionOne
  congr 2
  push_cast
  ring

/-- C45.  The alpha = -1 program. -/
theorem C45_alpha_minus_one {κ Λ : ℚ} (n1 n31 n22 : ℤ) :
    s3ActionAlphaMinusOne .exact n1 n31 n22 (.fin κ) (.fin Λ) =
      .ok (.fin (actionMinusOne κ Λ n1 n31 n22)) := by
  unfold s3ActionAlphaMinusOne makeFiniteCouplings
  simp only [LD.isFinite, Bool.not_true, Bool.or_self, Bool.false_eq_true, if_false, fromInteger,
    fromLongDouble, fromDecimal, Mp.pi, Rounding.exact, Mp.mul, Mp.add, Mp.sub]
  unfold actionMinusOne
  congr 2
  push_cast
  ring

/-! ### C44 -/

/-- The range of finite `long double` values (x87 and IEEE quad: below 2^16384). -/
def InLongDouble (q : ℚ) : Prop := |(q : ℝ)| ≤ (2 : ℝ) ^ (16384 : ℤ)

/-- The range of `Int_precision` counts. -/
def InInt32 (n : ℤ) : Prop := |n| ≤ 2 ^ 31

theorem int32_B {R : Rounding} (hR : R.Lawful) {n : ℤ} (h : InInt32 n) : B 31 (fromInteger R n) := by
  refine int_B hR (by norm_num) (by norm_num) ?_
  have : ((|n| : ℤ) : ℝ) ≤ ((2 ^ 31 : ℤ) : ℝ) := by exact_mod_cast h
  rw [Int.cast_abs] at this
  refine this.trans (le_of_eq ?_)
  norm_num

theorem small_int {R : Rounding} (hR : R.Lawful) (z : ℤ) (h : |z| ≤ 2 ^ 256 := by norm_num) :
    fromInteger R z = .fin z := hR.int z h

theorem small_B {x : ℝ} {n : ℤ} (h : |x| ≤ (2 : ℝ) ^ n) : B n (.fin x) := ⟨x, rfl, h⟩

/-- C44.  With any rounding that respects the order of numbers, for all counts and all accepted
couplings, the evaluated bulk action is a real number: no square root of a negative number, no
arccosine outside [-1, 1], no division by zero and no overflow occurs on the way (each would make
the result NaN or infinite or break an enclosure below). -/
theorem C44_action_is_real {R : Rounding} (hR : R.Lawful) {α κ Λ : ℚ} (hα : 1 / 2 < α)
    (ha : InLongDouble α) (hk : InLongDouble κ) (hl : InLongDouble Λ)
    {n1 n31 n22 : ℤ} (h1 : InInt32 n1) (h31 : InInt32 n31) (h22 : InInt32 n22) :
    ∃ s : ℝ, s3BulkAction R n1 n31 n22 ⟨.fin α, .fin κ, .fin Λ⟩ = .fin s ∧ |s| ≤ 2 ^ (40000 : ℤ) := by
  have bk : B 16384 (fromLongDouble R (.fin κ)) := rnd_B hR (by norm_num) (by norm_num) hk
  have bl : B 16384 (fromLongDouble R (.fin Λ)) := rnd_B hR (by norm_num) (by norm_num) hl
  have hα' : (1 : ℝ) / 2 < α := by have := (Rat.cast_lt (K := ℝ)).2 hα; push_cast at this; exact this
  obtain ⟨a, ea, ba⟩ : B 16384 (fromLongDouble R (.fin α)) := rnd_B hR (by norm_num) (by norm_num) ha
  have a0 : 1 / 2 ≤ a := by
    have := hR.mono ((2 : ℝ) ^ (-1 : ℤ)) α _ _ (by norm_num; linarith) (hR.pow (-1) (by norm_num)) ea
    have e : (2 : ℝ) ^ (-1 : ℤ) = 1 / 2 := by norm_num
    rw [e] at this; exact this
  unfold s3BulkAction
  dsimp only
  rw [ea]
  have b1 := int32_B hR h1
  have b31 := int32_B hR h31
  have b22 := int32_B hR h22
  generalize fromInteger R n1 = N1 at *
  generalize fromInteger R n31 = N31 at *
  generalize fromInteger R n22 = N22 at *
  generalize fromLongDouble R (.fin κ) = k at *
  generalize fromLongDouble R (.fin Λ) = l at *
  rw [small_int hR 1, small_int hR 2, small_int hR 3, small_int hR 4, small_int hR 12]
  push_cast
  have c1 : B 0 (.fin 1) := small_B (by norm_num)
  have c2 : B 2 (.fin 2) := small_B (by norm_num)
  have c3 : B 2 (.fin 3) := small_B (by norm_num)
  have c4 : B 2 (.fin 4) := small_B (by norm_num)
  -- first term
  have r1 := mul_B hR c2 (pi_B hR) (by norm_num) (by norm_num)
  have r2 := mul_B hR r1 bk (by norm_num) (by norm_num)
  obtain ⟨v3, e3, b3, -, -⟩ := sqrt_B hR ba (by linarith) (by norm_num) (by norm_num)
  rw [e3]
  have r3 := small_B b3
  have r4 := mul_B hR r3 r2 (by norm_num) (by norm_num)
  have r5 := mul_B hR r4 b1 (by norm_num) (by norm_num)
  -- 4α, 4α+1, 2α, 2α+1, 3α+1, 4α+2
  obtain ⟨v7, e7, b7⟩ := mul_B hR c4 (small_B ba) (by norm_num) (by norm_num)
  obtain ⟨v16, e16, b16⟩ := mul_B hR c2 (small_B ba) (by norm_num) (by norm_num)
  obtain ⟨v22, e22, b22'⟩ := mul_B hR c3 (small_B ba) (by norm_num) (by norm_num)
  have m7 : 0 ≤ v7 := by
    have := rnd_ge hR (n := 0) (by norm_num) (x := 4 * a) (by push_cast; linarith) e7
    exact_mod_cast this
  have m16 : 0 ≤ v16 := by
    have := rnd_ge hR (n := 0) (by norm_num) (x := 2 * a) (by push_cast; linarith) e16
    exact_mod_cast this
  have m22 : 0 ≤ v22 := by
    have := rnd_ge hR (n := 0) (by norm_num) (x := 3 * a) (by push_cast; linarith) e22
    exact_mod_cast this
  have m167 : v16 ≤ v7 := hR.mono _ _ _ _ (by linarith : 2 * a ≤ 4 * a) e16 e7
  rw [e7, e16, e22]
  obtain ⟨v8, e8, b8⟩ := add_B hR (c1.mono (by norm_num)) (small_B b7) (by norm_num) (by norm_num)
  obtain ⟨v17, e17, b17⟩ := add_B hR (small_B b16) (c1.mono (by norm_num)) (by norm_num) (by norm_num)
  obtain ⟨v23, e23, b23⟩ := add_B hR (small_B b22') (c1.mono (by norm_num)) (by norm_num) (by norm_num)
  obtain ⟨v46, e46, b46⟩ := add_B hR (small_B b7) (c2.mono (by norm_num)) (by norm_num) (by norm_num)
  have m8 : 1 ≤ v8 := by
    have := rnd_ge hR (n := 1) (by norm_num) (x := 1 + v7) (by push_cast; linarith) e8
    exact_mod_cast this
  have m17 : 1 ≤ v17 := by
    have := rnd_ge hR (n := 1) (by norm_num) (x := v16 + 1) (by push_cast; linarith) e17
    exact_mod_cast this
  have m23 : 1 ≤ v23 := by
    have := rnd_ge hR (n := 1) (by norm_num) (x := v22 + 1) (by push_cast; linarith) e23
    exact_mod_cast this
  have m46 : 1 ≤ v46 := by
    have := rnd_ge hR (n := 1) (by norm_num) (x := v7 + 2) (by push_cast; linarith) e46
    exact_mod_cast this
  have m178 : v17 ≤ v8 := hR.mono _ _ _ _ (by linarith : v16 + 1 ≤ 1 + v7) e17 e8
  rw [e8, e17, e23, e46]
  -- second term
  obtain ⟨v6, e6, b6, -, m6⟩ := sqrt_B hR (n := 2) (x := 3) (by norm_num) (by norm_num) (by norm_num) (by norm_num)
  obtain ⟨v9, e9, b9, -, m9⟩ := sqrt_B hR b8 (by linarith) (by norm_num) (by norm_num)
  rw [e6, e9]
  obtain ⟨v10, e10, b10⟩ := mul_B hR (small_B b6) (small_B b9) (by norm_num) (by norm_num)
  have m10 : 1 ≤ v10 := by
    have := rnd_ge hR (n := 1) (by norm_num) (x := v6 * v9) (by
      push_cast; nlinarith [m6 (by norm_num), m9 m8]) e10
    exact_mod_cast this
  rw [e10]
  have r11 := div_B hR c1 m10 (by norm_num) (by norm_num)
  have r12 := asinh_B hR r11 (by norm_num) (by norm_num)
  have r13 := neg_B hR c3 (by norm_num) (by norm_num)
  have r14 := mul_B hR r13 bk (by norm_num) (by norm_num)
  have r15 := mul_B hR r14 r12 (by norm_num) (by norm_num)
  obtain ⟨v18, e18, b18⟩ := div_B hR (small_B b17) m8 (by norm_num) (by norm_num)
  have e18' : R.rnd (v17 / v8) = .fin v18 := by
    have : v8 ≠ 0 := by linarith
    simpa [Mp.div, this] using e18
  have l18 : -1 ≤ v18 := by
    have := rnd_ge hR (n := 0) (by norm_num) (x := v17 / v8) (by push_cast; positivity) e18'
    have h : (0 : ℝ) ≤ v18 := by exact_mod_cast this
    linarith
  have u18 : v18 ≤ 1 := by
    have := rnd_le hR (n := 1) (by norm_num) (x := v17 / v8) (by
      push_cast; rw [div_le_one (by linarith)]; exact m178) e18'
    exact_mod_cast this
  rw [e18]
  have r19 := acos_B hR l18 u18
  have r20 := mul_B hR r14 r3 (by norm_num) (by norm_num)
  have r21 := mul_B hR r20 r19 (by norm_num) (by norm_num)
  obtain ⟨v24, e24, b24, -, -⟩ := sqrt_B hR b23 (by linarith) (by norm_num) (by norm_num)
  rw [e24]
  have r25 := neg_B hR bl (by norm_num) (by norm_num)
  have r26 := div_B hR r25 (y := 12) (by norm_num) (by norm_num) (by norm_num)
  have r27 := mul_B hR r26 (small_B b24) (by norm_num) (by norm_num)
  have r28 := add_B hR (r15.mono (n := 32772) (by norm_num)) (r21.mono (by norm_num)) (by norm_num) (by norm_num)
  have r29 := add_B hR (r28.mono (n := 32780) (by norm_num)) (r27.mono (by norm_num)) (by norm_num) (by norm_num)
  have r30 := mul_B hR b31 r29 (by norm_num) (by norm_num)
  -- third term
  have r31 := mul_B hR c2 bk (by norm_num) (by norm_num)
  obtain ⟨v32, e32, b32, -, -⟩ := sqrt_B hR (n := 2) (x := 2) (by norm_num) (by norm_num) (by norm_num) (by norm_num)
  rw [e32]
  have r33 := mul_B hR c2 (small_B b32) (by norm_num) (by norm_num)
  obtain ⟨v34, e34, b34, -, -⟩ := sqrt_B hR b17 (by linarith) (by norm_num) (by norm_num)
  rw [e34]
  have r35 := mul_B hR r33 (small_B b34) (by norm_num) (by norm_num)
  have r36 := div_B hR r35 m8 (by norm_num) (by norm_num)
  have r37 := asinh_B hR r36 (by norm_num) (by norm_num)
  have r38 := mul_B hR r31 r37 (by norm_num) (by norm_num)
  have e39 : Mp.neg R (.fin 1) = .fin (-1) := by
    have := hR.int (-1) (by norm_num)
    push_cast at this; exact this
  rw [e39]
  obtain ⟨v40, e40, b40⟩ := div_B hR (n := 0) (a := .fin (-1)) (small_B (by norm_num)) m8 (by norm_num) (by norm_num)
  rw [e40]
  have r41 := acos_B hR (x := v40) (by
    rw [abs_le] at b40; have := b40.1; norm_num at this; exact this) (by
    rw [abs_le] at b40; have := b40.2; norm_num at this; exact this)
  have r42 := neg_B hR c4 (by norm_num) (by norm_num)
  have r43 := mul_B hR r42 bk (by norm_num) (by norm_num)
  have r44 := mul_B hR r43 r3 (by norm_num) (by norm_num)
  have r45 := mul_B hR r44 r41 (by norm_num) (by norm_num)
  obtain ⟨v47, e47, b47, -, -⟩ := sqrt_B hR b46 (by linarith) (by norm_num) (by norm_num)
  rw [e47]
  have r48 := mul_B hR r26 (small_B b47) (by norm_num) (by norm_num)
  have r49 := add_B hR (r38.mono (n := 32780) (by norm_num)) (r45.mono (by norm_num)) (by norm_num) (by norm_num)
  have r50 := add_B hR (r49.mono (n := 32790) (by norm_num)) (r48.mono (by norm_num)) (by norm_num) (by norm_num)
  have r51 := mul_B hR b22 r50 (by norm_num) (by norm_num)
  have r52 := add_B hR (r5.mono (n := 32830) (by norm_num)) (r30.mono (by norm_num)) (by norm_num) (by norm_num)
  exact (add_B hR (r51.mono (n := 32840) (by norm_num)) (r52.mono (by norm_num)) (by norm_num)
    (by norm_num)).mono (by norm_num)

/-- The hypotheses of C44 hold for 256-bit rounding and ordinary couplings. -/
example : ∃ s : ℝ, s3BulkAction Fixture.nearest 120 60 30 ⟨.fin 1, .fin (11 / 10), .fin (-1 / 10)⟩ = .fin s ∧
    |s| ≤ 2 ^ (40000 : ℤ) := by
  have big : (4 : ℝ) ≤ 2 ^ (16384 : ℤ) := by
    have := pow_le (m := 2) (n := 16384) (by norm_num)
    have e : (2 : ℝ) ^ (2 : ℤ) = 4 := by norm_num
    rw [e] at this; exact this
  refine C44_action_is_real Fixture.nearestLawful (by norm_num) ?_ ?_ ?_ (by unfold InInt32; norm_num)
    (by unfold InInt32; norm_num) (by unfold InInt32; norm_num)
  all_goals
    unfold InLongDouble
    refine le_trans ?_ big
    push_cast
    rw [abs_le]; constructor <;> norm_num

end CDT.Props

/-
The rounding error of the action program.
-/
import Verif.Lemmas.Precision
import Verif.Props.Action

namespace CDT.Props
open CDT Spec Mp

theorem scale_top {T : ℝ} (h0 : 0 ≤ T) (h : T ≤ 2 ^ (100000 : ℤ)) : 64 * (T * T) ≤ top := by
  have h2 : (2 : ℝ) ^ ((6 : ℤ) + (100000 + 100000)) ≤ top := pow_le (by norm_num)
  refine le_trans ?_ h2
  rw [zpow_add₀ (by norm_num), zpow_add₀ (by norm_num)]
  have e : (64 : ℝ) = 2 ^ (6 : ℤ) := by norm_num
  rw [e]
  generalize (2 : ℝ) ^ (100000 : ℤ) = P at *
  have : 0 ≤ P := h0.trans h
  gcongr

set_option hygiene false in
/-- Linear arithmetic with the scale facts only. -/
local macro "lin" : tactic =>
  `(tactic| first
    | linarith only [hC, hA, hN, c1, c2, c3, c4, tt, tT, aT, ha, t1]
    | linarith)

set_option maxHeartbeats 1000000 in
/-- The evaluated bulk action, with the error of all 52 operations. -/
theorem action_near {R : Rounding} (hR : R.Lawful) (hP : R.Precise) {α κ Λ : ℚ} (hα : 1 / 2 < α)
    {n1 n31 n22 : ℤ} {C A N : ℝ} (hC : 1 ≤ C) (hA : 1 ≤ A) (hN : 1 ≤ N)
    (hκ : |(κ : ℝ)| ≤ C) (hΛ : |(Λ : ℝ)| ≤ C) (hαA : √(α : ℝ) ≤ A)
    (h1 : |(n1 : ℝ)| ≤ N) (h31 : |(n31 : ℝ)| ≤ N) (h22 : |(n22 : ℝ)| ≤ N)
    (hT : C * A * N ≤ 2 ^ (100000 : ℤ)) :
    Near 56 (48 * (C * A * N)) (s3BulkAction R n1 n31 n22 ⟨.fin α, .fin κ, .fin Λ⟩)
      (action α κ Λ n1 n31 n22) := by
  have ha : (1 : ℝ) / 2 < α := by have := (Rat.cast_lt (K := ℝ)).2 hα; push_cast at this; exact this
  obtain ⟨a, rfl⟩ : ∃ a : ℝ, (α : ℝ) = a := ⟨_, rfl⟩
  set a : ℝ := (α : ℝ) with ea
  set k : ℝ := (κ : ℝ) with ek
  set l : ℝ := (Λ : ℝ) with el
  -- scales
  have c1 : C ≤ C * A := by nlinarith
  have c2 : C * A ≤ C * A * N := by nlinarith [mul_pos (by linarith : 0 < C) (by linarith : 0 < A)]
  have c3 : A ≤ C * A := by nlinarith
  have c4 : N ≤ C * A * N := by nlinarith
  have aa : a ≤ A * A := by
    have := Real.mul_self_sqrt (by linarith : (0 : ℝ) ≤ a)
    nlinarith [Real.sqrt_nonneg a]
  have AA1 : 1 ≤ A * A := by nlinarith
  generalize hTT : C * A * N = T at *
  have t1 : 1 ≤ T := by linarith
  have tt : 64 * (T * T) ≤ top := scale_top (by linarith) hT
  clear hT
  have tT : T ≤ T * T := by nlinarith
  have aT : a ≤ T * T := aa.trans (by nlinarith)
  -- the inputs
  have N1 : Near 2 N (fromInteger R n1) n1 := near_rnd hR hP h1 hN (by linarith)
  have N31 : Near 2 N (fromInteger R n31) n31 := near_rnd hR hP h31 hN (by linarith)
  have N22 : Near 2 N (fromInteger R n22) n22 := near_rnd hR hP h22 hN (by linarith)
  have K : Near 2 C (fromLongDouble R (.fin κ)) k := near_rnd hR hP hκ hC (by linarith)
  have L : Near 2 C (fromLongDouble R (.fin Λ)) l := near_rnd hR hP hΛ hC (by linarith)
  have AL : Near 4 a (fromLongDouble R (.fin α)) a := by
    have h : Near 2 (2 * a) (fromLongDouble R (.fin α)) a :=
      near_rnd hR hP (by rw [abs_of_pos (by linarith)]; linarith) (by linarith) (by linarith)
    obtain ⟨y, hy, h2, -⟩ := h
    exact ⟨y, hy, h2.trans (le_of_eq (by ring)), by rw [abs_of_pos (by linarith)]⟩
  have PI : Near 2 4 (Mp.pi R) Real.pi :=
    near_rnd hR hP (by rw [abs_of_pos Real.pi_pos]; exact Real.pi_le_four) (by norm_num) (by linarith)
  have i1 : Near 0 1 (fromInteger R 1) 1 := by rw [small_int hR 1]; push_cast; exact near_self (by norm_num)
  have i2 : Near 0 2 (fromInteger R 2) 2 := by rw [small_int hR 2]; push_cast; exact near_self (by norm_num)
  have i3 : Near 0 3 (fromInteger R 3) 3 := by rw [small_int hR 3]; push_cast; exact near_self (by norm_num)
  have i4 : Near 0 4 (fromInteger R 4) 4 := by rw [small_int hR 4]; push_cast; exact near_self (by norm_num)
  have i12 : Near 0 12 (fromInteger R 12) 12 := by rw [small_int hR 12]; push_cast; exact near_self (by norm_num)
  have s3 : 1 ≤ √(3 : ℝ) := Real.one_le_sqrt.2 (by norm_num)
  have s2 : 1 ≤ √(2 : ℝ) := Real.one_le_sqrt.2 (by norm_num)
  have sq3 : √(3 : ℝ) * √3 = 3 := Real.mul_self_sqrt (by norm_num)
  have sq2 : √(2 : ℝ) * √2 = 2 := Real.mul_self_sqrt (by norm_num)
  have s3' : √(3 : ℝ) ≤ 2 := by rw [Real.sqrt_le_left (by norm_num)]; norm_num
  have s2' : √(2 : ℝ) ≤ 3 / 2 := by rw [Real.sqrt_le_left (by norm_num)]; norm_num
  have sa := Real.mul_self_sqrt (by linarith : (0 : ℝ) ≤ a)
  have sa0 := Real.sqrt_nonneg a
  -- first term
  have r1 := near_mul hR hP i2 PI 8 (by norm_num) (by norm_num) (by lin) (by norm_num) (by norm_num) (by norm_num) (by norm_num)
  generalize er1 : Mp.mul R _ _ = vr1 at r1
  have r2 := near_mul hR hP r1 K (8 * C) le_rfl (by lin) (by lin) (by norm_num) (by norm_num) (by norm_num) (by norm_num)
  generalize er2 : Mp.mul R _ _ = vr2 at r2
  have r3 := near_sqrt hR hP AL (by lin) (by lin) A (sa.ge.trans (mul_le_mul_of_nonneg_right hαA sa0)) hA hαA (by lin) (by norm_num) (by norm_num)
  generalize er3 : Mp.sqrt R _ = vr3 at r3
  have r4 := near_mul hR hP r3 r2 (8 * (C * A)) (le_of_eq (by ring)) (by lin) (by lin) (by norm_num) (by norm_num) (by norm_num) (by norm_num)
  generalize er4 : Mp.mul R _ _ = vr4 at r4
  have r5 := near_mul hR hP r4 N1 (8 * T) (le_of_eq (by rw [← hTT]; ring)) (by lin) (by lin) (by norm_num) (by norm_num) (by norm_num) (by norm_num)
  generalize er5 : Mp.mul R _ _ = vr5 at r5
  -- second term
  have r6 := near_sqrt hR hP i3 (by norm_num) (by norm_num) (√3) sq3.ge s3 le_rfl (by lin) (by norm_num) (by norm_num)
  generalize er6 : Mp.sqrt R _ = vr6 at r6
  have r7 := near_mul hR hP i4 AL (4 * a) le_rfl (by lin) (by lin) (by norm_num) (by norm_num) (by norm_num) (by norm_num)
  generalize er7 : Mp.mul R _ _ = vr7 at r7
  have r8 := near_add hR hP (i1.mono (by norm_num : (0 : ℝ) ≤ 0 + 4 + 3) le_rfl le_rfl) r7 (1 + 4 * a) le_rfl (by lin) (by lin) (by norm_num) (by norm_num)
  generalize er8 : Mp.add R _ _ = vr8 at r8
  have q8 : 1 ≤ √(1 + 4 * a) := Real.one_le_sqrt.2 (by lin)
  have sq8 := Real.mul_self_sqrt (by linarith : (0 : ℝ) ≤ 1 + 4 * a)
  have q8' : √(1 + 4 * a) ≤ 1 + 4 * a := (le_mul_of_one_le_left (by lin) q8).trans sq8.le
  have r9 := near_sqrt hR hP r8 (by lin) (by lin) (√(1 + 4 * a)) sq8.ge q8 le_rfl (by lin) (by norm_num) (by norm_num)
  generalize er9 : Mp.sqrt R _ = vr9 at r9
  have q10 : 1 ≤ √3 * √(1 + 4 * a) := one_le_mul_of_one_le_of_one_le s3 q8
  have q10' : √3 * √(1 + 4 * a) ≤ 2 * (1 + 4 * a) := mul_le_mul s3' q8' (by lin) (by norm_num)
  have r10 := near_mul hR hP r6 r9 (√3 * √(1 + 4 * a)) le_rfl q10 (by lin) (by norm_num) (by norm_num) (by norm_num) (by norm_num)
  generalize er10 : Mp.mul R _ _ = vr10 at r10
  have r11 := near_div hR hP i1 r10 q10 1 (by lin) le_rfl (by lin) (by norm_num) (by norm_num) (by norm_num) (by norm_num)
  generalize er11 : Mp.div R _ _ = vr11 at r11
  have r12 := near_asinh hR hP r11 le_rfl (by lin) (by norm_num)
  generalize er12 : Mp.asinh R _ = vr12 at r12
  have r13 := near_neg hR hP i3 (by norm_num) (by lin) (by norm_num)
  generalize er13 : Mp.neg R _ = vr13 at r13
  have r14 := near_mul hR hP r13 K (3 * C) le_rfl (by lin) (by lin) (by norm_num) (by norm_num) (by norm_num) (by norm_num)
  generalize er14 : Mp.mul R _ _ = vr14 at r14
  have r15 := near_mul hR hP r14 r12 (3 * C) (by lin) (by lin) (by lin) (by norm_num) (by norm_num) (by norm_num) (by norm_num)
  generalize er15 : Mp.mul R _ _ = vr15 at r15
  have r16 := near_mul hR hP i2 AL (2 * a) le_rfl (by lin) (by lin) (by norm_num) (by norm_num) (by norm_num) (by norm_num)
  generalize er16 : Mp.mul R _ _ = vr16 at r16
  have r17 := near_add hR hP r16 (i1.mono (by norm_num : (0 : ℝ) ≤ 0 + 4 + 3) le_rfl le_rfl) (2 * a + 1) le_rfl (by lin) (by lin) (by norm_num) (by norm_num)
  generalize er17 : Mp.add R _ _ = vr17 at r17
  have r18 := near_div hR hP r17 r8 (by lin) 1 (by lin) le_rfl (by lin) (by norm_num) (by norm_num) (by norm_num) (by norm_num)
  generalize er18 : Mp.div R _ _ = vr18 at r18
  have r19 := near_acos hR hP r18 (by
    rw [abs_of_pos (div_pos (by lin) (by lin)), div_le_div_iff₀ (by lin) (by norm_num)]; linarith) (by norm_num) (by norm_num)
  generalize er19 : Mp.acos R _ = vr19 at r19
  have r20 := near_mul hR hP r14 r3 (3 * (C * A)) (le_of_eq (by ring)) (by lin) (by lin) (by norm_num) (by norm_num) (by norm_num) (by norm_num)
  generalize er20 : Mp.mul R _ _ = vr20 at r20
  have r21 := near_mul hR hP r20 r19 (12 * (C * A)) (le_of_eq (by ring)) (by lin) (by lin) (by norm_num) (by norm_num) (by norm_num) (by norm_num)
  generalize er21 : Mp.mul R _ _ = vr21 at r21
  have r22 := near_mul hR hP i3 AL (3 * a) le_rfl (by lin) (by lin) (by norm_num) (by norm_num) (by norm_num) (by norm_num)
  generalize er22 : Mp.mul R _ _ = vr22 at r22
  have r23 := near_add hR hP r22 (i1.mono (by norm_num : (0 : ℝ) ≤ 0 + 4 + 3) le_rfl le_rfl) (3 * a + 1) le_rfl (by lin) (by lin) (by norm_num) (by norm_num)
  generalize er23 : Mp.add R _ _ = vr23 at r23
  have q24 : √(3 * a + 1) ≤ 2 * A := by
    rw [Real.sqrt_le_left (by linarith)]; linarith [show (2 * A) ^ 2 = 4 * (A * A) by ring]
  have p24 := Real.sqrt_pos.2 (by linarith : 0 < 3 * a + 1)
  have sq24 := Real.mul_self_sqrt (by linarith : (0 : ℝ) ≤ 3 * a + 1)
  have r24 := near_sqrt hR hP r23 (by lin) (by lin) (2 * A) (sq24.ge.trans (mul_le_mul_of_nonneg_right q24 p24.le)) (by lin) q24 (by lin) (by norm_num) (by norm_num)
  generalize er24 : Mp.sqrt R _ = vr24 at r24
  have r25 := near_neg hR hP L hC (by lin) (by norm_num)
  generalize er25 : Mp.neg R _ = vr25 at r25
  have r26 := near_div hR hP r25 i12 (by norm_num) C (by lin) hC (by lin) (by norm_num) (by norm_num) (by norm_num) (by norm_num)
  generalize er26 : Mp.div R _ _ = vr26 at r26
  have r27 := near_mul hR hP r26 r24 (2 * (C * A)) (le_of_eq (by ring)) (by lin) (by lin) (by norm_num) (by norm_num) (by norm_num) (by norm_num)
  generalize er27 : Mp.mul R _ _ = vr27 at r27
  have r28 := near_add hR hP (r15.mono (by norm_num : _ ≤ (42 : ℝ)) le_rfl (by norm_num)) (r21.mono (by norm_num : _ ≤ (42 : ℝ)) le_rfl (by norm_num)) (15 * (C * A)) (by lin) (by lin) (by lin) (by norm_num) (by norm_num)
  generalize er28 : Mp.add R _ _ = vr28 at r28
  have r29 := near_add hR hP r28 (r27.mono (by norm_num : _ ≤ (42 + 2 : ℝ)) le_rfl (by norm_num)) (17 * (C * A)) (by lin) (by lin) (by lin) (by norm_num) (by norm_num)
  generalize er29 : Mp.add R _ _ = vr29 at r29
  have r30 := near_mul hR hP N31 r29 (17 * T) (le_of_eq (by rw [← hTT]; ring)) (by lin) (by lin) (by norm_num) (by norm_num) (by norm_num) (by norm_num)
  generalize er30 : Mp.mul R _ _ = vr30 at r30
  -- third term
  have r31 := near_mul hR hP i2 K (2 * C) le_rfl (by lin) (by lin) (by norm_num) (by norm_num) (by norm_num) (by norm_num)
  generalize er31 : Mp.mul R _ _ = vr31 at r31
  have r32 := near_sqrt hR hP i2 (by norm_num) (by norm_num) (√2) sq2.ge s2 le_rfl (by lin) (by norm_num) (by norm_num)
  generalize er32 : Mp.sqrt R _ = vr32 at r32
  have r33 := near_mul hR hP i2 r32 (2 * √2) le_rfl (by lin) (by lin) (by norm_num) (by norm_num) (by norm_num) (by norm_num)
  generalize er33 : Mp.mul R _ _ = vr33 at r33
  have q34 : 1 ≤ √(2 * a + 1) := Real.one_le_sqrt.2 (by lin)
  have sq34 := Real.mul_self_sqrt (by linarith : (0 : ℝ) ≤ 2 * a + 1)
  have q34' : √(2 * a + 1) ≤ 2 * a + 1 := (le_mul_of_one_le_left (by lin) q34).trans sq34.le
  have q35 : 1 ≤ 2 * √2 * √(2 * a + 1) := one_le_mul_of_one_le_of_one_le (by lin) q34
  have q35' : 2 * √2 * √(2 * a + 1) ≤ 3 * (2 * a + 1) :=
    mul_le_mul (by lin) q34' (by lin) (by norm_num)
  have r34 := near_sqrt hR hP r17 (by lin) (by lin) (√(2 * a + 1)) sq34.ge q34 le_rfl (by lin) (by norm_num) (by norm_num)
  generalize er34 : Mp.sqrt R _ = vr34 at r34
  have r35 := near_mul hR hP r33 r34 (2 * √2 * √(2 * a + 1)) le_rfl q35 (by lin) (by norm_num) (by norm_num) (by norm_num) (by norm_num)
  generalize er35 : Mp.mul R _ _ = vr35 at r35
  have r36 := near_div hR hP r35 r8 (by lin) 2 (by lin) (by norm_num) (by lin) (by norm_num) (by norm_num) (by norm_num) (by norm_num)
  generalize er36 : Mp.div R _ _ = vr36 at r36
  have r37 := near_asinh hR hP r36 (by norm_num) (by lin) (by norm_num)
  generalize er37 : Mp.asinh R _ = vr37 at r37
  have r38 := near_mul hR hP r31 r37 (4 * C) (le_of_eq (by ring)) (by lin) (by lin) (by norm_num) (by norm_num) (by norm_num) (by norm_num)
  generalize er38 : Mp.mul R _ _ = vr38 at r38
  have r39 := near_neg hR hP i1 (by norm_num) (by lin) (by norm_num)
  generalize er39 : Mp.neg R _ = vr39 at r39
  have r40 := near_div hR hP r39 r8 (by lin) 1 (by lin) le_rfl (by lin) (by norm_num) (by norm_num) (by norm_num) (by norm_num)
  generalize er40 : Mp.div R _ _ = vr40 at r40
  have r41 := near_acos hR hP r40 (by
    rw [neg_div, abs_neg, abs_of_pos (div_pos one_pos (by lin)), div_le_div_iff₀ (by lin) (by norm_num)]; linarith) (by norm_num) (by norm_num)
  generalize er41 : Mp.acos R _ = vr41 at r41
  have r42 := near_neg hR hP i4 (by norm_num) (by lin) (by norm_num)
  generalize er42 : Mp.neg R _ = vr42 at r42
  have r43 := near_mul hR hP r42 K (4 * C) le_rfl (by lin) (by lin) (by norm_num) (by norm_num) (by norm_num) (by norm_num)
  generalize er43 : Mp.mul R _ _ = vr43 at r43
  have r44 := near_mul hR hP r43 r3 (4 * (C * A)) (le_of_eq (by ring)) (by lin) (by lin) (by norm_num) (by norm_num) (by norm_num) (by norm_num)
  generalize er44 : Mp.mul R _ _ = vr44 at r44
  have r45 := near_mul hR hP r44 r41 (16 * (C * A)) (le_of_eq (by ring)) (by lin) (by lin) (by norm_num) (by norm_num) (by norm_num) (by norm_num)
  generalize er45 : Mp.mul R _ _ = vr45 at r45
  have r46 := near_add hR hP r7 (i2.mono (by norm_num : (0 : ℝ) ≤ 0 + 4 + 3) le_rfl le_rfl) (4 * a + 2) le_rfl (by lin) (by lin) (by norm_num) (by norm_num)
  generalize er46 : Mp.add R _ _ = vr46 at r46
  have q47 : √(4 * a + 2) ≤ 3 * A := by
    rw [Real.sqrt_le_left (by linarith)]; linarith [show (3 * A) ^ 2 = 9 * (A * A) by ring]
  have p47 := Real.sqrt_pos.2 (by linarith : 0 < 4 * a + 2)
  have sq47 := Real.mul_self_sqrt (by linarith : (0 : ℝ) ≤ 4 * a + 2)
  have r47 := near_sqrt hR hP r46 (by lin) (by lin) (3 * A) (sq47.ge.trans (mul_le_mul_of_nonneg_right q47 p47.le)) (by lin) q47 (by lin) (by norm_num) (by norm_num)
  generalize er47 : Mp.sqrt R _ = vr47 at r47
  have r48 := near_mul hR hP r26 r47 (3 * (C * A)) (le_of_eq (by ring)) (by lin) (by lin) (by norm_num) (by norm_num) (by norm_num) (by norm_num)
  generalize er48 : Mp.mul R _ _ = vr48 at r48
  have r49 := near_add hR hP (r38.mono (by norm_num : _ ≤ (42 : ℝ)) le_rfl (by norm_num)) (r45.mono (by norm_num : _ ≤ (42 : ℝ)) le_rfl (by norm_num)) (20 * (C * A)) (by lin) (by lin) (by lin) (by norm_num) (by norm_num)
  generalize er49 : Mp.add R _ _ = vr49 at r49
  have r50 := near_add hR hP r49 (r48.mono (by norm_num : _ ≤ (42 + 2 : ℝ)) le_rfl (by norm_num)) (23 * (C * A)) (by lin) (by lin) (by lin) (by norm_num) (by norm_num)
  generalize er50 : Mp.add R _ _ = vr50 at r50
  have r51 := near_mul hR hP N22 r50 (23 * T) (le_of_eq (by rw [← hTT]; ring)) (by lin) (by lin) (by norm_num) (by norm_num) (by norm_num) (by norm_num)
  generalize er51 : Mp.mul R _ _ = vr51 at r51
  have r52 := near_add hR hP (r5.mono (by norm_num : _ ≤ (52 : ℝ)) le_rfl (by norm_num)) (r30.mono (by norm_num : _ ≤ (52 : ℝ)) le_rfl (by norm_num)) (25 * T) (by lin) (by lin) (by lin) (by norm_num) (by norm_num)
  generalize er52 : Mp.add R _ _ = vr52 at r52
  have r53 := near_add hR hP (r51.mono (by norm_num : _ ≤ (52 + 2 : ℝ)) le_rfl (by norm_num)) r52 (48 * T) (by lin) (by lin) (by lin) (by norm_num) (by norm_num)
  generalize er53 : Mp.add R _ _ = vr53 at r53
  have e : action a k l n1 n31 n22 = (n22 : ℝ) * (2 * k * Real.arsinh (2 * √2 * √(2 * a + 1) / (1 + 4 * a)) +
        -4 * k * √a * Real.arccos (-1 / (1 + 4 * a)) + -l / 12 * √(4 * a + 2)) +
      (√a * (2 * Real.pi * k) * n1 + n31 * (-3 * k * Real.arsinh (1 / (√3 * √(1 + 4 * a))) +
        -3 * k * √a * Real.arccos ((2 * a + 1) / (1 + 4 * a)) + -l / 12 * √(3 * a + 1))) := by
    unfold action
    rw [add_comm (1 : ℝ) (4 * a)]
    ring
  subst er53 er52 er51 er50 er49 er48 er47 er46 er45 er44 er43 er42 er41 er40 er39 er38 er37 er36 er35 er34 er33 er32 er31 er30 er29 er28 er27 er26 er25 er24 er23 er22 er21 er20 er19 er18 er17 er16 er15 er14 er13 er12 er11 er10 er9 er8 er7 er6 er5 er4 er3 er2 er1
  rw [e]
  exact r53.mono (by norm_num) le_rfl (by norm_num)

end CDT.Props

/-
C76: time values recomputed from coordinates, and the radius check, in floating-point arithmetic.
-/
import Mathlib.Tactic.IntervalCases
import Verif.Spec.Radius
import Verif.Lemmas.Radius
import Verif.Fixture.Binary64

namespace CDT.Props
open CDT CDT.Spec CDT.Fixture

set_option exponentiation.threshold 4000

/-- C76: a point that the generator placed on the sphere of layer `i`, up to a relative error `ε` of
its squared radius, gets time value `i + 1` back from its coordinates, as long as the radius is not
too many spacings: `(I / S + i + 1) (2 ε + 2⁻⁴⁹) ≤ 1/4`. -/
theorem C76_layer_label {F : Floats} (hF : Accurate F.dbl) {M : MathLib} (hM : AccurateMath M) {I S ρ ε : ℚ}
    {i : ℕ} {p : FPoint} (hI : Moderate I) (hS : Moderate S) (hi : i + 1 < 2 ^ 31)
    (hρ : layerRadius F (.fin I) (.fin S) i = .fin ρ) (hε : 0 ≤ ε) (hε' : ε ≤ 1 / 100)
    (hp : OnShell F.dbl ε ρ p) (hsep : (I / S + i + 1) * (2 * ε + 1 / 2 ^ 49) ≤ 1 / 4) :
    expectedTimevalue F.dbl M (.fin I) (.fin S) p = i + 1 := by
  obtain ⟨n, hn, hd⟩ := hp
  have hu := roundoff_nonneg
  have hu' := roundoff_small
  have h49 : (1 : ℚ) / 2 ^ 49 = 16 * roundoff := by unfold roundoff; norm_num
  rw [h49] at hsep
  have hI0 : (0 : ℚ) < I := lt_of_lt_of_le (by positivity) hI.1
  have hS0 : (0 : ℚ) < S := lt_of_lt_of_le (by positivity) hS.1
  have hk : (1 : ℤ) ≤ (i : ℤ) + 1 := by omega
  have hk' : (i : ℤ) + 1 < 2 ^ 31 := by omega
  have e1 : (((i : ℤ) + 1 : ℤ) : ℚ) - 1 = i := by push_cast; ring
  have e2 : (i : ℤ) + 1 - 1 = (i : ℤ) := by ring
  have near := (expectedRadius_near hF hI hS hk hk').2 ρ (by rw [e2]; exact hρ)
  rw [e1] at near
  set X : ℚ := I + i * S with hX
  have hi0 : (0 : ℚ) ≤ i := Nat.cast_nonneg i
  have hX0 : 0 < X := by positivity
  have hX2 : 0 ≤ X ^ 2 := sq_nonneg _
  have hsq : |ρ ^ 2 - X ^ 2| ≤ 7 * roundoff * X ^ 2 := by
    have e : ρ ^ 2 - X ^ 2 = (ρ - X) * ((ρ - X) + 2 * X) := by ring
    have b : |(ρ - X) + 2 * X| ≤ (3 * roundoff + 2) * X := by
      calc |(ρ - X) + 2 * X| ≤ |ρ - X| + |2 * X| := abs_add_le _ _
        _ ≤ 3 * roundoff * X + 2 * X := by
          rw [abs_of_pos (show 0 < 2 * X by positivity)]; exact add_le_add near le_rfl
        _ = _ := by ring
    rw [e, abs_mul]
    calc |ρ - X| * |(ρ - X) + 2 * X| ≤ (3 * roundoff * X) * ((3 * roundoff + 2) * X) :=
          mul_le_mul near b (abs_nonneg _) (by positivity)
      _ = (3 * roundoff * (3 * roundoff + 2)) * X ^ 2 := by ring
      _ ≤ 7 * roundoff * X ^ 2 := by
          refine mul_le_mul_of_nonneg_right ?_ hX2
          nlinarith
  have hρ2 : ρ ^ 2 ≤ (1 + 7 * roundoff) * X ^ 2 := by linarith [(abs_le.1 hsq).2]
  have hη : |n - X ^ 2| ≤ (101 / 100 * ε + 7 * roundoff) * X ^ 2 := by
    have a : ε * ρ ^ 2 ≤ 101 / 100 * ε * X ^ 2 := by
      calc ε * ρ ^ 2 ≤ ε * ((1 + 7 * roundoff) * X ^ 2) := mul_le_mul_of_nonneg_left hρ2 hε
        _ ≤ ε * ((101 / 100) * X ^ 2) :=
          mul_le_mul_of_nonneg_left (mul_le_mul_of_nonneg_right (by linarith) hX2) hε
        _ = _ := by ring
    calc |n - X ^ 2| = |(n - ρ ^ 2) + (ρ ^ 2 - X ^ 2)| := by ring_nf
      _ ≤ |n - ρ ^ 2| + |ρ ^ 2 - X ^ 2| := abs_add_le _ _
      _ ≤ 101 / 100 * ε * X ^ 2 + 7 * roundoff * X ^ 2 := add_le_add (hd.trans a) hsq
      _ = _ := by ring
  refine timevalue_near hF hM hn hI hS hk hk' (η := 101 / 100 * ε + 7 * roundoff) (by positivity) (by linarith) ?_ ?_
  · rw [e1]; exact hη
  · rw [e1]
    have hXS : X = (I / S + i) * S := by rw [hX]; field_simp
    have hq0 : 0 ≤ I / S + i := by positivity
    have c : (5 * roundoff + (101 / 100 * ε + 7 * roundoff)) * (I / S + i) ≤ 1 / 4 := by
      calc (5 * roundoff + (101 / 100 * ε + 7 * roundoff)) * (I / S + i)
          ≤ (2 * ε + 16 * roundoff) * (I / S + i + 1) :=
            mul_le_mul (by linarith) (by linarith) hq0 (by linarith)
        _ = (I / S + i + 1) * (2 * ε + 16 * roundoff) := by ring
        _ ≤ _ := hsep
    rw [← hX]
    calc (5 * roundoff + (101 / 100 * ε + 7 * roundoff)) * X
        = ((5 * roundoff + (101 / 100 * ε + 7 * roundoff)) * (I / S + i)) * S := by rw [hXS]; ring
      _ ≤ 1 / 4 * S := mul_le_mul_of_nonneg_right c hS0.le
      _ ≤ 7 / 16 * S := by linarith

/-- The vertices a successful layer loop returns. -/
theorem mem_ballFold {P : Type} {F : Floats} {p : ℤ} {r s : LD} {gen : ℕ → ℕ → P} (l : List ℕ) :
    ∀ (acc vs : List (P × ℤ)), l.foldlM (ballLayer F p r s gen) acc = .ok vs →
      ∀ v ∈ vs, v ∈ acc ∨ ∃ i ∈ l, ∃ j, v = (gen i j, (i : ℤ) + 1) := by
  induction l with
  | nil => intro acc vs h v hv; simp only [List.foldlM_nil, pure, Except.pure] at h; cases h; exact .inl hv
  | cons i l ih =>
    intro acc vs h v hv
    rw [List.foldlM_cons] at h
    unfold ballLayer at h
    dsimp only at h
    split at h
    · cases h
    split at h
    · cases h
    rcases ih _ _ h v hv with h' | ⟨k, hk, j, rfl⟩
    · rcases List.mem_append.1 h' with h' | h'
      · exact .inl h'
      · obtain ⟨j, -, rfl⟩ := List.mem_map.1 h'
        exact .inr ⟨i, List.mem_cons_self, j, rfl⟩
    · exact .inr ⟨k, List.mem_cons_of_mem _ hk, j, rfl⟩

/-- C76: the vertices of a generated ball pass the vertex check that recomputes every time value from
the coordinates. -/
theorem C76_ball_checks {F : Floats} (hF : Accurate F.dbl) {M : MathLib} (hM : AccurateMath M) {N T : ℤ} {I S ε : ℚ}
    {gen : ℕ → ℕ → FPoint} {vs : List (FPoint × ℤ)} (hI : Moderate I) (hS : Moderate S) (hT : T < 2 ^ 31)
    (hε : 0 ≤ ε) (hε' : ε ≤ 1 / 100) (hsep : (I / S + T) * (2 * ε + 1 / 2 ^ 49) ≤ 1 / 4)
    (hgen : ∀ i < T.toNat, ∀ j, ∃ ρ, layerRadius F (.fin I) (.fin S) i = .fin ρ ∧ OnShell F.dbl ε ρ (gen i j))
    (h : makeFoliatedBall F N T (.fin I) (.fin S) gen = .ok vs) :
    checkVertices F.dbl M (.fin I) (.fin S) vs = true := by
  unfold makeFoliatedBall at h
  split at h
  · cases h
  split at h
  · cases h
  split at h
  · cases h
  split at h
  · cases h
  split at h
  · cases h
  split at h
  · cases h
  rename_i b _ _ _
  rcases hf : (List.range T.toNat).foldlM (ballLayer F b.pointsPerTimeslice (.fin I) (.fin S) gen) [] with e | ws
  · rw [hf] at h; cases h
  rw [hf] at h
  dsimp only at h
  split at h
  · cases h
  injection h with h
  subst h
  unfold checkVertices
  rw [List.all_eq_true]
  intro v hv
  rcases mem_ballFold _ _ _ hf v hv with h' | ⟨i, hi, j, rfl⟩
  · simp at h'
  have hi' := List.mem_range.1 hi
  obtain ⟨ρ, hρ, hon⟩ := hgen i hi' j
  rw [beq_iff_eq]
  refine C76_layer_label hF hM hI hS (by omega) hρ hε hε' hon ?_
  refine le_trans (mul_le_mul_of_nonneg_right ?_ (by positivity)) hsep
  have : ((i : ℤ) + 1 : ℤ) ≤ T := by omega
  have : ((i : ℚ) + 1) ≤ T := by exact_mod_cast this
  linarith

/-- A generator that puts every point of layer `i` at `(i + 1, 0, 0)`. -/
def axisGen (i _j : ℕ) : FPoint := ⟨.fin (i + 1), .fin 0, .fin 0⟩

theorem int_moderate {q : ℚ} (h : 1 ≤ q) (h' : q ≤ 2 ^ 64) : Moderate q := by
  refine ⟨le_trans ?_ h, h'.trans (pow_le_pow_right₀ (by norm_num) (by norm_num))⟩
  exact div_le_one_of_le₀ (one_le_pow₀ (by norm_num)) (by positivity)

theorem nat_double {n : ℕ} (h : n ≤ 2 ^ 53) : binary64.rnd n = .fin n := by
  have := binary64_accurate.int n (by rw [abs_of_nonneg (by positivity)]; exact_mod_cast h)
  simpa using this

theorem axis_layer {i : ℕ} (hi : i < 3) : layerRadius doubles (.fin 1) (.fin 1) i = .fin (i + 1) := by
  interval_cases i <;> decide +kernel

/-- In binary64 the ball of three layers from radius 1 with spacing 1 is built and checks. -/
example : ∃ vs, makeFoliatedBall doubles 640 3 (.fin 1) (.fin 1) axisGen = .ok vs ∧ vs.length = 642 ∧
    checkVertices binary64 mathLib (.fin 1) (.fin 1) vs = true := by
  have hl : (match makeFoliatedBall doubles 640 3 (.fin 1) (.fin 1) axisGen with
    | .ok v => v.length | .error _ => 0) = 642 := by decide +kernel
  rcases h : makeFoliatedBall doubles 640 3 (.fin 1) (.fin 1) axisGen with e | vs
  · rw [h] at hl; cases hl
  rw [h] at hl
  refine ⟨vs, rfl, hl, C76_ball_checks (F := doubles) (M := mathLib) binary64_accurate mathLib_accurate (ε := 0)
    (int_moderate le_rfl (by norm_num)) (int_moderate le_rfl (by norm_num)) (by norm_num) le_rfl (by norm_num)
    (by norm_num) (fun i hi j => ?_) h⟩
  refine ⟨i + 1, axis_layer hi, (i + 1) ^ 2, ⟨i + 1, 0, 0, rfl, ?_, ?_, ?_, by ring⟩, by simp⟩
  · exact_mod_cast nat_double (n := i + 1) (by have : i < 3 := hi; omega)
  · exact_mod_cast nat_double (n := 0) (by norm_num)
  · exact_mod_cast nat_double (n := 0) (by norm_num)

/-- C76: where the spacing is lost to rounding in the radius of a layer, points of that layer get time
value 1, whatever the layer. -/
theorem C76_absorbed {F : Floats} (hF : F.dbl.Lawful) {M : MathLib} {I S : ℚ} {i : ℕ} {p : FPoint}
    (hS : S ≠ 0) (hS' : F.dbl.rnd S = .fin S) (hlost : layerRadius F (.fin I) (.fin S) i = .fin I)
    (hp : M.sqrt (squaredRadius F.dbl p) = layerRadius F (.fin I) (.fin S) i) :
    expectedTimevalue F.dbl M (.fin I) (.fin S) p = 1 := by
  have h0 : F.dbl.rnd 0 = .fin 0 := by simpa using hF.int 0 (by norm_num)
  have h1 : F.dbl.rnd 1 = .fin 1 := by simpa using hF.int 1 (by norm_num)
  unfold expectedTimevalue
  dsimp only
  rw [hp, hlost]
  simp only [FloatFormat.sub, sub_self, h0, FloatFormat.add, zero_add, hS', FloatFormat.div, if_neg hS, div_self hS, h1,
    LD.lroundInt]
  decide +kernel

/-- With radius 1 and spacing `2⁻⁶⁰` in binary64 a ball of three layers is generated although the
spacing is lost, and it fails the vertex check. -/
example : ∃ vs, makeFoliatedBall doubles 640 3 (.fin 1) (.fin (1 / 2 ^ 60)) (fun _ _ => ⟨.fin 1, .fin 0, .fin 0⟩) = .ok vs ∧
    checkVertices binary64 mathLib (.fin 1) (.fin (1 / 2 ^ 60)) vs = false := by
  have hl : (match makeFoliatedBall doubles 640 3 (.fin 1) (.fin (1 / 2 ^ 60)) (fun _ _ => (⟨.fin 1, .fin 0, .fin 0⟩ : FPoint)) with
    | .ok v => v.any fun w => w.2 == 2 && w.1.x.le (.fin 1) && LD.le (.fin 1) w.1.x && w.1.y.le (.fin 0) && LD.le (.fin 0) w.1.y
        && w.1.z.le (.fin 0) && LD.le (.fin 0) w.1.z
    | .error _ => false) = true := by decide +kernel
  rcases h : makeFoliatedBall doubles 640 3 (.fin 1) (.fin (1 / 2 ^ 60)) (fun _ _ => (⟨.fin 1, .fin 0, .fin 0⟩ : FPoint)) with e | vs
  · rw [h] at hl; cases hl
  rw [h] at hl
  refine ⟨vs, rfl, ?_⟩
  dsimp only at hl
  rw [List.any_eq_true] at hl
  obtain ⟨⟨⟨x, y, z⟩, t⟩, hv, hq⟩ := hl
  have hfin : ∀ (c : LD) (q : ℚ), c.le (.fin q) = true → LD.le (.fin q) c = true → c = .fin q := by
    intro c q h1 h2
    rcases c with _ | b | c
    · cases h1
    · cases b <;> simp [LD.le] at h1 h2
    · simp only [LD.le, decide_eq_true_eq] at h1 h2
      rw [le_antisymm h1 h2]
  simp only [Bool.and_eq_true, beq_iff_eq] at hq
  obtain ⟨⟨⟨⟨⟨⟨rfl, a⟩, b⟩, c⟩, d⟩, e⟩, f⟩ := hq
  obtain rfl := hfin _ _ a b
  obtain rfl := hfin _ _ c d
  obtain rfl := hfin _ _ e f
  have hsq : squaredRadius binary64 ⟨.fin 1, .fin 0, .fin 0⟩ = .fin 1 := by decide +kernel
  have hone : Rat.sqrt 1 = 1 := by decide +kernel
  have hsqrt : mathLib.sqrt (squaredRadius binary64 ⟨.fin 1, .fin 0, .fin 0⟩) = .fin 1 := by
    rw [hsq]
    show LD.fin (sqrtFun 1) = .fin 1
    unfold sqrtFun
    rw [dif_pos (by rw [hone]; norm_num), hone]
  have hlost : layerRadius doubles (.fin 1) (.fin (1 / 2 ^ 60)) 1 = .fin 1 := by decide +kernel
  have := C76_absorbed (F := doubles) binary64_accurate.toLawful (M := mathLib) (I := 1) (S := 1 / 2 ^ 60) (i := 1)
    (p := ⟨.fin 1, .fin 0, .fin 0⟩) (by norm_num) (by decide +kernel) hlost (hsqrt.trans hlost.symm)
  unfold checkVertices
  rw [List.all_eq_false]
  refine ⟨_, hv, ?_⟩
  dsimp only
  have h' : expectedTimevalue binary64 mathLib (.fin 1) (.fin (1 / 2 ^ 60)) ⟨.fin 1, .fin 0, .fin 0⟩ = 1 := this
  rw [h']
  decide

/-- C76: the radius check accepts every point whose squared radius is within 0.9% of that of its
slice. -/
theorem C76_match_complete {F : FloatFormat} (hF : Accurate F) {M : MathLib} (hM : AccurateMath M) {I S n : ℚ}
    {p : FPoint} {t : ℤ} (hp : AtSquare F p n) (hI : Moderate I) (hS : Moderate S) (ht : 1 ≤ t) (ht' : t < 2 ^ 31)
    (hn : |n - (I + (t - 1) * S) ^ 2| ≤ 9 / 1000 * (I + (t - 1) * S) ^ 2) :
    radiusMatches F M (.fin I) (.fin S) p t = true := by
  obtain ⟨r1, r2⟩ := slice_range hI hS ht ht'
  have hu := roundoff_nonneg
  have hu' : roundoff ≤ 1 / 1000000 := by unfold roundoff; norm_num
  set X := I + ((t : ℚ) - 1) * S
  have hX0 : 0 < X := lt_of_lt_of_le (by positivity) r1
  have hX2 : 0 < X ^ 2 := by positivity
  rw [abs_le] at hn
  have lo : 1 / 2 ^ 800 ≤ X ^ 2 := by
    calc (1 : ℚ) / 2 ^ 800 = (1 / 2 ^ 400) ^ 2 := by norm_num
      _ ≤ X ^ 2 := pow_le_pow_left₀ (by positivity) r1 2
  have hi : X ^ 2 ≤ 2 ^ 864 := by
    calc X ^ 2 ≤ (2 ^ 432) ^ 2 := pow_le_pow_left₀ hX0.le r2 2
      _ = 2 ^ 864 := by norm_num
  obtain ⟨N, L, U, hN, hL, hU, e⟩ := radiusMatches_near hF hM hp (n := n)
    (by have : (1 : ℚ) / 2 ^ 1000 ≤ 1 / 2 * (1 / 2 ^ 800) := by norm_num
        linarith)
    (by have : (2 : ℚ) * 2 ^ 864 ≤ 2 ^ 990 := by norm_num
        linarith) hI hS ht ht'
  rw [e]
  rw [abs_le] at hN hL hU
  have n0 : 0 ≤ n := by linarith
  have hnX : roundoff * n ≤ roundoff * (2 * X ^ 2) := mul_le_mul_of_nonneg_left (by linarith) hu
  have huX : roundoff * X ^ 2 ≤ 1 / 1000000 * X ^ 2 := mul_le_mul_of_nonneg_right hu' hX2.le
  constructor <;> linarith [hN.1, hN.2, hL.1, hL.2, hU.1, hU.2]

/-- C76: a point that the radius check accepts for slice `t` has a squared radius within 1.1% of the
slice's, and gets time value `t` when the slice's radius is at most 39 spacings. -/
theorem C76_match_sound {F : FloatFormat} (hF : Accurate F) {M : MathLib} (hM : AccurateMath M) {I S n : ℚ}
    {p : FPoint} {t : ℤ} (hp : AtSquare F p n) (hn1 : 1 / 2 ^ 1000 ≤ n) (hn2 : n ≤ 2 ^ 990)
    (hI : Moderate I) (hS : Moderate S) (ht : 1 ≤ t) (ht' : t < 2 ^ 31)
    (h : radiusMatches F M (.fin I) (.fin S) p t = true) :
    |n - (I + (t - 1) * S) ^ 2| ≤ 11 / 1000 * (I + (t - 1) * S) ^ 2 ∧
      (I + (t - 1) * S ≤ 39 * S → expectedTimevalue F M (.fin I) (.fin S) p = t) := by
  obtain ⟨r1, r2⟩ := slice_range hI hS ht ht'
  have hu := roundoff_nonneg
  have hu' : roundoff ≤ 1 / 1000000 := by unfold roundoff; norm_num
  have hS0 : (0 : ℚ) < S := lt_of_lt_of_le (by positivity) hS.1
  obtain ⟨N, L, U, hN, hL, hU, e⟩ := radiusMatches_near hF hM hp hn1 hn2 hI hS ht ht'
  obtain ⟨h1, h2⟩ := e.1 h
  have key : |n - (I + (t - 1) * S) ^ 2| ≤ 11 / 1000 * (I + (t - 1) * S) ^ 2 := by
    set X := I + ((t : ℚ) - 1) * S
    have hX0 : 0 < X := lt_of_lt_of_le (by positivity) r1
    have hX2 : 0 < X ^ 2 := by positivity
    rw [abs_le] at hN hL hU ⊢
    have n0 : 0 < n := lt_of_lt_of_le (by positivity) hn1
    have hn : roundoff * n ≤ 1 / 1000000 * n := mul_le_mul_of_nonneg_right hu' n0.le
    have huX : roundoff * X ^ 2 ≤ 1 / 1000000 * X ^ 2 := mul_le_mul_of_nonneg_right hu' hX2.le
    constructor <;> linarith [hN.1, hN.2, hL.1, hL.2, hU.1, hU.2]
  refine ⟨key, fun hX => timevalue_near hF hM hp hI hS ht ht' (η := 11 / 1000) (by norm_num) (by norm_num) key ?_⟩
  calc (5 * roundoff + 11 / 1000) * (I + (t - 1) * S) ≤ (5 * roundoff + 11 / 1000) * (39 * S) :=
        mul_le_mul_of_nonneg_left hX (by linarith)
    _ ≤ (7 / 16 / 39) * (39 * S) := mul_le_mul_of_nonneg_right (by norm_num at hu' ⊢; linarith) (by linarith)
    _ = 7 / 16 * S := by ring

/-- C76: when the radius of slice `t` is 250 spacings or more, the radius check also accepts for `t`
points of slice `t + 1`, to which the coordinates give time value `t + 1`. -/
theorem C76_match_ambiguous {F : FloatFormat} (hF : Accurate F) {M : MathLib} (hM : AccurateMath M) {I S n : ℚ}
    {p : FPoint} {t : ℤ} (hp : AtSquare F p n) (hI : Moderate I) (hS : Moderate S) (ht : 1 ≤ t) (ht' : t + 1 < 2 ^ 31)
    (hfar : 250 * S ≤ I + (t - 1) * S) (hfar' : I + t * S ≤ 2 ^ 40 * S)
    (hn : |n - (I + t * S) ^ 2| ≤ 1 / 2 ^ 45 * (I + t * S) ^ 2) :
    radiusMatches F M (.fin I) (.fin S) p t = true ∧
      expectedTimevalue F M (.fin I) (.fin S) p = t + 1 := by
  have hS0 : (0 : ℚ) < S := lt_of_lt_of_le (by positivity) hS.1
  have e1 : (((t + 1 : ℤ) : ℚ) - 1) = t := by push_cast; ring
  constructor
  · refine C76_match_complete hF hM hp hI hS ht (by omega) ?_
    have e : I + (t : ℚ) * S = (I + (t - 1) * S) + S := by ring
    rw [e] at hn
    set X := I + ((t : ℚ) - 1) * S
    have hX : S ≤ 1 / 250 * X := by linarith
    have hX0 : 0 < X := by linarith
    rw [abs_le] at hn ⊢
    have hup : (X + S) ^ 2 ≤ (1 + 1 / 250) ^ 2 * X ^ 2 := by
      rw [← mul_pow]; exact pow_le_pow_left₀ (by linarith) (by linarith) 2
    have hlo : X ^ 2 ≤ (X + S) ^ 2 := pow_le_pow_left₀ hX0.le (by linarith) 2
    have hX2 : 0 < X ^ 2 := by positivity
    constructor <;> norm_num at hn hup ⊢ <;> linarith [hn.1, hn.2]
  · have hu := roundoff_nonneg
    have : 5 * roundoff + 1 / 2 ^ 45 ≤ 7 / 16 / 2 ^ 40 := by unfold roundoff; norm_num
    have hX0 : 0 ≤ I + (t : ℚ) * S := by
      have : (1 : ℚ) ≤ t := by exact_mod_cast ht
      nlinarith
    refine timevalue_near hF hM hp hI hS (by omega) ht' (η := 1 / 2 ^ 45) (by positivity) (by norm_num) ?_ ?_
    · rw [e1]; exact hn
    · rw [e1]
      calc (5 * roundoff + 1 / 2 ^ 45) * (I + t * S) ≤ (7 / 16 / 2 ^ 40) * (2 ^ 40 * S) :=
            mul_le_mul this hfar' hX0 (by positivity)
        _ = 7 / 16 * S := by ring

/-- In binary64 with radius 1 and spacing 1, the point `(251, 0, 0)` on slice 251 passes the radius
check for slice 250 too, and the point `(3, 0, 0)` passes it for slice 3. -/
example : radiusMatches binary64 mathLib (.fin 1) (.fin 1) ⟨.fin 251, .fin 0, .fin 0⟩ 250 = true ∧
    expectedTimevalue binary64 mathLib (.fin 1) (.fin 1) ⟨.fin 251, .fin 0, .fin 0⟩ = 251 := by
  have h := C76_match_ambiguous binary64_accurate mathLib_accurate (I := 1) (S := 1) (n := 251 ^ 2) (t := 250)
    (p := ⟨.fin 251, .fin 0, .fin 0⟩) ⟨251, 0, 0, rfl, by exact_mod_cast nat_double (n := 251) (by norm_num),
      by exact_mod_cast nat_double (n := 0) (by norm_num), by exact_mod_cast nat_double (n := 0) (by norm_num), by ring⟩
    (int_moderate le_rfl (by norm_num)) (int_moderate le_rfl (by norm_num)) (by norm_num) (by norm_num) (by norm_num)
    (by norm_num) (by norm_num)
  exact h

example : radiusMatches binary64 mathLib (.fin 1) (.fin 1) ⟨.fin 3, .fin 0, .fin 0⟩ 3 = true ∧
    expectedTimevalue binary64 mathLib (.fin 1) (.fin 1) ⟨.fin 3, .fin 0, .fin 0⟩ = 3 := by
  have hp : AtSquare binary64 ⟨.fin 3, .fin 0, .fin 0⟩ 9 :=
    ⟨3, 0, 0, rfl, by exact_mod_cast nat_double (n := 3) (by norm_num),
      by exact_mod_cast nat_double (n := 0) (by norm_num), by exact_mod_cast nat_double (n := 0) (by norm_num), by norm_num⟩
  have hm := C76_match_complete binary64_accurate mathLib_accurate (I := 1) (S := 1) (t := 3) hp
    (int_moderate le_rfl (by norm_num)) (int_moderate le_rfl (by norm_num)) (by norm_num) (by norm_num) (by norm_num)
  refine ⟨hm, (C76_match_sound binary64_accurate mathLib_accurate (I := 1) (S := 1) (t := 3) hp
    (by norm_num) (by norm_num)
    (int_moderate le_rfl (by norm_num)) (int_moderate le_rfl (by norm_num)) (by norm_num) (by norm_num) hm).2 (by norm_num)⟩

end CDT.Props

/-
C48, C49, C50: the size of a generated triangulation.
-/
import Mathlib.Tactic.IntervalCases
import Mathlib.Data.Nat.Prime.Basic
import Mathlib.Algebra.BigOperators.Group.List.Basic
import Mathlib.Tactic.NormNum.Prime
import Verif.Fixture.Floats

namespace CDT.Props
open CDT Spec Fixture

/-- C48: on positive 32-bit counts and a positive `double` radius and spacing, the base population
is accepted exactly when the unbounded estimate fits under the last radius and every layer's count
fits 32 bits; it is then the unbounded estimate itself, not a wrapped value. -/
theorem C48_accepted_iff {F : Floats} (hF : F.Lawful) {N T : ℕ} {r s : ℚ} (hN : Count32 N) (hT : Count32 T)
    (hr : 0 < r) (hr' : F.IsDouble r) (hs : 0 < s) (p : ℤ) :
    expectedPointsPerTimeslice F 3 N T (.fin r) (.fin s) = .ok p ↔
      p = estimate N T ∧ FitsLastRadius F (estimate N T) T r s ∧
      ∀ i < T, ∃ n, LayerCount F (estimate N T) r s i n := by
  rcases expectedPoints_spec hF hN hT hr hr' hs with ⟨h1, h2, e⟩ | ⟨h1, e⟩
  · rw [e]
    constructor
    · intro h; injection h with h; exact ⟨h.symm, h1, h2⟩
    · rintro ⟨rfl, -⟩; rfl
  · rw [e]
    constructor
    · intro h; cases h
    · rintro ⟨-, h⟩; exact absurd h h1

/-- C48: a request that does not fit is refused with `out_of_range`. -/
theorem C48_otherwise_out_of_range {F : Floats} (hF : F.Lawful) {N T : ℕ} {r s : ℚ} (hN : Count32 N) (hT : Count32 T)
    (hr : 0 < r) (hr' : F.IsDouble r) (hs : 0 < s)
    (h : ¬ (FitsLastRadius F (estimate N T) T r s ∧ ∀ i < T, ∃ n, LayerCount F (estimate N T) r s i n)) :
    expectedPointsPerTimeslice F 3 N T (.fin r) (.fin s) = .error .outOfRange := by
  rcases expectedPoints_spec hF hN hT hr hr' hs with ⟨h1, h2, e⟩ | ⟨h1, e⟩
  · exact absurd ⟨h1, h2⟩ h
  · exact e

/-- C48: an accepted base population is between 2 and `INT_MAX`. -/
theorem C48_population_range {F : Floats} (hF : F.Lawful) {N T : ℕ} {r s : ℚ} (hN : Count32 N) (hT : Count32 T)
    (hr : 0 < r) (hr' : F.IsDouble r) (hs : 0 < s) {p : ℤ}
    (h : expectedPointsPerTimeslice F 3 N T (.fin r) (.fin s) = .ok p) : 2 ≤ p ∧ p ≤ 2 ^ 31 - 1 := by
  obtain ⟨rfl, ⟨hb, -⟩, -⟩ := (C48_accepted_iff hF hN hT hr hr' hs p).1 h
  have := two_le_estimate N T
  omega

/-- C48: the vertex total is accepted exactly when every layer's count fits, and it is then the true
sum of the layers, below 2^62. -/
theorem C48_vertex_total {F : Floats} (hF : F.Lawful) {p T : ℕ} {r s : ℚ} (hp : Count32 p) (hT : Count32 T)
    (hr : 0 < r) (hs : 0 < s) (v : ℕ) :
    generatedInputVertexCount F p T (.fin r) (.fin s) = .ok v ↔
      ∃ c : ℕ → ℕ, (∀ i < T, LayerCount F p r s i (c i)) ∧ v = ∑ i ∈ Finset.range T, c i ∧ v < 2 ^ 62 := by
  obtain ⟨hp1, hp2⟩ := hp
  obtain ⟨hT1, hT2⟩ := hT
  rw [inputVertexCount_eq (by omega) (by omega) hr hs]
  rcases fold_spec hF (p := p) (by omega) (by omega) hr hs T (by omega) with ⟨c, hc, e⟩ | ⟨⟨i, hi, hno⟩, e⟩
  · rw [e]
    constructor
    · intro h; injection h with h
      have := sum_le_of_layers hc
      have h2 : T * 2 ^ 31 ≤ (2 ^ 31 - 1) * 2 ^ 31 := Nat.mul_le_mul_right _ hT2
      exact ⟨c, hc, h.symm, by omega⟩
    · rintro ⟨c', hc', rfl, -⟩
      congr 1
      exact Finset.sum_congr rfl fun i hi =>
        layerCount_unique (hc i (Finset.mem_range.1 hi)) (hc' i (Finset.mem_range.1 hi))
  · rw [e]
    constructor
    · intro h; cases h
    · rintro ⟨c, hc, -⟩; exact absurd ⟨_, hc i hi⟩ hno

/-- C48: otherwise the total is refused with `out_of_range`. -/
theorem C48_vertex_total_otherwise {F : Floats} (hF : F.Lawful) {p T : ℕ} {r s : ℚ} (hp : Count32 p) (hT : Count32 T)
    (hr : 0 < r) (hs : 0 < s) (h : ∃ i < T, ¬ ∃ n, LayerCount F p r s i n) :
    generatedInputVertexCount F p T (.fin r) (.fin s) = .error .outOfRange := by
  obtain ⟨hp1, hp2⟩ := hp
  obtain ⟨hT1, hT2⟩ := hT
  rw [inputVertexCount_eq (by omega) (by omega) hr hs]
  rcases fold_spec hF (p := p) (by omega) (by omega) hr hs T (by omega) with ⟨c, hc, e⟩ | ⟨-, e⟩
  · obtain ⟨i, hi, hno⟩ := h
    exact absurd ⟨_, hc i hi⟩ hno
  · exact e

theorem finitePositive_iff (x : LD) : x.finitePositive = true ↔ ∃ a : ℚ, 0 < a ∧ x = .fin a := by
  rcases x with _ | b | a
  · simp [LD.finitePositive, LD.isFinite]
  · simp [LD.finitePositive, LD.isFinite]
  · simp [LD.finitePositive, LD.isFinite, LD.le]

/-- C48: improper arguments, and only those, are refused with `invalid_argument`. -/
theorem C48_invalid_argument_iff {F : Floats} (hF : F.Lawful) {dim N T : ℤ} {r s : LD} (hN : N < 2 ^ 31) (hT : T < 2 ^ 31)
    (hr : ∀ a, r = .fin a → F.IsDouble a) :
    expectedPointsPerTimeslice F dim N T r s = .error .invalidArgument ↔ ¬ Proper dim N T r s := by
  constructor
  · rintro h ⟨rfl, h1, h2, ⟨a, ha, rfl⟩, b, hb, rfl⟩
    obtain ⟨n, rfl⟩ := Int.eq_ofNat_of_zero_le h1.le
    obtain ⟨t, rfl⟩ := Int.eq_ofNat_of_zero_le h2.le
    have hn : Count32 n := ⟨by omega, by omega⟩
    have ht : Count32 t := ⟨by omega, by omega⟩
    rcases expectedPoints_spec hF hn ht ha (hr a rfl) hb with ⟨-, -, e⟩ | ⟨-, e⟩ <;> rw [h] at e <;> cases e
  · intro h
    unfold expectedPointsPerTimeslice
    split
    · rfl
    · rename_i hd
      split
      · rfl
      · rename_i hc
        split
        · rfl
        · rename_i hp
          exfalso
          simp only [Bool.or_eq_true, Bool.not_eq_true', not_or, Bool.not_eq_false] at hp
          exact h ⟨not_not.1 hd, by omega, by omega, (finitePositive_iff r).1 hp.1, (finitePositive_iff s).1 hp.2⟩

/-- C48: the same for the vertex total. -/
theorem C48_vertex_total_invalid_iff {F : Floats} (hF : F.Lawful) {p T : ℤ} {r s : LD} (hp : p < 2 ^ 31) (hT : T < 2 ^ 31) :
    generatedInputVertexCount F p T r s = .error .invalidArgument ↔ ¬ Proper 3 p T r s := by
  constructor
  · rintro h ⟨-, h1, h2, ⟨a, ha, rfl⟩, b, hb, rfl⟩
    obtain ⟨n, rfl⟩ := Int.eq_ofNat_of_zero_le h1.le
    obtain ⟨t, rfl⟩ := Int.eq_ofNat_of_zero_le h2.le
    rw [inputVertexCount_eq (by omega) (by omega) ha hb] at h
    rcases fold_spec hF (p := n) (by omega) (by omega) ha hb t (by omega) with ⟨c, -, e⟩ | ⟨-, e⟩ <;> rw [h] at e <;> cases e
  · intro h
    unfold generatedInputVertexCount
    split
    · rfl
    · rename_i hc
      split
      · rfl
      · rename_i hq
        exfalso
        simp only [Bool.or_eq_true, Bool.not_eq_true', not_or, Bool.not_eq_false] at hq
        exact h ⟨rfl, by omega, by omega, (finitePositive_iff r).1 hq.1, (finitePositive_iff s).1 hq.2⟩

example : expectedPointsPerTimeslice exactFloats 3 0 4 (.fin 1) (.fin 1) = .error .invalidArgument ∧
    Proper 3 640 4 (.fin 1) (.fin 1) :=
  ⟨by decide +kernel, rfl, by norm_num, by norm_num, ⟨1, by norm_num, rfl⟩, 1, by norm_num, rfl⟩

/-- Non-vacuity: a request for 640 simplices on 4 slices with radius 1, spacing 1. -/
example : expectedPointsPerTimeslice exactFloats 3 640 4 (.fin 1) (.fin 1) = .ok 80 := by decide +kernel

example : generatedInputVertexCount exactFloats 80 4 (.fin 1) (.fin 1) = .ok 800 := by decide +kernel

example : Count32 640 ∧ Count32 4 ∧ exactFloats.Lawful ∧ exactFloats.IsDouble 1 :=
  ⟨by unfold Count32; omega, by unfold Count32; omega, exactFloats_lawful, exactFloats_double 1⟩

/-- Non-vacuity of the refusal: a huge radius. -/
example : expectedPointsPerTimeslice exactFloats 3 640 4 (.fin 1000000000) (.fin 1) = .error .outOfRange := by
  decide +kernel

/-- C49: with the same slices, radius and spacing, a larger accepted request never yields a smaller
base population. -/
theorem C49_monotone {F : Floats} (hF : F.Lawful) {N N' T : ℕ} {r s : ℚ} (hN : Count32 N) (hN' : Count32 N')
    (hT : Count32 T) (hr : 0 < r) (hr' : F.IsDouble r) (hs : 0 < s) (hle : N ≤ N') {p p' : ℤ}
    (h : expectedPointsPerTimeslice F 3 N T (.fin r) (.fin s) = .ok p)
    (h' : expectedPointsPerTimeslice F 3 N' T (.fin r) (.fin s) = .ok p') : p ≤ p' := by
  obtain ⟨rfl, -⟩ := (C48_accepted_iff hF hN hT hr hr' hs p).1 h
  obtain ⟨rfl, -⟩ := (C48_accepted_iff hF hN' hT hr hr' hs p').1 h'
  exact_mod_cast estimate_mono hle

/-- Fewer points per slice never overflow where more did not. -/
theorem layerCount_mono {F : Floats} (hF : F.Lawful) {p p' : ℕ} {r s : ℚ} {i n : ℕ} (hle : p ≤ p')
    (hr : 0 < r) (hs : 0 < s) (h : LayerCount F p' r s i n) : ∃ m, m ≤ n ∧ LayerCount F p r s i m := by
  obtain ⟨x, y, z, hx, hy, hz, h0, h1, hn⟩ := h
  have hx0 : 0 ≤ x := by
    rcases hF.dbl.nonneg (q := i * s) (by positivity) with ⟨x', hx', e⟩ | e
    · rw [hx] at e; injection e with e; rw [e]; exact hx'
    · rw [hx] at e; cases e
  have hy0 : 0 ≤ y := by
    rcases hF.dbl.nonneg (q := r + x) (by positivity) with ⟨y', hy', e⟩ | e
    · rw [hy] at e; injection e with e; rw [e]; exact hy'
    · rw [hy] at e; cases e
  have hq : (p : ℚ) * y ≤ p' * y := mul_le_mul_of_nonneg_right (by exact_mod_cast hle) hy0
  obtain ⟨w, hw0, hw, e⟩ := hF.ext.finite_of_le (by positivity) hq hz
  have hf : 0 ≤ ⌊w⌋ := Int.floor_nonneg.2 hw0
  have hm : ⌊w⌋ ≤ ⌊z⌋ := Int.floor_le_floor hw
  exact ⟨⌊w⌋.toNat, by omega, x, y, w, hx, hy, e, hw0, hw.trans h1, by omega⟩

/-- C49: if a request is accepted, so is every smaller one. -/
theorem C49_smaller_requests_accepted {F : Floats} (hF : F.Lawful) {N N' T : ℕ} {r s : ℚ} (hN : Count32 N)
    (hN' : Count32 N') (hT : Count32 T) (hr : 0 < r) (hr' : F.IsDouble r) (hs : 0 < s) (hle : N ≤ N') {p' : ℤ}
    (h' : expectedPointsPerTimeslice F 3 N' T (.fin r) (.fin s) = .ok p') :
    ∃ p, expectedPointsPerTimeslice F 3 N T (.fin r) (.fin s) = .ok p ∧ p ≤ p' := by
  obtain ⟨rfl, ⟨hb, x, y, hx, hy, hm⟩, hl⟩ := (C48_accepted_iff hF hN' hT hr hr' hs p').1 h'
  have hle' := estimate_mono (T := T) hle
  refine ⟨estimate N T, (C48_accepted_iff hF hN hT hr hr' hs _).2 ⟨rfl, ⟨by omega, x, y, hx, hy, ?_⟩, ?_⟩, by exact_mod_cast hle'⟩
  · rcases e : F.ext.rnd ((2 ^ 31 - 1) / y) with _ | b | m
    · exact absurd e (hF.ext.notNan _)
    · rw [e] at hm
      cases b <;> simp_all [LD.le]
    · rw [e] at hm
      simp only [LD.le, decide_eq_true_eq] at hm ⊢
      have : (estimate N T : ℚ) ≤ estimate N' T := by exact_mod_cast hle'
      linarith
  · intro i hi
    obtain ⟨n, hn⟩ := hl i hi
    obtain ⟨m, -, hm⟩ := layerCount_mono hF hle' hr hs hn
    exact ⟨m, hm⟩

/-- Non-vacuity: 999, 1000 and 1001 simplices on 2 slices; the schedule changes at 1000. -/
example : expectedPointsPerTimeslice exactFloats 3 999 2 (.fin 1) (.fin 1) = .ok 249 ∧
    expectedPointsPerTimeslice exactFloats 3 1000 2 (.fin 1) (.fin 1) = .ok 250 ∧
    expectedPointsPerTimeslice exactFloats 3 1001 2 (.fin 1) (.fin 1) = .ok 250 := by decide +kernel

theorem no_exact_power {n : ℕ} (h4 : 4 ≤ n) : n * (n - 3) ≠ 2 ^ 65 := by
  intro h
  have hp : Nat.Prime 2 := by norm_num
  obtain ⟨a, -, ha⟩ := (Nat.dvd_prime_pow hp).1 (h ▸ Dvd.intro _ rfl : n ∣ 2 ^ 65)
  obtain ⟨b, -, hb⟩ := (Nat.dvd_prime_pow hp).1 (h ▸ Dvd.intro_left _ rfl : n - 3 ∣ 2 ^ 65)
  have hodd : n % 2 ≠ (n - 3) % 2 := by omega
  have key : n = 1 ∨ n - 3 = 1 := by
    rcases a with _ | a
    · left; simpa using ha
    · rcases b with _ | b
      · right; simpa using hb
      · exfalso
        rw [pow_succ] at ha hb
        omega
  rcases key with h1 | h1
  · omega
  · have : n = 4 := by omega
    subst this
    norm_num at h

/-- C50: the bound is `(n^2 - 3n - 2)/2` for at least four vertices and 0 below, and it is reported as
unrepresentable exactly when it does not fit 64 bits. -/
theorem C50_delaunay_bound (n : ℕ) (hn : n < 2 ^ 64) :
    delaunayUpperBound n =
      if n < 4 then some 0
      else if ((n : ℤ) ^ 2 - 3 * n - 2) / 2 < 2 ^ 64 then some ((((n : ℤ) ^ 2 - 3 * n - 2) / 2).toNat)
      else none := by
  unfold delaunayUpperBound
  by_cases h4 : n < 4
  · rw [if_pos h4, if_pos h4]
  rw [if_neg h4, if_neg h4]
  dsimp only
  set a := if n % 2 = 0 then n / 2 else n with ha
  set b := if n % 2 = 0 then n - 3 else (n - 3) / 2 with hb
  have hab2 : 2 * (a * b) = n * (n - 3) := by
    by_cases he : n % 2 = 0
    · simp only [he, if_true] at ha hb
      rw [ha, hb, ← mul_assoc]
      congr 1
      omega
    · simp only [he, if_false] at ha hb
      rw [ha, hb, mul_left_comm]
      congr 1
      omega
  have hb0 : 0 < b := by rw [hb]; split <;> omega
  have hpos : 2 ≤ a * b := by
    have : 4 * 1 ≤ n * (n - 3) := Nat.mul_le_mul (by omega) (by omega)
    omega
  have hne : a * b ≠ 2 ^ 64 := by
    intro h
    apply no_exact_power (n := n) (by omega)
    rw [← hab2, h]
    norm_num
  have hz : ((n : ℤ) ^ 2 - 3 * n - 2) / 2 = ((a * b : ℕ) : ℤ) - 1 := by
    have h3 : ((n * (n - 3) : ℕ) : ℤ) = (n : ℤ) ^ 2 - 3 * n := by
      push_cast [Nat.cast_sub (by omega : 3 ≤ n)]
      ring
    rw [← hab2] at h3
    generalize a * b = m at *
    push_cast at h3
    omega
  rw [hz]
  clear_value a b
  have hdiv : (a > (2 ^ 64 - 1) / b) ↔ 2 ^ 64 ≤ a * b := by
    rw [gt_iff_lt, Nat.div_lt_iff_lt_mul hb0]
    omega
  by_cases hc : 2 ^ 64 ≤ a * b
  · rw [if_pos ⟨by omega, hdiv.2 hc⟩, if_neg (by omega)]
  · rw [if_neg (fun h => hc (hdiv.1 h.2)), if_pos (by omega)]
    unfold wrap64
    clear hdiv hz hab2 ha hb
    generalize a * b = m at *
    rw [Option.some_inj]
    omega

/-- Non-vacuity: the last representable vertex count and the first that is not. -/
example : delaunayUpperBound 6074001001 = some 18446744070963499498 ∧ delaunayUpperBound 6074001002 = none ∧
    delaunayUpperBound 4 = some 1 := by decide +kernel

end CDT.Props

import Mathlib.Tactic.Linarith
import Mathlib.Tactic.Ring
import Mathlib.Algebra.Order.BigOperators.Group.Finset
import Verif.Model.RuntimeConfig
import Verif.Spec.Population

namespace CDT
open Spec

namespace FloatFormat.Lawful
variable {F : FloatFormat}

theorem mono_fin (h : F.Lawful) {p q x y : ℚ} (hpq : p ≤ q) (hx : F.rnd p = .fin x) (hy : F.rnd q = .fin y) :
    x ≤ y := by
  have := h.mono p q hpq
  simpa [hx, hy, LD.le] using this

theorem zero (h : F.Lawful) : F.rnd 0 = .fin 0 := by
  have := h.int 0 (by norm_num)
  simpa using this

/-- A nonnegative exact result rounds to a nonnegative number or to plus infinity. -/
theorem nonneg (h : F.Lawful) {q : ℚ} (hq : 0 ≤ q) :
    (∃ x, 0 ≤ x ∧ F.rnd q = .fin x) ∨ F.rnd q = .inf false := by
  have hm := h.mono 0 q hq
  rw [h.zero] at hm
  rcases e : F.rnd q with _ | b | x
  · exact absurd e (h.notNan q)
  · cases b with
    | true => rw [e] at hm; simp [LD.le] at hm
    | false => exact .inr rfl
  · rw [e] at hm
    exact .inl ⟨x, by simpa [LD.le] using hm, rfl⟩

/-- Finiteness is downward closed among nonnegative results. -/
theorem finite_of_le (h : F.Lawful) {p q y : ℚ} (hp : 0 ≤ p) (hpq : p ≤ q) (hy : F.rnd q = .fin y) :
    ∃ x, 0 ≤ x ∧ x ≤ y ∧ F.rnd p = .fin x := by
  rcases h.nonneg hp with ⟨x, hx, e⟩ | e
  · exact ⟨x, hx, h.mono_fin hpq e hy, e⟩
  · have := h.mono p q hpq
    rw [e, hy] at this
    simp [LD.le] at this

end FloatFormat.Lawful

theorem layerCount_unique {F : Floats} {p : ℕ} {r s : ℚ} {i n m : ℕ}
    (h : LayerCount F p r s i n) (h' : LayerCount F p r s i m) : n = m := by
  obtain ⟨x, y, z, hx, hy, hz, -, -, hn⟩ := h
  obtain ⟨x', y', z', hx', hy', hz', -, -, hn'⟩ := h'
  rw [hx] at hx'; injection hx' with ex; subst ex
  rw [hy] at hy'; injection hy' with ey; subst ey
  rw [hz] at hz'; injection hz' with ez; subst ez
  omega

theorem layerCount_lt {F : Floats} {p : ℕ} {r s : ℚ} {i n : ℕ} (h : LayerCount F p r s i n) :
    (n : ℤ) ≤ 2 ^ 31 - 1 := by
  obtain ⟨x, y, z, -, -, -, h0, h1, hn⟩ := h
  rw [hn]
  have : (⌊z⌋ : ℚ) ≤ z := Int.floor_le z
  exact_mod_cast this.trans h1

theorem intMax_ext {F : Floats} (hF : F.Lawful) : F.ext.ofInt intMax = .fin (2 ^ 31 - 1) := by
  have := hF.ext.int intMax (by norm_num [intMax])
  rw [FloatFormat.ofInt, this]
  norm_num [intMax]

/-- A layer's point expression, either finite in the sense of the specification or plus infinity. -/
theorem layerPoints_cases {F : Floats} (hF : F.Lawful) {p : ℕ} {r s : ℚ} {i : ℕ}
    (hp : 0 < p) (hp' : p ≤ 2 ^ 31 - 1) (hr : 0 < r) (hs : 0 < s) (hi : i ≤ 2 ^ 31) :
    (∃ x y z, F.dbl.rnd (i * s) = .fin x ∧ F.dbl.rnd (r + x) = .fin y ∧ F.ext.rnd (p * y) = .fin z ∧
      0 ≤ x ∧ 0 ≤ y ∧ 0 ≤ z ∧ layerRadius F (.fin r) (.fin s) i = .fin y ∧
      layerPoints F p (.fin r) (.fin s) i = .fin z) ∨
    ((¬ ∃ n, LayerCount F p r s i n) ∧ layerPoints F p (.fin r) (.fin s) i = .inf false) := by
  have ei : F.dbl.ofInt (i : ℤ) = .fin (i : ℚ) := by
    have := hF.dbl.int (i : ℤ) (by rw [abs_of_nonneg (by positivity)]; exact_mod_cast hi.trans (by norm_num))
    simpa [FloatFormat.ofInt] using this
  have ep : F.ext.ofInt (p : ℤ) = .fin (p : ℚ) := by
    have := hF.ext.int (p : ℤ) (by rw [abs_of_nonneg (by positivity)]; exact_mod_cast hp'.trans (by norm_num))
    simpa [FloatFormat.ofInt] using this
  have hpq : (0 : ℚ) < p := by exact_mod_cast hp
  have hp0 : ¬ ((p : ℚ) = 0) := hpq.ne'
  have hpn : ¬ ((p : ℚ) < 0) := not_lt.2 hpq.le
  rcases hF.dbl.nonneg (q := i * s) (by positivity) with ⟨x, hx0, hx⟩ | hx
  · rcases hF.dbl.nonneg (q := r + x) (by linarith) with ⟨y, hy0, hy⟩ | hy
    · rcases hF.ext.nonneg (q := p * y) (by positivity) with ⟨z, hz0, hz⟩ | hz
      · exact .inl ⟨x, y, z, hx, hy, hz, hx0, hy0, hz0, by simp [layerRadius, ei, FloatFormat.mul, FloatFormat.add, hx, hy],
          by simp [layerPoints, layerRadius, ei, ep, FloatFormat.mul, FloatFormat.add, hx, hy, hz]⟩
      · refine .inr ⟨?_, by simp [layerPoints, layerRadius, ei, ep, FloatFormat.mul, FloatFormat.add, hx, hy, hz]⟩
        rintro ⟨n, x', y', z', h1, h2, h3, -⟩
        rw [hx] at h1; injection h1 with h1; subst h1
        rw [hy] at h2; injection h2 with h2; subst h2
        rw [hz] at h3; cases h3
    · refine .inr ⟨?_, by
        have hp0 : p ≠ 0 := by omega
        simp [layerPoints, layerRadius, ei, ep, FloatFormat.mul, FloatFormat.add, hx, hy, hp0, hpn]⟩
      rintro ⟨n, x', y', z', h1, h2, -⟩
      rw [hx] at h1; injection h1 with h1; subst h1
      rw [hy] at h2; cases h2
  · refine .inr ⟨?_, by
      have hp0 : p ≠ 0 := by omega
      simp [layerPoints, layerRadius, ei, ep, FloatFormat.mul, FloatFormat.add, hx, hp0, hpn]⟩
    rintro ⟨n, x', y', z', h1, -⟩
    rw [hx] at h1; cases h1

theorem toInt32_fin {z : ℚ} (h0 : 0 ≤ z) (h1 : z ≤ 2 ^ 31 - 1) : (LD.fin z).toInt32 = ⌊z⌋ := by
  have hf0 : 0 ≤ ⌊z⌋ := Int.floor_nonneg.2 h0
  have hf1 : ⌊z⌋ ≤ 2 ^ 31 - 1 := by
    have : (⌊z⌋ : ℚ) ≤ z := Int.floor_le z
    exact_mod_cast this.trans h1
  simp only [LD.toInt32, truncQ, h0, if_true]
  rw [Int.bmod_def]
  omega

theorem addLayer_spec {F : Floats} (hF : F.Lawful) {p : ℕ} {r s : ℚ} {i total : ℕ}
    (hp : 0 < p) (hp' : p ≤ 2 ^ 31 - 1) (hr : 0 < r) (hs : 0 < s) (hi : i < 2 ^ 31)
    (ht : total ≤ i * 2 ^ 31) :
    (∃ n, LayerCount F p r s i n ∧ addLayer F p (.fin r) (.fin s) total i = .ok (total + n)) ∨
    ((¬ ∃ n, LayerCount F p r s i n) ∧ addLayer F p (.fin r) (.fin s) total i = .error .outOfRange) := by
  rcases layerPoints_cases hF hp hp' hr hs hi.le with ⟨x, y, z, hx, hy, hz, hx0, hy0, hz0, hrad, e⟩ | ⟨hn, e⟩
  · by_cases hle : z ≤ 2 ^ 31 - 1
    · left
      have hf0 : 0 ≤ ⌊z⌋ := Int.floor_nonneg.2 hz0
      have hlc : LayerCount F p r s i ⌊z⌋.toNat :=
        ⟨x, y, z, hx, hy, hz, hz0, hle, by omega⟩
      refine ⟨_, hlc, ?_⟩
      have hlt := layerCount_lt hlc
      unfold addLayer
      rw [e, intMax_ext hF]
      simp only [LD.isFinite, LD.lt, Bool.not_true, Bool.false_or, not_lt.2 hz0, decide_false, not_lt.2 hle,
        Bool.false_eq_true, if_false]
      rw [toInt32_fin hz0 hle]
      have : toU64 ⌊z⌋ = ⌊z⌋.toNat := by unfold toU64; omega
      rw [this]
      have h3 : ¬ (⌊z⌋.toNat > (2 ^ 64 - 1) - total) := by omega
      rw [if_neg h3]
      congr 1
      unfold wrap64
      omega
    · right
      constructor
      · rintro ⟨n, x', y', z', h1, h2, h3, -, h5, -⟩
        rw [hx] at h1; injection h1 with h1; subst h1
        rw [hy] at h2; injection h2 with h2; subst h2
        rw [hz] at h3; injection h3 with h3; subst h3
        exact hle h5
      · unfold addLayer
        rw [e, intMax_ext hF]
        have : (2 ^ 31 - 1 : ℚ) < z := not_le.1 hle
        simp [LD.isFinite, LD.lt, this]
  · right
    refine ⟨hn, ?_⟩
    unfold addLayer
    rw [e]
    simp [LD.isFinite]

theorem sum_le_of_layers {F : Floats} {p : ℕ} {r s : ℚ} {c : ℕ → ℕ} {n : ℕ}
    (hc : ∀ i < n, LayerCount F p r s i (c i)) : ∑ i ∈ Finset.range n, c i ≤ n * 2 ^ 31 := by
  have : ∑ i ∈ Finset.range n, c i ≤ ∑ _i ∈ Finset.range n, 2 ^ 31 :=
    Finset.sum_le_sum fun i hi => by
      have := layerCount_lt (hc i (Finset.mem_range.1 hi))
      omega
  simpa using this

theorem fold_spec {F : Floats} (hF : F.Lawful) {p : ℕ} {r s : ℚ}
    (hp : 0 < p) (hp' : p ≤ 2 ^ 31 - 1) (hr : 0 < r) (hs : 0 < s) (n : ℕ) (hn : n ≤ 2 ^ 31) :
    (∃ c : ℕ → ℕ, (∀ i < n, LayerCount F p r s i (c i)) ∧
      (List.range n).foldlM (addLayer F p (.fin r) (.fin s)) 0 = .ok (∑ i ∈ Finset.range n, c i)) ∨
    ((∃ i < n, ¬ ∃ m, LayerCount F p r s i m) ∧
      (List.range n).foldlM (addLayer F p (.fin r) (.fin s)) 0 = .error .outOfRange) := by
  induction n with
  | zero => exact .inl ⟨fun _ => 0, by omega, rfl⟩
  | succ n ih =>
    rw [List.range_succ, List.foldlM_append]
    rcases ih (by omega) with ⟨c, hc, e⟩ | ⟨⟨i, hi, hno⟩, e⟩
    · rw [e]
      rcases addLayer_spec hF hp hp' hr hs (by omega) (sum_le_of_layers hc) with ⟨m, hm, e'⟩ | ⟨hno, e'⟩
      · left
        refine ⟨fun i => if i = n then m else c i, ?_, ?_⟩
        · intro i hi
          by_cases h : i = n
          · subst h; simpa using hm
          · simpa [h] using hc i (by omega)
        · have : ∑ i ∈ Finset.range (n + 1), (if i = n then m else c i) = ∑ i ∈ Finset.range n, c i + m := by
            rw [Finset.sum_range_succ]
            simp only [if_true]
            congr 1
            apply Finset.sum_congr rfl
            intro i hi
            have := Finset.mem_range.1 hi
            rw [if_neg (by omega)]
          rw [this]
          simp only [List.foldlM_cons, List.foldlM_nil, bind, Except.bind, e']
          rfl
      · right
        refine ⟨⟨n, by omega, hno⟩, ?_⟩
        simp only [List.foldlM_cons, List.foldlM_nil, bind, Except.bind, e']
    · right
      refine ⟨⟨i, by omega, hno⟩, ?_⟩
      rw [e]; rfl

theorem finitePositive_fin {q : ℚ} : (LD.fin q).finitePositive = true ↔ 0 < q := by
  simp [LD.finitePositive, LD.isFinite, LD.le]

theorem inputVertexCount_eq {F : Floats} {p T : ℕ} {r s : ℚ}
    (hp : 0 < p) (hT : 0 < T) (hr : 0 < r) (hs : 0 < s) :
    generatedInputVertexCount F p T (.fin r) (.fin s) =
      (List.range T).foldlM (addLayer F p (.fin r) (.fin s)) 0 := by
  unfold generatedInputVertexCount
  rw [if_neg (by omega), finitePositive_fin.2 hr, finitePositive_fin.2 hs]
  simp

theorem ceil_margin (e : ℕ) : ⌈(5 / 4 : ℚ) * e⌉₊ = (5 * e + 3) / 4 := by
  apply le_antisymm
  · rw [Nat.ceil_le]
    have h : 5 * e ≤ 4 * ((5 * e + 3) / 4) := by omega
    have h' : (5 * e : ℚ) ≤ 4 * (((5 * e + 3) / 4 : ℕ) : ℚ) := by exact_mod_cast h
    linarith
  · by_contra hlt
    push Not at hlt
    have h1 := Nat.le_ceil ((5 / 4 : ℚ) * e)
    generalize ⌈(5 / 4 : ℚ) * e⌉₊ = m at *
    have h2 : 4 * m < 5 * e := by omega
    have h3 : (4 * m : ℚ) < 5 * e := by exact_mod_cast h2
    linarith

theorem envelope_eq {N T : ℕ} (hN : Count32 N) (hT : Count32 T) : upperEnvelope N T = populationSchedule N T := by
  obtain ⟨hN1, hN2⟩ := hN
  obtain ⟨hT1, hT2⟩ := hT
  have sf : ∀ b num den : ℕ, b * num < 2 ^ 64 → den ≤ 20 → scaledFloor T b num den = num * b / (den * T) := by
    intro b num den h1 h2
    have : T * den < 2 ^ 64 := by
      have : T * den ≤ 2 ^ 31 * 20 := Nat.mul_le_mul (by omega) h2
      omega
    unfold scaledFloor wrap64
    rw [Nat.mod_eq_of_lt h1, Nat.mod_eq_of_lt this, Nat.mul_comm b, Nat.mul_comm T]
  unfold upperEnvelope populationSchedule
  rw [sf _ _ _ (by omega) (by omega), sf _ _ _ (by omega) (by omega), sf _ _ _ (by omega) (by omega),
    sf _ _ _ (by omega) (by omega)]
  simp only [List.foldr_cons, List.foldr_nil, one_mul]
  generalize 2 * min N 1000 / (5 * T) = a
  generalize min N 10000 / (5 * T) = b
  generalize 3 * min N 100000 / (20 * T) = c
  generalize N / (10 * T) = d
  omega

theorem populationSchedule_le {N T : ℕ} (hT : 1 ≤ T) : populationSchedule N T ≤ N := by
  unfold populationSchedule
  simp only [List.foldr_cons, List.foldr_nil]
  have h : ∀ a num den : ℕ, a ≤ N → num ≤ den → 0 < den → num * a / (den * T) ≤ N := by
    intro a num den ha hn hd
    have : num * a ≤ den * T * N := by
      calc num * a ≤ den * N := Nat.mul_le_mul hn ha
        _ ≤ den * T * N := Nat.mul_le_mul_right _ (Nat.le_mul_of_pos_right _ hT)
    exact Nat.div_le_of_le_mul this
  have h1 := h (min N 1000) 2 5 (by omega) (by omega) (by omega)
  have h2 := h (min N 10000) 1 5 (by omega) (by omega) (by omega)
  have h3 := h (min N 100000) 3 20 (by omega) (by omega) (by omega)
  have h4 := h N 1 10 (by omega) (by omega) (by omega)
  rw [one_mul] at h2 h4
  omega

theorem estimate_eq {N T : ℕ} (hN : Count32 N) (hT : Count32 T) :
    max (leastPopulation N T) (wrap64 (wrap64 (5 * upperEnvelope N T) + 3) / 4) = estimate N T := by
  rw [envelope_eq hN hT, estimate, ceil_margin]
  have := populationSchedule_le (N := N) hT.1
  obtain ⟨-, hN2⟩ := hN
  unfold wrap64
  rw [Nat.mod_eq_of_lt (a := 5 * populationSchedule N T) (by omega), Nat.mod_eq_of_lt (by omega)]

theorem two_le_estimate (N T : ℕ) : 2 ≤ estimate N T := by
  unfold estimate leastPopulation
  split <;> omega

theorem populationSchedule_mono {N N' T : ℕ} (h : N ≤ N') : populationSchedule N T ≤ populationSchedule N' T := by
  unfold populationSchedule
  simp only [List.foldr_cons, List.foldr_nil]
  gcongr

theorem estimate_mono {N N' T : ℕ} (h : N ≤ N') : estimate N T ≤ estimate N' T := by
  unfold estimate
  rw [ceil_margin, ceil_margin]
  have := populationSchedule_mono (T := T) h
  have h2 : leastPopulation N T ≤ leastPopulation N' T := by unfold leastPopulation; split <;> split <;> omega
  have h3 : (5 * populationSchedule N T + 3) / 4 ≤ (5 * populationSchedule N' T + 3) / 4 := by omega
  omega

/-- The largest population that the last radius allows. -/
theorem maximum_spec {F : Floats} (hF : F.Lawful) {y : ℚ} (hy : 0 < y) (p : ℕ) :
    (p : ℤ) ≤ maximumPopulation F (.fin y) ↔
      (p : ℤ) ≤ 2 ^ 31 - 1 ∧ (LD.fin p).le (F.ext.rnd ((2 ^ 31 - 1) / y)) = true := by
  unfold maximumPopulation
  rw [intMax_ext hF]
  simp only [FloatFormat.div, hy.ne', if_false]
  rcases hF.ext.nonneg (q := (2 ^ 31 - 1) / y) (by positivity) with ⟨m, hm0, e⟩ | e
  · rw [e]
    by_cases h : (2 ^ 31 - 1 : ℚ) ≤ m
    · simp only [LD.le, h, decide_true, if_true]
      constructor
      · intro h1
        refine ⟨h1, ?_⟩
        have : (p : ℚ) ≤ 2 ^ 31 - 1 := by
          have : (p : ℤ) ≤ 2 ^ 31 - 1 := h1
          exact_mod_cast this
        simpa using this.trans h
      · rintro ⟨h1, -⟩; exact h1
    · simp only [LD.le, h, decide_false, Bool.false_eq_true, if_false]
      rw [toInt32_fin hm0 (le_of_lt (not_le.1 h)), Int.le_floor]
      simp only [decide_eq_true_eq]
      constructor
      · intro h1
        have h1' : (p : ℚ) ≤ m := by exact_mod_cast h1
        refine ⟨?_, h1'⟩
        have : (p : ℚ) ≤ 2 ^ 31 - 1 := h1'.trans (le_of_lt (not_le.1 h))
        exact_mod_cast this
      · rintro ⟨-, h1⟩; exact_mod_cast h1
  · rw [e]
    simp [LD.le, intMax]

theorem maximum_le {F : Floats} (hF : F.Lawful) {y : ℚ} (hy : 0 < y) :
    0 ≤ maximumPopulation F (.fin y) ∧ maximumPopulation F (.fin y) ≤ 2 ^ 31 - 1 := by
  unfold maximumPopulation
  rw [intMax_ext hF]
  simp only [FloatFormat.div, hy.ne', if_false]
  rcases hF.ext.nonneg (q := (2 ^ 31 - 1) / y) (by positivity) with ⟨m, hm0, e⟩ | e
  · rw [e]
    by_cases h : (2 ^ 31 - 1 : ℚ) ≤ m
    · simp [LD.le, h, intMax]
    · simp only [LD.le, h, decide_false, Bool.false_eq_true, if_false]
      have hm1 := le_of_lt (not_le.1 h)
      rw [toInt32_fin hm0 hm1]
      refine ⟨Int.floor_nonneg.2 hm0, ?_⟩
      have : (⌊m⌋ : ℚ) ≤ m := Int.floor_le m
      exact_mod_cast this.trans hm1
  · rw [e]
    simp [LD.le, intMax]

theorem lastRadius_cases {F : Floats} (hF : F.Lawful) {T : ℕ} {r s : ℚ} (hT : Count32 T)
    (hr : 0 < r) (hr' : F.IsDouble r) (hs : 0 < s) :
    (∃ x y, F.ext.rnd ((T - 1 : ℤ) * s) = .fin x ∧ F.ext.rnd (r + x) = .fin y ∧ 0 ≤ x ∧ r ≤ y ∧
      lastRadius F T (.fin r) (.fin s) = .fin y) ∨
    ((¬ ∃ x y, F.ext.rnd ((T - 1 : ℤ) * s) = .fin x ∧ F.ext.rnd (r + x) = .fin y) ∧
      lastRadius F T (.fin r) (.fin s) = .inf false) := by
  obtain ⟨hT1, hT2⟩ := hT
  have eT : F.ext.ofInt ((T : ℤ) - 1) = .fin ((T : ℤ) - 1 : ℤ) :=
    hF.ext.int _ (by rw [abs_of_nonneg (by omega)]; omega)
  have hn : (0 : ℚ) ≤ ((T : ℤ) - 1 : ℤ) := by exact_mod_cast (by omega : (0 : ℤ) ≤ (T : ℤ) - 1)
  rcases hF.ext.nonneg (q := ((T : ℤ) - 1 : ℤ) * s) (by positivity) with ⟨x, hx0, hx⟩ | hx
  · rcases hF.ext.nonneg (q := r + x) (by positivity) with ⟨y, hy0, hy⟩ | hy
    · refine .inl ⟨x, y, by push_cast at hx ⊢; exact hx, hy, hx0, hF.ext.mono_fin (by linarith) hr'.ext hy, ?_⟩
      simp only [lastRadius, eT, FloatFormat.mul, hx, FloatFormat.add, hy]
    · refine .inr ⟨?_, by simp only [lastRadius, eT, FloatFormat.mul, hx, FloatFormat.add, hy]⟩
      rintro ⟨x', y', h1, h2⟩
      push_cast at hx h1
      rw [hx] at h1; injection h1 with h1; subst h1
      rw [hy] at h2; cases h2
  · refine .inr ⟨?_, by simp only [lastRadius, eT, FloatFormat.mul, hx, FloatFormat.add]⟩
    rintro ⟨x', y', h1, -⟩
    push_cast at hx h1
    rw [hx] at h1; cases h1

theorem toU64_nat {n : ℕ} (h : n < 2 ^ 64) : toU64 (n : ℤ) = n := by unfold toU64; omega

/-- Complete description of `expected_points_per_timeslice` on positive 32-bit counts. -/
theorem expectedPoints_spec {F : Floats} (hF : F.Lawful) {N T : ℕ} {r s : ℚ} (hN : Count32 N) (hT : Count32 T)
    (hr : 0 < r) (hr' : F.IsDouble r) (hs : 0 < s) :
    (FitsLastRadius F (estimate N T) T r s ∧ (∀ i < T, ∃ n, LayerCount F (estimate N T) r s i n) ∧
      expectedPointsPerTimeslice F 3 N T (.fin r) (.fin s) = .ok (estimate N T)) ∨
    (¬ (FitsLastRadius F (estimate N T) T r s ∧ ∀ i < T, ∃ n, LayerCount F (estimate N T) r s i n) ∧
      expectedPointsPerTimeslice F 3 N T (.fin r) (.fin s) = .error .outOfRange) := by
  have hp2 := two_le_estimate N T
  obtain ⟨hN1, hN2⟩ := hN
  have hT1 := hT.1
  have hT2 := hT.2
  have hmin : (if (N : ℤ) ≤ T then (2 : ℤ) else 8) = (leastPopulation N T : ℕ) := by
    unfold leastPopulation
    by_cases h : N ≤ T
    · rw [if_pos h, if_pos (by exact_mod_cast h)]; rfl
    · rw [if_neg h, if_neg (by exact_mod_cast h)]; rfl
  have hle : leastPopulation N T ≤ estimate N T := le_max_left _ _
  have hl64 : leastPopulation N T < 2 ^ 64 := by unfold leastPopulation; split <;> omega
  have heq := estimate_eq ⟨hN1, hN2⟩ hT
  unfold expectedPointsPerTimeslice
  rw [if_neg (by simp), if_neg (by omega), finitePositive_fin.2 hr, finitePositive_fin.2 hs]
  simp only [Bool.not_true, Bool.or_self, Bool.false_eq_true, if_false]
  rcases lastRadius_cases hF hT hr hr' hs with ⟨x, y, hx, hy, hx0, hry, e⟩ | ⟨hno, e⟩
  · have hy0 : 0 < y := by linarith
    have hmx := maximum_le hF hy0
    rw [e]
    simp only [LD.isFinite, Bool.not_true, Bool.false_eq_true, if_false]
    by_cases h1 : maximumPopulation F (.fin y) < (if (N : ℤ) ≤ T then (2 : ℤ) else 8)
    · right
      rw [if_pos h1]
      refine ⟨?_, rfl⟩
      rintro ⟨⟨hb, x', y', h2, h3, h4⟩, -⟩
      rw [hx] at h2; injection h2 with h2; subst h2
      rw [hy] at h3; injection h3 with h3; subst h3
      have := (maximum_spec hF hy0 (estimate N T)).2 ⟨hb, h4⟩
      rw [hmin] at h1
      omega
    · rw [if_neg h1, hmin, toU64_nat hl64, toU64_nat (by omega : N < 2 ^ 64), toU64_nat (by omega : T < 2 ^ 64), heq]
      have hm64 : toU64 (maximumPopulation F (.fin y)) = (maximumPopulation F (.fin y)).toNat := by
        unfold toU64; omega
      rw [hm64]
      by_cases h2 : estimate N T > (maximumPopulation F (.fin y)).toNat
      · right
        rw [if_pos h2]
        refine ⟨?_, rfl⟩
        rintro ⟨⟨hb, x', y', h3, h4, h5⟩, -⟩
        rw [hx] at h3; injection h3 with h3; subst h3
        rw [hy] at h4; injection h4 with h4; subst h4
        have := (maximum_spec hF hy0 (estimate N T)).2 ⟨hb, h5⟩
        omega
      · rw [if_neg h2]
        have hfit := (maximum_spec hF hy0 (estimate N T)).1 (by omega)
        have hb : Int.bmod (estimate N T : ℤ) (2 ^ 32) = (estimate N T : ℤ) := by
          rw [Int.bmod_def]
          omega
        rw [hb, inputVertexCount_eq (by omega) hT1 hr hs]
        have hl : FitsLastRadius F (estimate N T) T r s := ⟨hfit.1, x, y, hx, hy, hfit.2⟩
        rcases fold_spec hF (by omega) (by omega : estimate N T ≤ 2 ^ 31 - 1) hr hs T (by omega) with
          ⟨c, hc, e'⟩ | ⟨⟨i, hi, hno⟩, e'⟩
        · left
          rw [e']
          exact ⟨hl, fun i hi => ⟨_, hc i hi⟩, rfl⟩
        · right
          rw [e']
          exact ⟨fun h => hno (h.2 i hi), rfl⟩
  · right
    rw [e]
    refine ⟨?_, by simp [LD.isFinite]⟩
    rintro ⟨⟨hb, x', y', h2, h3, h4⟩, -⟩
    exact hno ⟨x', y', h2, h3⟩

end CDT

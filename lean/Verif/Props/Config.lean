/-
C47 (and the construction half of C48): runtime configuration and the ball it generates.
-/
import Verif.Props.Population
import Verif.Model.Run
import Verif.Model.Action

namespace CDT.Props
open CDT Spec Fixture RuntimeConfig

/-- With a feasible population every layer gets at least as many points as the first. -/
theorem layer_ge_first {F : Floats} (hF : F.Lawful) {p : ℕ} {r s : ℚ} (hr : 0 < r) (hr' : F.IsDouble r)
    (hs : 0 < s) {z : ℚ} (hz : F.ext.rnd (p * r) = .fin z) (h2 : 2 ≤ z) {i n : ℕ}
    (h : LayerCount F p r s i n) : 2 ≤ n := by
  obtain ⟨x, y, w, hx, hy, hw, h0, h1, hn⟩ := h
  have hx0 : 0 ≤ x := by
    rcases hF.dbl.nonneg (q := i * s) (by positivity) with ⟨x', hx', e⟩ | e
    · rw [hx] at e; injection e with e; rw [e]; exact hx'
    · rw [hx] at e; cases e
  have hry : r ≤ y := hF.dbl.mono_fin (by linarith) hr'.dbl hy
  have hzw : z ≤ w := hF.ext.mono_fin (mul_le_mul_of_nonneg_left hry (by positivity)) hz hw
  have : (2 : ℤ) ≤ ⌊w⌋ := Int.le_floor.2 (by push_cast; linarith)
  omega

theorem firstLayer {F : Floats} (hF : F.Lawful) {p : ℕ} {r s : ℚ} (hr' : F.IsDouble r) {n : ℕ}
    (h : LayerCount F p r s 0 n) : ∃ z, F.ext.rnd (p * r) = .fin z ∧ (n : ℤ) = ⌊z⌋ := by
  obtain ⟨x, y, w, hx, hy, hw, h0, h1, hn⟩ := h
  rw [Nat.cast_zero, zero_mul, hF.dbl.zero] at hx
  injection hx with hx
  rw [← hx, add_zero, hr'.dbl] at hy
  injection hy with hy
  exact ⟨w, by rw [hy]; exact hw, hn⟩

theorem bounds_spec {F : Floats} (hF : F.Lawful) {N T : ℕ} {r s : ℚ} (hN : Count32 N) (hT : Count32 T)
    (hr : 0 < r) (hr' : F.IsDouble r) (hs : 0 < s) {b : PopulationBounds}
    (h : generatedPopulationBounds F 3 N T (.fin r) (.fin s) = .ok b) :
    b.pointsPerTimeslice = estimate N T ∧ FitsLastRadius F (estimate N T) T r s ∧
      (∃ c : ℕ → ℕ, (∀ i < T, LayerCount F (estimate N T) r s i (c i)) ∧
        b.inputVertices = ∑ i ∈ Finset.range T, c i) ∧
      b.lastLayerPoints = F.ext.mul (F.ext.ofInt (estimate N T)) (lastRadius F T (.fin r) (.fin s)) ∧
      b.tetrahedraUpperBound = delaunayUpperBound b.inputVertices := by
  unfold generatedPopulationBounds at h
  rcases expectedPoints_spec hF hN hT hr hr' hs with ⟨h1, h2, e⟩ | ⟨h1, e⟩
  · rw [e] at h
    have hc : Count32 (estimate N T) := by
      have := two_le_estimate N T
      have := h1.1
      unfold Count32; omega
    dsimp only at h
    split at h
    · cases h
    · rename_i v hv
      injection h with h
      subst h
      obtain ⟨c, h3, h4, -⟩ := (C48_vertex_total hF hc hT hr hs v).1 hv
      exact ⟨rfl, h1, ⟨c, h3, h4⟩, rfl, rfl⟩
  · rw [e] at h; cases h

theorem bounds_of {F : Floats} (hF : F.Lawful) {N T : ℕ} {r s : ℚ} (hN : Count32 N) (hT : Count32 T)
    (hr : 0 < r) (hr' : F.IsDouble r) (hs : 0 < s)
    (hfit : FitsLastRadius F (estimate N T) T r s) {c : ℕ → ℕ}
    (hc : ∀ i < T, LayerCount F (estimate N T) r s i (c i)) :
    generatedPopulationBounds F 3 N T (.fin r) (.fin s) = .ok ⟨estimate N T,
      F.ext.mul (F.ext.ofInt (estimate N T)) (lastRadius F T (.fin r) (.fin s)),
      ∑ i ∈ Finset.range T, c i, delaunayUpperBound (∑ i ∈ Finset.range T, c i)⟩ := by
  have hc32 : Count32 (estimate N T) := by
    have := two_le_estimate N T
    have := hfit.1
    unfold Count32; omega
  unfold generatedPopulationBounds
  rw [(C48_accepted_iff hF hN hT hr hr' hs _).2 ⟨rfl, hfit, fun i hi => ⟨_, hc i hi⟩⟩]
  dsimp only
  have hlt : ∑ i ∈ Finset.range T, c i < 2 ^ 62 := by
    have := sum_le_of_layers hc
    have h2 : T * 2 ^ 31 ≤ (2 ^ 31 - 1) * 2 ^ 31 := Nat.mul_le_mul_right _ hT.2
    omega
  rw [(C48_vertex_total hF hc32 hT hr hs _).2 ⟨c, hc, rfl, hlt⟩]

/-- The last layer's closed form, as computed. -/
theorem lastPoints_cases {F : Floats} (hF : F.Lawful) {p T : ℕ} {r s : ℚ} (hp : Count32 p) {x y : ℚ} (hy0 : 0 < y)
    (hx : F.ext.rnd ((T - 1 : ℤ) * s) = .fin x) (hy : F.ext.rnd (r + x) = .fin y)
    (hl : lastRadius F T (.fin r) (.fin s) = .fin y) :
    (!(F.ext.mul (F.ext.ofInt p) (lastRadius F T (.fin r) (.fin s))).isFinite ||
      (F.ext.ofInt intMax).lt (F.ext.mul (F.ext.ofInt p) (lastRadius F T (.fin r) (.fin s)))) = false ↔
    ∃ x y z, F.ext.rnd ((T - 1 : ℤ) * s) = .fin x ∧ F.ext.rnd (r + x) = .fin y ∧
      F.ext.rnd (p * y) = .fin z ∧ z ≤ 2 ^ 31 - 1 := by
  have ep : F.ext.ofInt (p : ℤ) = .fin (p : ℚ) := by
    have := hF.ext.int (p : ℤ) (by
      rw [abs_of_nonneg (by positivity)]; have := hp.2; omega)
    simpa [FloatFormat.ofInt] using this
  rw [hl, ep, intMax_ext hF]
  simp only [FloatFormat.mul]
  rcases e : F.ext.rnd (p * y) with _ | b | z
  · exact absurd e (hF.ext.notNan _)
  · constructor
    · intro h; simp [LD.isFinite] at h
    · rintro ⟨x', y', z', h1, h2, h3, -⟩
      rw [hx] at h1; injection h1 with h1; subst h1
      rw [hy] at h2; injection h2 with h2; subst h2
      rw [e] at h3; cases h3
  · constructor
    · intro h
      exact ⟨x, y, z, hx, hy, e, by simpa [LD.isFinite, LD.lt] using h⟩
    · rintro ⟨x', y', z', h1, h2, h3, h4⟩
      rw [hx] at h1; injection h1 with h1; subst h1
      rw [hy] at h2; injection h2 with h2; subst h2
      rw [e] at h3; injection h3 with h3; subst h3
      simpa [LD.isFinite, LD.lt] using h4

theorem population_ok_iff {F : Floats} (hF : F.Lawful) {N T : ℕ} {r s : ℚ} (hN : Count32 N) (hT : Count32 T)
    (hr : 0 < r) (hr' : F.IsDouble r) (hs : 0 < s) :
    (∃ b, makeGeneratedPopulation F N T (.fin r) (.fin s) = .ok b) ↔ Feasible F N T r s := by
  have hp2 := two_le_estimate N T
  constructor
  · rintro ⟨b, h⟩
    unfold makeGeneratedPopulation at h
    rcases hb : generatedPopulationBounds F 3 N T (.fin r) (.fin s) with e | b'
    · rw [hb] at h; cases h
    obtain ⟨h1, hfit, ⟨c, hc, hv⟩, hlast, -⟩ := bounds_spec hF hN hT hr hr' hs hb
    rw [hb] at h
    simp only [bind, Except.bind, pure, Except.pure, throw, throwThe, MonadExceptOf.throw] at h
    have hc32 : Count32 (estimate N T) := by
      have := hfit.1
      unfold Count32; omega
    rw [h1, if_neg (by omega)] at h
    have ep : F.ext.ofInt (estimate N T : ℤ) = .fin (estimate N T : ℚ) := by
      have := hF.ext.int (estimate N T : ℤ) (by
        rw [abs_of_nonneg (by positivity)]; have := hc32.2; omega)
      simpa [FloatFormat.ofInt] using this
    obtain ⟨z, hz, hz'⟩ := firstLayer hF hr' (hc 0 (by have := hT.1; omega))
    have hlt : (F.ext.mul (F.ext.ofInt (estimate N T)) (.fin r)).lt (.fin 2) = decide (z < 2) := by
      rw [ep]; simp only [FloatFormat.mul, hz, LD.lt]
    rw [hlt] at h
    by_cases h2 : z < 2
    · rw [if_pos (by simpa using h2)] at h; cases h
    rw [if_neg (by simpa using h2)] at h
    by_cases h3 : (!b'.lastLayerPoints.isFinite || (F.ext.ofInt intMax).lt b'.lastLayerPoints) = true
    · rw [if_pos h3] at h; cases h
    · obtain ⟨x, y, hx, hy, -⟩ := hfit.2
      rcases lastRadius_cases hF hT hr hr' hs with ⟨x', y', hx', hy', -, hry, hl⟩ | ⟨hno, -⟩
      · rw [hx] at hx'; injection hx' with hx'; subst hx'
        rw [hy] at hy'; injection hy' with hy'; subst hy'
        rw [hlast] at h3
        exact ⟨hfit, fun i hi => ⟨_, layer_ge_first hF hr hr' hs hz (not_lt.1 h2) (hc i hi), hc i hi⟩,
          (lastPoints_cases hF hc32 (by linarith) hx hy hl).1 (by simpa using h3)⟩
      · exact absurd ⟨x, y, hx, hy⟩ hno
  · rintro ⟨hfit, hl, hlast⟩
    choose! c hc using hl
    have hc32 : Count32 (estimate N T) := by
      have := hfit.1
      unfold Count32; omega
    refine ⟨⟨estimate N T, F.ext.mul (F.ext.ofInt (estimate N T)) (lastRadius F T (.fin r) (.fin s)),
      ∑ i ∈ Finset.range T, c i, delaunayUpperBound (∑ i ∈ Finset.range T, c i)⟩, ?_⟩
    · unfold makeGeneratedPopulation
      rw [bounds_of hF hN hT hr hr' hs hfit (c := c) fun i hi => (hc i hi).2]
      simp only [bind, Except.bind, pure, Except.pure, throw, throwThe, MonadExceptOf.throw]
      rw [if_neg (by omega)]
      have ep : F.ext.ofInt (estimate N T : ℤ) = .fin (estimate N T : ℚ) := by
        have := hF.ext.int (estimate N T : ℤ) (by
          rw [abs_of_nonneg (by positivity)]; have := hc32.2; omega)
        simpa [FloatFormat.ofInt] using this
      obtain ⟨z, hz, hz'⟩ := firstLayer hF hr' (hc 0 (by have := hT.1; omega)).2
      have h2 : 2 ≤ z := by
        have h1 := (hc 0 (by have := hT.1; omega)).1
        have h3 : (2 : ℤ) ≤ ⌊z⌋ := by omega
        have := Int.le_floor.1 h3
        exact_mod_cast this
      have h2' : (F.ext.mul (F.ext.ofInt (estimate N T)) (.fin r)).lt (.fin 2) = false := by
        rw [ep]; simp only [FloatFormat.mul, hz, LD.lt]
        simpa using h2
      rw [h2']
      simp only [Bool.false_eq_true, if_false]
      obtain ⟨x, y, z', hx, hy, hz', hle⟩ := hlast
      rcases lastRadius_cases hF hT hr hr' hs with ⟨x', y', hx', hy', -, hry, hl'⟩ | ⟨hno, -⟩
      · rw [hx] at hx'; injection hx' with hx'; subst hx'
        rw [hy] at hy'; injection hy' with hy'; subst hy'
        rw [(lastPoints_cases hF hc32 (by linarith) hx hy hl').2 ⟨x, y, z', hx, hy, hz', hle⟩]
        simp only [Bool.false_eq_true, if_false]
      · exact absurd ⟨x, y, hx, hy⟩ hno

theorem checkedInt_ok {v w : ℤ} : checkedInt v = .ok w ↔ (-2 ^ 31 ≤ v ∧ v ≤ 2 ^ 31 - 1) ∧ w = v := by
  unfold checkedInt
  split
  · rename_i h; constructor
    · intro h'; cases h'
    · rintro ⟨h', -⟩; exact absurd h' h
  · rename_i h; push Not at h
    constructor
    · intro h'; injection h' with h'; exact ⟨h, h'.symm⟩
    · rintro ⟨-, rfl⟩; rfl

theorem checkedFinite_ok {x y : LD} : checkedFinite x = .ok y ↔ (∃ q, x = .fin q) ∧ y = x := by
  unfold checkedFinite
  rcases x with _ | b | q <;> simp [LD.isFinite, eq_comm]

/-- C47: a triangulation configuration is accepted iff exactly one topology is selected and it is the
spherical one, the dimension is 3, the counts are between 2 and `INT_MAX`, radius and spacing are finite
and positive, the generated population is feasible and the thread count is positive (and one in a serial
build); the accepted configuration holds exactly the given values.  `r` and `s` are values of type
`double`. -/
theorem C47_triangulation_iff {F : Floats} (hF : F.Lawful) (parallel spherical toroidal : Bool)
    (N T d : ℤ) (r s : LD) (seed : BitVec 64) (threads : ℤ)
    (hth : threads < 2 ^ 63) (hr' : ∀ q, r = .fin q → F.IsDouble q) (c : TriConfig) :
    makeTriangulation F parallel spherical toroidal N T d r s seed threads = .ok c ↔
      (spherical = true ∧ toroidal = false) ∧ d = 3 ∧
      (2 ≤ N ∧ N ≤ 2 ^ 31 - 1) ∧ (2 ≤ T ∧ T ≤ 2 ^ 31 - 1) ∧
      (∃ rq sq, r = .fin rq ∧ 0 < rq ∧ s = .fin sq ∧ 0 < sq ∧ Feasible F N.toNat T.toNat rq sq) ∧
      (1 ≤ threads ∧ (parallel = true ∨ threads = 1)) ∧
      c = ⟨.spherical, N, T, 3, r, s, seed, threads.toNat⟩ := by
  unfold makeTriangulation
  simp only [bind, Except.bind, pure, Except.pure, throw, throwThe, MonadExceptOf.throw]
  have hsel : selectTopology spherical toroidal =
      if spherical = true ∧ toroidal = false then .ok .spherical else .error .invalidArgument := by
    cases spherical <;> cases toroidal <;> rfl
  rw [hsel]
  by_cases h1 : spherical = true ∧ toroidal = false
  swap
  · rw [if_neg h1]
    exact ⟨fun h => (by cases h), fun h => absurd h.1 h1⟩
  rw [if_pos h1]
  dsimp only
  have hci : ∀ v : ℤ, checkedInt v = if (-2 ^ 31 ≤ v ∧ v ≤ 2 ^ 31 - 1) then .ok v else .error .outOfRange := by
    intro v; unfold checkedInt; rw [ite_not]
  rw [hci N]
  by_cases h2 : -2 ^ 31 ≤ N ∧ N ≤ 2 ^ 31 - 1
  swap
  · rw [if_neg h2]
    exact ⟨fun h => (by cases h), fun h => absurd (by omega) h2⟩
  rw [if_pos h2]
  dsimp only
  rw [hci T]
  by_cases h3 : -2 ^ 31 ≤ T ∧ T ≤ 2 ^ 31 - 1
  swap
  · rw [if_neg h3]
    exact ⟨fun h => (by cases h), fun h => absurd (by omega) h3⟩
  rw [if_pos h3]
  dsimp only
  rw [hci d]
  by_cases h4 : -2 ^ 31 ≤ d ∧ d ≤ 2 ^ 31 - 1
  swap
  · rw [if_neg h4]
    exact ⟨fun h => (by cases h), fun h => absurd (by omega) h4⟩
  rw [if_pos h4]
  dsimp only
  by_cases h5 : d = 3
  swap
  · rw [if_pos h5]
    exact ⟨fun h => (by cases h), fun h => absurd h.2.1 h5⟩
  rw [if_neg (not_not.2 h5)]
  by_cases h6 : N < 2 ∨ T < 2
  · rw [if_pos h6]
    exact ⟨fun h => (by cases h), fun h => absurd h6 (by omega)⟩
  rw [if_neg h6]
  rcases r with _ | b | rq
  · exact ⟨fun h => (by cases h), fun ⟨_, _, _, _, ⟨q, _, h, _⟩, _⟩ => (by cases h)⟩
  · exact ⟨fun h => (by cases h), fun ⟨_, _, _, _, ⟨q, _, h, _⟩, _⟩ => (by cases h)⟩
  rcases s with _ | b | sq
  · exact ⟨fun h => (by cases h), fun ⟨_, _, _, _, ⟨_, q, _, _, h, _⟩, _⟩ => (by cases h)⟩
  · exact ⟨fun h => (by cases h), fun ⟨_, _, _, _, ⟨_, q, _, _, h, _⟩, _⟩ => (by cases h)⟩
  have e1 : ∀ q, checkedFinite (.fin q) = .ok (.fin q) := fun q => rfl
  rw [e1, e1]
  dsimp only
  have e2 : ∀ q, (LD.fin q).le (.fin 0) = decide (q ≤ 0) := fun q => rfl
  rw [e2, e2]
  by_cases h7 : rq ≤ 0
  · rw [if_pos (by simpa using h7)]
    refine ⟨fun h => (by cases h), fun ⟨_, _, _, _, ⟨q, _, h, h', _⟩, _⟩ => ?_⟩
    injection h with h; subst h; exact absurd h7 (not_le.2 h')
  rw [if_neg (by simpa using h7)]
  by_cases h8 : sq ≤ 0
  · rw [if_pos (by simpa using h8)]
    refine ⟨fun h => (by cases h), fun ⟨_, _, _, _, ⟨_, q, _, _, h, h', _⟩, _⟩ => ?_⟩
    injection h with h; subst h; exact absurd h8 (not_le.2 h')
  rw [if_neg (by simpa using h8)]
  push Not at h7 h8
  have hN : Count32 N.toNat := by unfold Count32; omega
  have hT : Count32 T.toNat := by unfold Count32; omega
  have hpop := population_ok_iff hF hN hT h7 (hr' rq rfl) h8
  rw [Int.toNat_of_nonneg (by omega), Int.toNat_of_nonneg (by omega)] at hpop
  rcases hb : makeGeneratedPopulation F N T (.fin rq) (.fin sq) with e | b
  · refine ⟨fun h => (by cases h), fun ⟨_, _, _, _, ⟨q, q', h, _, h', _, hf⟩, _⟩ => ?_⟩
    injection h with h; subst h
    injection h' with h'; subst h'
    obtain ⟨b, hb'⟩ := hpop.2 hf
    rw [hb] at hb'; cases hb'
  dsimp only
  have hfeas := hpop.1 ⟨b, hb⟩
  by_cases h9 : 1 ≤ threads ∧ (parallel = true ∨ threads = 1)
  · have : checkedThreads parallel threads = .ok threads.toNat := by
      unfold checkedThreads
      rw [if_neg (by omega), if_neg (by omega)]
      rcases h9.2 with h | h <;> simp [h]
    rw [this]
    dsimp only
    subst h5
    constructor
    · intro h; injection h with h
      exact ⟨h1, rfl, by omega, by omega, ⟨rq, sq, rfl, h7, rfl, h8, hfeas⟩, h9, h.symm⟩
    · rintro ⟨-, -, -, -, -, -, rfl⟩; rfl
  · have : ∃ e, checkedThreads parallel threads = .error e := by
      unfold checkedThreads
      by_cases h : threads ≤ 0
      · rw [if_pos h]; exact ⟨_, rfl⟩
      · rw [if_neg h, if_neg (by omega)]
        have : parallel = false ∧ threads ≠ 1 := by
          constructor
          · by_contra hp; simp at hp; exact h9 ⟨by omega, .inl hp⟩
          · intro hp; exact h9 ⟨by omega, .inr hp⟩
        simp [this.1, this.2]
    obtain ⟨e, he⟩ := this
    rw [he]
    exact ⟨fun h => (by cases h), fun h => absurd h.2.2.2.2.2.1 h9⟩

/-- C47: a simulation configuration is accepted iff the couplings are finite, `alpha > 1/2`, and the
pass count and checkpoint interval are between 1 and `INT_MAX`; it holds exactly the given values. -/
theorem C47_simulation_iff (t : TriConfig) (alpha k lambda : LD) (passes checkpoint : ℤ) (w : Bool)
    (c : SimConfig) :
    makeSimulation t alpha k lambda passes checkpoint w = .ok c ↔
      (∃ a, alpha = .fin a ∧ 1 / 2 < a) ∧ (∃ q, k = .fin q) ∧ (∃ q, lambda = .fin q) ∧
      (1 ≤ passes ∧ passes ≤ 2 ^ 31 - 1) ∧ (1 ≤ checkpoint ∧ checkpoint ≤ 2 ^ 31 - 1) ∧
      c = ⟨t, alpha, k, lambda, passes, checkpoint, w⟩ := by
  unfold makeSimulation
  simp only [bind, Except.bind, pure, Except.pure, throw, throwThe, MonadExceptOf.throw]
  rcases alpha with _ | b | a
  · exact ⟨fun h => (by cases h), fun ⟨⟨q, h, _⟩, _⟩ => (by cases h)⟩
  · exact ⟨fun h => (by cases h), fun ⟨⟨q, h, _⟩, _⟩ => (by cases h)⟩
  rcases k with _ | b | kq
  · exact ⟨fun h => (by cases h), fun ⟨_, ⟨q, h⟩, _⟩ => (by cases h)⟩
  · exact ⟨fun h => (by cases h), fun ⟨_, ⟨q, h⟩, _⟩ => (by cases h)⟩
  rcases lambda with _ | b | lq
  · exact ⟨fun h => (by cases h), fun ⟨_, _, ⟨q, h⟩, _⟩ => (by cases h)⟩
  · exact ⟨fun h => (by cases h), fun ⟨_, _, ⟨q, h⟩, _⟩ => (by cases h)⟩
  have e1 : ∀ q, checkedFinite (.fin q) = .ok (.fin q) := fun q => rfl
  rw [e1, e1, e1]
  dsimp only
  have e2 : (LD.fin a).le (.fin (1 / 2)) = decide (a ≤ 1 / 2) := rfl
  rw [e2]
  by_cases h1 : a ≤ 1 / 2
  · rw [if_pos (by simpa using h1)]
    refine ⟨fun h => (by cases h), fun ⟨⟨q, h, h'⟩, _⟩ => ?_⟩
    injection h with h; subst h; exact absurd h1 (not_le.2 h')
  rw [if_neg (by simpa using h1)]
  have hci : ∀ v : ℤ, checkedInt v = if (-2 ^ 31 ≤ v ∧ v ≤ 2 ^ 31 - 1) then .ok v else .error .outOfRange := by
    intro v; unfold checkedInt; rw [ite_not]
  rw [hci passes]
  by_cases h2 : -2 ^ 31 ≤ passes ∧ passes ≤ 2 ^ 31 - 1
  swap
  · rw [if_neg h2]
    exact ⟨fun h => (by cases h), fun h => absurd (by omega) h2⟩
  rw [if_pos h2]
  dsimp only
  rw [hci checkpoint]
  by_cases h3 : -2 ^ 31 ≤ checkpoint ∧ checkpoint ≤ 2 ^ 31 - 1
  swap
  · rw [if_neg h3]
    exact ⟨fun h => (by cases h), fun h => absurd (by omega) h3⟩
  rw [if_pos h3]
  dsimp only
  by_cases h4 : passes ≤ 0
  · rw [if_pos h4]
    exact ⟨fun h => (by cases h), fun h => absurd h4 (by omega)⟩
  rw [if_neg h4]
  by_cases h5 : checkpoint ≤ 0
  · rw [if_pos h5]
    exact ⟨fun h => (by cases h), fun h => absurd h5 (by omega)⟩
  rw [if_neg h5]
  constructor
  · intro h; injection h with h
    exact ⟨⟨a, rfl, not_le.1 h1⟩, ⟨_, rfl⟩, ⟨_, rfl⟩, by omega, by omega, h.symm⟩
  · rintro ⟨-, -, -, -, -, rfl⟩; rfl

theorem ball_fold {P : Type} {F : Floats} (hF : F.Lawful) {p : ℕ} {r s : ℚ} (hp : Count32 p)
    (hr : 0 < r) (hs : 0 < s) (gen : ℕ → ℕ → P) {T : ℕ} (hT : T ≤ 2 ^ 31) {c : ℕ → ℕ}
    (hc : ∀ i < T, 2 ≤ c i ∧ LayerCount F p r s i (c i)) :
    (List.range T).foldlM (ballLayer F p (.fin r) (.fin s) gen) [] =
      .ok ((List.range T).flatMap fun i => (List.range (c i)).map fun j => (gen i j, (i : ℤ) + 1)) := by
  induction T with
  | zero => rfl
  | succ T ih =>
    rw [List.range_succ, List.foldlM_append, ih (by omega) fun i hi => hc i (by omega), List.flatMap_append]
    obtain ⟨h2, hl⟩ := hc T (by omega)
    rcases layerPoints_cases hF (i := T) (by have := hp.1; omega) hp.2 hr hs (by omega) with
      ⟨x, y, z, hx, hy, hz, -, -, hz0, hrad, e⟩ | ⟨hno, -⟩
    swap
    · exact absurd ⟨_, hl⟩ hno
    obtain ⟨x', y', z', hx', hy', hz', -, hle, hn⟩ := hl
    rw [hx] at hx'; injection hx' with hx'; subst hx'
    rw [hy] at hy'; injection hy' with hy'; subst hy'
    rw [hz] at hz'; injection hz' with hz'; subst hz'
    have h2z : 2 ≤ z := by
      have : (2 : ℤ) ≤ ⌊z⌋ := by omega
      exact_mod_cast Int.le_floor.1 this
    have : ballLayer F p (.fin r) (.fin s) gen
        ((List.range T).flatMap fun i => (List.range (c i)).map fun j => (gen i j, (i : ℤ) + 1)) T =
        .ok (((List.range T).flatMap fun i => (List.range (c i)).map fun j => (gen i j, (i : ℤ) + 1)) ++
          (List.range (c T)).map fun j => (gen T j, (T : ℤ) + 1)) := by
      unfold ballLayer
      rw [hrad, e, intMax_ext hF]
      dsimp only
      rw [toInt32_fin hz0 hle, ← hn]
      simp [LD.isFinite, LD.lt, not_lt.2 h2z, not_lt.2 hle]
    simp only [List.foldlM_cons, List.foldlM_nil, bind, Except.bind, this]
    simp [pure, Except.pure]

theorem count_flatMap {P : Type} (gen : ℕ → ℕ → P) (c : ℕ → ℕ) (T k : ℕ) :
    (((List.range T).flatMap fun i => (List.range (c i)).map fun j => (gen i j, (i : ℤ) + 1)).countP
      fun v => decide (v.2 = (k : ℤ) + 1)) = if k < T then c k else 0 := by
  induction T with
  | zero => rfl
  | succ T ih =>
    rw [List.range_succ, List.flatMap_append, List.countP_append, ih]
    simp only [List.flatMap_cons, List.flatMap_nil, List.append_nil, List.countP_map]
    have : ((fun v : P × ℤ => decide (v.2 = (k : ℤ) + 1)) ∘ fun j => (gen T j, (T : ℤ) + 1)) =
        fun _ => decide (T = k) := by
      funext j
      simp only [Function.comp_apply, decide_eq_decide]
      omega
    rw [this]
    by_cases h : T = k
    · subst h; simp
    · simp only [h, decide_false, List.countP_false, Function.const_apply]
      by_cases h' : k < T
      · rw [if_pos h', if_pos (by omega), add_zero]
      · rw [if_neg h', if_neg (by omega)]

theorem length_flatMap {P : Type} (gen : ℕ → ℕ → P) (c : ℕ → ℕ) (T : ℕ) :
    ((List.range T).flatMap fun i => (List.range (c i)).map fun j => (gen i j, (i : ℤ) + 1)).length =
      ∑ i ∈ Finset.range T, c i := by
  induction T with
  | zero => rfl
  | succ T ih =>
    rw [List.range_succ, List.flatMap_append, List.length_append, ih, Finset.sum_range_succ]
    simp

/-- C47, C48: for every accepted configuration the foliated ball is generated without an exception:
layer `i` gets exactly the announced number of points, at least two, each with time value `i + 1`; no
vertex has another time value; and the number of vertices is the announced total. -/
theorem C47_accepted_builds_ball {P : Type} {F : Floats} (hF : F.Lawful) {parallel spherical toroidal : Bool}
    {N T d : ℤ} {r s : LD} {seed : BitVec 64} {threads : ℤ}
    (hth : threads < 2 ^ 63) (hr' : ∀ q, r = .fin q → F.IsDouble q) {c : TriConfig}
    (h : makeTriangulation F parallel spherical toroidal N T d r s seed threads = .ok c) (gen : ℕ → ℕ → P) :
    ∃ vs b, makeFoliatedBall F c.simplices c.timeslices c.initialRadius c.foliationSpacing gen = .ok vs ∧
      generatedPopulationBounds F 3 c.simplices c.timeslices c.initialRadius c.foliationSpacing = .ok b ∧
      vs.length = b.inputVertices ∧ 4 ≤ vs.length ∧ vs.length < 2 ^ 62 ∧
      (∀ v ∈ vs, 1 ≤ v.2 ∧ v.2 ≤ T) ∧
      ∃ rq sq, r = .fin rq ∧ s = .fin sq ∧ ∀ i < T.toNat, ∃ n, 2 ≤ n ∧
        LayerCount F (estimate N.toNat T.toNat) rq sq i n ∧
        vs.countP (fun v => decide (v.2 = (i : ℤ) + 1)) = n := by
  obtain ⟨-, -, hN, hT, ⟨rq, sq, rfl, hr, rfl, hs, hfit, hl, hlast⟩, -, rfl⟩ :=
    (C47_triangulation_iff hF parallel spherical toroidal N T d r s seed threads hth hr' c).1 h
  choose! cnt hcnt using hl
  have hN' : Count32 N.toNat := by unfold Count32; omega
  have hT' : Count32 T.toNat := by unfold Count32; omega
  have hc32 : Count32 (estimate N.toNat T.toNat) := by
    have := hfit.1
    have := two_le_estimate N.toNat T.toNat
    unfold Count32; omega
  have hb := bounds_of hF hN' hT' hr (hr' rq rfl) hs hfit (c := cnt) fun i hi => (hcnt i hi).2
  have hfold := ball_fold hF hc32 hr hs gen (T := T.toNat) (by have := hT'.2; omega) hcnt
  rw [Int.toNat_of_nonneg (by omega : 0 ≤ N), Int.toNat_of_nonneg (by omega : 0 ≤ T)] at hb
  have hlen := length_flatMap gen cnt T.toNat
  have hge : 2 * T.toNat ≤ ∑ i ∈ Finset.range T.toNat, cnt i := by
    have : ∑ _i ∈ Finset.range T.toNat, 2 ≤ ∑ i ∈ Finset.range T.toNat, cnt i :=
      Finset.sum_le_sum fun i hi => (hcnt i (Finset.mem_range.1 hi)).1
    simpa [mul_comm] using this
  have hlt : ∑ i ∈ Finset.range T.toNat, cnt i < 2 ^ 62 := by
    have := sum_le_of_layers (fun i hi => (hcnt i hi).2)
    have h2 : T.toNat * 2 ^ 31 ≤ (2 ^ 31 - 1) * 2 ^ 31 := Nat.mul_le_mul_right _ hT'.2
    omega
  refine ⟨_, _, ?_, hb, hlen, by omega, by omega, ?_, rq, sq, rfl, rfl, ?_⟩
  · unfold makeFoliatedBall
    dsimp only
    rw [if_neg (by omega), finitePositive_fin.2 hr, finitePositive_fin.2 hs]
    simp only [Bool.not_true, Bool.false_eq_true, if_false]
    rw [hb]
    dsimp only
    rw [if_neg (by have := two_le_estimate N.toNat T.toNat; omega)]
    obtain ⟨x, y, z', hx, hy, hz', hle⟩ := hlast
    rcases lastRadius_cases hF hT' hr (hr' rq rfl) hs with ⟨x', y', hx', hy', -, hry, hl'⟩ | ⟨hno, -⟩
    swap
    · exact absurd ⟨x, y, hx, hy⟩ hno
    rw [hx] at hx'; injection hx' with hx'; subst hx'
    rw [hy] at hy'; injection hy' with hy'; subst hy'
    have hlp := (lastPoints_cases hF hc32 (by linarith) hx hy hl').2 ⟨x, y, z', hx, hy, hz', hle⟩
    rw [Int.toNat_of_nonneg (by omega : 0 ≤ T)] at hlp
    rw [hlp, hfold]
    simp only [Bool.false_eq_true, if_false]
    rw [if_neg (by omega)]
  · intro v hv
    simp only [List.mem_flatMap, List.mem_range, List.mem_map] at hv
    obtain ⟨i, hi, j, hj, rfl⟩ := hv
    dsimp only
    omega
  · intro i hi
    exact ⟨cnt i, (hcnt i hi).1, (hcnt i hi).2, by rw [count_flatMap, if_pos hi]⟩

/-- C47: every accepted simulation configuration meets the Metropolis constructor's own checks. -/
theorem C47_simulation_meets_metropolis {t : TriConfig} {alpha k lambda : LD} {passes checkpoint : ℤ} {w : Bool}
    {c : SimConfig} (h : makeSimulation t alpha k lambda passes checkpoint w = .ok c) :
    makePhysicalParameters c.alpha c.k c.lambda = .ok ⟨alpha, k, lambda⟩ ∧
      parseMoveRunCadence c.passes c.checkpoint = .ok ⟨passes, checkpoint⟩ := by
  obtain ⟨⟨a, rfl, ha⟩, ⟨kq, rfl⟩, ⟨lq, rfl⟩, hp, hc, rfl⟩ := (C47_simulation_iff t alpha k lambda passes checkpoint w c).1 h
  constructor
  · unfold makePhysicalParameters
    have h1 : (LD.fin a).le (.fin (1 / 2)) = false := by
      simpa [LD.le] using ha
    simp only [LD.isFinite, Bool.not_true, Bool.or_self, Bool.false_eq_true, if_false, h1]
  · unfold parseMoveRunCadence Cadence.parse
    rw [if_neg (by dsimp only; omega), if_neg (by dsimp only; omega)]

/-- Non-vacuity: the configuration of the README example. -/
example : makeTriangulation exactFloats false true false 640 4 3 (.fin 1) (.fin 1) 92 1 =
    .ok ⟨.spherical, 640, 4, 3, .fin 1, .fin 1, 92, 1⟩ := by decide +kernel

example : makeSimulation ⟨.spherical, 640, 4, 3, .fin 1, .fin 1, 92, 1⟩ (.fin (3 / 5)) (.fin (11 / 10)) (.fin (1 / 10)) 10 5 true =
    .ok ⟨⟨.spherical, 640, 4, 3, .fin 1, .fin 1, 92, 1⟩, .fin (3 / 5), .fin (11 / 10), .fin (1 / 10), 10, 5, true⟩ := by
  decide +kernel

example : makeTriangulation exactFloats false true false 640 4 3 (.fin (1 / 100)) (.fin 1) 92 1 = .error .invalidArgument := by
  decide +kernel

end CDT.Props

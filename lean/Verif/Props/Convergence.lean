/-
C101: the sampler forgets where it started, and what it comes to is the Boltzmann distribution, up to
rounding.
-/
import Verif.Lemmas.Chain
import Verif.Props.Stationary

namespace CDT.Props
open CDT Spec Cavity Moves Finset Filter Topology

variable {V G : Type} [LinearOrder V] {env : Env V G}

theorem gridFraction_ge {n : ℕ} (hn : 0 < n) {a : ℝ} (h0 : 0 ≤ a) (h1 : a ≤ 1) :
    a ≤ ((gridFraction n a : ℚ) : ℝ) ∧ 1 / (n : ℝ) ≤ ((gridFraction n a : ℚ) : ℝ) := by
  have hnr : (0 : ℝ) < n := by exact_mod_cast hn
  have hcard : min n (⌊a * n⌋₊ + 1) ≤ ((Finset.range n).filter fun k : ℕ => ((((k : ℚ) / n : ℚ)) : ℝ) ≤ a).card := by
    conv_lhs => rw [← Finset.card_range (min n (⌊a * n⌋₊ + 1))]
    refine Finset.card_le_card fun k hk => ?_
    rw [Finset.mem_range, lt_min_iff, Nat.lt_add_one_iff] at hk
    refine Finset.mem_filter.2 ⟨Finset.mem_range.2 hk.1, ?_⟩
    have := (Nat.le_floor_iff (by positivity)).1 hk.2
    push_cast
    rwa [div_le_iff₀ hnr]
  have e : ((min n (⌊a * n⌋₊ + 1) : ℕ) : ℝ) / n ≤ ((gridFraction n a : ℚ) : ℝ) := by
    have e0 : ((gridFraction n a : ℚ) : ℝ) =
        (((Finset.range n).filter fun k : ℕ => ((((k : ℚ) / n : ℚ)) : ℝ) ≤ a).card : ℝ) / n := by
      unfold gridFraction
      push_cast
      rfl
    rw [e0]
    gcongr
  have f2 : a * n < ⌊a * n⌋₊ + 1 := Nat.lt_floor_add_one _
  have an : a * n ≤ n := by nlinarith
  refine ⟨le_trans ?_ e, le_trans ?_ e⟩
  · rw [le_div_iff₀ hnr, Nat.cast_min]
    push_cast
    exact le_min an f2.le
  · gcongr
    have : 1 ≤ min n (⌊a * n⌋₊ + 1) := le_min hn (by omega)
    exact_mod_cast this

/-- A finite family of positive numbers stays away from zero. -/
theorem pos_min {β : Type} [Finite β] (f : β → ℝ) (h : ∀ x, 0 < f x) : ∃ t, 0 < t ∧ t ≤ 1 ∧ ∀ x, t ≤ f x := by
  cases isEmpty_or_nonempty β with
  | inl he => exact ⟨1, one_pos, le_rfl, fun x => he.elim x⟩
  | inr hne =>
    obtain ⟨x, hx⟩ := Finite.exists_min f
    exact ⟨min 1 (f x), lt_min one_pos (h x), min_le_left _ _, fun y => (min_le_right _ _).trans (hx y)⟩

section Family
variable {ι : Type} [Fintype ι] [DecidableEq ι] {m : ι → Mfld V}

omit [Fintype ι] [DecidableEq ι] in
/-- A move between two members is made with a probability that does not depend on how small its
acceptance probability is computed to be, nor, for precise arithmetic, on the grid of trial values. -/
theorem edge_mass (hl : env.Lawful) (ho : Onto env) (hF : ReversibleFamily env m) {α κ Λ : ℚ} {C A N : ℝ}
    (hB : WithinBounds m α κ Λ C A N) {i j : ι} (hj : Joined env m i j) :
    ∃ q b : ℝ, 0 < q ∧ 0 < b ∧ ∀ (R : Rounding), R.Lawful → ∀ (drawMove : G → Fin 5 × G) (drawTrial : G → LD × G)
      (n : ℕ), 0 < n →
      let t : ℚ := transitionMass env (metroEngine env R ⟨.fin α, .fin κ, .fin Λ⟩ drawMove drawTrial) n (m i) (m j).tri
      q * (1 / n) ≤ (t : ℝ) ∧ (R.Precise → q * (b - 2 ^ (-239 : ℤ) * (C * A * N)) ≤ (t : ℝ)) := by
  obtain ⟨mv, L, h, hs⟩ := hj
  obtain ⟨K, hr, hs'⟩ := hF.undone i j mv L h hs
  have site : ∀ {mv : MoveType} {x : Mfld V} {L : Tri V}, Fit env x → MoveReturns env mv x.tri L →
      0 < (rawSites env x.tri mv).length ∧ 0 < proposalSiteCount x.geometry mv := by
    intro mv x L hx hret
    obtain ⟨s, hs, -⟩ := moveReturns_ok hl hret
    unfold Mfld.geometry
    rw [C09_site_count hl hx.caches]
    exact ⟨List.length_pos_of_mem hs, by exact_mod_cast List.length_pos_of_mem hs⟩
  obtain ⟨l1, p1⟩ := site (hF.fit i) h
  obtain ⟨-, p2⟩ := site (hF.fit j) hr
  obtain ⟨c1, a1, n1⟩ := hB.one
  refine ⟨1 / (5 * (rawSites env (m i).tri mv).length), metropolisHastings (actionOf α κ Λ (m i).geometry)
    (actionOf α κ Λ (m j).geometry) (siteProbability (proposalSiteCount (m i).geometry mv))
    (siteProbability (proposalSiteCount (m j).geometry mv.reverse)), ?_, ?_, ?_⟩
  · have : (0 : ℝ) < (rawSites env (m i).tri mv).length := by exact_mod_cast l1
    positivity
  · have q1 : 0 < siteProbability (proposalSiteCount (m i).geometry mv) := by
      have : (0 : ℝ) < (proposalSiteCount (m i).geometry mv : ℤ) := by exact_mod_cast p1
      unfold siteProbability; positivity
    have q2 : 0 < siteProbability (proposalSiteCount (m j).geometry mv.reverse) := by
      have : (0 : ℝ) < (proposalSiteCount (m j).geometry mv.reverse : ℤ) := by exact_mod_cast p2
      unfold siteProbability; positivity
    unfold metropolisHastings
    exact lt_min one_pos (mul_pos (Real.exp_pos _) (div_pos q2 q1))
  · intro R hR drawMove drawTrial n hn t
    obtain ⟨a, ea, a0, a1'⟩ := C07_unit_interval hR hB.alpha hB.reps.1 hB.reps.2.1 hB.reps.2.2 (hB.counts i)
      (hB.counts j) p1 p2
    have e := C83_transition_probability (drawMove := drawMove) (drawTrial := drawTrial) hl ho (hF.fit i)
      (hF.fresh i) (hF.fit j) ⟨L, h, hs⟩ ea hn
    obtain ⟨g1, g2⟩ := gridFraction_ge hn a0 a1'
    have et : (t : ℝ) = 1 / (5 * (rawSites env (m i).tri mv).length) * ((gridFraction n a : ℚ) : ℝ) := by
      show ((transitionMass _ _ _ _ _ : ℚ) : ℝ) = _
      rw [e]
      push_cast
      rfl
    rw [et]
    have l1' : (0 : ℝ) < (rawSites env (m i).tri mv).length := by exact_mod_cast l1
    refine ⟨by gcongr, fun hP => ?_⟩
    obtain ⟨a', ea', near⟩ := C79_acceptance_error hR hP hB.alpha hB.reps.1 hB.reps.2.1 hB.reps.2.2 (hB.counts i)
      (hB.counts j) p1 p2 c1 a1 n1 hB.kappa hB.lambda hB.root (hB.sizes i) (hB.sizes j)
    have : a' = a := by have := ea'.symm.trans ea; simpa using this
    subst this
    have := (abs_le.1 near).1
    gcongr
    linarith

/-- At the member with the most vertices one transition in five at least changes nothing. -/
theorem lazy_member [Nonempty ι] (hl : env.Lawful) (ho : Onto env) (hF : ReversibleFamily env m) :
    ∃ s, ∀ (R : Rounding) (p : PhysicalParameters) (drawMove : G → Fin 5 × G) (drawTrial : G → LD × G) (n : ℕ),
      1 / 5 ≤ stepMass env (metroEngine env R p drawMove drawTrial) n m s s := by
  obtain ⟨s, hs⟩ := Finite.exists_max fun i => (census (m i).tri.inf (m i).tri.time (m i).tri.cells).N0
  refine ⟨s, fun R p drawMove drawTrial n => ?_⟩
  have hsum := proposals_le hl ho (hF.fit s).sound (hF.fresh s) hF.different (univ.erase .twoSix) (by
    intro k mv K' h1 h2
    refine mem_erase.2 ⟨?_, mem_univ _⟩
    rintro rfl
    obtain ⟨-, -, ⟨hn, -⟩, -⟩ := C21_two_six_subdivision hl (hF.fit s).sound (hF.fresh s) h1
    have hk := hs k
    have e : (census (m k).tri.inf (m k).tri.time (m k).tri.cells).N0 = (census K'.inf K'.time K'.cells).N0 := by
      show count _ _ _ = count _ _ _
      rw [h2.inf, h2.cells]
    rw [e, hn] at hk
    omega)
  have hcard : (univ.erase MoveType.twoSix).card = 4 := by decide
  rw [hcard] at hsum
  have ht : ∀ k, 0 ≤ transitionMass env (metroEngine env R p drawMove drawTrial) n (m s) (m k).tri ∧
      transitionMass env (metroEngine env R p drawMove drawTrial) n (m s) (m k).tri ≤
        proposalMass env (m s).tri (m k).tri := fun k => transition_le_proposal n (m s) (m k).tri
  have hle : ∑ k ∈ univ.erase s, transitionMass env (metroEngine env R p drawMove drawTrial) n (m s) (m k).tri ≤ 4 / 5 := by
    refine le_trans ?_ (le_trans hsum (by norm_num))
    refine (sum_le_sum fun k _ => (ht k).2).trans ?_
    exact sum_le_sum_of_subset_of_nonneg (erase_subset _ _) fun k _ _ => (ht k).1.trans (ht k).2
  unfold stepMass
  rw [if_pos rfl]
  have : ((∑ k ∈ univ.erase s, transitionMass env (metroEngine env R p drawMove drawTrial) n (m s) (m k).tri : ℚ) : ℝ) ≤
      ((4 / 5 : ℚ) : ℝ) := Rat.cast_le.2 hle
  push_cast at this
  linarith

/-- C101.  On a family connected by moves the chain has exactly one stationary distribution, and from
every initial distribution - from every initial manifold - the distribution of the manifold tends to
it. -/
theorem C101_forgets [Nonempty ι] (hl : env.Lawful) (ho : Onto env) {R : Rounding} (hR : R.Lawful)
    {drawMove : G → Fin 5 × G} {drawTrial : G → LD × G} (hF : ReversibleFamily env m) (hc : ConnectedFamily env m)
    {α κ Λ : ℚ} {C A N : ℝ} (hB : WithinBounds m α κ Λ C A N) {n : ℕ} (hn : 0 < n) :
    let T := stepMass env (metroEngine env R ⟨.fin α, .fin κ, .fin Λ⟩ drawMove drawTrial) n m
    ∃ π, IsDistribution π ∧ evolve T π = π ∧ (∀ d, IsDistribution d → evolve T d = d → d = π) ∧
      ∀ d, IsDistribution d → Tendsto (fun k => spread ((evolve T)^[k] d) π) atTop (𝓝 0) := by
  intro T
  obtain ⟨h0, h1⟩ := C96_stochastic (R := R) (p := ⟨.fin α, .fin κ, .fin Λ⟩) (drawMove := drawMove)
    (drawTrial := drawTrial) hl ho hF n
  obtain ⟨s, hs⟩ := lazy_member hl ho hF
  obtain ⟨M, hM, hmix⟩ := Chain.mixing hc s
  choose q b hq hb hmass using fun x : {x : ι × ι // Joined env m x.1 x.2} => edge_mass hl ho hF hB x.2
  have hnr : (0 : ℝ) < n := by exact_mod_cast hn
  obtain ⟨t, t0, t1, ht⟩ := pos_min (fun x => q x * (1 / n)) fun x => mul_pos (hq x) (by positivity)
  have hbd : Chain.Bounded (Joined env m) s (t / 5) T := by
    refine ⟨by positivity, h0, h1, fun i j hij hj => ?_, ?_⟩
    · show _ ≤ stepMass _ _ _ _ i j
      unfold stepMass
      rw [if_neg hij]
      have h2 := (hmass ⟨(i, j), hj⟩ R hR drawMove drawTrial n hn).1
      have h3 := ht ⟨(i, j), hj⟩
      dsimp only at h2 h3
      linarith
    · have := hs R ⟨.fin α, .fin κ, .fin Λ⟩ drawMove drawTrial n
      exact le_trans (by linarith) this
  obtain ⟨r0, r1, hcon⟩ := hmix _ _ hbd
  obtain ⟨π, g1, g2, g3, g4⟩ := Chain.stationary h0 h1 (spread_evolve h0 h1) r0 r1 hcon
  refine ⟨π, g1, g2, g3, fun d hd => ?_⟩
  refine squeeze_zero (fun k => Chain.spread_nonneg _ _) (g4 d hd) ?_
  have : Tendsto (fun k : ℕ => (1 - Fintype.card ι * (t / 5) ^ M) ^ (k / M)) atTop (𝓝 0) :=
    (tendsto_pow_atTop_nhds_zero_of_lt_one r0 r1).comp (Nat.tendsto_div_const_atTop hM.ne')
  simpa using this.const_mul 2

/-- C101.  With precise arithmetic the stationary distribution is the Boltzmann distribution, up to a
constant multiple of the rounding error and the width of the grid of trial values; the constant depends
on the family and the couplings only. -/
theorem C101_boltzmann [Nonempty ι] (hl : env.Lawful) (ho : Onto env) (hF : ReversibleFamily env m)
    (hc : ConnectedFamily env m) {α κ Λ : ℚ} {C A N : ℝ} (hB : WithinBounds m α κ Λ C A N) :
    ∃ c : ℝ, ∀ (R : Rounding), R.Lawful → R.Precise → ∀ (drawMove : G → Fin 5 × G) (drawTrial : G → LD × G)
      (n : ℕ), 0 < n → ∀ π, IsDistribution π →
      evolve (stepMass env (metroEngine env R ⟨.fin α, .fin κ, .fin Λ⟩ drawMove drawTrial) n m) π = π →
      spread π (boltzmann α κ Λ m) ≤ c * (2 ^ (-239 : ℤ) * (C * A * N) + 1 / n) := by
  obtain ⟨s, hs⟩ := lazy_member hl ho hF
  obtain ⟨M, hM, hmix⟩ := Chain.mixing hc s
  choose q b hq hb hmass using fun x : {x : ι × ι // Joined env m x.1 x.2} => edge_mass hl ho hF hB x.2
  obtain ⟨β, β0, -, hβ⟩ := pos_min b hb
  obtain ⟨t, t0, t1, ht⟩ := pos_min (fun x => q x * (b x / 2)) fun x => mul_pos (hq x) (half_pos (hb x))
  obtain ⟨c1, a1, n1⟩ := hB.one
  have card0 : (0 : ℝ) < Fintype.card ι := by exact_mod_cast Fintype.card_pos
  set k : ℝ := Fintype.card ι * (t / 5) ^ M with hk
  have k0 : 0 < k := by positivity
  refine ⟨2 * M / k + 4 / β, fun R hR hP drawMove drawTrial n hn π hπ hst => ?_⟩
  obtain ⟨h0, h1⟩ := C96_stochastic (R := R) (p := ⟨.fin α, .fin κ, .fin Λ⟩) (drawMove := drawMove)
    (drawTrial := drawTrial) hl ho hF n
  have hnr : (0 : ℝ) < n := by exact_mod_cast hn
  have Z0 : 0 < ∑ i, Real.exp (-actionOf α κ Λ (m i).geometry) := sum_pos (fun i _ => Real.exp_pos _) univ_nonempty
  have hbo : IsDistribution (boltzmann α κ Λ m) := by
    refine ⟨fun i => div_nonneg (Real.exp_pos _).le Z0.le, ?_⟩
    unfold boltzmann
    rw [← sum_div]
    exact div_self Z0.ne'
  have drift := (C96_run (drawMove := drawMove) (drawTrial := drawTrial) hl ho hR hP hF hB hn (boltzmann α κ Λ m) M).2
  have e0 : 0 < 2 ^ (-239 : ℤ) * (C * A * N) := by positivity
  set e : ℝ := 2 ^ (-239 : ℤ) * (C * A * N) with he
  have n0 : 0 < 1 / (n : ℝ) := by positivity
  rcases le_or_gt (2 * e) β with hsmall | hbig
  · have hbd : Chain.Bounded (Joined env m) s (t / 5)
        (stepMass env (metroEngine env R ⟨.fin α, .fin κ, .fin Λ⟩ drawMove drawTrial) n m) := by
      refine ⟨by positivity, h0, h1, fun i j hij hj => ?_, ?_⟩
      · unfold stepMass
        rw [if_neg hij]
        have h2 := (hmass ⟨(i, j), hj⟩ R hR drawMove drawTrial n hn).2 hP
        have h3 := ht ⟨(i, j), hj⟩
        have h4 := hβ ⟨(i, j), hj⟩
        have h5 := hq ⟨(i, j), hj⟩
        dsimp only at h2 h3
        refine le_trans ?_ h2
        have : q ⟨(i, j), hj⟩ * (b ⟨(i, j), hj⟩ / 2) ≤ q ⟨(i, j), hj⟩ * (b ⟨(i, j), hj⟩ - e) := by
          gcongr
          linarith
        linarith
      · have := hs R ⟨.fin α, .fin κ, .fin Λ⟩ drawMove drawTrial n
        exact le_trans (by linarith) this
    obtain ⟨r0, r1, hcon⟩ := hmix _ _ hbd
    have near := Chain.near_stationary r1 hcon hπ hst hbo drift
    refine near.trans ?_
    rw [← hk, sub_sub_cancel, add_mul]
    have : ↑M * (2 * (e + 1 / ↑n)) / k = 2 * M / k * (e + 1 / n) := by ring
    rw [this]
    have : 0 ≤ 4 / β * (e + 1 / n) := by positivity
    linarith
  · refine (Chain.spread_le_two hπ hbo).trans ?_
    have h2 : 2 ≤ 4 / β * e := by
      rw [div_mul_eq_mul_div, le_div_iff₀ β0]
      linarith
    have h3 : 4 / β * e ≤ (2 * M / k + 4 / β) * (e + 1 / n) := by
      refine mul_le_mul ?_ (by linarith) e0.le (by positivity)
      have : 0 ≤ 2 * M / k := by positivity
      linarith
    linarith

end Family

/-! ### Non-vacuity -/

theorem pair_connected {m : Bool → Mfld ℕ} (e : ∀ b, (m b).tri = pairTri b) :
    ConnectedFamily Fixture.env m := by
  have go : ∀ b, Joined Fixture.env m b !b := by
    intro b
    have key : (doMove Fixture.env (if b then .threeTwo else .twoThree) (pairTri b) 0).1.toOption.isSome = true := by
      cases b <;> decide +kernel
    rcases hr : doMove Fixture.env (if b then .threeTwo else .twoThree) (pairTri b) 0 with ⟨x | L, g⟩
    · rw [hr] at key; simp [Except.toOption] at key
    · have h : MoveReturns Fixture.env (if b then .threeTwo else .twoThree) (pairTri b) L := ⟨0, g, .inl hr⟩
      exact ⟨_, L, by rw [e]; exact h, by rw [e]; exact (pair_moves b _ L h).2⟩
  intro b b'
  by_cases h : b = b'
  · rw [h]
  · have : b' = !b := by cases b <;> cases b' <;> simp_all
    rw [this]
    exact .single (go b)

/-- The two triangulations of five points, with 256-bit rounding and 64-bit trial values: from either the
chain comes to one and the same distribution, which is near the Boltzmann distribution. -/
example (drawMove : ℕ → Fin 5 × ℕ) (drawTrial : ℕ → LD × ℕ) : ∃ (m : Bool → Mfld ℕ) (c : ℝ), (∀ b, (m b).tri = pairTri b) ∧
    ∀ n : ℕ, 0 < n →
    let T := stepMass Fixture.env (metroEngine Fixture.env Fixture.nearest
      ⟨.fin (3 / 5), .fin (11 / 10), .fin (1 / 10)⟩ drawMove drawTrial) n m
    ∃ π, IsDistribution π ∧ (∀ d, IsDistribution d → Tendsto (fun k => spread ((evolve T)^[k] d) π) atTop (𝓝 0)) ∧
      spread π (boltzmann (3 / 5) (11 / 10) (1 / 10) m) ≤ c * (2 ^ (-239 : ℤ) * (2 * 1 * 100) + 1 / n) := by
  obtain ⟨m, e, hF, hB⟩ := pair_family
  have hc := pair_connected e
  have bounds := pair_bounds hB
  obtain ⟨c, hcb⟩ := C101_boltzmann Fixture.lawful Fixture.onto hF hc bounds
  refine ⟨m, c, e, fun n hn => ?_⟩
  obtain ⟨π, h1, h2, -, h4⟩ := C101_forgets (drawMove := drawMove) (drawTrial := drawTrial) Fixture.lawful Fixture.onto
    Fixture.nearestLawful hF hc bounds hn
  exact ⟨π, h1, h4, hcb _ Fixture.nearestLawful nearestPrecise _ _ n hn π h1 h2⟩

end CDT.Props

/-
C102: on any finite set of universes only rounding, moves that cannot be undone and moves out of the set
disturb the Boltzmann distribution.
-/
import Verif.Spec.OpenFamily
import Verif.Props.Convergence

namespace CDT.Props
open CDT Spec Cavity Moves Finset

variable {V G : Type} [LinearOrder V] {env : Env V G}

/-! ### Matrices that lose mass -/

section Chain
variable {ι : Type} [Fintype ι]

theorem spread_evolve_le {T : ι → ι → ℝ} (h0 : ∀ i j, 0 ≤ T i j) (h1 : ∀ i, ∑ j, T i j ≤ 1) (d d' : ι → ℝ) :
    spread (evolve T d) (evolve T d') ≤ spread d d' := by
  unfold spread evolve
  calc ∑ j, |∑ i, d i * T i j - ∑ i, d' i * T i j|
      ≤ ∑ j, ∑ i, |d i - d' i| * T i j := by
        refine sum_le_sum fun j _ => ?_
        rw [← sum_sub_distrib]
        refine (abs_sum_le_sum_abs _ _).trans (sum_le_sum fun i _ => ?_)
        rw [← sub_mul, abs_mul, abs_of_nonneg (h0 i j)]
    _ ≤ ∑ i, |d i - d' i| := by
        rw [sum_comm]
        refine sum_le_sum fun i _ => ?_
        rw [← mul_sum]
        exact mul_le_of_le_one_right (abs_nonneg _) (h1 i)

theorem spread_open {T Q W : ι → ι → ℝ} {π l : ι → ℝ} {ε : ℝ} (h1 : ∀ i, ∑ j, T i j + l i = 1)
    (hl : ∀ i, 0 ≤ l i) (hπ : ∀ i, 0 ≤ π i) (hπ1 : ∑ i, π i = 1) (hQ : ∀ i, ∑ j, Q i j ≤ 1) (hε : 0 ≤ ε)
    (hb : ∀ i j, |π i * T i j - π j * T j i| ≤ ε * (π i * Q i j + π j * Q j i) + W i j + W j i) :
    spread (evolve T π) π ≤ 2 * ε + 2 * (∑ i, ∑ j, W i j) + ∑ i, π i * l i := by
  unfold spread evolve
  have key : ∀ j, |∑ i, π i * T i j - π j| ≤
      ∑ i, (ε * (π i * Q i j + π j * Q j i) + W i j + W j i) + π j * l j := by
    intro j
    have e : ∑ i, π i * T i j - π j = ∑ i, (π i * T i j - π j * T j i) - π j * l j := by
      rw [sum_sub_distrib, ← mul_sum]
      linear_combination π j * h1 j
    rw [e]
    refine (abs_sub _ _).trans (add_le_add ?_ ?_)
    · exact (abs_sum_le_sum_abs _ _).trans (sum_le_sum fun i _ => hb i j)
    · rw [abs_of_nonneg (mul_nonneg (hπ j) (hl j))]
  refine (sum_le_sum fun j _ => key j).trans ?_
  have s1 : ∑ j, ∑ i, π i * Q i j ≤ 1 := by
    rw [sum_comm]
    calc ∑ i, ∑ j, π i * Q i j = ∑ i, π i * ∑ j, Q i j := by simp only [mul_sum]
      _ ≤ ∑ i, π i * 1 := sum_le_sum fun i _ => mul_le_mul_of_nonneg_left (hQ i) (hπ i)
      _ = 1 := by simp [hπ1]
  have s2 : ∑ j, ∑ i, π j * Q j i ≤ 1 := by
    calc ∑ j, ∑ i, π j * Q j i = ∑ j, π j * ∑ i, Q j i := by simp only [mul_sum]
      _ ≤ ∑ i, π i * 1 := sum_le_sum fun i _ => mul_le_mul_of_nonneg_left (hQ i) (hπ i)
      _ = 1 := by simp [hπ1]
  have s3 : ∑ j, ∑ i, W i j = ∑ i, ∑ j, W i j := sum_comm
  have e : ∑ j, (∑ i, (ε * (π i * Q i j + π j * Q j i) + W i j + W j i) + π j * l j) =
      ε * (∑ j, ∑ i, π i * Q i j + ∑ j, ∑ i, π j * Q j i) + ∑ j, ∑ i, W i j + ∑ j, ∑ i, W j i + ∑ j, π j * l j := by
    simp only [sum_add_distrib, mul_add, mul_sum]
  rw [e, s3]
  nlinarith

end Chain

/-! ### One transition has one result -/

/-- Move type and site number determine the manifold a transition ends in, whatever else the random
source does. -/
theorem reaches_one (hl : env.Lawful) {R : Rounding} {p : PhysicalParameters} {drawMove : G → Fin 5 × G}
    {drawTrial : G → LD × G} {mv : MoveType} {x : Mfld V} (hx : Fit env x) (hfr : FreshCentroids env x.tri)
    {s : ℕ} {u : ℚ} (h0 : 0 ≤ u) (h1 : u ≤ 1) {L L' : Tri V}
    (h : ReachesAt env (metroEngine env R p drawMove drawTrial) mv x s u L)
    (h' : ReachesAt env (metroEngine env R p drawMove drawTrial) mv x s u L') : SameManifold L L' := by
  obtain ⟨g, K, g1, e, hp, hs⟩ := proposes_of_reaches h0 h1 h
  obtain ⟨g', K', g1', e', hp', hs'⟩ := proposes_of_reaches h0 h1 h'
  obtain ⟨i, -, hu⟩ := C09_unique_site hl hx.sound hfr (⟨g, g1, .inr hp⟩ : MoveReturns env mv x.tri K)
  have hi := ((hu mv g).1 ⟨K, g1, hp, sameManifold_refl K⟩).2
  obtain ⟨K2, g2, k1, k2⟩ := (hu mv g').2 ⟨rfl, by rw [e', ← e, hi]⟩
  rw [hp'] at k1
  cases k1
  exact sameManifold_trans hs (sameManifold_trans k2 (sameManifold_symm hs'))

section Family
variable {ι : Type} [Fintype ι] [DecidableEq ι] {m : ι → Mfld V}

omit [DecidableEq ι] in
/-- The ways to the members and the ways out are different ways. -/
theorem fractions_le (hl : env.Lawful) {R : Rounding} {p : PhysicalParameters} {drawMove : G → Fin 5 × G}
    {drawTrial : G → LD × G} (hF : InOrder env m) (n : ℕ) (mv : MoveType) (i : ι) :
    ∑ k, reachFraction env (metroEngine env R p drawMove drawTrial) n mv (m i) (m k).tri +
      leaveFraction env (metroEngine env R p drawMove drawTrial) n mv m i ≤ 1 := by
  classical
  let eng := metroEngine env R p drawMove drawTrial
  let S := Finset.range (rawSites env (m i).tri mv).length ×ˢ Finset.range n
  let f : Option ι → Finset (ℕ × ℕ) := fun o => match o with
    | none => S.filter fun x => LeavesAt env eng mv m i x.1 ((x.2 : ℚ) / n)
    | some k => S.filter fun x => ReachesAt env eng mv (m i) x.1 ((x.2 : ℚ) / n) (m k).tri
  have hunit : ∀ x ∈ S, (0 : ℚ) ≤ (x.2 : ℚ) / n ∧ (x.2 : ℚ) / n ≤ 1 := by
    intro x hx
    have hx2 := Finset.mem_range.1 (Finset.mem_product.1 hx).2
    have hnq : (0 : ℚ) < n := by exact_mod_cast lt_of_le_of_lt (Nat.zero_le _) hx2
    exact ⟨by positivity, by rw [div_le_one hnq]; exact_mod_cast hx2.le⟩
  have same : ∀ x ∈ S, ∀ L L', ReachesAt env eng mv (m i) x.1 ((x.2 : ℚ) / n) L →
      ReachesAt env eng mv (m i) x.1 ((x.2 : ℚ) / n) L' → SameManifold L L' := fun x hx L L' =>
    reaches_one hl (hF.fit i) (hF.fresh i) (hunit x hx).1 (hunit x hx).2
  have disj : ∀ a ∈ (univ : Finset (Option ι)), ∀ b ∈ (univ : Finset (Option ι)), a ≠ b → Disjoint (f a) (f b) := by
    intro a _ b _ hab
    rw [Finset.disjoint_left]
    intro x hxa hxb
    cases a with
    | none =>
      cases b with
      | none => exact hab rfl
      | some k =>
        obtain ⟨hS, L, h1, h2⟩ := Finset.mem_filter.1 hxa
        exact h2 k (same x hS _ _ (Finset.mem_filter.1 hxb).2 h1)
    | some k =>
      cases b with
      | none =>
        obtain ⟨hS, L, h1, h2⟩ := Finset.mem_filter.1 hxb
        exact h2 k (same x hS _ _ (Finset.mem_filter.1 hxa).2 h1)
      | some l =>
        obtain ⟨hS, h1⟩ := Finset.mem_filter.1 hxa
        exact hab (congrArg some (hF.different k l (same x hS _ _ h1 (Finset.mem_filter.1 hxb).2)))
  have hcard : ∑ o : Option ι, (f o).card ≤ S.card := by
    rw [← Finset.card_biUnion disj]
    refine Finset.card_le_card fun x hx => ?_
    obtain ⟨o, -, ho⟩ := Finset.mem_biUnion.1 hx
    cases o with
    | none => exact (Finset.mem_filter.1 ho).1
    | some k => exact (Finset.mem_filter.1 ho).1
  rw [Fintype.sum_option] at hcard
  have hS : S.card = (rawSites env (m i).tri mv).length * n := by
    rw [Finset.card_product, Finset.card_range, Finset.card_range]
  have e1 : ∀ k, reachFraction env eng n mv (m i) (m k).tri = ((f (some k)).card : ℚ) / S.card := by
    intro k
    unfold reachFraction
    rw [hS]
    push_cast
    rfl
  have e2 : leaveFraction env eng n mv m i = ((f none).card : ℚ) / S.card := by
    unfold leaveFraction
    rw [hS]
    push_cast
    rfl
  show ∑ k, reachFraction env eng n mv (m i) (m k).tri + leaveFraction env eng n mv m i ≤ 1
  simp only [e1, e2, ← Finset.sum_div, ← add_div]
  rcases Nat.eq_zero_or_pos S.card with h | h
  · rw [h]; simp
  · rw [div_le_one (by exact_mod_cast h)]
    have : ∑ k, (f (some k)).card + (f none).card ≤ S.card := by omega
    exact_mod_cast this

/-- C102.  The probabilities of going to a member, staying and leaving are probabilities and add up to
one. -/
theorem C102_probabilities (hl : env.Lawful) {R : Rounding} {p : PhysicalParameters}
    {drawMove : G → Fin 5 × G} {drawTrial : G → LD × G} (hF : InOrder env m) (n : ℕ) :
    let T := openStep env (metroEngine env R p drawMove drawTrial) n m
    (∀ i j, 0 ≤ T i j) ∧ ∀ i, 0 ≤ leaveMass env (metroEngine env R p drawMove drawTrial) n m i ∧
      ∑ j, T i j + ((leaveMass env (metroEngine env R p drawMove drawTrial) n m i : ℚ) : ℝ) = 1 := by
  intro T
  have htot : ∀ i, ∑ k, transitionMass env (metroEngine env R p drawMove drawTrial) n (m i) (m k).tri +
      leaveMass env (metroEngine env R p drawMove drawTrial) n m i ≤ 1 := by
    intro i
    have h := fun mv => fractions_le (R := R) (p := p) (drawMove := drawMove) (drawTrial := drawTrial) hl hF n mv i
    unfold transitionMass leaveMass
    simp only [Finset.sum_add_distrib, ← Finset.mul_sum]
    linarith [h .twoThree, h .threeTwo, h .twoSix, h .sixTwo, h .fourFour]
  have ht : ∀ i k, 0 ≤ transitionMass env (metroEngine env R p drawMove drawTrial) n (m i) (m k).tri :=
    fun i k => (transition_le_proposal n (m i) (m k).tri).1
  have hlv : ∀ i, 0 ≤ leaveMass env (metroEngine env R p drawMove drawTrial) n m i := by
    intro i
    unfold leaveMass leaveFraction
    positivity
  refine ⟨?_, fun i => ⟨hlv i, ?_⟩⟩
  · intro i j
    show 0 ≤ openStep _ _ _ _ i j
    unfold openStep
    split_ifs with h
    · have h1 : ∑ k ∈ univ.erase i, transitionMass env (metroEngine env R p drawMove drawTrial) n (m i) (m k).tri +
          leaveMass env (metroEngine env R p drawMove drawTrial) n m i ≤ 1 := by
        refine le_trans (add_le_add_left ?_ _) (htot i)
        exact sum_le_sum_of_subset_of_nonneg (erase_subset _ _) fun k _ _ => ht i k
      have h2 : ((∑ k ∈ univ.erase i, transitionMass env (metroEngine env R p drawMove drawTrial) n (m i) (m k).tri +
          leaveMass env (metroEngine env R p drawMove drawTrial) n m i : ℚ) : ℝ) ≤ ((1 : ℚ) : ℝ) := Rat.cast_le.2 h1
      push_cast at h2
      linarith
    · exact_mod_cast ht i j
  · show ∑ j, openStep _ _ _ _ i j + _ = 1
    rw [← Finset.add_sum_erase _ _ (mem_univ i)]
    have e : ∑ j ∈ univ.erase i, openStep env (metroEngine env R p drawMove drawTrial) n m i j =
        ∑ j ∈ univ.erase i, ((transitionMass env (metroEngine env R p drawMove drawTrial) n (m i) (m j).tri : ℚ) : ℝ) := by
      refine sum_congr rfl fun j hj => ?_
      unfold openStep
      rw [if_neg (ne_of_mem_erase hj).symm]
    rw [e]
    unfold openStep
    rw [if_pos rfl]
    ring

omit [Fintype ι] [DecidableEq ι] in
/-- A move back is a move of the reverse type. -/
theorem joined_back (hl : env.Lawful) (hF : InOrder env m) {i j : ι} {mv : MoveType} {L : Tri V}
    (h : MoveReturns env mv (m i).tri L) (hs : SameManifold (m j).tri L) (hb : Joined env m j i) :
    ∃ K, MoveReturns env mv.reverse (m j).tri K ∧ SameManifold (m i).tri K := by
  obtain ⟨mv', K, h', hs'⟩ := hb
  have count3 : ∀ {a b : ι} {mv : MoveType} {L : Tri V}, MoveReturns env mv (m a).tri L → SameManifold (m b).tri L →
      (census (m b).tri.inf (m b).tri.time (m b).tri.cells).N3 =
        (census (m a).tri.inf (m a).tri.time (m a).tri.cells).N3 + (publishedDelta mv).dN3 := by
    intro a b mv L h hs
    have e : (census (m b).tri.inf (m b).tri.time (m b).tri.cells).N3 = (census L.inf L.time L.cells).N3 := by
      show count _ _ _ = count _ _ _
      rw [hs.inf, hs.cells]
    rw [e]
    by_cases hmv : mv = .twoSix
    · subst hmv
      obtain ⟨-, -, ⟨-, -, -, k⟩, -⟩ := C21_two_six_subdivision hl (hF.fit a).sound (hF.fresh a) h
      exact k
    · have := (effect_of_move hl hmv (hF.fit a).sound h).census
      rw [this]
      rfl
  have k1 := count3 h hs
  have k2 := count3 h' hs'
  have : mv' = mv.reverse := by
    have k3 : (publishedDelta mv).dN3 + (publishedDelta mv').dN3 = 0 := by omega
    revert k3
    cases mv <;> cases mv' <;> simp [publishedDelta, MoveType.reverse]
  exact ⟨K, this ▸ h', hs'⟩

/-- C102.  One transition on any finite set of manifolds in order: the Boltzmann distribution on it is
disturbed by at most the rounding error and the grid of trial values, twice the flow of the moves that
cannot be undone, and the probability of leaving the set. -/
theorem C102_step [Nonempty ι] (hl : env.Lawful) (ho : Onto env) {R : Rounding} (hR : R.Lawful) (hP : R.Precise)
    {drawMove : G → Fin 5 × G} {drawTrial : G → LD × G} (hF : InOrder env m) {α κ Λ : ℚ} {C A N : ℝ}
    (hB : WithinBounds m α κ Λ C A N) {n : ℕ} (hn : 0 < n) (d : ι → ℝ) :
    let eng := metroEngine env R ⟨.fin α, .fin κ, .fin Λ⟩ drawMove drawTrial
    let T := openStep env eng n m
    let π := boltzmann α κ Λ m
    spread (evolve T d) π ≤ spread d π +
      (2 * (2 ^ (-239 : ℤ) * (C * A * N) + 1 / n) + 2 * oneWayFlow env m T π + leaving env eng n m π) := by
  intro eng T π
  obtain ⟨h0, h1⟩ := C102_probabilities (R := R) (p := ⟨.fin α, .fin κ, .fin Λ⟩) (drawMove := drawMove)
    (drawTrial := drawTrial) hl hF n
  set ε : ℝ := 2 ^ (-239 : ℤ) * (C * A * N) + 1 / n with hε
  obtain ⟨c1, a1, n1⟩ := hB.one
  have ε0 : 0 ≤ ε := by positivity
  set Z := ∑ i, Real.exp (-actionOf α κ Λ (m i).geometry) with hZ
  have Z0 : 0 < Z := sum_pos (fun i _ => Real.exp_pos _) univ_nonempty
  have hπ0 : ∀ i, 0 ≤ π i := fun i => div_nonneg (Real.exp_pos _).le Z0.le
  have hπ1 : ∑ i, π i = 1 := by
    show ∑ i, _ / _ = _
    rw [← sum_div]
    exact div_self Z0.ne'
  classical
  let W : ι → ι → ℝ := fun i j => if Joined env m i j ∧ ¬ Joined env m j i then π i * T i j else 0
  have W0 : ∀ i j, 0 ≤ W i j := by
    intro i j
    dsimp only [W]
    split_ifs
    · exact mul_nonneg (hπ0 i) (h0 i j)
    · exact le_rfl
  have q0 : ∀ i j, (0 : ℝ) ≤ ((proposalMass env (m i).tri (m j).tri : ℚ) : ℝ) := by
    intro i j
    obtain ⟨k1, k2⟩ := transition_le_proposal (env := env) (R := R) (p := ⟨.fin α, .fin κ, .fin Λ⟩)
      (drawMove := drawMove) (drawTrial := drawTrial) n (m i) (m j).tri
    exact_mod_cast k1.trans k2
  have eT : ∀ i j, i ≠ j → T i j = ((transitionMass env eng n (m i) (m j).tri : ℚ) : ℝ) := by
    intro i j hne
    show openStep _ _ _ _ i j = _
    unfold openStep
    rw [if_neg hne]
  have none : ∀ i j, i ≠ j → ¬ Joined env m i j → T i j = 0 := by
    intro i j hne hj
    rw [eT i j hne]
    have : transitionMass env eng n (m i) (m j).tri = 0 :=
      C83_no_transition fun mv K' k1 k2 => hj ⟨mv, K', k1, k2⟩
    rw [this]
    norm_num
  have hbal : ∀ i j, |π i * T i j - π j * T j i| ≤
      ε * (π i * ((proposalMass env (m i).tri (m j).tri : ℚ) : ℝ) +
        π j * ((proposalMass env (m j).tri (m i).tri : ℚ) : ℝ)) + W i j + W j i := by
    intro i j
    have rhs0 : 0 ≤ ε * (π i * ((proposalMass env (m i).tri (m j).tri : ℚ) : ℝ) +
        π j * ((proposalMass env (m j).tri (m i).tri : ℚ) : ℝ)) :=
      mul_nonneg ε0 (add_nonneg (mul_nonneg (hπ0 i) (q0 i j)) (mul_nonneg (hπ0 j) (q0 j i)))
    have w1 := W0 i j
    have w2 := W0 j i
    by_cases hij : i = j
    · subst hij
      rw [sub_self, abs_zero]
      linarith
    · by_cases hj : Joined env m i j
      · by_cases hj' : Joined env m j i
        · rw [eT i j hij, eT j i (Ne.symm hij)]
          obtain ⟨mv, L, hr, hs⟩ := hj
          have main := C83_detailed_balance_rounded (drawMove := drawMove) (drawTrial := drawTrial) hl ho hR hP
            (hF.fit i) (hF.fresh i) (hF.fit j) (hF.fresh j) ⟨L, hr, hs⟩ (joined_back hl hF hr hs hj') (hB.counts i)
            (hB.counts j) hB.alpha hB.reps.1 hB.reps.2.1 hB.reps.2.2 c1 a1 n1 hB.kappa hB.lambda hB.root
            (hB.sizes i) (hB.sizes j) hn
          dsimp only at main
          rw [← hε] at main
          have e1 : ∀ a b x y : ℝ, a / Z * x - b / Z * y = (a * x - b * y) / Z := by intros; ring
          have e2 : ∀ a b x y : ℝ, ε * (a / Z * x + b / Z * y) = ε * (a * x + b * y) / Z := by intros; ring
          have main' : |π i * ((transitionMass env eng n (m i) (m j).tri : ℚ) : ℝ) -
              π j * ((transitionMass env eng n (m j) (m i).tri : ℚ) : ℝ)| ≤
              ε * (π i * ((proposalMass env (m i).tri (m j).tri : ℚ) : ℝ) +
                π j * ((proposalMass env (m j).tri (m i).tri : ℚ) : ℝ)) := by
            show |_ / Z * _ - _ / Z * _| ≤ ε * (_ / Z * _ + _ / Z * _)
            rw [e1, e2, abs_div, abs_of_pos Z0]
            exact div_le_div_of_nonneg_right main Z0.le
          linarith
        · rw [none j i (Ne.symm hij) hj', mul_zero, sub_zero, abs_of_nonneg (mul_nonneg (hπ0 i) (h0 i j))]
          have : W i j = π i * T i j := if_pos ⟨hj, hj'⟩
          linarith
      · by_cases hj' : Joined env m j i
        · rw [none i j hij hj, mul_zero, zero_sub, abs_neg, abs_of_nonneg (mul_nonneg (hπ0 j) (h0 j i))]
          have : W j i = π j * T j i := if_pos ⟨hj', hj⟩
          linarith
        · rw [none i j hij hj, none j i (Ne.symm hij) hj']
          simp only [mul_zero, sub_zero, abs_zero]
          linarith
  have hQ : ∀ i, ∑ j, ((proposalMass env (m i).tri (m j).tri : ℚ) : ℝ) ≤ 1 := by
    intro i
    exact_mod_cast proposals_le_one hl ho (hF.fit i).sound (hF.fresh i) hF.different
  have hlv : ∀ i, (0 : ℝ) ≤ ((leaveMass env eng n m i : ℚ) : ℝ) := fun i => by exact_mod_cast (h1 i).1
  have s1 : spread (evolve T d) (evolve T π) ≤ spread d π := spread_evolve_le h0 (fun i => by
    have := (h1 i).2
    have := hlv i
    change ∑ j, T i j ≤ 1
    linarith) d π
  have s2 : spread (evolve T π) π ≤ 2 * ε + 2 * (∑ i, ∑ j, W i j) + ∑ i, π i * ((leaveMass env eng n m i : ℚ) : ℝ) :=
    spread_open (fun i => (h1 i).2) hlv hπ0 hπ1 hQ ε0 hbal
  have s3 := spread_triangle (evolve T d) (evolve T π) π
  have e3 : oneWayFlow env m T π = ∑ i, ∑ j, W i j := rfl
  have e4 : leaving env eng n m π = ∑ i, π i * ((leaveMass env eng n m i : ℚ) : ℝ) := rfl
  rw [e3, e4]
  linarith

/-- C102.  Whole runs. -/
theorem C102_run [Nonempty ι] (hl : env.Lawful) (ho : Onto env) {R : Rounding} (hR : R.Lawful) (hP : R.Precise)
    {drawMove : G → Fin 5 × G} {drawTrial : G → LD × G} (hF : InOrder env m) {α κ Λ : ℚ} {C A N : ℝ}
    (hB : WithinBounds m α κ Λ C A N) {n : ℕ} (hn : 0 < n) (d : ι → ℝ) (k : ℕ) :
    let eng := metroEngine env R ⟨.fin α, .fin κ, .fin Λ⟩ drawMove drawTrial
    let T := openStep env eng n m
    let π := boltzmann α κ Λ m
    spread ((evolve T)^[k] d) π ≤ spread d π +
      k * (2 * (2 ^ (-239 : ℤ) * (C * A * N) + 1 / n) + 2 * oneWayFlow env m T π + leaving env eng n m π) := by
  intro eng T π
  induction k with
  | zero => simp
  | succ k ih =>
    rw [Function.iterate_succ_apply']
    have := C102_step (drawMove := drawMove) (drawTrial := drawTrial) hl ho hR hP hF hB hn ((evolve T)^[k] d)
    dsimp only at this
    push_cast
    linarith

omit [DecidableEq ι] in
/-- C102.  The two extra terms are the price of the two missing hypotheses: where every move inside can be
undone the first vanishes, where no move leads out the second. -/
theorem C102_closed_family (hl : env.Lawful) {R : Rounding} {p : PhysicalParameters}
    {drawMove : G → Fin 5 × G} {drawTrial : G → LD × G} (hF : ReversibleFamily env m) (n : ℕ) (T : ι → ι → ℝ)
    (d : ι → ℝ) :
    InOrder env m ∧ oneWayFlow env m T d = 0 ∧ leaving env (metroEngine env R p drawMove drawTrial) n m d = 0 := by
  refine ⟨⟨hF.fit, hF.fresh, hF.different⟩, ?_, ?_⟩
  · unfold oneWayFlow
    refine sum_eq_zero fun i _ => sum_eq_zero fun j _ => if_neg ?_
    rintro ⟨⟨mv, L, h, hs⟩, hn⟩
    obtain ⟨K, k1, k2⟩ := hF.undone i j mv L h hs
    exact hn ⟨mv.reverse, K, k1, k2⟩
  · have z : ∀ mv i, leaveFraction env (metroEngine env R p drawMove drawTrial) n mv m i = 0 := by
      intro mv i
      unfold leaveFraction
      have hE : ∀ (P : ℕ × ℕ → Prop) [DecidablePred P] (S : Finset (ℕ × ℕ)), (∀ x ∈ S, ¬ P x) →
          ((S.filter P).card : ℚ) = 0 := fun P _ S h => by
        rw [Finset.filter_eq_empty_iff.2 fun {x} hx => h x hx, Finset.card_empty, Nat.cast_zero]
      rw [hE, zero_div]
      intro x hx
      have hx2 := Finset.mem_range.1 (Finset.mem_product.1 hx).2
      have hnq : (0 : ℚ) < n := by exact_mod_cast lt_of_le_of_lt (Nat.zero_le _) hx2
      rintro ⟨L, ⟨v, e, -, hr⟩, hout⟩
      obtain ⟨K', g', cs', q, hp, hb, hc, -, -, hs⟩ := (reaches_iff (by positivity)
        (by rw [div_le_one hnq]; exact_mod_cast hx2.le) v L).1 hr
      rw [e] at hp hc
      have hret : MoveReturns env mv (m i).tri K' := ⟨v.gen, g', .inr hp⟩
      have hf := (fit_of_checked hl (hF.fit i) (hF.fresh i) hret (m' := ⟨K', cs', (m i).radius, (m i).spacing⟩) hb rfl rfl hc).1
      obtain ⟨j, hj⟩ := hF.closed i mv K' hret hf.sound.causal
      exact hout j (sameManifold_trans hj (sameManifold_symm hs))
    unfold leaving leaveMass
    simp [z]

end Family

/-- The ball of finding 1 before and after its (3,2) move. -/
def oneWayTri (b : Bool) : Tri ℕ := if b then Fixture.kOneWay' else Fixture.kOneWay

/-- A family in order with a move that cannot be undone. -/
theorem one_way_family : ∃ m : Bool → Mfld ℕ, (∀ b, (m b).tri = oneWayTri b) ∧ InOrder Fixture.env m ∧
    WithinBounds m (3 / 5) (11 / 10) (1 / 10) 2 1 100 ∧ Joined Fixture.env m false true ∧
    ¬ Joined Fixture.env m true false := by
  have caches : ∀ b, ∃ cs, buildCaches Fixture.env (oneWayTri b) = .ok cs ∧ Counts32 (geometryOf (oneWayTri b) cs) ∧
      |(geometryOf (oneWayTri b) cs).N1_TL| ≤ 100 ∧ |(geometryOf (oneWayTri b) cs).N3_31_13| ≤ 100 ∧
      |(geometryOf (oneWayTri b) cs).N3_22| ≤ 100 := by
    intro b
    have key : ((buildCaches Fixture.env (oneWayTri b)).toOption.map fun cs => decide
        (Counts32 (geometryOf (oneWayTri b) cs) ∧ |(geometryOf (oneWayTri b) cs).N1_TL| ≤ 100 ∧
        |(geometryOf (oneWayTri b) cs).N3_31_13| ≤ 100 ∧ |(geometryOf (oneWayTri b) cs).N3_22| ≤ 100)) = some true := by
      cases b <;> decide +kernel
    cases hb : buildCaches Fixture.env (oneWayTri b) with
    | error e => rw [hb] at key; simp [Except.toOption] at key
    | ok cs => rw [hb] at key; exact ⟨cs, rfl, by simpa [Except.toOption] using key⟩
  choose cs hcs using caches
  have snd : ∀ b, Sound Fixture.env (oneWayTri b) := by
    intro b; cases b
    · exact Fixture.soundOneWay
    · exact (effect_of_move Fixture.lawful (by decide) Fixture.soundOneWay Fixture.returnsOneWay).sound
  have fr : ∀ b, FreshCentroids Fixture.env (oneWayTri b) := by
    intro b; cases b <;> (unfold FreshCentroids; decide +kernel)
  refine ⟨fun b => ⟨oneWayTri b, cs b, 0, 0⟩, fun _ => rfl, ⟨fun b => ⟨snd b, (hcs b).1⟩, fr, ?_⟩,
    pair_bounds fun b => (hcs b).2, ⟨.threeTwo, Fixture.kOneWay', Fixture.returnsOneWay, sameManifold_refl _⟩, ?_⟩
  · intro b b' h
    have h1 : (oneWayTri b').cells = (oneWayTri b).cells := h.cells
    clear h
    revert h1
    cases b <;> cases b' <;> decide +kernel
  · rintro ⟨mv', K', hr, hs⟩
    have := move_type_back Fixture.lawful Fixture.soundOneWay (fr false) (snd true) (fr true) Fixture.returnsOneWay hr
      hs.cells
    subst this
    exact C25_three_two_may_be_irreversible.2.2.2 ⟨K', hr, hs.cells⟩

/-- The hypotheses are met by that family, 256-bit rounding and 64-bit trial values. -/
example (drawMove : ℕ → Fin 5 × ℕ) (drawTrial : ℕ → LD × ℕ) (d : Bool → ℝ) : ∃ m : Bool → Mfld ℕ,
    (∀ b, (m b).tri = oneWayTri b) ∧
    let eng := metroEngine Fixture.env Fixture.nearest ⟨.fin (3 / 5), .fin (11 / 10), .fin (1 / 10)⟩ drawMove drawTrial
    let T := openStep Fixture.env eng (2 ^ 64) m
    let π := boltzmann (3 / 5) (11 / 10) (1 / 10) m
    spread ((evolve T)^[10 ^ 6] d) π ≤ spread d π + (10 ^ 6 : ℕ) * (2 * (2 ^ (-239 : ℤ) * (2 * 1 * 100) + 1 / (2 ^ 64 : ℕ)) +
      2 * oneWayFlow Fixture.env m T π + leaving Fixture.env eng (2 ^ 64) m π) := by
  obtain ⟨m, e, hF, hB, -⟩ := one_way_family
  exact ⟨m, e, C102_run Fixture.lawful Fixture.onto Fixture.nearestLawful nearestPrecise hF hB (by norm_num) d _⟩

end CDT.Props

/-
C10: detailed balance of the implemented chain.
-/
import Verif.Props.Kernel

namespace CDT.Props
open CDT Spec Cavity Moves

variable {V G : Type} [LinearOrder V] {env : Env V G}

/-- The probability flow from `K` to `L` in equilibrium: Boltzmann weight, times the probability of
proposing `L`, times the acceptance probability `A`. -/
noncomputable def flow (env : Env V G) (α κ Λ : ℚ) (K L : Tri V) (g : Geometry) (A : ℝ) : ℝ :=
  Real.exp (-actionOf α κ Λ g) * ((proposalMass env K L : ℚ) : ℝ) * A

theorem proposalMass_congr {K L M : Tri V} (h : SameManifold L M) : proposalMass env K L = proposalMass env K M := by
  have hp : ∀ mv i, Proposes env mv K i L ↔ Proposes env mv K i M := by
    intro mv i
    constructor
    · rintro ⟨g, K', g', h1, h2, h3⟩; exact ⟨g, K', g', h1, h2, sameManifold_trans (sameManifold_symm h) h3⟩
    · rintro ⟨g, K', g', h1, h2, h3⟩; exact ⟨g, K', g', h1, h2, sameManifold_trans h h3⟩
  have hf : ∀ mv, siteFraction env mv K L = siteFraction env mv K M := by
    intro mv
    unfold siteFraction
    congr 3
    ext i
    simp only [Finset.mem_filter, hp]
  simp only [proposalMass, hf]

/-- C10.  For every successful move from `K` to `L` between sound manifolds, the probability flows
between `K` and `L` balance exactly when some draw of the reverse move leads from `L` back to `K`.
(Everything else in the documented argument - action, site counts, acceptance rule - is right.) -/
theorem C10_balanced_iff_partial (hl : env.Lawful) (ho : Onto env) {K L : Tri V} (hK : Sound env K)
    (hfr : FreshCentroids env K) (hL : Sound env L) (hfr' : FreshCentroids env L) {mv : MoveType}
    (h : MoveReturns env mv K L) {cs cs' : Caches V} (hb : buildCaches env K = .ok cs)
    (hb' : buildCaches env L = .ok cs') (hg : Counts32 (geometryOf K cs)) (hg' : Counts32 (geometryOf L cs'))
    {α κ Λ : ℚ} (hα : 1 / 2 < α) :
    ∃ A A' : ℝ,
      acceptanceProbability .exact ⟨.fin α, .fin κ, .fin Λ⟩ (geometryOf K cs) (geometryOf L cs') mv = .ok (.fin A) ∧
      acceptanceProbability .exact ⟨.fin α, .fin κ, .fin Λ⟩ (geometryOf L cs') (geometryOf K cs) mv.reverse =
        .ok (.fin A') ∧
      0 < flow env α κ Λ K L (geometryOf K cs) A ∧
      (flow env α κ Λ K L (geometryOf K cs) A = flow env α κ Λ L K (geometryOf L cs') A' ↔
        ∃ K'', MoveReturns env mv.reverse L K'' ∧ SameManifold K K'') := by
  obtain ⟨p1, p2⟩ := C08_site_counts_positive hl hK (fun _ => hfr) h hb hb'
  obtain ⟨A, A', hA, hA', hbal⟩ := C07_detailed_balance (κ := κ) (Λ := Λ) hα hg hg' p1 p2
  have hmh := C07_metropolis_hastings (κ := κ) (Λ := Λ) hα hg hg' p1 p2
  have hpos : 0 < A := by
    rw [hA] at hmh
    injection hmh with hmh
    injection hmh with hmh
    rw [hmh]
    unfold metropolisHastings siteProbability
    have q1 : (0 : ℝ) < (proposalSiteCount (geometryOf K cs) mv : ℝ) := by exact_mod_cast p1
    have q2 : (0 : ℝ) < (proposalSiteCount (geometryOf L cs') mv.reverse : ℝ) := by exact_mod_cast p2
    positivity
  have mass : ((proposalMass env K L : ℚ) : ℝ) = siteProbability (proposalSiteCount (geometryOf K cs) mv) := by
    rw [C09_proposal_probability hl ho hK hfr h, C09_site_count hl hb]
    simp [siteProbability]
  have hfp : 0 < flow env α κ Λ K L (geometryOf K cs) A := by
    unfold flow
    rw [mass]
    have q1 : (0 : ℝ) < (proposalSiteCount (geometryOf K cs) mv : ℝ) := by exact_mod_cast p1
    have : 0 < siteProbability (proposalSiteCount (geometryOf K cs) mv) := by unfold siteProbability; positivity
    positivity
  refine ⟨A, A', hA, hA', hfp, ?_⟩
  constructor
  · intro he
    by_contra hno
    have : proposalMass env L K = 0 := by
      refine C09_not_proposed ?_
      intro mv' K' hr hs
      have := move_type_back hl hK hfr hL hfr' h hr hs.cells
      subst this
      exact hno ⟨K', hr, hs⟩
    rw [he] at hfp
    unfold flow at hfp
    rw [this] at hfp
    simp at hfp
  · rintro ⟨K'', hr, hs⟩
    have mass' : ((proposalMass env L K : ℚ) : ℝ) =
        siteProbability (proposalSiteCount (geometryOf L cs') mv.reverse) := by
      rw [proposalMass_congr hs, C09_proposal_probability hl ho hL hfr' hr, C09_site_count hl hb']
      simp [siteProbability]
    unfold flow
    rw [mass, mass']
    exact hbal

/-- C10.  Every (2,3) move whose reverse flip CGAL's orientation test accepts is balanced. -/
theorem C10_two_three_balanced_partial (hl : env.Lawful) (ho : Onto env) {K L : Tri V} (hK : Sound env K)
    (hfr : FreshCentroids env K) (hfr' : FreshCentroids env L)
    (h : MoveReturns env .twoThree K L)
    (hgeo : ∀ a b, ({a, b} : Finset V) ∈ faces L.cells → ({a, b} : Finset V) ∉ faces K.cells →
      env.geoEdge L a b = true) {cs cs' : Caches V} (hb : buildCaches env K = .ok cs)
    (hb' : buildCaches env L = .ok cs') (hg : Counts32 (geometryOf K cs)) (hg' : Counts32 (geometryOf L cs'))
    {α κ Λ : ℚ} (hα : 1 / 2 < α) :
    ∃ A A' : ℝ,
      acceptanceProbability .exact ⟨.fin α, .fin κ, .fin Λ⟩ (geometryOf K cs) (geometryOf L cs') .twoThree =
        .ok (.fin A) ∧
      acceptanceProbability .exact ⟨.fin α, .fin κ, .fin Λ⟩ (geometryOf L cs') (geometryOf K cs) .threeTwo =
        .ok (.fin A') ∧
      flow env α κ Λ K L (geometryOf K cs) A = flow env α κ Λ L K (geometryOf L cs') A' := by
  have hL := (effect_of_move hl (by decide) hK h).sound
  obtain ⟨A, A', h1, h2, -, h3⟩ := C10_balanced_iff_partial (κ := κ) (Λ := Λ) hl ho hK hfr hL hfr' h hb hb' hg hg' hα
  exact ⟨A, A', h1, h2, h3.2 (C25_two_three_undone hl ho hK h hgeo)⟩

/-- C10.  Every (4,4) move is balanced. -/
theorem C10_four_four_balanced_partial (hl : env.Lawful) (ho : Onto env) {K L : Tri V} (hK : Sound env K)
    (hfr : FreshCentroids env K) (hfr' : FreshCentroids env L)
    (h : MoveReturns env .fourFour K L) {cs cs' : Caches V} (hb : buildCaches env K = .ok cs)
    (hb' : buildCaches env L = .ok cs') (hg : Counts32 (geometryOf K cs)) (hg' : Counts32 (geometryOf L cs'))
    {α κ Λ : ℚ} (hα : 1 / 2 < α) :
    ∃ A A' : ℝ,
      acceptanceProbability .exact ⟨.fin α, .fin κ, .fin Λ⟩ (geometryOf K cs) (geometryOf L cs') .fourFour =
        .ok (.fin A) ∧
      acceptanceProbability .exact ⟨.fin α, .fin κ, .fin Λ⟩ (geometryOf L cs') (geometryOf K cs) .fourFour =
        .ok (.fin A') ∧
      flow env α κ Λ K L (geometryOf K cs) A = flow env α κ Λ L K (geometryOf L cs') A' := by
  have hL := (effect_of_move hl (by decide) hK h).sound
  obtain ⟨A, A', h1, h2, -, h3⟩ := C10_balanced_iff_partial (κ := κ) (Λ := Λ) hl ho hK hfr hL hfr' h hb hb' hg hg' hα
  exact ⟨A, A', h1, h2, h3.2 (C25_four_four_undone hl ho hK h)⟩

/-- C10.  Every (2,6) move whose candidate `check_move` accepts is balanced. -/
theorem C10_two_six_balanced_partial (hl : env.Lawful) (ho : Onto env) {K L : Tri V} (hK : Sound env K)
    (hfr : FreshCentroids env K) (hfr' : FreshCentroids env L)
    (h : MoveReturns env .twoSix K L) {cs cs' : Caches V} (hb : buildCaches env K = .ok cs)
    (hb' : buildCaches env L = .ok cs') (r s : BitVec 64)
    (hcheck : checkMove (viewOf r s K cs) (viewOf r s L cs') .twoSix = true)
    (hg : Counts32 (geometryOf K cs)) (hg' : Counts32 (geometryOf L cs'))
    {α κ Λ : ℚ} (hα : 1 / 2 < α) :
    ∃ A A' : ℝ,
      acceptanceProbability .exact ⟨.fin α, .fin κ, .fin Λ⟩ (geometryOf K cs) (geometryOf L cs') .twoSix =
        .ok (.fin A) ∧
      acceptanceProbability .exact ⟨.fin α, .fin κ, .fin Λ⟩ (geometryOf L cs') (geometryOf K cs) .sixTwo =
        .ok (.fin A') ∧
      flow env α κ Λ K L (geometryOf K cs) A = flow env α κ Λ L K (geometryOf L cs') A' := by
  have hL : Sound env L := by
    obtain ⟨x, y, z, u, d, m, hm, htm⟩ := (C21_check_move_iff_slice hl hK hfr h hb hb' r s).1 hcheck
    obtain ⟨hi, _, _, old⟩ := C21_two_six_subdivision hl hK hfr h
    exact (effect26 hl hK hfr h (by rw [hi]; exact causal_of_move26 hK.causal hm old htm)).sound
  obtain ⟨A, A', h1, h2, -, h3⟩ := C10_balanced_iff_partial (κ := κ) (Λ := Λ) hl ho hK hfr hL hfr' h hb hb' hg hg' hα
  exact ⟨A, A', h1, h2, h3.2 (C25_two_six_undone hl ho hK hfr h hb hb' r s hcheck)⟩

instance (z : ℤ) : Decidable (InInt32 z) := by unfold InInt32; infer_instance
instance (g : Geometry) : Decidable (Counts32 g) := by unfold Counts32; infer_instance
instance (K : Tri ℕ) : Decidable (FreshCentroids Fixture.env K) := by unfold FreshCentroids; infer_instance

/-- C10, finding 1.  Detailed balance of the implemented chain is false: between the two sound
manifolds `kOneWay` and `kOneWay'` the (3,2) move has positive probability flow, whatever the
couplings, and the probability of ever proposing the way back is zero. -/
theorem C10_detailed_balance_fails {α κ Λ : ℚ} (hα : 1 / 2 < α) :
    Fixture.env.Lawful ∧ Onto Fixture.env ∧ Sound Fixture.env Fixture.kOneWay ∧ Sound Fixture.env Fixture.kOneWay' ∧
    ∃ cs cs', buildCaches Fixture.env Fixture.kOneWay = .ok cs ∧ buildCaches Fixture.env Fixture.kOneWay' = .ok cs' ∧
    ∃ A A' : ℝ,
      acceptanceProbability .exact ⟨.fin α, .fin κ, .fin Λ⟩ (geometryOf Fixture.kOneWay cs)
        (geometryOf Fixture.kOneWay' cs') .threeTwo = .ok (.fin A) ∧
      acceptanceProbability .exact ⟨.fin α, .fin κ, .fin Λ⟩ (geometryOf Fixture.kOneWay' cs')
        (geometryOf Fixture.kOneWay cs) .twoThree = .ok (.fin A') ∧
      proposalMass Fixture.env Fixture.kOneWay' Fixture.kOneWay = 0 ∧
      flow Fixture.env α κ Λ Fixture.kOneWay' Fixture.kOneWay (geometryOf Fixture.kOneWay' cs') A' <
        flow Fixture.env α κ Λ Fixture.kOneWay Fixture.kOneWay' (geometryOf Fixture.kOneWay cs) A := by
  have hK := Fixture.soundOneWay
  have h := Fixture.returnsOneWay
  have hL := (effect_of_move Fixture.lawful (by decide) hK h).sound
  have hfr : FreshCentroids Fixture.env Fixture.kOneWay := by unfold FreshCentroids; decide +kernel
  have hfr' : FreshCentroids Fixture.env Fixture.kOneWay' := by unfold FreshCentroids; decide +kernel
  have key : ∀ K : Tri ℕ, (((buildCaches Fixture.env K).toOption.map fun cs =>
      decide (Counts32 (geometryOf K cs))) = some true) →
      ∃ cs, buildCaches Fixture.env K = .ok cs ∧ Counts32 (geometryOf K cs) := by
    intro K hk
    cases hb : buildCaches Fixture.env K with
    | error e => rw [hb] at hk; simp [Except.toOption] at hk
    | ok cs => rw [hb] at hk; exact ⟨cs, rfl, by simpa [Except.toOption] using hk⟩
  obtain ⟨cs, hb, hg⟩ := key Fixture.kOneWay (by decide +kernel)
  obtain ⟨cs', hb', hg'⟩ := key Fixture.kOneWay' (by decide +kernel)
  obtain ⟨A, A', h1, h2, h3, -⟩ := C10_balanced_iff_partial (κ := κ) (Λ := Λ) Fixture.lawful Fixture.onto hK hfr hL hfr' h
    hb hb' hg hg' hα
  have hz : proposalMass Fixture.env Fixture.kOneWay' Fixture.kOneWay = 0 := by
    refine C09_not_proposed ?_
    intro mv' K' hr hs
    have := move_type_back Fixture.lawful hK hfr hL hfr' h hr hs.cells
    subst this
    exact C25_three_two_may_be_irreversible.2.2.2 ⟨K', hr, hs.cells⟩
  refine ⟨Fixture.lawful, Fixture.onto, hK, hL, cs, cs', hb, hb', A, A', h1, h2, hz, ?_⟩
  have : flow Fixture.env α κ Λ Fixture.kOneWay' Fixture.kOneWay (geometryOf Fixture.kOneWay' cs') A' = 0 := by
    unfold flow; rw [hz]; simp
  rw [this]
  exact h3

/-- The hypotheses of the balance theorems are met, with a move that is balanced. -/
example : ∃ L cs cs', MoveReturns Fixture.env .fourFour Fixture.k44 L ∧ Sound Fixture.env Fixture.k44 ∧
    FreshCentroids Fixture.env Fixture.k44 ∧ FreshCentroids Fixture.env L ∧
    buildCaches Fixture.env Fixture.k44 = .ok cs ∧ buildCaches Fixture.env L = .ok cs' ∧
    Counts32 (geometryOf Fixture.k44 cs) ∧ Counts32 (geometryOf L cs') := by
  have key : ((doMove Fixture.env .fourFour Fixture.k44 0).1.toOption.bind fun L =>
      (buildCaches Fixture.env Fixture.k44).toOption.bind fun cs =>
      (buildCaches Fixture.env L).toOption.map fun cs' =>
        decide (FreshCentroids Fixture.env L ∧ Counts32 (geometryOf Fixture.k44 cs) ∧ Counts32 (geometryOf L cs'))) =
      some true := by decide +kernel
  rcases hr : doMove Fixture.env .fourFour Fixture.k44 0 with ⟨e | L, g⟩
  · rw [hr] at key; simp [Except.toOption] at key
  · rw [hr] at key
    cases hb : buildCaches Fixture.env Fixture.k44 with
    | error e => rw [hb] at key; simp [Except.toOption] at key
    | ok cs =>
      cases hb' : buildCaches Fixture.env L with
      | error e => simp [Except.toOption, hb, hb'] at key
      | ok cs' =>
        simp only [Except.toOption, hb, hb', Option.bind_some, Option.map_some, Option.some.injEq,
          decide_eq_true_eq] at key
        exact ⟨L, cs, cs', ⟨0, g, .inl hr⟩, Fixture.sound44, by unfold FreshCentroids; decide +kernel, key.1, rfl, hb',
          key.2.1, key.2.2⟩

end CDT.Props

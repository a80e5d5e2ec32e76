/-
C96: the sampler keeps the Boltzmann distribution, up to rounding.
-/
import Verif.Spec.Stationary
import Verif.Props.Representation
import Mathlib.Algebra.Order.BigOperators.Group.Finset
import Mathlib.Algebra.BigOperators.Field

namespace CDT.Props
open CDT Spec Cavity Moves Finset

variable {V G : Type} [LinearOrder V] {env : Env V G}

/-! ### Stochastic matrices -/

section Chain
variable {ι : Type} [Fintype ι]

theorem spread_evolve {T : ι → ι → ℝ} (h0 : ∀ i j, 0 ≤ T i j) (h1 : ∀ i, ∑ j, T i j = 1) (d d' : ι → ℝ) :
    spread (evolve T d) (evolve T d') ≤ spread d d' := by
  unfold spread evolve
  calc ∑ j, |∑ i, d i * T i j - ∑ i, d' i * T i j|
      ≤ ∑ j, ∑ i, |d i - d' i| * T i j := by
        refine sum_le_sum fun j _ => ?_
        rw [← sum_sub_distrib]
        refine (abs_sum_le_sum_abs _ _).trans (sum_le_sum fun i _ => ?_)
        rw [← sub_mul, abs_mul, abs_of_nonneg (h0 i j)]
    _ = ∑ i, |d i - d' i| := by
        rw [sum_comm]
        refine sum_congr rfl fun i _ => ?_
        rw [← mul_sum, h1, mul_one]

theorem spread_triangle (a b c : ι → ℝ) : spread a c ≤ spread a b + spread b c := by
  unfold spread
  rw [← sum_add_distrib]
  exact sum_le_sum fun j _ => abs_sub_le _ _ _

theorem spread_balance {T Q : ι → ι → ℝ} {π : ι → ℝ} {ε : ℝ} (h1 : ∀ i, ∑ j, T i j = 1)
    (hπ : ∀ i, 0 ≤ π i) (hπ1 : ∑ i, π i = 1) (hQ : ∀ i, ∑ j, Q i j ≤ 1) (hε : 0 ≤ ε)
    (hb : ∀ i j, |π i * T i j - π j * T j i| ≤ ε * (π i * Q i j + π j * Q j i)) :
    spread (evolve T π) π ≤ 2 * ε := by
  unfold spread evolve
  have key : ∀ j, |∑ i, π i * T i j - π j| ≤ ∑ i, ε * (π i * Q i j + π j * Q j i) := by
    intro j
    have e : ∑ i, π i * T i j - π j = ∑ i, (π i * T i j - π j * T j i) := by
      rw [sum_sub_distrib, ← mul_sum, h1, mul_one]
    rw [e]
    exact (abs_sum_le_sum_abs _ _).trans (sum_le_sum fun i _ => hb i j)
  refine (sum_le_sum fun j _ => key j).trans ?_
  have s1 : ∑ j, ∑ i, π i * Q i j ≤ 1 := by
    rw [sum_comm]
    calc ∑ i, ∑ j, π i * Q i j = ∑ i, π i * ∑ j, Q i j := by simp only [mul_sum]
      _ ≤ ∑ i, π i * 1 := sum_le_sum fun i _ => mul_le_mul_of_nonneg_left (hQ i) (hπ i)
      _ = 1 := by simp [hπ1]
  have s2 : ∑ j, ∑ i, π j * Q j i ≤ 1 := by
    calc ∑ j, ∑ i, π j * Q j i = ∑ j, π j * ∑ i, Q j i := by simp only [mul_sum]
      _ ≤ ∑ i, π i * 1 := sum_le_sum fun i _ => mul_le_mul_of_nonneg_left (hQ i) (hπ i)
      _ = 1 := by simp [hπ1]
  have : ∑ j, ∑ i, ε * (π i * Q i j + π j * Q j i) = ε * (∑ j, ∑ i, π i * Q i j + ∑ j, ∑ i, π j * Q j i) := by
    rw [← sum_add_distrib, mul_sum]
    refine sum_congr rfl fun j _ => ?_
    rw [← sum_add_distrib, mul_sum]
  rw [this]
  nlinarith

end Chain

/-! ### Proposals and transitions -/

theorem proposes_of_reaches {R : Rounding} {p : PhysicalParameters} {drawMove : G → Fin 5 × G}
    {drawTrial : G → LD × G} {mv : MoveType} {m : Mfld V} {i : ℕ} {u : ℚ} (h0 : 0 ≤ u) (h1 : u ≤ 1) {L : Tri V}
    (h : ReachesAt env (metroEngine env R p drawMove drawTrial) mv m i u L) : Proposes env mv m.tri i L := by
  obtain ⟨v, rfl, hi, hr⟩ := h
  obtain ⟨K', g', -, -, hp, -, -, -, -, hs⟩ := (reaches_iff h0 h1 v L).1 hr
  exact ⟨v.gen, K', g', hi, hp, hs⟩

theorem transition_le_proposal {R : Rounding} {p : PhysicalParameters} {drawMove : G → Fin 5 × G}
    {drawTrial : G → LD × G} (n : ℕ) (m : Mfld V) (L : Tri V) :
    0 ≤ transitionMass env (metroEngine env R p drawMove drawTrial) n m L ∧
    transitionMass env (metroEngine env R p drawMove drawTrial) n m L ≤ proposalMass env m.tri L := by
  have key : ∀ mv, 0 ≤ reachFraction env (metroEngine env R p drawMove drawTrial) n mv m L ∧
      reachFraction env (metroEngine env R p drawMove drawTrial) n mv m L ≤ siteFraction env mv m.tri L := by
    intro mv
    unfold reachFraction siteFraction
    refine ⟨by positivity, ?_⟩
    classical
    rcases Nat.eq_zero_or_pos n with rfl | hn
    · simp only [Nat.cast_zero, mul_zero, div_zero]; positivity
    · have hnq : (0 : ℚ) < n := by exact_mod_cast hn
      set s := (rawSites env m.tri mv).length with hs
      rw [mul_comm (s : ℚ), ← div_div]
      refine div_le_div_of_nonneg_right ?_ (Nat.cast_nonneg _)
      · rw [div_le_iff₀ hnq]
        have : ((range s ×ˢ range n).filter fun x : ℕ × ℕ => ReachesAt env (metroEngine env R p drawMove drawTrial)
            mv m x.1 ((x.2 : ℚ) / n) L) ⊆ ((range s).filter fun i => Proposes env mv m.tri i L) ×ˢ range n := by
          intro x hx
          obtain ⟨h1, h2⟩ := mem_filter.1 hx
          obtain ⟨h3, h4⟩ := mem_product.1 h1
          have hx2 := mem_range.1 h4
          have u0 : (0 : ℚ) ≤ (x.2 : ℚ) / n := by positivity
          have u1 : (x.2 : ℚ) / n ≤ 1 := by
            rw [div_le_one hnq]; exact_mod_cast hx2.le
          exact mem_product.2 ⟨mem_filter.2 ⟨h3, proposes_of_reaches u0 u1 h2⟩, h4⟩
        have := card_le_card this
        rw [card_product, card_range] at this
        exact_mod_cast this
  have k1 := key .twoThree; have k2 := key .threeTwo; have k3 := key .twoSix
  have k4 := key .sixTwo; have k5 := key .fourFour
  unfold transitionMass proposalMass
  constructor <;> linarith [k1.1, k2.1, k3.1, k4.1, k5.1, k1.2, k2.2, k3.2, k4.2, k5.2]

instance moveTypeFintype : Fintype MoveType :=
  ⟨{.twoThree, .threeTwo, .twoSix, .sixTwo, .fourFour}, by intro x; cases x <;> simp⟩

/-- The probabilities of proposing pairwise different manifolds by moves of some of the five types add up
to at most a fifth for each of these types. -/
theorem proposals_le {ι : Type} [Fintype ι] [DecidableEq ι] (hl : env.Lawful) (ho : Onto env) {K : Tri V}
    (hK : Sound env K) (hfr : FreshCentroids env K) {L : ι → Tri V} (hd : ∀ i j, SameManifold (L i) (L j) → i = j)
    (M : Finset MoveType) (hM : ∀ k mv K', MoveReturns env mv K K' → SameManifold (L k) K' → mv ∈ M) :
    ∑ k, proposalMass env K (L k) ≤ M.card / 5 := by
  classical
  let joined : ι → Prop := fun k => ∃ mv K', MoveReturns env mv K K' ∧ SameManifold (L k) K'
  have h0 : ∀ k, ¬ joined k → proposalMass env K (L k) = 0 := by
    intro k hk
    refine C09_not_proposed fun mv K' h1 h2 => hk ⟨mv, K', h1, h2⟩
  have hsite : ∀ k : {k // joined k}, ∃ x : Σ mv : MoveType, Fin ((rawSites env K mv).length),
      x.1 ∈ M ∧ proposalMass env K (L k.1) = 1 / (5 * (rawSites env K x.1).length) ∧
      ∀ mv' g, (∃ K' g', propose env mv' K g = (.ok K', g') ∧ SameManifold (L k.1) K') ↔
        mv' = x.1 ∧ (env.index (rawSites env K x.1).length g).1 = x.2.1 := by
    rintro ⟨k, mv, K', h1, h2⟩
    obtain ⟨i, hi, hu⟩ := C09_unique_site hl hK hfr h1
    refine ⟨⟨mv, i, hi⟩, hM k mv K' h1 h2, ?_, ?_⟩
    · rw [proposalMass_congr h2]; exact C09_proposal_probability hl ho hK hfr h1
    · intro mv' g
      rw [← hu]
      constructor
      · rintro ⟨M, g', k1, k2⟩; exact ⟨M, g', k1, sameManifold_trans (sameManifold_symm h2) k2⟩
      · rintro ⟨M, g', k1, k2⟩; exact ⟨M, g', k1, sameManifold_trans h2 k2⟩
  choose f hfM hf hu using hsite
  have hinj : Function.Injective f := by
    intro a b e
    obtain ⟨g, hg⟩ := ho _ (f a).2.1 (f a).2.2
    obtain ⟨K1, g1, k1, k2⟩ := (hu a (f a).1 g).2 ⟨rfl, hg⟩
    obtain ⟨K2, g2, k3, k4⟩ := (hu b (f a).1 g).2 (by rw [← e]; exact ⟨rfl, hg⟩)
    have : K1 = K2 := by have := k1.symm.trans k3; simpa using congrArg Prod.fst this
    subst this
    exact Subtype.ext (hd _ _ (sameManifold_trans k2 (sameManifold_symm k4)))
  have e1 : ∑ k, proposalMass env K (L k) = ∑ k : {k // joined k}, proposalMass env K (L k.1) := by
    rw [← Finset.sum_filter_of_ne (p := joined) (fun k _ hne => by by_contra hk; exact hne (h0 k hk))]
    rw [← Finset.sum_subtype_eq_sum_filter, Finset.subtype_univ]
  let w : (Σ mv : MoveType, Fin ((rawSites env K mv).length)) → ℚ := fun x => 1 / (5 * (rawSites env K x.1).length)
  have e2 : ∑ k : {k // joined k}, proposalMass env K (L k.1) = ∑ x ∈ univ.image f, w x := by
    rw [Finset.sum_image (fun a _ b _ h => hinj h)]
    exact Finset.sum_congr rfl fun k _ => hf k
  rw [e1, e2]
  have hsub : univ.image f ⊆ M.sigma fun _ => univ := by
    intro x hx
    obtain ⟨k, -, rfl⟩ := Finset.mem_image.1 hx
    exact Finset.mem_sigma.2 ⟨hfM k, Finset.mem_univ _⟩
  refine (Finset.sum_le_sum_of_subset_of_nonneg hsub (fun x _ _ => by positivity)).trans ?_
  rw [Finset.sum_sigma]
  have e3 : ∀ mv, ∑ y : Fin ((rawSites env K mv).length), w ⟨mv, y⟩ ≤ 1 / 5 := by
    intro mv
    show ∑ _y : Fin ((rawSites env K mv).length), (1 / (5 * ((rawSites env K mv).length : ℚ))) ≤ 1 / 5
    rw [Finset.sum_const, Finset.card_univ, Fintype.card_fin, nsmul_eq_mul]
    rcases Nat.eq_zero_or_pos (rawSites env K mv).length with h | h
    · rw [h]; norm_num
    · have : ((rawSites env K mv).length : ℚ) ≠ 0 := by positivity
      field_simp
      exact le_rfl
  refine (Finset.sum_le_sum fun mv _ => e3 mv).trans ?_
  rw [Finset.sum_const, nsmul_eq_mul]
  linarith

/-- The probabilities of proposing pairwise different manifolds add up to at most one. -/
theorem proposals_le_one {ι : Type} [Fintype ι] [DecidableEq ι] (hl : env.Lawful) (ho : Onto env) {K : Tri V}
    (hK : Sound env K) (hfr : FreshCentroids env K) {L : ι → Tri V} (hd : ∀ i j, SameManifold (L i) (L j) → i = j) :
    ∑ k, proposalMass env K (L k) ≤ 1 := by
  have := proposals_le hl ho hK hfr hd univ fun _ _ _ _ _ => mem_univ _
  rw [Finset.card_univ, show Fintype.card MoveType = 5 from rfl] at this
  norm_num at this
  exact this

/-! ### The chain on a family -/

/-- C96.  The chain forgets how a manifold is stored: from every manifold object that holds member `i`
the transition probabilities to the members are those of member `i`. -/
theorem C96_markov (hl : env.Lawful) (hp : PointsOnly env) {R : Rounding} {p : PhysicalParameters}
    {drawMove : G → Fin 5 × G} {drawTrial : G → LD × G} {m x : Mfld V} (hm : Fit env m) (hx : Fit env x)
    (h : SameObject m x) (n : ℕ) (L : Tri V) :
    transitionMass env (metroEngine env R p drawMove drawTrial) n x L =
      transitionMass env (metroEngine env R p drawMove drawTrial) n m L := by
  have hlen : ∀ mv, (rawSites env x.tri mv).length = (rawSites env m.tri mv).length := fun mv =>
    (rawSites_congr hl h.tri mv).length_eq
  have hre : ∀ mv i u, ReachesAt env (metroEngine env R p drawMove drawTrial) mv x i u L ↔
      ReachesAt env (metroEngine env R p drawMove drawTrial) mv m i u L := by
    intro mv i u
    unfold ReachesAt Reaches
    rw [hlen]
    constructor
    · rintro ⟨⟨c, cm, st, g⟩, rfl, hi, h1, h2⟩
      obtain ⟨k1, k2⟩ := C95_transition (R := R) (p := p) (drawMove := drawMove) (drawTrial := drawTrial) hl hp
        (v := ⟨m, cm, st, g⟩) (w := ⟨c, cm, st, g⟩) hm hx ⟨h, rfl, rfl, rfl⟩ (moveCode mv) (.fin u)
      exact ⟨⟨m, cm, st, g⟩, rfl, hi, k1.symm.trans h1, sameManifold_trans h2 (sameManifold_symm k2.current.tri)⟩
    · rintro ⟨⟨c, cm, st, g⟩, rfl, hi, h1, h2⟩
      obtain ⟨k1, k2⟩ := C95_transition (R := R) (p := p) (drawMove := drawMove) (drawTrial := drawTrial) hl hp
        (v := ⟨c, cm, st, g⟩) (w := ⟨x, cm, st, g⟩) hm hx ⟨h, rfl, rfl, rfl⟩ (moveCode mv) (.fin u)
      exact ⟨⟨x, cm, st, g⟩, rfl, hi, k1.trans h1, sameManifold_trans h2 k2.current.tri⟩
  have hfrac : ∀ mv, reachFraction env (metroEngine env R p drawMove drawTrial) n mv x L =
      reachFraction env (metroEngine env R p drawMove drawTrial) n mv m L := by
    intro mv
    unfold reachFraction
    rw [hlen]
    congr 3
    ext y
    simp only [mem_filter, hre]
  unfold transitionMass
  simp only [hfrac]

/-- C96.  No transition leaves the family: whatever is requested and drawn, the manifold afterwards is a
member again. -/
theorem C96_stays {ι : Type} (hl : env.Lawful) (hp : PointsOnly env) {R : Rounding} {p : PhysicalParameters}
    {drawMove : G → Fin 5 × G} {drawTrial : G → LD × G} {m : ι → Mfld V} (hF : ReversibleFamily env m) {i : ι}
    {v : MetroVars (Mfld V) G} (hv : Fit env v.current) (h : SameObject (m i) v.current) (code : ℤ) (u : LD) :
    let after := (resolve (metroEngine env R p drawMove drawTrial) code u v).2.current
    ∃ j, SameObject (m j) after ∧ Fit env after := by
  intro after
  have main : ∀ w : MetroVars (Mfld V) G, w.current = m i →
      ∃ j, SameObject (m j) (resolve (metroEngine env R p drawMove drawTrial) code u w).2.current := by
    intro w hw
    have stay : SameObject (m i) w.current := by rw [hw]; exact ⟨sameManifold_refl _, rfl, rfl⟩
    have hfit : Fit env w.current := by rw [hw]; exact hF.fit i
    have hfr : FreshCentroids env w.current.tri := by rw [hw]; exact hF.fresh i
    unfold resolve
    split_ifs with ht
    · exact ⟨i, stay⟩
    · cases u with
      | fin u =>
        dsimp only
        cases MoveType.ofCode code with
        | none => exact ⟨i, stay⟩
        | some mv =>
          dsimp only
          have ep : (metroEngine env R p drawMove drawTrial).propose mv w.current w.gen =
              wrapMove env w.current (Moves.propose env mv w.current.tri w.gen) := rfl
          rw [ep]
          rcases wrapMove_cases (mv := mv) hl hfit hfr (r := Moves.propose env mv w.current.tri w.gen)
            (fun K' g' h => ⟨w.gen, g', .inr h⟩) with ⟨f, g', e⟩ | ⟨m', g', e, hret, hb, hr, hs⟩
          · rw [e]; exact ⟨i, stay⟩
          · rw [e]
            dsimp only
            have ec : (metroEngine env R p drawMove drawTrial).check w.current m' mv =
                checkMove w.current.view m'.view mv := rfl
            rw [ec]
            by_cases hc : checkMove w.current.view m'.view mv = true
            · rw [hc]
              simp only [Bool.not_true, Bool.false_eq_true, if_false]
              cases (metroEngine env R p drawMove drawTrial).prob
                ((metroEngine env R p drawMove drawTrial).geometry w.current)
                ((metroEngine env R p drawMove drawTrial).geometry m') mv with
              | error e => exact ⟨i, stay⟩
              | ok q =>
                dsimp only
                split_ifs
                · have hf := (fit_of_checked hl hfit hfr hret hb hr hs hc).1
                  rw [hw] at hret hr hs
                  obtain ⟨j, hj⟩ := hF.closed i mv _ hret hf.sound.causal
                  exact ⟨j, hj, hr.trans (hF.radius i j), hs.trans (hF.spacing i j)⟩
                · exact ⟨i, stay⟩
            · rw [Bool.eq_false_iff.2 hc]
              exact ⟨i, stay⟩
      | _ => exact ⟨i, stay⟩
  obtain ⟨j, hj⟩ := main { v with current := m i } rfl
  have key := (C95_transition (R := R) (p := p) (drawMove := drawMove) (drawTrial := drawTrial) hl hp
    (v := { v with current := m i }) (w := v) (hF.fit i) hv ⟨h, rfl, rfl, rfl⟩ code u).2.current
  exact ⟨j, ⟨sameManifold_trans hj.tri key.tri, key.radius.trans hj.radius, key.spacing.trans hj.spacing⟩,
    fit_resolve hl hv (fresh_congr h.tri (hF.fresh i)) code u⟩

section Family
variable {ι : Type} [Fintype ι] [DecidableEq ι] {m : ι → Mfld V}

/-- C96.  The transition probabilities out of a member are probabilities: none is negative and they add
up to one. -/
theorem C96_stochastic (hl : env.Lawful) (ho : Onto env) {R : Rounding} {p : PhysicalParameters}
    {drawMove : G → Fin 5 × G} {drawTrial : G → LD × G} (hF : ReversibleFamily env m) (n : ℕ) :
    let T := stepMass env (metroEngine env R p drawMove drawTrial) n m
    (∀ i j, 0 ≤ T i j) ∧ ∀ i, ∑ j, T i j = 1 := by
  intro T
  have hq : ∀ i, ∑ k, ((proposalMass env (m i).tri (m k).tri : ℚ) : ℝ) ≤ 1 := by
    intro i
    exact_mod_cast proposals_le_one hl ho (hF.fit i).sound (hF.fresh i) hF.different
  have ht : ∀ i k, 0 ≤ ((transitionMass env (metroEngine env R p drawMove drawTrial) n (m i) (m k).tri : ℚ) : ℝ) ∧
      ((transitionMass env (metroEngine env R p drawMove drawTrial) n (m i) (m k).tri : ℚ) : ℝ) ≤
        ((proposalMass env (m i).tri (m k).tri : ℚ) : ℝ) := by
    intro i k
    obtain ⟨h1, h2⟩ := transition_le_proposal (env := env) (R := R) (p := p) (drawMove := drawMove)
      (drawTrial := drawTrial) n (m i) (m k).tri
    exact ⟨by exact_mod_cast h1, by exact_mod_cast h2⟩
  refine ⟨?_, ?_⟩
  · intro i j
    show 0 ≤ stepMass _ _ _ _ i j
    unfold stepMass
    split_ifs with h
    · have : ∑ k ∈ univ.erase i,
          ((transitionMass env (metroEngine env R p drawMove drawTrial) n (m i) (m k).tri : ℚ) : ℝ) ≤ 1 := by
        refine le_trans ?_ (hq i)
        refine (sum_le_sum fun k _ => (ht i k).2).trans ?_
        exact sum_le_sum_of_subset_of_nonneg (subset_univ _) fun k _ _ => (ht i k).1.trans (ht i k).2
      linarith
    · exact (ht i j).1
  · intro i
    show ∑ j, stepMass _ _ _ _ i j = 1
    rw [← Finset.add_sum_erase _ _ (mem_univ i)]
    have e : ∑ j ∈ univ.erase i, stepMass env (metroEngine env R p drawMove drawTrial) n m i j =
        ∑ j ∈ univ.erase i, ((transitionMass env (metroEngine env R p drawMove drawTrial) n (m i) (m j).tri : ℚ) : ℝ) := by
      refine sum_congr rfl fun j hj => ?_
      unfold stepMass
      rw [if_neg (ne_of_mem_erase hj).symm]
    rw [e]
    unfold stepMass
    rw [if_pos rfl]
    ring

/-- The couplings, the counts and the precision a drift bound needs. -/
structure WithinBounds (m : ι → Mfld V) (α κ Λ : ℚ) (C A N : ℝ) : Prop where
  alpha : 1 / 2 < α
  reps : InLongDouble α ∧ InLongDouble κ ∧ InLongDouble Λ
  counts : ∀ i, Counts32 (m i).geometry
  one : 1 ≤ C ∧ 1 ≤ A ∧ 1 ≤ N
  kappa : |(κ : ℝ)| ≤ C
  lambda : |(Λ : ℝ)| ≤ C
  root : √(α : ℝ) ≤ A
  sizes : ∀ i, |((m i).geometry.N1_TL : ℝ)| ≤ N ∧ |((m i).geometry.N3_31_13 : ℝ)| ≤ N ∧
    |((m i).geometry.N3_22 : ℝ)| ≤ N

/-- C96.  One transition moves a distribution away from the Boltzmann distribution by at most twice the
error of the acceptance probability and the width of the grid of trial values; the Boltzmann
distribution itself is stationary up to that. -/
theorem C96_step [Nonempty ι] (hl : env.Lawful) (ho : Onto env) {R : Rounding} (hR : R.Lawful) (hP : R.Precise)
    {drawMove : G → Fin 5 × G} {drawTrial : G → LD × G} (hF : ReversibleFamily env m) {α κ Λ : ℚ} {C A N : ℝ}
    (hB : WithinBounds m α κ Λ C A N) {n : ℕ} (hn : 0 < n) (d : ι → ℝ) :
    let T := stepMass env (metroEngine env R ⟨.fin α, .fin κ, .fin Λ⟩ drawMove drawTrial) n m
    spread (evolve T d) (boltzmann α κ Λ m) ≤
      spread d (boltzmann α κ Λ m) + 2 * (2 ^ (-239 : ℤ) * (C * A * N) + 1 / n) := by
  intro T
  obtain ⟨h0, h1⟩ := C96_stochastic (R := R) (p := ⟨.fin α, .fin κ, .fin Λ⟩) (drawMove := drawMove)
    (drawTrial := drawTrial) hl ho hF n
  set ε : ℝ := 2 ^ (-239 : ℤ) * (C * A * N) + 1 / n with hε
  obtain ⟨c1, a1, n1⟩ := hB.one
  have ε0 : 0 ≤ ε := by positivity
  set Z := ∑ i, Real.exp (-actionOf α κ Λ (m i).geometry) with hZ
  have Z0 : 0 < Z := sum_pos (fun i _ => Real.exp_pos _) univ_nonempty
  have hπ0 : ∀ i, 0 ≤ boltzmann α κ Λ m i := fun i => div_nonneg (Real.exp_pos _).le Z0.le
  have hπ1 : ∑ i, boltzmann α κ Λ m i = 1 := by
    unfold boltzmann
    rw [← sum_div]
    exact div_self Z0.ne'
  have hbal : ∀ i j, |boltzmann α κ Λ m i * T i j - boltzmann α κ Λ m j * T j i| ≤
      ε * (boltzmann α κ Λ m i * ((proposalMass env (m i).tri (m j).tri : ℚ) : ℝ) +
        boltzmann α κ Λ m j * ((proposalMass env (m j).tri (m i).tri : ℚ) : ℝ)) := by
    intro i j
    have q0 : ∀ i j, (0 : ℝ) ≤ ((proposalMass env (m i).tri (m j).tri : ℚ) : ℝ) := by
      intro i j
      obtain ⟨k1, k2⟩ := transition_le_proposal (env := env) (R := R) (p := ⟨.fin α, .fin κ, .fin Λ⟩)
        (drawMove := drawMove) (drawTrial := drawTrial) n (m i) (m j).tri
      exact_mod_cast k1.trans k2
    have rhs0 : 0 ≤ ε * (boltzmann α κ Λ m i * ((proposalMass env (m i).tri (m j).tri : ℚ) : ℝ) +
        boltzmann α κ Λ m j * ((proposalMass env (m j).tri (m i).tri : ℚ) : ℝ)) :=
      mul_nonneg ε0 (add_nonneg (mul_nonneg (hπ0 i) (q0 i j)) (mul_nonneg (hπ0 j) (q0 j i)))
    by_cases hij : i = j
    · subst hij
      rw [sub_self, abs_zero]
      exact rhs0
    · have eT : ∀ i j, i ≠ j → T i j =
          ((transitionMass env (metroEngine env R ⟨.fin α, .fin κ, .fin Λ⟩ drawMove drawTrial) n (m i) (m j).tri : ℚ) : ℝ) := by
        intro i j hne
        show stepMass _ _ _ _ i j = _
        unfold stepMass
        rw [if_neg hne]
      rw [eT i j hij, eT j i (Ne.symm hij)]
      by_cases hjoin : ∃ mv L, MoveReturns env mv (m i).tri L ∧ SameManifold (m j).tri L
      · obtain ⟨mv, L, hr, hs⟩ := hjoin
        have main := C83_detailed_balance_rounded (drawMove := drawMove) (drawTrial := drawTrial) hl ho hR hP
          (hF.fit i) (hF.fresh i) (hF.fit j) (hF.fresh j) ⟨L, hr, hs⟩ (hF.undone i j mv L hr hs) (hB.counts i)
          (hB.counts j) hB.alpha hB.reps.1 hB.reps.2.1 hB.reps.2.2 c1 a1 n1 hB.kappa hB.lambda hB.root
          (hB.sizes i) (hB.sizes j) hn
        dsimp only at main
        rw [← hε] at main
        unfold boltzmann
        rw [← hZ]
        have e1 : ∀ a b x y : ℝ, a / Z * x - b / Z * y = (a * x - b * y) / Z := by intros; ring
        have e2 : ∀ a b x y : ℝ, ε * (a / Z * x + b / Z * y) = ε * (a * x + b * y) / Z := by intros; ring
        rw [e1, e2, abs_div, abs_of_pos Z0]
        exact div_le_div_of_nonneg_right main Z0.le
      · have hjoin' : ¬ ∃ mv L, MoveReturns env mv (m j).tri L ∧ SameManifold (m i).tri L := by
          rintro ⟨mv, L, hr, hs⟩
          obtain ⟨K, k1, k2⟩ := hF.undone j i mv L hr hs
          exact hjoin ⟨_, K, k1, k2⟩
        rw [C83_no_transition (fun mv K' k1 k2 => hjoin ⟨mv, K', k1, k2⟩),
          C83_no_transition (fun mv K' k1 k2 => hjoin' ⟨mv, K', k1, k2⟩)]
        simpa using rhs0
  have hQ : ∀ i, ∑ j, ((proposalMass env (m i).tri (m j).tri : ℚ) : ℝ) ≤ 1 := by
    intro i
    exact_mod_cast proposals_le_one hl ho (hF.fit i).sound (hF.fresh i) hF.different
  have s1 := spread_evolve h0 h1 d (boltzmann α κ Λ m)
  have s2 := spread_balance h1 hπ0 hπ1 hQ ε0 hbal
  have s3 := spread_triangle (evolve T d) (evolve T (boltzmann α κ Λ m)) (boltzmann α κ Λ m)
  have s1' : spread (evolve T d) (evolve T (boltzmann α κ Λ m)) ≤ spread d (boltzmann α κ Λ m) := s1
  have s2' : spread (evolve T (boltzmann α κ Λ m)) (boltzmann α κ Λ m) ≤ 2 * ε := s2
  linarith

/-- C96.  Whole runs: after `k` transitions the distance from the Boltzmann distribution has grown by at
most `k` times that; a run started in the Boltzmann distribution stays within it. -/
theorem C96_run [Nonempty ι] (hl : env.Lawful) (ho : Onto env) {R : Rounding} (hR : R.Lawful) (hP : R.Precise)
    {drawMove : G → Fin 5 × G} {drawTrial : G → LD × G} (hF : ReversibleFamily env m) {α κ Λ : ℚ} {C A N : ℝ}
    (hB : WithinBounds m α κ Λ C A N) {n : ℕ} (hn : 0 < n) (d : ι → ℝ) (k : ℕ) :
    let T := stepMass env (metroEngine env R ⟨.fin α, .fin κ, .fin Λ⟩ drawMove drawTrial) n m
    spread ((evolve T)^[k] d) (boltzmann α κ Λ m) ≤
      spread d (boltzmann α κ Λ m) + k * (2 * (2 ^ (-239 : ℤ) * (C * A * N) + 1 / n)) ∧
    spread ((evolve T)^[k] (boltzmann α κ Λ m)) (boltzmann α κ Λ m) ≤
      k * (2 * (2 ^ (-239 : ℤ) * (C * A * N) + 1 / n)) := by
  intro T
  have main : ∀ d : ι → ℝ, spread ((evolve T)^[k] d) (boltzmann α κ Λ m) ≤
      spread d (boltzmann α κ Λ m) + k * (2 * (2 ^ (-239 : ℤ) * (C * A * N) + 1 / n)) := by
    intro d
    induction k with
    | zero => simp
    | succ k ih =>
      rw [Function.iterate_succ_apply']
      have := C96_step (drawMove := drawMove) (drawTrial := drawTrial) hl ho hR hP hF hB hn ((evolve T)^[k] d)
      have h2 : spread (evolve T ((evolve T)^[k] d)) (boltzmann α κ Λ m) ≤ spread ((evolve T)^[k] d) (boltzmann α κ Λ m) +
        2 * (2 ^ (-239 : ℤ) * (C * A * N) + 1 / n) := this
      push_cast
      linarith
  refine ⟨main d, ?_⟩
  have h := main (boltzmann α κ Λ m)
  have : spread (boltzmann α κ Λ m) (boltzmann α κ Λ m) = 0 := by simp [spread]
  rwa [this, zero_add] at h

end Family

/-! ### A family -/

/-- The two triangulations of five points that a (2,3) move and its reverse join. -/
def pairTri : Bool → Tri ℕ := fun b => if b then Fixture.k32 else Fixture.k23

theorem executes_alike {K : Tri ℕ} {p : Prepared ℕ} (h : ∀ v, p ≠ .sixTwo v) (g : ℕ) :
    (execute Fixture.env K p g).1 = (execute Fixture.env K p 0).1 := by
  cases p with
  | sixTwo v => exact absurd rfl (h v)
  | _ => rfl

/-- Is `L` the same manifold as `K`? -/
def sameB (K L : Tri ℕ) : Bool :=
  decide (L.inf = K.inf ∧ L.cells = K.cells ∧ (∀ v ∈ vertices K.cells, v ≠ K.inf → L.time v = K.time v) ∧
    ∀ c ∈ K.cells, K.inf ∉ c → L.info c = K.info c)

theorem sameB_iff {K L : Tri ℕ} : sameB K L = true ↔ SameManifold K L := by
  unfold sameB
  rw [decide_eq_true_eq]
  exact ⟨fun ⟨a, b, c, d⟩ => ⟨a, b, c, d⟩, fun h => ⟨h.inf, h.cells, h.times, h.labels⟩⟩

/-- Every result of every move from one of the two: a (2,3) move makes the other from the first, a (3,2)
move the first from the other. -/
theorem pair_moves (b : Bool) (mv : MoveType) (L : Tri ℕ) (h : MoveReturns Fixture.env mv (pairTri b) L) :
    mv = (if b then .threeTwo else .twoThree) ∧ SameManifold (pairTri !b) L := by
  obtain ⟨s, hs, p, K1, g1, g2, hp, he, rfl⟩ := moveReturns_ok Fixture.lawful h
  have key : ∀ b ∈ [true, false], ∀ mv ∈ [MoveType.twoThree, .threeTwo, .twoSix, .sixTwo, .fourFour],
      ∀ s ∈ rawSites Fixture.env (pairTri b) mv,
        (match prepare (pairTri b) mv s with
        | .error _ => true
        | .ok (.sixTwo _) => false
        | .ok p => match (execute Fixture.env (pairTri b) p 0).1 with
          | .error _ => true
          | .ok K1 => decide (mv = (if b then .threeTwo else .twoThree)) && sameB (pairTri !b) (makeManifold Fixture.env K1)) =
        true := by decide +kernel
  have k := key b (by cases b <;> simp) mv (by cases mv <;> simp) s hs
  rw [hp] at k
  have hns : ∀ v, p ≠ .sixTwo v := by
    rintro v rfl
    simp at k
  have he' := executes_alike (K := pairTri b) hns g1
  rw [he] at he'
  have k' : (match (execute Fixture.env (pairTri b) p 0).1 with
      | .error _ => true
      | .ok K1 => decide (mv = (if b then .threeTwo else .twoThree)) && sameB (pairTri !b) (makeManifold Fixture.env K1)) =
        true := by
    cases p with
    | sixTwo v => exact absurd rfl (hns v)
    | _ => exact k
  rw [← he'] at k'
  simp only [Bool.and_eq_true, decide_eq_true_eq, sameB_iff] at k'
  exact k'

theorem pair_family : ∃ m : Bool → Mfld ℕ, (∀ b, (m b).tri = pairTri b) ∧ ReversibleFamily Fixture.env m ∧
    ∀ b, Counts32 (m b).geometry ∧ |(m b).geometry.N1_TL| ≤ 100 ∧ |(m b).geometry.N3_31_13| ≤ 100 ∧
      |(m b).geometry.N3_22| ≤ 100 := by
  have caches : ∀ b, ∃ cs, buildCaches Fixture.env (pairTri b) = .ok cs ∧ Counts32 (geometryOf (pairTri b) cs) ∧
      |(geometryOf (pairTri b) cs).N1_TL| ≤ 100 ∧ |(geometryOf (pairTri b) cs).N3_31_13| ≤ 100 ∧
      |(geometryOf (pairTri b) cs).N3_22| ≤ 100 := by
    intro b
    have key : ((buildCaches Fixture.env (pairTri b)).toOption.map fun cs => decide
        (Counts32 (geometryOf (pairTri b) cs) ∧ |(geometryOf (pairTri b) cs).N1_TL| ≤ 100 ∧
        |(geometryOf (pairTri b) cs).N3_31_13| ≤ 100 ∧ |(geometryOf (pairTri b) cs).N3_22| ≤ 100)) = some true := by
      cases b <;> decide +kernel
    cases hb : buildCaches Fixture.env (pairTri b) with
    | error e => rw [hb] at key; simp [Except.toOption] at key
    | ok cs => rw [hb] at key; exact ⟨cs, rfl, by simpa [Except.toOption] using key⟩
  choose cs hcs using caches
  have snd : ∀ b, Sound Fixture.env (pairTri b) := by
    intro b; cases b
    · exact Fixture.sound23
    · exact Fixture.sound32
  have fr : ∀ b, FreshCentroids Fixture.env (pairTri b) := by
    intro b; cases b <;> (unfold FreshCentroids; decide +kernel)
  have ret : ∀ b, ∃ L, MoveReturns Fixture.env (if b then .threeTwo else .twoThree) (pairTri b) L := by
    intro b
    have key : (doMove Fixture.env (if b then .threeTwo else .twoThree) (pairTri b) 0).1.toOption.isSome = true := by
      cases b <;> decide +kernel
    rcases hr : doMove Fixture.env (if b then .threeTwo else .twoThree) (pairTri b) 0 with ⟨e | L, g⟩
    · rw [hr] at key; simp [Except.toOption] at key
    · exact ⟨L, 0, g, .inl hr⟩
  refine ⟨fun b => ⟨pairTri b, cs b, 0, 0⟩, fun _ => rfl, ⟨fun b => ⟨snd b, (hcs b).1⟩, fr, fun _ _ => rfl,
    fun _ _ => rfl, ?_, ?_, ?_⟩, fun b => (hcs b).2⟩
  · intro b b' h
    have h1 : (pairTri b').cells = (pairTri b).cells := h.cells
    clear h
    revert h1
    cases b <;> cases b' <;> decide +kernel
  · intro b mv L h _
    exact ⟨!b, (pair_moves b mv L h).2⟩
  · intro b b' mv L h hs
    obtain ⟨rfl, h2⟩ := pair_moves b mv L h
    have hb' : b' = !b := by
      have h1 : (pairTri !b).cells = (pairTri b').cells := (sameManifold_trans hs (sameManifold_symm h2)).cells
      clear h hs h2
      revert h1
      cases b <;> cases b' <;> decide +kernel
    subst hb'
    obtain ⟨L2, hL2⟩ := ret (!b)
    have := (pair_moves (!b) _ L2 hL2).2
    rw [Bool.not_not] at this
    refine ⟨L2, ?_, this⟩
    revert hL2
    cases b <;> exact id

theorem pair_bounds {m : Bool → Mfld ℕ} (hB : ∀ b, Counts32 (m b).geometry ∧ |(m b).geometry.N1_TL| ≤ 100 ∧
    |(m b).geometry.N3_31_13| ≤ 100 ∧ |(m b).geometry.N3_22| ≤ 100) :
    WithinBounds m (3 / 5) (11 / 10) (1 / 10) 2 1 100 := by
  have big : ∀ q : ℚ, |q| ≤ 2 → InLongDouble q := by
    intro q hq
    have h2 : |(q : ℝ)| ≤ 2 := by exact_mod_cast hq
    refine h2.trans ?_
    have : (2 : ℝ) = 2 ^ (1 : ℤ) := by norm_num
    conv_lhs => rw [this]
    exact Mp.pow_le (by norm_num)
  have cast : ∀ z : ℤ, |z| ≤ 100 → |(z : ℝ)| ≤ 100 := by
    intro z hz; exact_mod_cast hz
  exact ⟨by norm_num, ⟨big _ (by norm_num [abs_le]), big _ (by norm_num [abs_le]), big _ (by norm_num [abs_le])⟩,
      fun b => (hB b).1, ⟨by norm_num, le_rfl, by norm_num⟩, by norm_num [abs_le], by norm_num [abs_le],
      by rw [Real.sqrt_le_left (by norm_num)]; norm_num,
      fun b => ⟨cast _ (hB b).2.1, cast _ (hB b).2.2.1, cast _ (hB b).2.2.2⟩⟩

/-- The hypotheses are met by that family, 256-bit rounding and 64-bit trial values: after a million
transitions a run that began in the Boltzmann distribution is within 2^-42 of it. -/
example (drawMove : ℕ → Fin 5 × ℕ) (drawTrial : ℕ → LD × ℕ) : ∃ m : Bool → Mfld ℕ, (∀ b, (m b).tri = pairTri b) ∧
    let T := stepMass Fixture.env (metroEngine Fixture.env Fixture.nearest
      ⟨.fin (3 / 5), .fin (11 / 10), .fin (1 / 10)⟩ drawMove drawTrial) (2 ^ 64) m
    spread ((evolve T)^[10 ^ 6] (boltzmann (3 / 5) (11 / 10) (1 / 10) m)) (boltzmann (3 / 5) (11 / 10) (1 / 10) m) ≤
      2 ^ (-42 : ℤ) := by
  obtain ⟨m, e, hF, hB⟩ := pair_family
  refine ⟨m, e, ?_⟩
  intro T
  have bounds := pair_bounds hB
  have main := (C96_run (drawMove := drawMove) (drawTrial := drawTrial) Fixture.lawful Fixture.onto
    Fixture.nearestLawful nearestPrecise hF bounds (n := 2 ^ 64) (by norm_num) (boltzmann (3 / 5) (11 / 10) (1 / 10) m)
    (10 ^ 6)).2
  refine main.trans ?_
  norm_num

end CDT.Props

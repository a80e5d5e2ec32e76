/-
C09: the proposal kernel.
-/
import Verif.Lemmas.Kernel
import Verif.Props.Reverse
import Mathlib.Tactic.FieldSimp

namespace CDT.Props
open CDT Spec Cavity Moves

variable {V G : Type} [LinearOrder V] {env : Env V G}

/-- C09.  A proposal is decided by one raw site: the one whose number the random source drew, in an
enumeration of the raw sites without repetition.  If that site is not applicable, or its execution
fails, its failure is the result of the proposal; no other site is tried. -/
theorem C09_one_site (hl : env.Lawful) (K : Tri V) (mv : MoveType) :
    ∃ f : Fin (rawSites env K mv).length ≃ {s // s ∈ rawSites env K mv},
      ∀ g (h : (env.index (rawSites env K mv).length g).1 < (rawSites env K mv).length),
        let s := (f ⟨(env.index (rawSites env K mv).length g).1, h⟩).1
        let g1 := (env.index (rawSites env K mv).length g).2
        (∀ e, prepare K mv s = .error e → propose env mv K g = (.error e, g1)) ∧
        (∀ p e g2, prepare K mv s = .ok p → execute env K p g1 = (.error e, g2) →
          propose env mv K g = (.error e, g2)) ∧
        (∀ p K1 g2, prepare K mv s = .ok p → execute env K p g1 = (.ok K1, g2) →
          propose env mv K g = (.ok (makeManifold env K1), g2)) := by
  obtain ⟨f, hf⟩ := C34_proposal_site_bijection (env := env) hl K mv
  refine ⟨f, ?_⟩
  intro g h
  have h1 := hf g h
  have hg : (canonicalRandomElement env (rawSites env K mv) g).2 =
      (env.index (rawSites env K mv).length g).2 := by
    unfold canonicalRandomElement
    rw [if_neg]
    intro h0
    rw [List.isEmpty_iff.1 h0] at h
    simp at h
  have hc : canonicalRandomElement env (rawSites env K mv) g =
      (some (f ⟨(env.index (rawSites env K mv).length g).1, h⟩).1, (env.index (rawSites env K mv).length g).2) :=
    Prod.ext h1 hg
  refine ⟨?_, ?_, ?_⟩
  · intro e hp
    unfold propose
    rw [hc]; dsimp only; rw [hp]
  · intro p e g2 hp he
    unfold propose
    rw [hc]; dsimp only; rw [hp]; dsimp only; rw [he]
  · intro p K1 g2 hp he
    unfold propose
    rw [hc]; dsimp only; rw [hp]; dsimp only; rw [he]

theorem sameManifold_refl (K : Tri V) : SameManifold K K := ⟨rfl, rfl, fun _ _ _ => rfl, fun _ _ _ => rfl⟩

theorem sameManifold_trans {K L M : Tri V} (h : SameManifold K L) (h' : SameManifold L M) : SameManifold K M :=
  ⟨h'.inf.trans h.inf, h'.cells.trans h.cells,
    fun v hv hne => (h'.times v (by rw [h.cells]; exact hv) (by rw [h.inf]; exact hne)).trans (h.times v hv hne),
    fun c hc hi => (h'.labels c (by rw [h.cells]; exact hc) (by rw [h.inf]; exact hi)).trans (h.labels c hc hi)⟩

theorem sameManifold_symm {K L : Tri V} (h : SameManifold K L) : SameManifold L K :=
  ⟨h.inf.symm, h.cells.symm, fun v hv hne => (h.times v (h.cells ▸ hv) (h.inf ▸ hne)).symm,
    fun c hc hi => (h.labels c (h.cells ▸ hc) (h.inf ▸ hi)).symm⟩

theorem propose_none (hl : env.Lawful) {K : Tri V} {mv : MoveType} {g g' : G} {K' : Tri V}
    (h : propose env mv K g = (.ok K', g')) : 0 < (rawSites env K mv).length := by
  obtain ⟨s, hs, -⟩ := propose_ok hl h
  exact List.length_pos_of_mem hs

/-- Change of the number of finite tetrahedra. -/
def n3Change : MoveType → ℤ
  | .twoThree => 1 | .threeTwo => -1 | .twoSix => 4 | .sixTwo => -4 | .fourFour => 0

theorem n3_of_move (hl : env.Lawful) {K K' : Tri V} (hK : Sound env K) (hfr : FreshCentroids env K)
    {mv : MoveType} (h : MoveReturns env mv K K') : K'.inf = K.inf ∧
      (census K'.inf K'.time K'.cells).N3 = (census K.inf K.time K.cells).N3 + n3Change mv := by
  cases mv with
  | twoThree =>
    obtain ⟨hi, -, hc, -⟩ := C19_two_three_effect hl hK h
    exact ⟨hi, by rw [hc, Census.add_def]; rfl⟩
  | threeTwo =>
    obtain ⟨hi, -, hc, -⟩ := C20_three_two_effect hl hK h
    exact ⟨hi, by rw [hc, Census.add_def]; rfl⟩
  | twoSix =>
    obtain ⟨hi, -, hc, -⟩ := C21_two_six_subdivision hl hK hfr h
    exact ⟨hi, hc.2.2.2⟩
  | sixTwo =>
    obtain ⟨hi, -, hc, -⟩ := C22_six_two_effect hl hK h
    exact ⟨hi, by rw [hc, Census.add_def]; rfl⟩
  | fourFour =>
    obtain ⟨hi, -, hc, -⟩ := C23_four_four_effect hl hK h
    exact ⟨hi, by rw [hc]; simp [n3Change]⟩

/-- The tetrahedra count after a move identifies the move type. -/
theorem move_type_of_count (hl : env.Lawful) {K K' L' : Tri V} (hK : Sound env K) (hfr : FreshCentroids env K)
    {mv mv' : MoveType} (h : MoveReturns env mv K K') (h' : MoveReturns env mv' K L') (hc : L'.cells = K'.cells) :
    mv' = mv := by
  obtain ⟨i1, h1⟩ := n3_of_move hl hK hfr h
  obtain ⟨i2, h2⟩ := n3_of_move hl hK hfr h'
  have e : (census L'.inf L'.time L'.cells).N3 = (census K'.inf K'.time K'.cells).N3 := by
    rw [hc, i2, ← i1]; rfl
  rw [e, h1] at h2
  cases mv <;> cases mv' <;> first | rfl | (exfalso; simp [n3Change] at h2)

/-- Only the reverse move type can lead back. -/
theorem move_type_back (hl : env.Lawful) {K L K' : Tri V} (hK : Sound env K) (hfr : FreshCentroids env K)
    (hL : Sound env L) (hfr' : FreshCentroids env L)
    {mv mv' : MoveType} (h : MoveReturns env mv K L) (h' : MoveReturns env mv' L K') (hc : K'.cells = K.cells) :
    mv' = mv.reverse := by
  obtain ⟨i1, h1⟩ := n3_of_move hl hK hfr h
  obtain ⟨i2, h2⟩ := n3_of_move hl hL hfr' h'
  have e : (census K'.inf K'.time K'.cells).N3 = (census K.inf K.time K.cells).N3 := by
    rw [hc, i2, i1]; rfl
  rw [e, h1] at h2
  cases mv <;> cases mv' <;> first | rfl | (exfalso; simp only [n3Change] at h2; omega)

/-- C09.  For every result `L` of a move on a sound manifold there is exactly one raw site of
exactly one move type that leads to it: the proposal returns `L` exactly when that move type is
proposed and the number of that site is drawn, whatever else the state of the random source. -/
theorem C09_unique_site (hl : env.Lawful) {K L : Tri V} (hK : Sound env K) (hfr : FreshCentroids env K)
    {mv : MoveType} (h : MoveReturns env mv K L) :
    ∃ i < (rawSites env K mv).length, ∀ mv' g,
      (∃ K' g', propose env mv' K g = (.ok K', g') ∧ SameManifold L K') ↔
        mv' = mv ∧ (env.index (rawSites env K mv).length g).1 = i := by
  obtain ⟨s, hs, p, K1, g1, g2, hp, he, rfl⟩ := moveReturns_ok hl h
  have ha := atSite hl hK (fun _ => hfr) hs hp he
  obtain ⟨f, hf⟩ := C09_one_site (env := env) hl K mv
  refine ⟨(f.symm ⟨s, hs⟩).1, (f.symm ⟨s, hs⟩).2, ?_⟩
  intro mv' g
  constructor
  · rintro ⟨K', g', hpr, hsame⟩
    have hmv : mv' = mv := move_type_of_count hl hK hfr h ⟨g, g', .inr hpr⟩ hsame.cells
    subst hmv
    refine ⟨rfl, ?_⟩
    have hlt := hl.index_lt _ g (propose_none hl hpr)
    obtain ⟨a1, a2, a3⟩ := hf g hlt
    have hmem := (f ⟨(env.index (rawSites env K mv').length g).1, hlt⟩).2
    generalize hs' : f ⟨(env.index (rawSites env K mv').length g).1, hlt⟩ = s' at *
    cases hp' : prepare K mv' s'.1 with
    | error e => rw [a1 e hp'] at hpr; simp at hpr
    | ok p' =>
      rcases he' : execute env K p' (env.index (rawSites env K mv').length g).2 with ⟨e | K2, g3⟩
      · rw [a2 p' e g3 hp' he'] at hpr; simp at hpr
      · rw [a3 p' K2 g3 hp' he'] at hpr
        have hb := atSite hl hK (fun _ => hfr) hmem hp' he'
        have hcells : K2.cells = K1.cells := by
          have e1 : makeManifold env K2 = K' := by
            have := congrArg Prod.fst hpr
            dsimp only at this
            injection this
          have := hsame.cells
          rw [← e1] at this
          exact this
        have hse : s'.1 = s := siteOld_unique (hcells ▸ hb.site) ha.site
        have : s' = ⟨s, hs⟩ := Subtype.ext hse
        rw [this] at hs'
        rw [← hs', Equiv.symm_apply_apply]
  · rintro ⟨rfl, hi⟩
    have hlt : (env.index (rawSites env K mv').length g).1 < (rawSites env K mv').length := by
      rw [hi]; exact (f.symm ⟨s, hs⟩).2
    obtain ⟨-, -, a3⟩ := hf g hlt
    have hfe : f ⟨(env.index (rawSites env K mv').length g).1, hlt⟩ = ⟨s, hs⟩ := by
      rw [Equiv.apply_eq_iff_eq_symm_apply]
      exact Fin.ext hi
    rw [hfe] at a3
    obtain ⟨K2, g3, h1, h2, h3⟩ := ha.again (env.index (rawSites env K mv').length g).2
    exact ⟨_, g3, a3 p K2 g3 hp h1, makeManifold_sameManifold h2 h3⟩

/-- C09.  The documented proposal probability is the true one: if the random source can draw every
index, the probability of proposing the result `L` of a move of type `mv`, for uniform move type
and uniform site number, is one fifth divided by the number of raw sites of that type. -/
theorem C09_proposal_probability (hl : env.Lawful) (ho : Onto env) {K L : Tri V} (hK : Sound env K)
    (hfr : FreshCentroids env K) {mv : MoveType} (h : MoveReturns env mv K L) :
    proposalMass env K L = 1 / (5 * (rawSites env K mv).length) := by
  obtain ⟨i, hi, hu⟩ := C09_unique_site hl hK hfr h
  have hpr : ∀ mv' j, j < (rawSites env K mv').length → (Proposes env mv' K j L ↔ mv' = mv ∧ j = i) := by
    intro mv' j hj
    constructor
    · rintro ⟨g, K', g', h1, h2, h3⟩
      obtain ⟨rfl, h4⟩ := (hu mv' g).1 ⟨K', g', h2, h3⟩
      exact ⟨rfl, h1.symm.trans h4⟩
    · rintro ⟨rfl, rfl⟩
      obtain ⟨g, hg⟩ := ho _ j hj
      obtain ⟨K', g', h2, h3⟩ := (hu mv' g).2 ⟨rfl, hg⟩
      exact ⟨g, K', g', hg, h2, h3⟩
  have hfrac : ∀ mv', siteFraction env mv' K L =
      if mv' = mv then 1 / ((rawSites env K mv).length : ℚ) else 0 := by
    intro mv'
    unfold siteFraction
    split_ifs with hm
    · subst hm
      congr 1
      rw [Nat.cast_eq_one, Finset.card_eq_one]
      refine ⟨i, ?_⟩
      ext j
      simp only [Finset.mem_filter, Finset.mem_range, Finset.mem_singleton]
      constructor
      · rintro ⟨h1, h2⟩; exact ((hpr _ j h1).1 h2).2
      · rintro rfl; exact ⟨hi, (hpr _ j hi).2 ⟨rfl, rfl⟩⟩
    · rw [div_eq_zero_iff]
      left
      rw [Nat.cast_eq_zero, Finset.card_eq_zero]
      ext j
      simp only [Finset.mem_filter, Finset.mem_range, Finset.notMem_empty, iff_false, not_and]
      intro h1 h2
      exact hm ((hpr _ j h1).1 h2).1
  unfold proposalMass
  simp only [hfrac]
  have hne : ((rawSites env K mv).length : ℚ) ≠ 0 := by
    exact_mod_cast Nat.pos_iff_ne_zero.1 (lt_of_le_of_lt (Nat.zero_le _) hi)
  cases mv <;> simp <;> field_simp

/-- C09.  A manifold that no move returns is never proposed. -/
theorem C09_not_proposed {K L : Tri V}
    (h : ∀ mv K', MoveReturns env mv K K' → ¬ SameManifold L K') : proposalMass env K L = 0 := by
  have hfrac : ∀ mv', siteFraction env mv' K L = 0 := by
    intro mv'
    unfold siteFraction
    rw [div_eq_zero_iff]
    left
    rw [Nat.cast_eq_zero, Finset.card_eq_zero]
    ext j
    simp only [Finset.mem_filter, Finset.mem_range, Finset.notMem_empty, iff_false, not_and]
    rintro - ⟨g, K', g', -, h2, h3⟩
    exact h mv' K' ⟨g, g', .inr h2⟩ h3
  simp [proposalMass, hfrac]

/-- C09.  The probability used in the Hastings ratio is that probability (up to the rounding of
256-bit arithmetic). -/
theorem C09_hastings_uses_it (hl : env.Lawful) (ho : Onto env) {K L : Tri V} (hK : Sound env K)
    (hfr : FreshCentroids env K) {mv : MoveType} (h : MoveReturns env mv K L) {cs : Caches V}
    (hb : buildCaches env K = .ok cs) (hg : Counts32 (geometryOf K cs)) :
    proposalProbability .exact (geometryOf K cs) mv = .fin ((proposalMass env K L : ℚ) : ℝ) := by
  obtain ⟨s, hs, -⟩ := moveReturns_ok hl h
  have hpos : 0 < proposalSiteCount (geometryOf K cs) mv := by
    rw [C09_site_count hl hb]; exact_mod_cast List.length_pos_of_mem hs
  rw [proposalProbability_eq Fixture.exactLawful (siteCount32 hg mv) hpos,
    C09_proposal_probability hl ho hK hfr h, C09_site_count hl hb]
  show Mp.fin _ = _
  simp [siteProbability]

/-! ### The hypotheses are met -/

example : ∃ L, MoveReturns Fixture.env .twoSix Fixture.k26 L ∧ Fixture.env.Lawful ∧ Onto Fixture.env ∧
    Sound Fixture.env Fixture.k26 ∧ FreshCentroids Fixture.env Fixture.k26 :=
  Fixture.returns26.imp fun _ h => ⟨h, Fixture.lawful, Fixture.onto, Fixture.sound26, Fixture.fresh26⟩

example : FreshCentroids Fixture.env Fixture.k62 ∧ ∃ L, MoveReturns Fixture.env .sixTwo Fixture.k62 L :=
  ⟨by unfold FreshCentroids; decide +kernel, Fixture.returns62⟩

/-- There the state has several raw sites, so the probability is a proper fraction. -/
example : (rawSites Fixture.env Fixture.k62 .sixTwo).length = 6 := by decide +kernel

end CDT.Props

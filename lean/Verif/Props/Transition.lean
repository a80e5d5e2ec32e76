/-
C83: the transition probability of the implemented chain, and detailed balance up to rounding.
-/
import Verif.Spec.Transition
import Verif.Props.Simulation
import Verif.Props.Precision

namespace CDT.Props
open CDT Spec Cavity Moves

variable {V G : Type} [LinearOrder V] {env : Env V G}

/-! ### The same manifold reports the same counts -/

theorem time_on {K L : Tri V} (h : SameManifold K L) {s : Finset V} (hs : s ∈ faces K.cells) (hi : K.inf ∉ s) :
    ∀ v ∈ s, L.time v = K.time v := by
  intro v hv
  obtain ⟨c, hc, hsc⟩ := mem_faces.1 hs
  exact h.times v (mem_vertices.2 ⟨c, hc, hsc hv⟩) (fun e => hi (e ▸ hv))

theorem edgeType_congr {K L : Tri V} (h : SameManifold K L) {e : Finset V} (he : e ∈ K.finiteEdges) :
    edgeTypeOf L e = edgeTypeOf K e := by
  obtain ⟨h1, h2, -⟩ := mem_finiteEdges.1 he
  have ht := time_on h h1 h2
  unfold edgeTypeOf
  rcases hc : canonicalPoints e with _ | ⟨a, _ | ⟨b, _ | ⟨c, l⟩⟩⟩
  · rfl
  · rfl
  · have ha : a ∈ e := by rw [← mem_canonicalPoints, hc]; simp
    have hb : b ∈ e := by rw [← mem_canonicalPoints, hc]; simp
    simp only [ht a ha, ht b hb]
  · rfl

theorem geometry_congr (hl : env.Lawful) {K L : Tri V} (h : SameManifold K L) {cs cs' : Caches V}
    (hb : buildCaches env K = .ok cs) (hb' : buildCaches env L = .ok cs') :
    geometryOf L cs' = geometryOf K cs := by
  obtain ⟨_, _, hcs, h31, h22, h13, _, _, hes, htl, hsl, _, _⟩ := buildCaches_ok hb
  obtain ⟨_, _, hcs', h31', h22', h13', _, _, hes', htl', hsl', _, _⟩ := buildCaches_ok hb'
  have fc : L.finiteCells = K.finiteCells := by unfold Tri.finiteCells; rw [h.cells, h.inf]
  have fe : L.finiteEdges = K.finiteEdges := by unfold Tri.finiteEdges; rw [h.cells, h.inf]
  have ff : L.finiteFacets = K.finiteFacets := by unfold Tri.finiteFacets; rw [h.cells, h.inf]
  have fv : L.finiteVerts = K.finiteVerts := by unfold Tri.finiteVerts Tri.verts; rw [h.cells, h.inf]
  have cellc : ∀ k : ℤ, (cs'.cells.filter (fun c => L.info c = k)).length =
      (cs.cells.filter (fun c => K.info c = k)).length := by
    intro k
    rw [hcs, hcs', length_filter_iter hl, length_filter_iter hl, fc]
    congr 1
    refine Finset.filter_congr ?_
    intro c hc
    obtain ⟨h1, h2⟩ := mem_finiteCells.1 hc
    rw [h.labels c h1 h2]
  have edgec : ∀ k : EdgeType, (cs'.edges.filter (fun c => edgeTypeOf L c = k)).length =
      (cs.edges.filter (fun c => edgeTypeOf K c = k)).length := by
    intro k
    rw [hes, hes', length_filter_iter hl, length_filter_iter hl, fe]
    congr 1
    refine Finset.filter_congr ?_
    intro c hc
    rw [edgeType_congr h hc]
  unfold geometryOf
  rw [fc, fe, ff, fv, h31, h31', h22, h22', h13, h13', htl, htl', hsl, hsl']
  simp only [cellc, edgec]

omit [LinearOrder V] in
theorem hasType_congr {t t' : V → ℤ} {s : Finset V} (h : ∀ v ∈ s, t' v = t v) {i j : ℕ} (ht : HasType t i j s) :
    HasType t' i j s := by
  obtain ⟨h1, v, hv, h2, h3⟩ := ht
  refine ⟨h1, v, hv, ?_, ?_⟩
  · rw [← h2]; congr 1; refine Finset.filter_congr fun u hu => ?_; rw [h u hu, h v hv]
  · rw [← h3]; congr 1; refine Finset.filter_congr fun u hu => ?_; rw [h u hu, h v hv]

theorem causal_congr {K L : Tri V} (h : SameManifold K L) (hc : Causal K.inf K.time K.cells) :
    Causal L.inf L.time L.cells := by
  intro c hm hi
  rw [h.cells] at hm
  rw [h.inf] at hi
  have ht := time_on h (mem_faces.2 ⟨c, hm, subset_rfl⟩) hi
  rcases hc c hm hi with k | k | k
  · exact .inl (hasType_congr ht k)
  · exact .inr (.inl (hasType_congr ht k))
  · exact .inr (.inr (hasType_congr ht k))

/-- Every causal candidate passes `check_move`. -/
theorem check_of_causal (hl : env.Lawful) {mv : MoveType} {K K' : Tri V} (hK : Sound env K)
    (hfr : FreshCentroids env K) (h : MoveReturns env mv K K') (hc : Causal K'.inf K'.time K'.cells)
    {cs cs' : Caches V} (hb : buildCaches env K = .ok cs) (hb' : buildCaches env K' = .ok cs') (r s : BitVec 64) :
    checkMove (viewOf r s K cs) (viewOf r s K' cs') mv = true := by
  by_cases hmv : mv = .twoSix
  · subst hmv
    rw [C32_check_move_iff_contract]
    have he := effect26 hl hK hfr h hc
    rw [delta26] at he
    exact contract_of_effect hl hK he hb hb' r s
  · exact published_contract hl hmv hK h hb hb' r s

/-! ### One transition -/

/-- What an accepted transition is. -/
theorem reaches_iff {R : Rounding} {p : PhysicalParameters} {drawMove : G → Fin 5 × G}
    {drawTrial : G → LD × G} {mv : MoveType} {u : ℚ} (h0 : 0 ≤ u) (h1 : u ≤ 1) (v : MetroVars (Mfld V) G)
    (L : Tri V) :
    Reaches (metroEngine env R p drawMove drawTrial) mv u v L ↔
      ∃ K' g' cs' q, propose env mv v.current.tri v.gen = (.ok K', g') ∧ buildCaches env K' = .ok cs' ∧
        checkMove v.current.view (viewOf v.current.radius v.current.spacing K' cs') mv = true ∧
        acceptanceProbability R p v.current.geometry (geometryOf K' cs') mv = .ok q ∧ q.cmpLdGe u = true ∧
        SameManifold L K' := by
  have hg : (!(LD.fin u).isFinite || (LD.fin u).lt (.fin 0) || (LD.fin 1).lt (.fin u)) = false := by
    simp [LD.isFinite, LD.lt, h0, h1]
  have hcode : MoveType.ofCode (moveCode mv) = some mv := by cases mv <;> rfl
  unfold Reaches
  generalize hE : resolve (metroEngine env R p drawMove drawTrial) (moveCode mv) (.fin u) v = res
  unfold resolve at hE
  rw [hg] at hE
  simp only [Bool.false_eq_true, if_false, hcode] at hE
  have hp : (metroEngine env R p drawMove drawTrial).propose mv v.current v.gen =
      wrapMove env v.current (Moves.propose env mv v.current.tri v.gen) := rfl
  rw [hp] at hE
  rcases hpr : propose env mv v.current.tri v.gen with ⟨f | K', g'⟩
  · rw [hpr] at hE
    simp only [wrapMove] at hE
    subst hE
    constructor
    · rintro ⟨k, -⟩
      simp only [Except.ok.injEq] at k
      cases f <;> simp [outcomeFrom] at k
    · rintro ⟨K', g1, -, -, k, -⟩
      simp at k
  · rw [hpr] at hE
    simp only [wrapMove] at hE
    cases hb : buildCaches env K' with
    | error e =>
      rw [hb] at hE
      simp only at hE
      subst hE
      constructor
      · rintro ⟨k, -⟩; simp at k
      · rintro ⟨K2, g2, cs2, q, k1, k2, -⟩
        simp only [Prod.mk.injEq, Except.ok.injEq] at k1
        rw [← k1.1, hb] at k2; simp at k2
    | ok cs' =>
      rw [hb] at hE
      simp only at hE
      have e1 : (metroEngine env R p drawMove drawTrial).check v.current
          ⟨K', cs', v.current.radius, v.current.spacing⟩ mv =
          checkMove v.current.view (viewOf v.current.radius v.current.spacing K' cs') mv := rfl
      have e2 : (metroEngine env R p drawMove drawTrial).prob
          ((metroEngine env R p drawMove drawTrial).geometry v.current)
          ((metroEngine env R p drawMove drawTrial).geometry ⟨K', cs', v.current.radius, v.current.spacing⟩) mv =
          acceptanceProbability R p v.current.geometry (geometryOf K' cs') mv := rfl
      rw [e1, e2] at hE
      have key : (∃ K'' g'' cs'' q, ((Except.ok K', g') : Except MoveFailure (Tri V) × G) = (.ok K'', g'') ∧
          buildCaches env K'' = .ok cs'' ∧
          checkMove v.current.view (viewOf v.current.radius v.current.spacing K'' cs'') mv = true ∧
          acceptanceProbability R p v.current.geometry (geometryOf K'' cs'') mv = .ok q ∧ q.cmpLdGe u = true ∧
          SameManifold L K'') ↔
          (checkMove v.current.view (viewOf v.current.radius v.current.spacing K' cs') mv = true ∧
          ∃ q, acceptanceProbability R p v.current.geometry (geometryOf K' cs') mv = .ok q ∧ q.cmpLdGe u = true ∧
          SameManifold L K') := by
        constructor
        · rintro ⟨K2, g2, cs2, q, k1, k2, k3⟩
          simp only [Prod.mk.injEq, Except.ok.injEq] at k1
          obtain ⟨rfl, rfl⟩ := k1
          rw [hb] at k2
          injection k2 with k2
          subst k2
          exact ⟨k3.1, q, k3.2⟩
        · rintro ⟨k1, q, k2⟩
          exact ⟨K', g', cs', q, rfl, hb, k1, k2⟩
      rw [key]
      by_cases hc : checkMove v.current.view (viewOf v.current.radius v.current.spacing K' cs') mv = true
      · simp only [hc, Bool.not_true, Bool.false_eq_true, if_false, true_and] at hE ⊢
        cases ha : acceptanceProbability R p v.current.geometry (geometryOf K' cs') mv with
        | error e =>
          rw [ha] at hE
          simp only at hE
          subst hE
          simp
        | ok q =>
          rw [ha] at hE
          simp only at hE
          have e3 : (metroEngine env R p drawMove drawTrial).probGe q u = q.cmpLdGe u := rfl
          rw [e3] at hE
          by_cases hq : q.cmpLdGe u = true
          · rw [if_pos hq] at hE
            subst hE
            simp [hq]
          · rw [if_neg hq] at hE
            subst hE
            simp [hq]
      · have hc' : checkMove v.current.view (viewOf v.current.radius v.current.spacing K' cs') mv = false :=
          Bool.eq_false_iff.2 hc
        simp only [hc', Bool.not_false, if_true] at hE
        subst hE
        simp [hc']

/-- C83.  One transition of the implemented chain, with its moves, check, action arithmetic and
comparison: for the manifold `m` in order and a manifold `m'` in order that some move makes from it,
there is one site number such that every transition from `m`, whatever the random source and the
counters, ends in `m'` exactly when its type is that move type, the random source draws that site
number and the trial value is at most the computed acceptance probability. -/
theorem C83_transition_iff (hl : env.Lawful) {R : Rounding} {p : PhysicalParameters} {drawMove : G → Fin 5 × G}
    {drawTrial : G → LD × G} {m m' : Mfld V} (hm : Fit env m) (hfr : FreshCentroids env m.tri) (hm' : Fit env m')
    {mv : MoveType} (h : ∃ L, MoveReturns env mv m.tri L ∧ SameManifold m'.tri L) {a : ℝ}
    (ha : acceptanceProbability R p m.geometry m'.geometry mv = .ok (.fin a)) :
    ∃ i < (rawSites env m.tri mv).length, ∀ mv' (u : ℚ) (v : MetroVars (Mfld V) G), 0 ≤ u → u ≤ 1 → v.current = m →
      (Reaches (metroEngine env R p drawMove drawTrial) mv' u v m'.tri ↔
        mv' = mv ∧ (env.index (rawSites env m.tri mv).length v.gen).1 = i ∧ (u : ℝ) ≤ a) := by
  obtain ⟨L, h, hsame⟩ := h
  obtain ⟨i, hi, hu'⟩ := C09_unique_site hl hm.sound hfr h
  have hu : ∀ mv' g, (∃ K' g', propose env mv' m.tri g = (.ok K', g') ∧ SameManifold m'.tri K') ↔
      mv' = mv ∧ (env.index (rawSites env m.tri mv).length g).1 = i := by
    intro mv' g
    rw [← hu']
    constructor
    · rintro ⟨K', g', k1, k2⟩; exact ⟨K', g', k1, sameManifold_trans (sameManifold_symm hsame) k2⟩
    · rintro ⟨K', g', k1, k2⟩; exact ⟨K', g', k1, sameManifold_trans hsame k2⟩
  refine ⟨i, hi, ?_⟩
  intro mv' u v h0 h1 hv
  rw [reaches_iff h0 h1, hv]
  constructor
  · rintro ⟨K', g', cs', q, k1, k2, k3, k4, k5, k6⟩
    obtain ⟨rfl, e⟩ := (hu mv' v.gen).1 ⟨K', g', k1, k6⟩
    refine ⟨rfl, e, ?_⟩
    have e2 : geometryOf K' cs' = m'.geometry := geometry_congr hl k6 hm'.caches k2
    rw [e2, ha] at k4
    injection k4 with k4
    rw [← k4] at k5
    exact (C07_accepts_iff a u).1 k5
  · rintro ⟨rfl, e, hle⟩
    obtain ⟨K', g', k1, k6⟩ := (hu mv' v.gen).2 ⟨rfl, e⟩
    have hret : MoveReturns env mv' m.tri K' := ⟨v.gen, g', .inr k1⟩
    obtain ⟨cs', k2⟩ := buildCaches_total hl
      (finiteVerts_of_move hl hm.sound (buildCaches_ok hm.caches).1 (fun _ => hfr) hret)
    have e2 : geometryOf K' cs' = m'.geometry := geometry_congr hl k6 hm'.caches k2
    exact ⟨K', g', cs', .fin a, k1, k2,
      check_of_causal hl hm.sound hfr hret (causal_congr k6 hm'.sound.causal) hm.caches k2 _ _,
      by rw [e2, ha], (C07_accepts_iff a u).2 hle, k6⟩

/-- C83.  The probability that a sampled transition leads from `m` to `m'`: the documented proposal
probability times the fraction of the trial values that are at most the computed acceptance
probability. -/
theorem C83_transition_probability (hl : env.Lawful) (ho : Onto env) {R : Rounding} {p : PhysicalParameters}
    {drawMove : G → Fin 5 × G} {drawTrial : G → LD × G} {m m' : Mfld V} (hm : Fit env m)
    (hfr : FreshCentroids env m.tri) (hm' : Fit env m')
    {mv : MoveType} (h : ∃ L, MoveReturns env mv m.tri L ∧ SameManifold m'.tri L) {a : ℝ}
    (ha : acceptanceProbability R p m.geometry m'.geometry mv = .ok (.fin a)) {n : ℕ} (hn : 0 < n) :
    transitionMass env (metroEngine env R p drawMove drawTrial) n m m'.tri =
      1 / (5 * (rawSites env m.tri mv).length) * gridFraction n a := by
  obtain ⟨i, hi, hu⟩ := C83_transition_iff (drawMove := drawMove) (drawTrial := drawTrial) hl hm hfr hm' h ha
  have hnq : (0 : ℚ) < n := by exact_mod_cast hn
  have hat : ∀ mv' (x : ℕ × ℕ), x ∈ Finset.range (rawSites env m.tri mv').length ×ˢ Finset.range n →
      (ReachesAt env (metroEngine env R p drawMove drawTrial) mv' m x.1 ((x.2 : ℚ) / n) m'.tri ↔
        mv' = mv ∧ x.1 = i ∧ ((((x.2 : ℚ) / n : ℚ)) : ℝ) ≤ a) := by
    intro mv' x hx
    obtain ⟨hx1, hx2⟩ := Finset.mem_product.1 hx
    rw [Finset.mem_range] at hx1 hx2
    have u0 : (0 : ℚ) ≤ (x.2 : ℚ) / n := by positivity
    have u1 : (x.2 : ℚ) / n ≤ 1 := by
      rw [div_le_one hnq]; exact_mod_cast hx2.le
    constructor
    · rintro ⟨v, k1, k2, k3⟩
      obtain ⟨rfl, k4, k5⟩ := (hu mv' _ v u0 u1 k1).1 k3
      exact ⟨rfl, k2.symm.trans k4, k5⟩
    · rintro ⟨rfl, k2, k3⟩
      obtain ⟨g, hg⟩ := ho _ x.1 hx1
      refine ⟨⟨m, {}, {}, g⟩, rfl, hg, ?_⟩
      exact (hu mv' _ ⟨m, {}, {}, g⟩ u0 u1 rfl).2 ⟨rfl, hg.trans k2, k3⟩
  have hlen : ((rawSites env m.tri mv).length : ℚ) ≠ 0 := by
    exact_mod_cast Nat.pos_iff_ne_zero.1 (lt_of_le_of_lt (Nat.zero_le _) hi)
  have hfrac : ∀ mv', reachFraction env (metroEngine env R p drawMove drawTrial) n mv' m m'.tri =
      if mv' = mv then 1 / ((rawSites env m.tri mv).length : ℚ) * gridFraction n a else 0 := by
    intro mv'
    unfold reachFraction
    split_ifs with e
    · subst e
      unfold gridFraction
      classical
      have hcard : ((Finset.range (rawSites env m.tri mv').length ×ˢ Finset.range n).filter
          fun x : ℕ × ℕ => ReachesAt env (metroEngine env R p drawMove drawTrial) mv' m x.1 ((x.2 : ℚ) / n) m'.tri).card =
          ((Finset.range n).filter fun k : ℕ => ((((k : ℚ) / n : ℚ)) : ℝ) ≤ a).card := by
        refine (Finset.card_bij (fun k _ => (i, k)) ?_ ?_ ?_).symm
        · intro k hk
          obtain ⟨k1, k2⟩ := Finset.mem_filter.1 hk
          have : (i, k) ∈ Finset.range (rawSites env m.tri mv').length ×ˢ Finset.range n :=
            Finset.mem_product.2 ⟨Finset.mem_range.2 hi, k1⟩
          exact Finset.mem_filter.2 ⟨this, (hat mv' (i, k) this).2 ⟨rfl, rfl, k2⟩⟩
        · intro a _ b _ e; exact (Prod.mk.inj e).2
        · intro x hx
          obtain ⟨k1, k2⟩ := Finset.mem_filter.1 hx
          obtain ⟨-, k3, k4⟩ := (hat mv' x k1).1 k2
          exact ⟨x.2, Finset.mem_filter.2 ⟨(Finset.mem_product.1 k1).2, k4⟩, by rw [← k3]⟩
      rw [hcard]
      field_simp
    · rw [div_eq_zero_iff]
      left
      rw [Nat.cast_eq_zero, Finset.card_eq_zero]
      ext x
      simp only [Finset.mem_filter, Finset.notMem_empty, iff_false, not_and]
      intro k1 k2
      exact e ((hat mv' x k1).1 k2).1
  unfold transitionMass
  simp only [hfrac]
  cases mv <;> simp <;> field_simp

/-- C83.  A transition to a manifold that no move makes from `m` has probability zero. -/
theorem C83_no_transition {R : Rounding} {p : PhysicalParameters} {drawMove : G → Fin 5 × G}
    {drawTrial : G → LD × G} {m : Mfld V} {L : Tri V}
    (h : ∀ mv K', MoveReturns env mv m.tri K' → ¬ SameManifold L K') {n : ℕ} :
    transitionMass env (metroEngine env R p drawMove drawTrial) n m L = 0 := by
  have hfrac : ∀ mv', reachFraction env (metroEngine env R p drawMove drawTrial) n mv' m L = 0 := by
    intro mv'
    unfold reachFraction
    rw [div_eq_zero_iff]
    left
    rw [Nat.cast_eq_zero, Finset.card_eq_zero]
    ext x
    simp only [Finset.mem_filter, Finset.notMem_empty, iff_false, not_and]
    rintro k1 ⟨v, rfl, k2, k3⟩
    have hx2 := Finset.mem_range.1 (Finset.mem_product.1 k1).2
    have hnq : (0 : ℚ) < n := by exact_mod_cast lt_of_le_of_lt (Nat.zero_le _) hx2
    have u0 : (0 : ℚ) ≤ (x.2 : ℚ) / n := by positivity
    have u1 : (x.2 : ℚ) / n ≤ 1 := by
      rw [div_le_one hnq]; exact_mod_cast hx2.le
    obtain ⟨K', g', -, -, j1, -, -, -, -, j2⟩ := (reaches_iff u0 u1 v L).1 k3
    exact h mv' K' ⟨v.gen, g', .inr j1⟩ j2
  simp [transitionMass, hfrac]

/-- The grid of trial values meets every probability up to the width of the grid. -/
theorem gridFraction_near {n : ℕ} (hn : 0 < n) {a : ℝ} (h0 : 0 ≤ a) (h1 : a ≤ 1) :
    |((gridFraction n a : ℚ) : ℝ) - a| ≤ 1 / n := by
  have hnr : (0 : ℝ) < n := by exact_mod_cast hn
  have hcard : ((Finset.range n).filter fun k : ℕ => ((((k : ℚ) / n : ℚ)) : ℝ) ≤ a).card =
      min n (⌊a * n⌋₊ + 1) := by
    rw [← Finset.card_range (min n (⌊a * n⌋₊ + 1))]
    congr 1
    ext k
    simp only [Finset.mem_filter, Finset.mem_range, lt_min_iff, Nat.lt_add_one_iff]
    refine and_congr_right fun _ => ?_
    rw [Nat.le_floor_iff (by positivity)]
    push_cast
    rw [div_le_iff₀ hnr]
  have e : ((gridFraction n a : ℚ) : ℝ) = ((min n (⌊a * n⌋₊ + 1) : ℕ) : ℝ) / n := by
    unfold gridFraction
    rw [← hcard]
    push_cast
    rfl
  rw [e]
  have f1 : (⌊a * n⌋₊ : ℝ) ≤ a * n := Nat.floor_le (by positivity)
  have f2 : a * n < ⌊a * n⌋₊ + 1 := Nat.lt_floor_add_one _
  have an : a * n ≤ n := by nlinarith
  rw [Nat.cast_min]
  push_cast
  rw [abs_le]
  constructor
  · rw [neg_le_sub_iff_le_add, ← sub_le_iff_le_add, le_div_iff₀ hnr, sub_mul, one_div, inv_mul_cancel₀ hnr.ne']
    refine le_min (by linarith) (by linarith)
  · rw [sub_le_iff_le_add, div_le_iff₀ hnr, add_mul, one_div, inv_mul_cancel₀ hnr.ne']
    exact (min_le_right _ _).trans (by linarith)

/-- C83.  Detailed balance of the program as it computes: if the reverse move exists, the equilibrium
flows between `m` and `m'` - with the moves, the checks, the rounded acceptance probabilities and the
discrete trial values of the program - agree up to the error of the computed acceptance probability
(C79) and the width of the grid of trial values. -/
theorem C83_detailed_balance_rounded (hl : env.Lawful) (ho : Onto env) {R : Rounding} (hR : R.Lawful) (hP : R.Precise)
    {drawMove : G → Fin 5 × G} {drawTrial : G → LD × G} {m m' : Mfld V} (hm : Fit env m)
    (hfr : FreshCentroids env m.tri) (hm' : Fit env m') (hfr' : FreshCentroids env m'.tri)
    {mv : MoveType} (h : ∃ L, MoveReturns env mv m.tri L ∧ SameManifold m'.tri L)
    (hback : ∃ K'', MoveReturns env mv.reverse m'.tri K'' ∧ SameManifold m.tri K'')
    (hg : Counts32 m.geometry) (hg' : Counts32 m'.geometry) {α κ Λ : ℚ} (hα : 1 / 2 < α)
    (ha : InLongDouble α) (hk : InLongDouble κ) (hL : InLongDouble Λ)
    {C A N : ℝ} (hC : 1 ≤ C) (hA : 1 ≤ A) (hN : 1 ≤ N)
    (hκ : |(κ : ℝ)| ≤ C) (hΛ : |(Λ : ℝ)| ≤ C) (hαA : √(α : ℝ) ≤ A)
    (hgN : |(m.geometry.N1_TL : ℝ)| ≤ N ∧ |(m.geometry.N3_31_13 : ℝ)| ≤ N ∧ |(m.geometry.N3_22 : ℝ)| ≤ N)
    (hgN' : |(m'.geometry.N1_TL : ℝ)| ≤ N ∧ |(m'.geometry.N3_31_13 : ℝ)| ≤ N ∧ |(m'.geometry.N3_22 : ℝ)| ≤ N)
    {n : ℕ} (hn : 0 < n) :
    let eng := metroEngine env R ⟨.fin α, .fin κ, .fin Λ⟩ drawMove drawTrial
    let w := Real.exp (-actionOf α κ Λ m.geometry)
    let w' := Real.exp (-actionOf α κ Λ m'.geometry)
    |w * (transitionMass env eng n m m'.tri : ℚ) - w' * (transitionMass env eng n m' m.tri : ℚ)| ≤
      (2 ^ (-239 : ℤ) * (C * A * N) + 1 / n) *
        (w * (proposalMass env m.tri m'.tri : ℚ) + w' * (proposalMass env m'.tri m.tri : ℚ)) := by
  intro eng w w'
  obtain ⟨L, h, hsL⟩ := h
  obtain ⟨K'', hr, hs⟩ := hback
  have pos : ∀ {mv : MoveType} {x : Mfld V} {L : Tri V}, Fit env x → MoveReturns env mv x.tri L →
      0 < proposalSiteCount x.geometry mv := by
    intro mv x L hx hret
    obtain ⟨s, hs, -⟩ := moveReturns_ok hl hret
    unfold Mfld.geometry
    rw [C09_site_count hl hx.caches]
    exact_mod_cast List.length_pos_of_mem hs
  have p1 := pos hm h
  have p2 := pos hm' hr
  have hrev : mv.reverse.reverse = mv := by cases mv <;> rfl
  obtain ⟨a, ea, near⟩ := C79_acceptance_error hR hP hα ha hk hL hg hg' p1 p2 hC hA hN hκ hΛ hαA hgN hgN'
  have p1' : 0 < proposalSiteCount m.geometry mv.reverse.reverse := by rw [hrev]; exact p1
  obtain ⟨a', ea', near'⟩ := C79_acceptance_error hR hP hα ha hk hL hg' hg p2 p1' hC hA hN hκ hΛ hαA hgN' hgN
  obtain ⟨b, eb, b0, b1⟩ := C07_unit_interval hR hα ha hk hL hg hg' p1 p2
  obtain ⟨b', eb', b0', b1'⟩ := C07_unit_interval hR hα ha hk hL hg' hg p2 p1'
  have hba : b = a := by have := eb.symm.trans ea; simpa using this
  have hba' : b' = a' := by have := eb'.symm.trans ea'; simpa using this
  subst hba hba'
  have t1 := C83_transition_probability (drawMove := drawMove) (drawTrial := drawTrial) hl ho hm hfr hm'
    ⟨_, h, hsL⟩ ea hn
  have t2 := C83_transition_probability (drawMove := drawMove) (drawTrial := drawTrial) hl ho hm' hfr' hm
    ⟨_, hr, hs⟩ ea' hn
  have mass : proposalMass env m.tri m'.tri = 1 / (5 * (rawSites env m.tri mv).length) := by
    rw [proposalMass_congr hsL]; exact C09_proposal_probability hl ho hm.sound hfr h
  have mass' : proposalMass env m'.tri m.tri = 1 / (5 * (rawSites env m'.tri mv.reverse).length) := by
    rw [proposalMass_congr hs]; exact C09_proposal_probability hl ho hm'.sound hfr' hr
  rw [← mass] at t1
  rw [← mass'] at t2
  obtain ⟨B, B', eB, eB', bal⟩ := C07_detailed_balance (κ := κ) (Λ := Λ) hα hg hg' p1 p2
  have cast : ∀ (k : ℕ) (c : ℤ), (k : ℤ) = c → (((1 / (5 * k) : ℚ) : ℚ) : ℝ) = siteProbability c := by
    rintro k c rfl
    simp [siteProbability]
  have e1 : siteProbability (proposalSiteCount m.geometry mv) = ((proposalMass env m.tri m'.tri : ℚ) : ℝ) := by
    rw [mass]; exact (cast _ _ (C09_site_count hl hm.caches mv).symm).symm
  have e2 : siteProbability (proposalSiteCount m'.geometry mv.reverse) = ((proposalMass env m'.tri m.tri : ℚ) : ℝ) := by
    rw [mass']; exact (cast _ _ (C09_site_count hl hm'.caches mv.reverse).symm).symm
  rw [e1, e2] at bal
  have inj : ∀ {x y : ℝ}, (Except.ok (Mp.fin x) : Except Exc Mp) = .ok (.fin y) → x = y := by
    intro x y e; simpa using e
  have hB := inj (eB.symm.trans (C07_metropolis_hastings (κ := κ) (Λ := Λ) hα hg hg' p1 p2))
  have hB' := inj (eB'.symm.trans (C07_metropolis_hastings (κ := κ) (Λ := Λ) hα hg' hg p2 p1'))
  rw [← hB] at near
  rw [hrev] at near' hB'
  rw [← hB'] at near'
  have g1 := gridFraction_near hn b0 b1
  have g2 := gridFraction_near hn b0' b1'
  have q0 : (0 : ℝ) ≤ ((proposalMass env m.tri m'.tri : ℚ) : ℝ) := by rw [mass]; positivity
  have q0' : (0 : ℝ) ≤ ((proposalMass env m'.tri m.tri : ℚ) : ℝ) := by rw [mass']; positivity
  have w0 : 0 < w := Real.exp_pos _
  have w0' : 0 < w' := Real.exp_pos _
  show |w * ((transitionMass env eng n m m'.tri : ℚ) : ℝ) - w' * ((transitionMass env eng n m' m.tri : ℚ) : ℝ)| ≤ _
  rw [t1, t2]
  push_cast
  change w * ((proposalMass env m.tri m'.tri : ℚ) : ℝ) * B = w' * ((proposalMass env m'.tri m.tri : ℚ) : ℝ) * B' at bal
  generalize ((proposalMass env m.tri m'.tri : ℚ) : ℝ) = q at *
  generalize ((proposalMass env m'.tri m.tri : ℚ) : ℝ) = q' at *
  generalize ((gridFraction n b : ℚ) : ℝ) = f at *
  generalize ((gridFraction n b' : ℚ) : ℝ) = f' at *
  generalize 2 ^ (-239 : ℤ) * (C * A * N) = e at *
  have d1 : |f - B| ≤ e + 1 / n := by have := abs_sub_le f b B; linarith
  have d2 : |f' - B'| ≤ e + 1 / n := by have := abs_sub_le f' b' B'; linarith
  have e3 : w * (q * f) - w' * (q' * f') = w * q * (f - B) - w' * q' * (f' - B') := by linear_combination bal
  rw [e3]
  refine (abs_sub _ _).trans ?_
  rw [abs_mul (w * q), abs_mul (w' * q'), abs_of_nonneg (by positivity : 0 ≤ w * q),
    abs_of_nonneg (by positivity : 0 ≤ w' * q')]
  have m1 : w * q * |f - B| ≤ w * q * (e + 1 / n) := by gcongr
  have m2 : w' * q' * |f' - B'| ≤ w' * q' * (e + 1 / n) := by gcongr
  linarith

/-- Two manifolds in order, the second made from the first by a (4,4) move. -/
theorem pair44 : ∃ m m' : Mfld ℕ, m.tri = Fixture.k44 ∧ Fit Fixture.env m ∧ Fit Fixture.env m' ∧
    MoveReturns Fixture.env .fourFour m.tri m'.tri ∧ FreshCentroids Fixture.env m.tri ∧
    FreshCentroids Fixture.env m'.tri ∧ Counts32 m.geometry ∧ Counts32 m'.geometry ∧
    (∀ g ∈ [m.geometry, m'.geometry], |g.N1_TL| ≤ 100 ∧ |g.N3_31_13| ≤ 100 ∧ |g.N3_22| ≤ 100) := by
  have key : ((doMove Fixture.env .fourFour Fixture.k44 0).1.toOption.bind fun L =>
      (buildCaches Fixture.env Fixture.k44).toOption.bind fun cs =>
      (buildCaches Fixture.env L).toOption.map fun cs' =>
        decide (FreshCentroids Fixture.env L ∧ Counts32 (geometryOf Fixture.k44 cs) ∧ Counts32 (geometryOf L cs') ∧
          (∀ g ∈ [geometryOf Fixture.k44 cs, geometryOf L cs'],
            |g.N1_TL| ≤ 100 ∧ |g.N3_31_13| ≤ 100 ∧ |g.N3_22| ≤ 100))) =
      some true := by decide +kernel
  rcases hr : doMove Fixture.env .fourFour Fixture.k44 0 with ⟨e | L, g⟩
  · rw [hr] at key; simp [Except.toOption] at key
  · rw [hr] at key
    cases hb : buildCaches Fixture.env Fixture.k44 with
    | error e => rw [hb] at key; simp [Except.toOption] at key
    | ok cs =>
      cases hb' : buildCaches Fixture.env L with
      | error e => simp [Except.toOption, hb, hb'] at key
      | ok cs' =>
        simp only [Except.toOption, hb, hb', Option.bind_some, Option.map_some, Option.some.injEq,
          decide_eq_true_eq] at key
        have ret : MoveReturns Fixture.env .fourFour Fixture.k44 L := ⟨0, g, .inl hr⟩
        exact ⟨⟨Fixture.k44, cs, 0, 0⟩, ⟨L, cs', 0, 0⟩, rfl, ⟨Fixture.sound44, hb⟩,
          ⟨(effect_of_move Fixture.lawful (by decide) Fixture.sound44 ret).sound, hb'⟩, ret,
          (show FreshCentroids Fixture.env Fixture.k44 by unfold FreshCentroids; decide +kernel), key.1, key.2.1, key.2.2.1, key.2.2.2⟩

/-- The hypotheses of the theorems above are met by that pair, 256-bit rounding to nearest and the
64-bit grid of trial values of a long double; the flows then differ by less than 2^-63 of the
proposed flows. -/
example (drawMove : ℕ → Fin 5 × ℕ) (drawTrial : ℕ → LD × ℕ) : ∃ m m' : Mfld ℕ, m.tri = Fixture.k44 ∧
    let eng := metroEngine Fixture.env Fixture.nearest ⟨.fin (3 / 5), .fin (11 / 10), .fin (1 / 10)⟩ drawMove drawTrial
    let w := Real.exp (-actionOf (3 / 5) (11 / 10) (1 / 10) m.geometry)
    let w' := Real.exp (-actionOf (3 / 5) (11 / 10) (1 / 10) m'.geometry)
    MoveReturns Fixture.env .fourFour m.tri m'.tri ∧
    |w * (transitionMass Fixture.env eng (2 ^ 64) m m'.tri : ℚ) - w' * (transitionMass Fixture.env eng (2 ^ 64) m' m.tri : ℚ)| ≤
      2 ^ (-63 : ℤ) * (w * (proposalMass Fixture.env m.tri m'.tri : ℚ) + w' * (proposalMass Fixture.env m'.tri m.tri : ℚ)) := by
  obtain ⟨m, m', e, f1, f2, ret, r1, r2, c1, c2, b⟩ := pair44
  refine ⟨m, m', e, ?_⟩
  intro eng w w'
  refine ⟨ret, ?_⟩
  have big : ∀ q : ℚ, |q| ≤ 2 → InLongDouble q := by
    intro q hq
    have h2 : |(q : ℝ)| ≤ 2 := by exact_mod_cast hq
    refine h2.trans ?_
    have : (2 : ℝ) = 2 ^ (1 : ℤ) := by norm_num
    conv_lhs => rw [this]
    exact Mp.pow_le (by norm_num)
  have cast : ∀ z : ℤ, |z| ≤ 100 → |(z : ℝ)| ≤ 100 := by
    intro z hz; exact_mod_cast hz
  have b1 := b m.geometry (by simp)
  have b2 := b m'.geometry (by simp)
  have main := C83_detailed_balance_rounded (drawMove := drawMove) (drawTrial := drawTrial) Fixture.lawful Fixture.onto
    Fixture.nearestLawful nearestPrecise f1 r1 f2 r2 ⟨_, ret, sameManifold_refl _⟩ (C25_four_four_undone Fixture.lawful Fixture.onto f1.sound ret)
    c1 c2 (α := 3 / 5) (κ := 11 / 10) (Λ := 1 / 10) (by norm_num) (big _ (by norm_num [abs_le]))
    (big _ (by norm_num [abs_le])) (big _ (by norm_num [abs_le])) (C := 2) (A := 1) (N := 100) (by norm_num) le_rfl
    (by norm_num) (by norm_num [abs_le]) (by norm_num [abs_le]) (by rw [Real.sqrt_le_left (by norm_num)]; norm_num)
    ⟨cast _ b1.1, cast _ b1.2.1, cast _ b1.2.2⟩ ⟨cast _ b2.1, cast _ b2.2.1, cast _ b2.2.2⟩ (n := 2 ^ 64) (by norm_num)
  refine main.trans ?_
  have q0 : (0 : ℝ) ≤ ((proposalMass Fixture.env m.tri m'.tri : ℚ) : ℝ) := by
    rw [C09_proposal_probability Fixture.lawful Fixture.onto f1.sound r1 ret]; positivity
  have q0' : (0 : ℝ) ≤ ((proposalMass Fixture.env m'.tri m.tri : ℚ) : ℝ) := by
    obtain ⟨K'', k1, k2⟩ := C25_four_four_undone Fixture.lawful Fixture.onto f1.sound ret
    rw [proposalMass_congr k2, C09_proposal_probability Fixture.lawful Fixture.onto f2.sound r2 k1]; positivity
  refine mul_le_mul_of_nonneg_right ?_ ?_
  · norm_num
  · have := Real.exp_pos (-actionOf (3 / 5) (11 / 10) (1 / 10) m.geometry)
    have := Real.exp_pos (-actionOf (3 / 5) (11 / 10) (1 / 10) m'.geometry)
    positivity

end CDT.Props

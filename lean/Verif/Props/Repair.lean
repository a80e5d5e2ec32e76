/-
C37, C38, C39: repair passes and the construction loop.
-/
import Verif.Lemmas.Repair
import Verif.Props.Classify
import Verif.Fixture.Fan

namespace CDT.Props
open CDT Spec Cavity Moves

section
variable {V G : Type} [LinearOrder V] {env : Env V G} {re : RepairEnv V}

/-- One tetrahedron spans two adjacent slices. -/
def CausalCell (time : V → ℤ) (c : Finset V) : Prop :=
  HasType time 3 1 c ∨ HasType time 2 2 c ∨ HasType time 1 3 c

/-! ### C37 -/

/-- C37.  `fix_vertices` gives every vertex of a finite tetrahedron the time implied by its radius,
reports true exactly when some time changed, and touches nothing else. -/
theorem C37_fix_vertices (hl : env.Lawful) (hr : re.Lawful) (K : Tri V) :
    let r := fixVertices env re K
    (∀ v ∈ vertices (finitePart K.inf K.cells), r.2.time v = env.label v) ∧
    (∀ v, v ∉ vertices (finitePart K.inf K.cells) → r.2.time v = K.time v) ∧
    (r.1 = true ↔ ∃ v, r.2.time v ≠ K.time v) ∧
    r.2.cells = K.cells ∧ r.2.inf = K.inf ∧ r.2.info = K.info := by
  intro r
  obtain ⟨h1, h2, h3, h4⟩ := foldl_time env.label (findIncorrectVertices env re K) K
  have hm := fun v => mem_findIncorrectVertices hl hr (K := K) (v := v)
  have ht : ∀ v, r.2.time v = if v ∈ findIncorrectVertices env re K then env.label v else K.time v := h4
  refine ⟨?_, ?_, ?_, h2, h1, h3⟩
  · intro v hv
    rw [ht]
    split_ifs with hb
    · rfl
    · rw [hm] at hb
      by_contra hn
      exact hb ⟨hv, fun e => hn e.symm⟩
  · intro v hv
    rw [ht, if_neg (fun hb => hv ((hm v).1 hb).1)]
  · have hb : r.1 = !(findIncorrectVertices env re K).isEmpty := rfl
    rw [hb]
    simp only [Bool.not_eq_true', List.isEmpty_eq_false_iff]
    constructor
    · intro hne
      obtain ⟨v, hv⟩ := List.exists_mem_of_ne_nil _ hne
      refine ⟨v, ?_⟩
      rw [ht, if_pos hv]
      exact ((hm v).1 hv).2
    · rintro ⟨v, hv⟩ he
      rw [ht, he] at hv
      simp at hv

/-- C37.  A second `fix_vertices` reports false and changes nothing. -/
theorem C37_fix_vertices_idempotent (hl : env.Lawful) (hr : re.Lawful) (K : Tri V) :
    fixVertices env re (fixVertices env re K).2 = (false, (fixVertices env re K).2) := by
  obtain ⟨h1, _, _, h4, h5, _⟩ := C37_fix_vertices hl hr K
  have h0 : findIncorrectVertices env re (fixVertices env re K).2 = [] := by
    rw [List.eq_nil_iff_forall_not_mem]
    intro v hv
    obtain ⟨ha, hb⟩ := (mem_findIncorrectVertices hl hr).1 hv
    rw [h4, h5] at ha
    exact hb (h1 v ha).symm
  unfold fixVertices at h0 ⊢
  dsimp only at h0 ⊢
  rw [h0]
  rfl

/-- C37.  `fix_cells` reports true exactly when some finite tetrahedron carries a wrong label or is
acausal; afterwards every causal finite tetrahedron carries its correct label, every acausal one
the code 99, and topology, times and infinite cells are untouched. -/
theorem C37_fix_cells (hl : env.Lawful) {K : Tri V} (hK : ∀ c ∈ K.cells, c.card = 4) :
    let r := fixCells env K
    (r.1 = true ↔ ∃ c ∈ finitePart K.inf K.cells, K.typeCorrect c = false) ∧
    (∀ c ∈ finitePart K.inf K.cells, CausalCell K.time c → r.2.typeCorrect c = true) ∧
    (∀ c ∈ finitePart K.inf K.cells, ¬ CausalCell K.time c → r.2.info c = 99) ∧
    (∀ c, c ∉ finitePart K.inf K.cells → r.2.info c = K.info c) ∧
    r.2.cells = K.cells ∧ r.2.inf = K.inf ∧ r.2.time = K.time := by
  intro r
  obtain ⟨h1, h2, h3, h4⟩ := foldl_info (findIncorrectCells env K) K
  have hm := fun c => mem_findIncorrectCells hl (K := K) (c := c)
  have hi : ∀ c, r.2.info c = if c ∈ findIncorrectCells env K then (K.expectedType c).code else K.info c := h4
  have ht : r.2.time = K.time := h3
  have tc : ∀ c, r.2.typeCorrect c = isCellTypeCorrect (K.cellTimes c) (r.2.info c) := by
    intro c; unfold Tri.typeCorrect Tri.cellTimes; rw [ht]
  refine ⟨?_, ?_, ?_, ?_, h2, h1, h3⟩
  · have hb : r.1 = !(findIncorrectCells env K).isEmpty := rfl
    rw [hb]
    simp only [Bool.not_eq_true', List.isEmpty_eq_false_iff]
    constructor
    · intro hne
      obtain ⟨c, hc⟩ := List.exists_mem_of_ne_nil _ hne
      exact ⟨c, (hm c).1 hc⟩
    · rintro ⟨c, hc⟩ he
      have := (hm c).2 hc
      rw [he] at this; simp at this
  · intro c hc hcc
    have h4 := hK c (Finset.mem_filter.1 hc).1
    rw [tc, hi]
    split_ifs with hb
    · have hac : K.expectedType c ≠ .acausal := fun e => (acausal_iff h4).1 e hcc
      have huc := expectedType_ne_unclassified (K := K) h4
      show (K.expectedType c != .acausal && K.expectedType c != .unclassified &&
        (K.expectedType c).code == (K.expectedType c).code) = true
      simp [hac, huc]
    · have := fun h => hb ((hm c).2 ⟨hc, h⟩)
      have h' : K.typeCorrect c = true := by simpa using this
      exact h'
  · intro c hc hcc
    have h4 := hK c (Finset.mem_filter.1 hc).1
    have he := (acausal_iff h4).2 hcc
    have hin : c ∈ findIncorrectCells env K := by
      rw [hm]
      refine ⟨hc, ?_⟩
      show (K.expectedType c != .acausal && K.expectedType c != .unclassified &&
        (K.expectedType c).code == K.info c) = false
      rw [he]; rfl
    rw [hi, if_pos hin, he]; rfl
  · intro c hc
    rw [hi, if_neg (fun h => hc ((hm c).1 h).1)]

/-- C37.  On a causal triangulation `fix_cells` reports true exactly when a label changed, and
afterwards the whole triangulation passes `check_cells`. -/
theorem C37_fix_cells_causal (hl : env.Lawful) {K : Tri V} (hK : ∀ c ∈ K.cells, c.card = 4)
    (hc : Causal K.inf K.time K.cells) :
    ((fixCells env K).1 = true ↔ ∃ c, (fixCells env K).2.info c ≠ K.info c) ∧
    checkCells (fixCells env K).2 = true := by
  obtain ⟨h1, h2, _, h3, h4, h5, h6⟩ := C37_fix_cells hl hK
  have hcc : ∀ c ∈ finitePart K.inf K.cells, CausalCell K.time c := fun c hm =>
    hc c (Finset.mem_filter.1 hm).1 (Finset.mem_filter.1 hm).2
  constructor
  · rw [h1]
    constructor
    · rintro ⟨c, hm, hw⟩
      refine ⟨c, fun he => ?_⟩
      have h7 := h2 c hm (hcc c hm)
      unfold Tri.typeCorrect Tri.cellTimes at h7 hw
      rw [he, h6] at h7
      rw [h7] at hw; simp at hw
    · rintro ⟨c, hne⟩
      have hm : c ∈ finitePart K.inf K.cells := by
        by_contra hm; exact hne (h3 c hm)
      refine ⟨c, hm, ?_⟩
      by_contra ht
      have ht' : K.typeCorrect c = true := by simpa using ht
      have h7 := h2 c hm (hcc c hm)
      have h4c := hK c (Finset.mem_filter.1 hm).1
      have e1 := (typeCorrect_iff h4c).1 ht'
      have hK2 : ∀ d ∈ (fixCells env K).2.cells, d.card = 4 := by rw [h4]; exact hK
      have e2 := (typeCorrect_iff (K := (fixCells env K).2) h4c).1 h7
      rw [h6] at e2
      have uq : ∀ {i j i' j' : ℕ}, 1 ≤ i → 1 ≤ j → 1 ≤ i' → 1 ≤ j' → HasType K.time i j c →
          HasType K.time i' j' c → i = i' := fun a b c' d x y => (hasType_unique (K := K) a b c' d x y).1
      rcases e1 with ⟨a, x⟩ | ⟨a, x⟩ | ⟨a, x⟩ <;> rcases e2 with ⟨b, y⟩ | ⟨b, y⟩ | ⟨b, y⟩ <;>
        first
        | exact hne (b.trans a.symm)
        | (have := uq (by omega) (by omega) (by omega) (by omega) x y; omega)
  · unfold checkCells
    rw [decide_eq_true_eq]
    intro c hm
    have hm' : c ∈ finitePart K.inf K.cells := by
      have : c ∈ finitePart (fixCells env K).2.inf (fixCells env K).2.cells := hm
      rwa [h4, h5] at this
    exact h2 c hm' (hcc c hm')

/-- C37.  A second `fix_cells` never changes anything; it reports true again exactly when the
triangulation contains an acausal tetrahedron (so its return value is not a progress report
there). -/
theorem C37_fix_cells_idempotent (hl : env.Lawful) {K : Tri V} (hK : ∀ c ∈ K.cells, c.card = 4) :
    (fixCells env (fixCells env K).2).2 = (fixCells env K).2 ∧
    ((fixCells env (fixCells env K).2).1 = true ↔ ¬ Causal K.inf K.time K.cells) := by
  obtain ⟨h1, h2, h3, h4, h5, h6, h7⟩ := C37_fix_cells hl hK
  have hK' : ∀ c ∈ (fixCells env K).2.cells, c.card = 4 := by rw [h5]; exact hK
  obtain ⟨g1, g2, g3, g4, g5, g6, g7⟩ := C37_fix_cells hl hK'
  rw [h5, h6] at g1 g2 g3 g4
  rw [h7] at g2 g3
  constructor
  · apply tri_ext g6 g5 g7
    funext c
    by_cases hm : c ∈ finitePart K.inf K.cells
    · by_cases hcc : CausalCell K.time c
      · have e1 := h2 c hm hcc
        have e2 := g2 c hm hcc
        unfold Tri.typeCorrect Tri.cellTimes isCellTypeCorrect at e1 e2
        rw [g7] at e2
        simp only [Bool.and_eq_true, beq_iff_eq] at e1 e2
        rw [← e1.2, ← e2.2]
      · rw [h3 c hm hcc, g3 c hm hcc]
    · rw [g4 c hm]
  · rw [g1]
    constructor
    · rintro ⟨c, hm, hw⟩ hc
      have := h2 c hm (hc c (Finset.mem_filter.1 hm).1 (Finset.mem_filter.1 hm).2)
      rw [this] at hw; simp at hw
    · intro hn
      unfold Causal at hn
      push Not at hn
      obtain ⟨c, hm, hi, hcc⟩ := hn
      have hmf : c ∈ finitePart K.inf K.cells := Finset.mem_filter.2 ⟨hm, hi⟩
      have hnc : ¬ CausalCell K.time c := by unfold CausalCell; tauto
      refine ⟨c, hmf, ?_⟩
      have he := (acausal_iff (hK c hm)).2 hnc
      show ((fixCells env K).2.expectedType c != .acausal && _ && _) = false
      have : (fixCells env K).2.expectedType c = K.expectedType c := by
        unfold Tri.expectedType Tri.cellTimes; rw [h7]
      rw [this, he]; rfl

/-- C37, finding.  `fix_cells` can report a fix although nothing was changed. -/
theorem C37_fix_cells_reports_without_change (hl : env.Lawful) {K : Tri V}
    (hK : ∀ c ∈ K.cells, c.card = 4) (hn : ¬ Causal K.inf K.time K.cells) :
    ∃ L : Tri V, L.cells = K.cells ∧ (∀ c ∈ L.cells, c.card = 4) ∧ fixCells env L = (true, L) := by
  obtain ⟨_, _, _, _, h5, _, _⟩ := C37_fix_cells hl hK
  obtain ⟨h1, h2⟩ := C37_fix_cells_idempotent hl hK
  exact ⟨(fixCells env K).2, h5, by rw [h5]; exact hK, Prod.ext (h2.2 hn) h1⟩

/-- C37.  On a constructed triangulation the methods `fix_vertices` and `fix_cells` leave the
published value unchanged; `fix_vertices` reports false. -/
theorem C37_methods_on_constructed (hl : env.Lawful) (hr : re.Lawful) {K K' : Tri V} {cs : Caches V}
    (hK : ∀ c ∈ K.cells, c.card = 4) (h : construct env K = .ok (K', cs)) :
    fixVerticesMethod env re (K', cs) = .ok (false, (K', cs)) ∧
    ∃ b, fixCellsMethod env (K', cs) = .ok (b, (K', cs)) ∧
      (b = true ↔ ¬ Causal K'.inf K'.time K'.cells) := by
  obtain ⟨he, hb⟩ := construct_ok h
  have hlab : ∀ v, v ≠ K'.inf → K'.time v = env.label v := by
    intro v hv
    rw [he] at hv ⊢
    simp only [makeManifold, relabel] at hv ⊢
    rw [if_neg hv]
  have h0 : findIncorrectVertices env re K' = [] := by
    rw [List.eq_nil_iff_forall_not_mem]
    intro v hv
    obtain ⟨h1, h2⟩ := (mem_findIncorrectVertices hl hr).1 hv
    obtain ⟨c, hc, hvc⟩ := mem_vertices.1 h1
    exact h2 (hlab v (fun e => (Finset.mem_filter.1 hc).2 (e ▸ hvc))).symm
  have hcells : K'.cells = K.cells := by rw [he]; rfl
  have hK' : ∀ c ∈ K'.cells, c.card = 4 := by rw [hcells]; exact hK
  refine ⟨?_, (fixCells env K').1, ?_, ?_⟩
  · unfold fixVerticesMethod fixVertices
    dsimp only
    rw [h0]
    rfl
  · have hfix : (fixCells env K').2 = K' := by
      obtain ⟨_, g2, g3, g4, g5, g6, g7⟩ := C37_fix_cells hl hK'
      apply tri_ext g6 g5 g7
      funext c
      by_cases hm : c ∈ finitePart K'.inf K'.cells
      · have h4 := hK' c (Finset.mem_filter.1 hm).1
        have hinf : K'.inf ∉ c := (Finset.mem_filter.1 hm).2
        have hinfo : K'.info c = (K'.expectedType c).code := by
          rw [he] at hinf ⊢
          simp only [makeManifold, relabel] at hinf ⊢
          rw [if_neg hinf]; rfl
        by_cases hcc : CausalCell K'.time c
        · have e2 := g2 c hm hcc
          unfold Tri.typeCorrect Tri.cellTimes isCellTypeCorrect at e2
          rw [g7] at e2
          simp only [Bool.and_eq_true, beq_iff_eq] at e2
          rw [← e2.2, hinfo]; rfl
        · rw [g3 c hm hcc, hinfo, (acausal_iff h4).2 hcc]; rfl
      · exact g4 c hm
    have hcon : construct env K' = .ok (K', cs) := by
      have hi : makeManifold env K' = K' := by rw [he]; exact makeManifold_idem K
      unfold construct
      rw [hi, hb]
    unfold fixCellsMethod
    dsimp only
    rw [hfix, hcon]
    by_cases hx : (fixCells env K').1 = true
    · rw [if_pos hx, hx]
    · have : (fixCells env K').1 = false := by simpa using hx
      rw [if_neg hx, this]
  · obtain ⟨g1, g2, _⟩ := C37_fix_cells hl hK'
    rw [g1]
    constructor
    · rintro ⟨c, hm, hw⟩ hc
      have hinf : K'.inf ∉ c := (Finset.mem_filter.1 hm).2
      have hck := correct_relabel hK' hc c hm
      have hinfo : (relabel K').info c = K'.info c := by
        simp only [relabel, hinf, if_false]
        rw [he] at hinf ⊢
        simp only [makeManifold, relabel] at hinf ⊢
        rw [if_neg hinf]; rfl
      have : K'.typeCorrect c = true := by
        unfold Tri.typeCorrect at hck ⊢
        rw [hinfo] at hck; exact hck
      rw [this] at hw; simp at hw
    · intro hn
      unfold Causal at hn
      push Not at hn
      obtain ⟨c, hm, hi, hcc⟩ := hn
      refine ⟨c, Finset.mem_filter.2 ⟨hm, hi⟩, ?_⟩
      have hnc : ¬ CausalCell K'.time c := by unfold CausalCell; tauto
      have hx := (acausal_iff (hK' c hm)).2 hnc
      show (K'.expectedType c != .acausal && _ && _) = false
      rw [hx]; rfl

/-! ### C38 -/

/-- C38.  `find_bad_vertex` returns a vertex of the cell whose time is extreme in it. -/
theorem C38_bad_vertex_extreme (hr : re.Lawful) (K : Tri V) {c : Finset V} (h : c.Nonempty) :
    ∃ v ∈ c, findBadVertex re K c = some v ∧
      ((∀ u ∈ c, K.time u ≤ K.time v) ∨ (∀ u ∈ c, K.time v ≤ K.time u)) :=
  findBadVertex_spec hr K h

/-- C38.  One pass of `fix_timevalues`: on a causal triangulation it reports false and changes
nothing; otherwise it reports true and removes at least one point, each removed point being an
extreme-time vertex of an acausal tetrahedron; the remaining points keep their times. -/
theorem C38_pass (hl : env.Lawful) (hr : re.Lawful) {D : Del V} (hw : D.Wf) :
    (Causal D.tri.inf D.tri.time D.tri.cells → fixTimevalues env re D = (false, D)) ∧
    (¬ Causal D.tri.inf D.tri.time D.tri.cells →
      (fixTimevalues env re D).1 = true ∧ (fixTimevalues env re D).2.points ⊂ D.points ∧
      (∀ v ∈ D.points \ (fixTimevalues env re D).2.points,
        ∃ c ∈ finitePart D.tri.inf D.tri.cells, ¬ CausalCell D.tri.time c ∧ v ∈ c ∧
          ((∀ u ∈ c, D.tri.time u ≤ D.tri.time v) ∨ (∀ u ∈ c, D.tri.time v ≤ D.tri.time u))) ∧
      (∀ v ∈ (fixTimevalues env re D).2.points,
        (fixTimevalues env re D).2.tri.time v = D.tri.time v) ∧
      (fixTimevalues env re D).2.Wf) := by
  constructor
  · intro hc
    unfold fixTimevalues
    rw [if_pos ((invalid_empty_iff hl hw.card).2 hc)]
  · intro hc
    have hne : ¬ (findInvalidTimevalueCells env D.tri).isEmpty = true :=
      fun h => hc ((invalid_empty_iff hl hw.card).1 h)
    have hsub := toRemove_subset (env := env) hl hr hw
    have hpts : (fixTimevalues env re D).2.points = D.points \ verticesToRemove env re D.tri := by
      unfold fixTimevalues; rw [if_neg hne]; exact hr.remove_points _ _ hsub
    have h1 : ∀ c ∈ findInvalidTimevalueCells env D.tri, c.Nonempty := by
      intro c hc
      have := Finset.mem_filter.1 ((mem_invalid hl hw.card).1 hc).1
      exact Finset.card_pos.1 (by rw [hw.card c this.1]; omega)
    refine ⟨by unfold fixTimevalues; rw [if_neg hne], ?_, ?_, ?_, ?_⟩
    · rw [hpts]
      rw [List.isEmpty_iff] at hne
      obtain ⟨c, hcm⟩ := List.exists_mem_of_ne_nil _ hne
      obtain ⟨v, hv, hb, _⟩ := findBadVertex_spec hr D.tri (h1 c hcm)
      have hvr : v ∈ verticesToRemove env re D.tri := mem_toRemove.2 ⟨c, hcm, hb⟩
      refine Finset.ssubset_iff_subset_ne.2 ⟨Finset.sdiff_subset, fun he => ?_⟩
      have := hsub hvr
      rw [← he] at this
      exact (Finset.mem_sdiff.1 this).2 hvr
    · rw [hpts]
      intro v hv
      have hvr : v ∈ verticesToRemove env re D.tri := by
        simp only [Finset.mem_sdiff] at hv; tauto
      obtain ⟨c, hcm, hb⟩ := mem_toRemove.1 hvr
      obtain ⟨u, hu, hb', hx⟩ := findBadVertex_spec hr D.tri (h1 c hcm)
      rw [hb] at hb'
      injection hb' with hb'
      subst hb'
      obtain ⟨h2, h3⟩ := (mem_invalid hl hw.card).1 hcm
      exact ⟨c, h2, h3, hu, hx⟩
    · intro v hv
      rw [hpts] at hv
      unfold fixTimevalues; rw [if_neg hne]
      exact hr.remove_time _ _ hsub v hv
    · unfold fixTimevalues; rw [if_neg hne]
      exact hr.remove_wf _ _ hsub hw

theorem step_wf (hl : env.Lawful) (hr : re.Lawful) {D : Del V} (hw : D.Wf) :
    (fixTimevalues env re D).2.Wf := by
  by_cases hc : Causal D.tri.inf D.tri.time D.tri.cells
  · rw [(C38_pass hl hr hw).1 hc]; exact hw
  · exact ((C38_pass hl hr hw).2 hc).2.2.2.2

theorem iterate_wf (hl : env.Lawful) (hr : re.Lawful) {D : Del V} (hw : D.Wf) (n : ℕ) :
    ((fun D => (fixTimevalues env re D).2)^[n] D).Wf := by
  induction n with
  | zero => exact hw
  | succ n ih => rw [Function.iterate_succ_apply']; exact step_wf hl hr ih

/-- C38.  Repeated time-value repair terminates on every input, after at most one productive pass
per point beyond the three that cannot form a tetrahedron, and what it ends with is causal. -/
theorem C38_terminates (hl : env.Lawful) (hr : re.Lawful) {D : Del V} (hw : D.Wf) :
    ∃ n, n ≤ D.points.card - 3 ∧
      let E := (fun D => (fixTimevalues env re D).2)^[n] D
      fixTimevalues env re E = (false, E) ∧ Causal E.tri.inf E.tri.time E.tri.cells := by
  generalize hk : D.points.card = k
  induction k using Nat.strong_induction_on generalizing D with
  | _ k ih =>
    by_cases hc : Causal D.tri.inf D.tri.time D.tri.cells
    · exact ⟨0, by omega, (C38_pass hl hr hw).1 hc, hc⟩
    · obtain ⟨_, hlt, _, _, hw'⟩ := (C38_pass hl hr hw).2 hc
      have hcard := Finset.card_lt_card hlt
      have h4 : 4 ≤ k := by
        have hc' := hc
        unfold Causal at hc'
        push Not at hc'
        obtain ⟨c, hm, hi, _⟩ := hc'
        have hsub : c ⊆ D.points := fun v hv =>
          hw.verts (mem_finiteVerts.2 ⟨fun e => hi (e ▸ hv), c, hm, hv⟩)
        have := Finset.card_le_card hsub
        rw [hw.card c hm] at this
        omega
      obtain ⟨n, hn, hE⟩ := ih _ (by omega) hw' rfl
      refine ⟨n + 1, by omega, ?_⟩
      rw [Function.iterate_succ_apply]
      exact hE

/-! ### C39 -/

theorem fixTimevalues_false (hl : env.Lawful) (hr : re.Lawful) (D : Del V) :
    (fixTimevalues env re D).1 = false → (fixTimevalues env re D).2 = D := by
  unfold fixTimevalues
  split_ifs <;> simp

theorem fixVertices_false (K : Tri V) :
    (fixVertices env re K).1 = false → (fixVertices env re K).2 = K := by
  unfold fixVertices
  dsimp only
  intro h
  have : findIncorrectVertices env re K = [] := by simpa using h
  rw [this]; rfl

theorem fixCells_false (K : Tri V) :
    (fixCells env K).1 = false → (fixCells env K).2 = K := by
  unfold fixCells
  dsimp only
  intro h
  have : findIncorrectCells env K = [] := by simpa using h
  rw [this]; rfl

/-- The time-value loop of `make_triangulation` alone. -/
abbrev timeLoop (env : Env V G) (re : RepairEnv V) (D : Del V) : Del V :=
  passes (fixTimevalues env re) maxFixPasses D

theorem passes_vertices (hl : env.Lawful) (hr : re.Lawful) (K : Tri V) :
    passes (fixVertices env re) maxFixPasses K = (fixVertices env re K).2 := by
  show passes (fixVertices env re) (48 + 2) K = _
  have h := C37_fix_vertices_idempotent hl hr K
  by_cases hx : (fixVertices env re K).1 = true
  · rw [show 48 + 2 = 49 + 1 from rfl, passes, if_pos hx, show 49 = 48 + 1 from rfl, passes, h]
    simp
  · rw [show 48 + 2 = 49 + 1 from rfl, passes, if_neg hx]

theorem passes_cells (hl : env.Lawful) {K : Tri V} (hK : ∀ c ∈ K.cells, c.card = 4) (n : ℕ) :
    passes (fixCells env) (n + 1) K = (fixCells env K).2 := by
  induction n generalizing K with
  | zero =>
    unfold passes
    by_cases hx : (fixCells env K).1 = true
    · rw [if_pos hx]; rfl
    · rw [if_neg hx]
  | succ n ih =>
    rw [passes]
    by_cases hx : (fixCells env K).1 = true
    · rw [if_pos hx, ih (by rw [(C37_fix_cells hl hK).2.2.2.2.1]; exact hK),
        (C37_fix_cells_idempotent hl hK).1]
    · rw [if_neg hx]

/-- C39.  What the construction loops return is causal exactly when the time-value repair settles
within the pass limit of fifty, i.e. when the triangulation after some number of at most fifty
passes is causal. -/
theorem C39_foliated_iff (hl : env.Lawful) (hr : re.Lawful) {D : Del V} (hw : D.Wf) :
    let D1 : Del V := { D with tri := (fixVertices env re D.tri).2 }
    let E := repairLoops env re D
    Causal E.tri.inf E.tri.time E.tri.cells ↔
      ∃ n ≤ 50, let F := (fun D => (fixTimevalues env re D).2)^[n] D1
        Causal F.tri.inf F.tri.time F.tri.cells := by
  intro D1 E
  obtain ⟨v1, v2, v3, v4, v5, v6⟩ := C37_fix_vertices (re := re) hl hr D.tri
  have hw1 : D1.Wf := by
    refine ⟨?_, ?_, ?_⟩
    · have : D1.tri.finiteVerts = D.tri.finiteVerts := by
        unfold Tri.finiteVerts Tri.verts
        show ((fixVertices env re D.tri).2.cells.biUnion id).erase (fixVertices env re D.tri).2.inf = _
        rw [v4, v5]
      rw [this]; exact hw.verts
    · show ∀ c ∈ (fixVertices env re D.tri).2.cells, _
      rw [v4]; exact hw.card
    · show (fixVertices env re D.tri).2.inf ∉ D.points
      rw [v5]; exact hw.inf
  have hE : E = { timeLoop env re D1 with tri := (fixCells env (timeLoop env re D1).tri).2 } := by
    show repairLoops env re D = _
    unfold repairLoops
    dsimp only
    rw [passes_vertices hl hr]
    obtain ⟨k, _, hk, _⟩ := passes_spec (fixTimevalues env re) (fun s => fixTimevalues_false hl hr s) maxFixPasses D1
    have hw2 : (timeLoop env re D1).Wf := by
      show Del.Wf (passes _ _ _)
      rw [hk]; exact iterate_wf hl hr hw1 k
    have := passes_cells hl hw2.card 49
    show Del.mk _ _ = Del.mk _ _
    congr 1
  obtain ⟨k, hk50, hk, hprod, hend⟩ :=
    passes_spec (fixTimevalues env re) (fun s => fixTimevalues_false hl hr s) maxFixPasses D1
  have hk' : timeLoop env re D1 = (fun D => (fixTimevalues env re D).2)^[k] D1 := hk
  have hw2 : (timeLoop env re D1).Wf := by rw [hk']; exact iterate_wf hl hr hw1 k
  obtain ⟨_, _, _, _, c5, c6, c7⟩ := C37_fix_cells hl hw2.card
  have hEc : Causal E.tri.inf E.tri.time E.tri.cells ↔
      Causal (timeLoop env re D1).tri.inf (timeLoop env re D1).tri.time (timeLoop env re D1).tri.cells := by
    rw [hE]
    show Causal (fixCells env _).2.inf (fixCells env _).2.time (fixCells env _).2.cells ↔ _
    rw [c5, c6, c7]
  rw [hEc]
  constructor
  · intro hc
    rw [hk'] at hc
    exact ⟨k, hk50, hc⟩
  · rintro ⟨n, hn, hc⟩
    rcases hend with rfl | hend
    · by_cases hnk : n = maxFixPasses
      · subst hnk; rw [hk']; exact hc
      · exfalso
        have hp := hprod n (by unfold maxFixPasses at *; omega)
        rw [(C38_pass hl hr (iterate_wf hl hr hw1 n)).1 hc] at hp
        simp at hp
    · by_contra hnc
      have := ((C38_pass hl hr hw2).2 hnc).1
      have he : (fixTimevalues env re (timeLoop env re D1)).1 = false := hend
      rw [he] at this; simp at this

/-- C39.  Whenever the returned triangulation is causal, all its labels are correct and every
vertex of a tetrahedron has the time implied by its radius. -/
theorem C39_result_labels (hl : env.Lawful) (hr : re.Lawful) {D : Del V} (hw : D.Wf)
    (hverts : ∀ v ∈ D.points, v ∈ vertices (finitePart D.tri.inf D.tri.cells)) :
    let E := repairLoops env re D
    E.points ⊆ D.points ∧
    (∀ v ∈ E.points, E.tri.time v = env.label v) ∧
    (∀ c ∈ finitePart E.tri.inf E.tri.cells, CausalCell E.tri.time c → E.tri.typeCorrect c = true) ∧
    (Causal E.tri.inf E.tri.time E.tri.cells → checkCells E.tri = true) := by
  intro E
  obtain ⟨v1, v2, v3, v4, v5, v6⟩ := C37_fix_vertices (re := re) hl hr D.tri
  let D1 : Del V := { D with tri := (fixVertices env re D.tri).2 }
  have hw1 : D1.Wf := by
    refine ⟨?_, ?_, ?_⟩
    · have : D1.tri.finiteVerts = D.tri.finiteVerts := by
        unfold Tri.finiteVerts Tri.verts
        show ((fixVertices env re D.tri).2.cells.biUnion id).erase (fixVertices env re D.tri).2.inf = _
        rw [v4, v5]
      rw [this]; exact hw.verts
    · show ∀ c ∈ (fixVertices env re D.tri).2.cells, _
      rw [v4]; exact hw.card
    · show (fixVertices env re D.tri).2.inf ∉ D.points
      rw [v5]; exact hw.inf
  obtain ⟨k, hk50, hk, _, _⟩ :=
    passes_spec (fixTimevalues env re) (fun s => fixTimevalues_false hl hr s) maxFixPasses D1
  have hinv : ∀ n, ((fun D => (fixTimevalues env re D).2)^[n] D1).points ⊆ D.points ∧
      ∀ v ∈ ((fun D => (fixTimevalues env re D).2)^[n] D1).points,
        ((fun D => (fixTimevalues env re D).2)^[n] D1).tri.time v = env.label v := by
    intro n
    induction n with
    | zero => exact ⟨subset_rfl, fun v hv => v1 v (hverts v hv)⟩
    | succ n ih =>
      rw [Function.iterate_succ_apply']
      have hwn := iterate_wf hl hr hw1 n
      generalize (fun D => (fixTimevalues env re D).2)^[n] D1 = F at *
      by_cases hc : Causal F.tri.inf F.tri.time F.tri.cells
      · rw [(C38_pass hl hr hwn).1 hc]; exact ih
      · obtain ⟨_, hs, _, ht, _⟩ := (C38_pass hl hr hwn).2 hc
        exact ⟨hs.1.trans ih.1, fun v hv => by rw [ht v hv]; exact ih.2 v (hs.1 hv)⟩
  have hw2 : (timeLoop env re D1).Wf := by
    show Del.Wf (passes _ _ _)
    rw [hk]; exact iterate_wf hl hr hw1 k
  have hE : E = { timeLoop env re D1 with tri := (fixCells env (timeLoop env re D1).tri).2 } := by
    show repairLoops env re D = _
    unfold repairLoops
    dsimp only
    rw [passes_vertices hl hr]
    have := passes_cells hl hw2.card 49
    show Del.mk _ _ = Del.mk _ _
    congr 1
  obtain ⟨_, c2, _, _, c5, c6, c7⟩ := C37_fix_cells hl hw2.card
  have hk' : timeLoop env re D1 = (fun D => (fixTimevalues env re D).2)^[k] D1 := hk
  have hlab := hinv k
  rw [← hk'] at hlab
  have hc2 : ∀ c ∈ finitePart E.tri.inf E.tri.cells, CausalCell E.tri.time c → E.tri.typeCorrect c = true := by
    rw [hE]
    show ∀ c ∈ finitePart (fixCells env _).2.inf (fixCells env _).2.cells,
      CausalCell (fixCells env _).2.time c → (fixCells env _).2.typeCorrect c = true
    rw [c5, c6, c7]; exact c2
  refine ⟨by rw [hE]; exact hlab.1, ?_, hc2, ?_⟩
  · rw [hE]
    show ∀ v ∈ (timeLoop env re D1).points, (fixCells env _).2.time v = env.label v
    rw [c7]; exact hlab.2
  · intro hc
    unfold checkCells
    rw [decide_eq_true_eq]
    intro c hm
    exact hc2 c hm (hc c (Finset.mem_filter.1 hm).1 (Finset.mem_filter.1 hm).2)

/-- C39, the part that holds unconditionally: with at most fifty-three points the limit of fifty
passes cannot bite, so the result is foliated.  The full claim (for every number of points) is
false; see `C39_pass_limit_leaves_acausal`. -/
theorem C39_small_partial (hl : env.Lawful) (hr : re.Lawful) {D : Del V} (hw : D.Wf)
    (hn : D.points.card ≤ 53) :
    let E := repairLoops env re D
    Causal E.tri.inf E.tri.time E.tri.cells := by
  intro E
  refine (C39_foliated_iff hl hr hw).2 ?_
  obtain ⟨v1, v2, v3, v4, v5, v6⟩ := C37_fix_vertices (re := re) hl hr D.tri
  have hw1 : Del.Wf { D with tri := (fixVertices env re D.tri).2 } := by
    refine ⟨?_, ?_, ?_⟩
    · have : (fixVertices env re D.tri).2.finiteVerts = D.tri.finiteVerts := by
        unfold Tri.finiteVerts Tri.verts
        rw [v4, v5]
      show (fixVertices env re D.tri).2.finiteVerts ⊆ _
      rw [this]; exact hw.verts
    · show ∀ c ∈ (fixVertices env re D.tri).2.cells, _
      rw [v4]; exact hw.card
    · show (fixVertices env re D.tri).2.inf ∉ D.points
      rw [v5]; exact hw.inf
  obtain ⟨n, h1, _, h2⟩ := C38_terminates (re := re) hl hr hw1
  exact ⟨n, by have : ({ D with tri := (fixVertices env re D.tri).2 } : Del V).points.card ≤ 53 := hn
               omega, h2⟩

/-- C39, finding.  The claim without the pass limit is false: for every number of points from 54
on there are lawful environments and a starting triangulation (a fan whose points all carry the
time of their radius) that the construction loops return while it still contains acausal
tetrahedra. -/
theorem C39_pass_limit_leaves_acausal (S : Finset ℕ) (h0 : 0 ∉ S) (hS : 54 ≤ S.card)
    (h1 : ∀ v ∈ S, v % 10 = 1) :
    Fixture.env.Lawful ∧ Fixture.fanRepair.Lawful ∧
    let D : Del ℕ := ⟨S, Fixture.fan 0 (fun v => (v % 10 : ℕ)) S⟩
    D.Wf ∧ (∀ v ∈ S, D.tri.time v = Fixture.env.label v) ∧
      let E := repairLoops Fixture.env Fixture.fanRepair D
      ¬ Causal E.tri.inf E.tri.time E.tri.cells := by
  refine ⟨Fixture.lawful, Fixture.fanLawful, ?_⟩
  intro D
  have hw : D.Wf := Fixture.fan_wf h0
  have ht : ∀ v ∈ S, (fun v : ℕ => ((v % 10 : ℕ) : ℤ)) v = 1 := by
    intro v hv; simp only; rw [h1 v hv]; rfl
  refine ⟨hw, fun v _ => rfl, ?_⟩
  have hfix : fixVertices Fixture.env Fixture.fanRepair D.tri = (false, D.tri) := by
    have : findIncorrectVertices Fixture.env Fixture.fanRepair D.tri = [] := by
      rw [List.eq_nil_iff_forall_not_mem]
      intro v hv
      exact ((mem_findIncorrectVertices Fixture.lawful Fixture.fanLawful).1 hv).2 rfl
    unfold fixVertices
    rw [this]; rfl
  obtain ⟨T, hT, hc, hp⟩ := Fixture.fan_passes (inf := 0) 50 h0 (by omega) ht
  have hT0 : 0 ∉ T := fun h => h0 (hT h)
  have hnc := Fixture.fan_not_causal hT0 (by omega) (fun v hv => ht v (hT hv))
  have hwT : Del.Wf ⟨T, Fixture.fan 0 (fun v => (v % 10 : ℕ)) T⟩ := Fixture.fan_wf hT0
  obtain ⟨_, _, _, _, c5, c6, c7⟩ := C37_fix_cells Fixture.lawful hwT.card
  have hE : repairLoops Fixture.env Fixture.fanRepair D =
      ⟨T, (fixCells Fixture.env (Fixture.fan 0 (fun v => (v % 10 : ℕ)) T)).2⟩ := by
    unfold repairLoops
    dsimp only
    rw [passes_vertices Fixture.lawful Fixture.fanLawful, hfix]
    have hp' : passes (fixTimevalues Fixture.env Fixture.fanRepair) maxFixPasses
        { points := D.points, tri := D.tri } = _ := hp
    rw [hp']
    have := passes_cells Fixture.lawful hwT.card 49
    show Del.mk _ _ = Del.mk _ _
    congr 1
  intro E
  show ¬ Causal (repairLoops Fixture.env Fixture.fanRepair D).tri.inf _ _
  have hEt : E.tri = (fixCells Fixture.env (Fixture.fan 0 (fun v => (v % 10 : ℕ)) T)).2 := by
    show (repairLoops Fixture.env Fixture.fanRepair D).tri = _
    rw [hE]
  show ¬ Causal E.tri.inf E.tri.time E.tri.cells
  rw [hEt, c5, c6, c7]
  exact hnc

example : ∃ S : Finset ℕ, 0 ∉ S ∧ 54 ≤ S.card ∧ ∀ v ∈ S, v % 10 = 1 :=
  ⟨(Finset.range 60).image (fun i => 10 * i + 1), by decide +kernel, by decide +kernel, by decide +kernel⟩

/-! Hypotheses are met by concrete triangulations. -/

/-- A ball with one wrongly placed vertex label: `fix_vertices`, `fix_cells` and a time-value pass
all have something to do. -/
def Fixture.broken : Tri ℕ :=
  { Fixture.k26 with time := fun v => if v = 43 then 5 else Fixture.k26.time v }

example : (fixVertices Fixture.env Fixture.fanRepair Fixture.broken).1 = true ∧
    (fixCells Fixture.env Fixture.broken).1 = true ∧
    (∀ c ∈ Fixture.broken.cells, c.card = 4) ∧
    verticesToRemove Fixture.env Fixture.fanRepair Fixture.broken = {43} := by decide +kernel

example : Del.Wf ⟨Fixture.broken.finiteVerts, Fixture.broken⟩ :=
  ⟨subset_rfl, by decide +kernel, by decide +kernel⟩

end

end CDT.Props

/-
The moves of two triangulations that are the same manifold: same site tests, same executions.
-/
import Verif.Spec.Representation
import Verif.Props.Kernel

namespace CDT
open Spec Cavity Moves Props

variable {V G : Type} [LinearOrder V] {env : Env V G}

/-- Two results of an execution with the same complex, or the same failure. -/
def SameResult (r s : Except MoveFailure (Tri V)) : Prop :=
  match r, s with
  | .ok K, .ok L => L.inf = K.inf ∧ L.cells = K.cells
  | .error e, .error e' => e' = e
  | _, _ => False

theorem cellTimes_congr {K L : Tri V} (h : SameManifold K L) {c : Finset V} (hc : c ⊆ K.finiteVerts) :
    L.cellTimes c = K.cellTimes c := by
  unfold Tri.cellTimes
  refine List.map_congr_left fun v hv => ?_
  have := mem_finiteVerts.1 (hc (mem_canonicalPoints.1 hv))
  exact h.times v (mem_vertices.2 this.2) this.1

theorem sub_finiteVerts {K : Tri V} {c : Finset V} (h : c ∈ K.cells) (hi : K.inf ∉ c) : c ⊆ K.finiteVerts := by
  intro v hv
  exact mem_finiteVerts.2 ⟨fun e => hi (e ▸ hv), c, h, hv⟩

theorem expectedType_congr {K L : Tri V} (h : SameManifold K L) {c : Finset V} (hc : c ⊆ K.finiteVerts) :
    L.expectedType c = K.expectedType c := by
  unfold Tri.expectedType; rw [cellTimes_congr h hc]

theorem typeCorrect_congr {K L : Tri V} (h : SameManifold K L) {c : Finset V} (hc : c ∈ K.cells) (hi : K.inf ∉ c) :
    L.typeCorrect c = K.typeCorrect c := by
  unfold Tri.typeCorrect; rw [cellTimes_congr h (sub_finiteVerts hc hi), h.labels c hc hi]

theorem verts_congr {K L : Tri V} (h : SameManifold K L) : L.verts = K.verts := by unfold Tri.verts; rw [h.cells]
theorem mirror_congr {K L : Tri V} (h : SameManifold K L) (c : Finset V) (v : V) : L.mirror c v = K.mirror c v := by
  unfold Tri.mirror; rw [verts_congr h, h.cells]
theorem isEdge_congr {K L : Tri V} (h : SameManifold K L) (a b : V) : L.isEdge a b = K.isEdge a b := by
  unfold Tri.isEdge; rw [h.cells]
theorem edgeCells_congr {K L : Tri V} (h : SameManifold K L) (a b : V) : L.edgeCells a b = K.edgeCells a b := by
  unfold Tri.edgeCells; rw [h.cells]
theorem finiteCells_congr {K L : Tri V} (h : SameManifold K L) : L.finiteCells = K.finiteCells := by
  unfold Tri.finiteCells; rw [h.cells, h.inf]
theorem finiteEdges_congr {K L : Tri V} (h : SameManifold K L) : L.finiteEdges = K.finiteEdges := by
  unfold Tri.finiteEdges; rw [h.cells, h.inf]
theorem finiteVerts_congr {K L : Tri V} (h : SameManifold K L) : L.finiteVerts = K.finiteVerts := by
  unfold Tri.finiteVerts; rw [verts_congr h, h.inf]
theorem finiteIncidentCells_congr {K L : Tri V} (h : SameManifold K L) (a b : V) :
    finiteIncidentCells L a b = finiteIncidentCells K a b := by
  unfold finiteIncidentCells; rw [isEdge_congr h, edgeCells_congr h, h.inf]

theorem mirror_mem {K : Tri V} {c : Finset V} {v w : V} (h : K.mirror c v = some w) :
    w ∉ c ∧ insert w (c.erase v) ∈ K.cells := by
  have := Finset.mem_of_min h
  exact (Finset.mem_filter.1 this).2

theorem finiteIncident {K : Tri V} {a b : V} {cs : Finset (Finset V)} (h : finiteIncidentCells K a b = some cs) :
    a ≠ b ∧ cs = K.edgeCells a b ∧ (∀ c ∈ cs, c ∈ K.cells ∧ K.inf ∉ c) ∧ a ∈ K.finiteVerts ∧ b ∈ K.finiteVerts := by
  unfold finiteIncidentCells at h
  split_ifs at h with h1 h2
  injection h with h
  simp only [Bool.not_eq_true', Bool.not_eq_false, Tri.isEdge, decide_eq_true_eq] at h1
  obtain ⟨hne, d, hd, had, hbd⟩ := h1
  have key : ∀ c ∈ K.edgeCells a b, c ∈ K.cells ∧ K.inf ∉ c := by
    intro c hc
    refine ⟨(Finset.mem_filter.1 hc).1, fun hi => h2 ⟨c, hc, hi⟩⟩
  have hdd := key d (Finset.mem_filter.2 ⟨hd, had, hbd⟩)
  have hsub := sub_finiteVerts hdd.1 hdd.2
  exact ⟨hne, h.symm, h ▸ key, hsub had, hsub hbd⟩

theorem typeCount_congr {K L : Tri V} (h : SameManifold K L) {cs : Finset (Finset V)}
    (hcs : ∀ c ∈ cs, c ∈ K.cells ∧ K.inf ∉ c) (ct : CellType) : typeCount L cs ct = typeCount K cs ct := by
  unfold typeCount
  congr 1
  refine Finset.filter_congr fun c hc => ?_
  rw [expectedType_congr h (sub_finiteVerts (hcs c hc).1 (hcs c hc).2)]

theorem correctTypeCount_congr {K L : Tri V} (h : SameManifold K L) {cs : Finset (Finset V)}
    (hcs : ∀ c ∈ cs, c ∈ K.cells ∧ K.inf ∉ c) (ct : CellType) :
    correctTypeCount L cs ct = correctTypeCount K cs ct := by
  unfold correctTypeCount
  congr 1
  refine Finset.filter_congr fun c hc => ?_
  rw [expectedType_congr h (sub_finiteVerts (hcs c hc).1 (hcs c hc).2),
    typeCorrect_congr h (hcs c hc).1 (hcs c hc).2]

theorem time_congr {K L : Tri V} (h : SameManifold K L) {v : V} (hv : v ∈ K.finiteVerts) : L.time v = K.time v :=
  h.times v (mem_vertices.2 (mem_finiteVerts.1 hv).2) (mem_finiteVerts.1 hv).1

/-! ### Site tests -/

theorem facetQualifies_congr {K L : Tri V} (h : SameManifold K L) {c : Finset V} (hi : K.inf ∉ c)
    (hc : c ∈ K.cells) {i : V} (hic : i ∈ c) : facetQualifies L c i = facetQualifies K c i := by
  unfold facetQualifies
  rw [mirror_congr h]
  cases hm : K.mirror c i with
  | none => rfl
  | some w =>
    obtain ⟨-, hn⟩ := mirror_mem hm
    dsimp only
    rw [h.inf]
    by_cases hin : K.inf ∈ insert w (c.erase i)
    · rw [if_pos hin, if_pos hin]
    · rw [if_neg hin, if_neg hin, typeCorrect_congr h hn hin, expectedType_congr h (sub_finiteVerts hn hin),
        time_congr h (sub_finiteVerts hc hi hic), time_congr h (sub_finiteVerts hn hin (Finset.mem_insert_self _ _))]

theorem find?_congr {α : Type} {p q : α → Bool} : ∀ {l : List α}, (∀ a ∈ l, q a = p a) → l.find? q = l.find? p
  | [], _ => rfl
  | a :: l, hl => by
    rw [List.find?_cons, List.find?_cons, hl a (by simp), find?_congr (fun b hb => hl b (by simp [hb]))]

theorem prepareTwoThree_congr {K L : Tri V} (h : SameManifold K L) {c : Finset V} (hi : K.inf ∉ c) :
    prepareTwoThree L c = prepareTwoThree K c := by
  unfold prepareTwoThree
  rw [h.cells]
  by_cases hc : c ∉ K.cells
  · rw [if_pos hc, if_pos hc]
  · rw [if_neg hc, if_neg hc]
    have hc := not_not.1 hc
    rw [typeCorrect_congr h hc hi, expectedType_congr h (sub_finiteVerts hc hi),
      find?_congr (fun i hic => facetQualifies_congr h hi hc (mem_canonicalPoints.1 hic))]

theorem prepareThreeTwo_congr {K L : Tri V} (h : SameManifold K L) (a b : V) :
    prepareThreeTwo L a b = prepareThreeTwo K a b := by
  have key : is32Movable L a b = is32Movable K a b := by
    unfold is32Movable
    rw [finiteIncidentCells_congr h]
    cases hf : finiteIncidentCells K a b with
    | none => rfl
    | some cs =>
      obtain ⟨-, -, hcs, ha, hb⟩ := finiteIncident hf
      dsimp only
      have e : (∀ c ∈ cs, L.typeCorrect c = true) ↔ ∀ c ∈ cs, K.typeCorrect c = true :=
        forall₂_congr fun c hc => by rw [typeCorrect_congr h (hcs c hc).1 (hcs c hc).2]
      simp only [time_congr h ha, time_congr h hb, typeCount_congr h hcs, e]
  unfold prepareThreeTwo
  rw [isEdge_congr h, key]

theorem typeCorrect_code {K : Tri V} {c : Finset V} (h : K.typeCorrect c = true) (he : K.expectedType c = .threeOne) :
    K.info c = 31 := by
  unfold Tri.typeCorrect isCellTypeCorrect at h
  unfold Tri.expectedType at he
  simp only [he] at h
  have : (31 : ℤ) = K.info c := by simpa [CellType.code] using h
  exact this.symm

theorem partner31_congr {K L : Tri V} (h : SameManifold K L) (hK : QuietInfinity K) (hL : QuietInfinity L)
    (c : Finset V) (i : V) : partner31 L c i = partner31 K c i := by
  unfold partner31
  rw [mirror_congr h]
  cases hm : K.mirror c i with
  | none => rfl
  | some w =>
    obtain ⟨-, hn⟩ := mirror_mem hm
    dsimp only
    by_cases hin : K.inf ∈ insert w (c.erase i)
    · have e : ∀ M : Tri V, QuietInfinity M → insert w (c.erase i) ∈ M.cells → M.inf ∈ insert w (c.erase i) →
          (M.typeCorrect (insert w (c.erase i)) && M.expectedType (insert w (c.erase i)) == .threeOne) = false := by
        intro M hM h1 h2
        rw [Bool.eq_false_iff]
        intro k
        rw [Bool.and_eq_true, beq_iff_eq] at k
        exact hM _ h1 h2 (typeCorrect_code k.1 k.2)
      rw [e K hK hn hin, e L hL (h.cells ▸ hn) (h.inf ▸ hin)]
    · rw [typeCorrect_congr h hn hin, expectedType_congr h (sub_finiteVerts hn hin)]

theorem neighborCell_congr {K L : Tri V} (h : SameManifold K L) (c : Finset V) (i : V) :
    neighborCell L c i = neighborCell K c i := by
  unfold neighborCell; rw [mirror_congr h]

theorem prepareTwoSix_congr {K L : Tri V} (h : SameManifold K L) (hK : QuietInfinity K) (hL : QuietInfinity L)
    {c : Finset V} (hi : K.inf ∉ c) : prepareTwoSix L c = prepareTwoSix K c := by
  unfold prepareTwoSix
  rw [h.cells]
  by_cases hc : c ∉ K.cells
  · rw [if_pos hc, if_pos hc]
  · rw [if_neg hc, if_neg hc]
    have hc := not_not.1 hc
    have key : findAdjacent31 L c = findAdjacent31 K c := by
      unfold findAdjacent31
      have e : partner31 L c = partner31 K c := funext fun i => partner31_congr h hK hL c i
      have e2 : neighborCell L c = neighborCell K c := funext fun i => neighborCell_congr h c i
      rw [typeCorrect_congr h hc hi, expectedType_congr h (sub_finiteVerts hc hi), e, e2]
    rw [key]
    have ht : ∀ i, (∃ u ∈ c.erase i, ∃ v ∈ c.erase i, L.time u ≠ L.time v) ↔
        ∃ u ∈ c.erase i, ∃ v ∈ c.erase i, K.time u ≠ K.time v := by
      intro i
      have hs := sub_finiteVerts hc hi
      refine exists_congr fun u => and_congr_right fun hu => exists_congr fun v => and_congr_right fun hv => ?_
      rw [time_congr h (hs (Finset.mem_of_mem_erase hu)), time_congr h (hs (Finset.mem_of_mem_erase hv))]
    cases findAdjacent31 K c with
    | none => rfl
    | some i => simp only [ht]

theorem vertexCells_congr {K L : Tri V} (h : SameManifold K L) (v : V) : L.vertexCells v = K.vertexCells v := by
  unfold Tri.vertexCells; rw [h.cells]

theorem prepareSixTwo_congr {K L : Tri V} (h : SameManifold K L) (v : V) :
    prepareSixTwo L v = prepareSixTwo K v := by
  have key : is62Movable L v = is62Movable K v := by
    unfold is62Movable
    have hd : L.degree v = K.degree v := by unfold Tri.degree; rw [vertexCells_congr h]
    rw [verts_congr h, hd, vertexCells_congr h, h.inf]
    dsimp only
    by_cases hx : ∃ c ∈ K.vertexCells v, K.inf ∈ c
    · rw [if_pos hx, if_pos hx]
    · have hcs : ∀ c ∈ K.vertexCells v, c ∈ K.cells ∧ K.inf ∉ c := fun c hc =>
        ⟨(Finset.mem_filter.1 hc).1, fun hi => hx ⟨c, hc, hi⟩⟩
      have e : (∀ c ∈ K.vertexCells v, L.typeCorrect c = true) ↔ ∀ c ∈ K.vertexCells v, K.typeCorrect c = true :=
        forall₂_congr fun c hc => by rw [typeCorrect_congr h (hcs c hc).1 (hcs c hc).2]
      simp only [typeCount_congr h hcs, e]
  unfold prepareSixTwo
  rw [verts_congr h, h.inf, key]

theorem prepareFourFour_congr {K L : Tri V} (h : SameManifold K L) (a b : V) :
    prepareFourFour L a b = prepareFourFour K a b := by
  have key : findBistellarFlipLocation L a b = findBistellarFlipLocation K a b := by
    unfold findBistellarFlipLocation
    rw [finiteIncidentCells_congr h]
    cases hf : finiteIncidentCells K a b with
    | none => rfl
    | some cs =>
      obtain ⟨-, -, hcs, ha, hb⟩ := finiteIncident hf
      dsimp only
      simp only [time_congr h ha, time_congr h hb, correctTypeCount_congr h hcs]
  unfold prepareFourFour
  rw [isEdge_congr h, key]
  cases hb : findBistellarFlipLocation K a b with
  | none => rfl
  | some cs =>
    have hcs : ∀ c ∈ cs, c ∈ K.cells ∧ K.inf ∉ c := by
      unfold findBistellarFlipLocation at hb
      cases hf : finiteIncidentCells K a b with
      | none => rw [hf] at hb; simp at hb
      | some ds =>
        rw [hf] at hb
        dsimp only at hb
        split_ifs at hb
        injection hb with hb
        exact hb ▸ (finiteIncident hf).2.2.1
    dsimp only
    have hmem : ∀ x ∈ canonicalPoints (((cs.biUnion id).erase a).erase b), L.time x = K.time x := by
      intro x hx
      have hx := Finset.mem_of_mem_erase (Finset.mem_of_mem_erase (mem_canonicalPoints.1 hx))
      obtain ⟨c, hc, hxc⟩ := Finset.mem_biUnion.1 hx
      exact time_congr h (sub_finiteVerts (hcs c hc).1 (hcs c hc).2 hxc)
    generalize canonicalPoints (((cs.biUnion id).erase a).erase b) = l at hmem
    have vp : ∀ x y, L.time x = K.time x → L.time y = K.time y → vertexPrecedes L x y = vertexPrecedes K x y := by
      intro x y hx hy
      unfold vertexPrecedes
      rw [hx, hy]
    have fold : ∀ (f g : Option V → V → Option V) (P : V → Prop),
        (∀ acc v, (∀ t, acc = some t → P t) → P v → g acc v = f acc v ∧ ∀ t, f acc v = some t → P t) →
        ∀ (l : List V) acc, (∀ v ∈ l, P v) → (∀ t, acc = some t → P t) → l.foldl g acc = l.foldl f acc := by
      intro f g P hfg l
      induction l with
      | nil => intro acc _ _; rfl
      | cons v l ih =>
        intro acc hl hacc
        obtain ⟨e, hP⟩ := hfg acc v hacc (hl v (by simp))
        rw [List.foldl_cons, List.foldl_cons, e]
        exact ih _ (fun u hu => hl u (by simp [hu])) hP
    have ht : topOf L l = topOf K l := by
      unfold topOf
      refine fold _ _ (fun v => L.time v = K.time v) ?_ l none hmem (by simp)
      intro acc v ha hv
      cases acc with
      | none => exact ⟨rfl, by simp [hv]⟩
      | some t =>
        have := ha t rfl
        dsimp only
        rw [vp _ _ this hv]
        refine ⟨rfl, ?_⟩
        intro u hu
        split_ifs at hu <;> injection hu with hu <;> subst hu <;> assumption
    have hbo : bottomOf L l = bottomOf K l := by
      unfold bottomOf
      refine fold _ _ (fun v => L.time v = K.time v) ?_ l none hmem (by simp)
      intro acc v ha hv
      cases acc with
      | none => exact ⟨rfl, by simp [hv]⟩
      | some t =>
        have := ha t rfl
        dsimp only
        rw [vp _ _ hv this]
        refine ⟨rfl, ?_⟩
        intro u hu
        split_ifs at hu <;> injection hu with hu <;> subst hu <;> assumption
    rw [ht, hbo]

/-! ### Executions -/

/-- Two optional triangulations with the same complex. -/
def SameOption (K0 L0 : Tri V) (r s : Option (Tri V)) : Prop :=
  match r, s with
  | some K, some L => L.inf = K.inf ∧ L.cells = K.cells ∧ K.time = K0.time ∧ L.time = L0.time ∧ K.inf = K0.inf ∧
      (∀ v ∈ vertices K.cells, v ∈ vertices K0.cells)
  | none, none => True
  | _, _ => False

theorem flipFacet_congr {K L : Tri V} (hi : L.inf = K.inf) (hc : L.cells = K.cells) {c : Finset V} (hcm : c ∈ K.cells)
    (v : V) : SameOption K L (K.flipFacet c v) (L.flipFacet c v) := by
  have hm : L.mirror c v = K.mirror c v := by unfold Tri.mirror Tri.verts; rw [hc]
  unfold Tri.flipFacet
  rw [hm, hc]
  cases hw : K.mirror c v with
  | none => trivial
  | some w =>
    obtain ⟨-, hn⟩ := mirror_mem hw
    dsimp only
    split_ifs
    · trivial
    · refine ⟨hi, rfl, rfl, rfl, rfl, ?_⟩
      intro u hu
      obtain ⟨d, hd, hud⟩ := mem_vertices.1 hu
      rcases Finset.mem_union.1 hd with hd | hd
      · exact mem_vertices.2 ⟨d, (Finset.mem_sdiff.1 hd).1, hud⟩
      · obtain ⟨x, -, rfl⟩ := Finset.mem_image.1 hd
        rcases Finset.mem_insert.1 (Finset.mem_of_mem_erase hud) with rfl | h
        · exact mem_vertices.2 ⟨_, hn, Finset.mem_insert_self _ _⟩
        · exact mem_vertices.2 ⟨c, hcm, h⟩

theorem flipEdge_congr {K L : Tri V} (hi : L.inf = K.inf) (hc : L.cells = K.cells) (a b : V) :
    SameOption K L (K.flipEdge a b) (L.flipEdge a b) := by
  have he : L.edgeCells a b = K.edgeCells a b := by unfold Tri.edgeCells; rw [hc]
  unfold Tri.flipEdge
  rw [he, hc]
  dsimp only
  by_cases h3 : (K.edgeCells a b).card ≠ 3
  · rw [if_pos h3, if_pos h3]; trivial
  · rw [if_neg h3, if_neg h3]
    split_ifs
    · trivial
    · refine ⟨hi, rfl, rfl, rfl, rfl, ?_⟩
      have hpos : 0 < (K.edgeCells a b).card := by omega
      obtain ⟨d0, hd0⟩ := Finset.card_pos.1 hpos
      obtain ⟨hd1, had, hbd⟩ := Finset.mem_filter.1 hd0
      have hlink : ∀ u ∈ (((K.edgeCells a b).biUnion id).erase a).erase b, u ∈ vertices K.cells := by
        intro u hu
        obtain ⟨c, hc, huc⟩ := Finset.mem_biUnion.1 (Finset.mem_of_mem_erase (Finset.mem_of_mem_erase hu))
        exact mem_vertices.2 ⟨c, (Finset.mem_filter.1 hc).1, huc⟩
      intro u hu
      obtain ⟨d, hd, hud⟩ := mem_vertices.1 hu
      rcases Finset.mem_union.1 hd with hd | hd
      · exact mem_vertices.2 ⟨d, (Finset.mem_sdiff.1 hd).1, hud⟩
      · simp only [Finset.mem_insert, Finset.mem_singleton] at hd
        rcases hd with rfl | rfl <;> rcases Finset.mem_insert.1 hud with rfl | h
        · exact mem_vertices.2 ⟨d0, hd1, had⟩
        · exact hlink _ h
        · exact mem_vertices.2 ⟨d0, hd1, hbd⟩
        · exact hlink _ h

theorem executeTwoThree_congr {K L : Tri V} (h : SameManifold K L) (hp : PointsOnly env) (m : Finset V × V) :
    SameResult (executeTwoThree env K m) (executeTwoThree env L m) := by
  unfold executeTwoThree
  rw [h.cells]
  by_cases hm : m.1 ∉ K.cells ∨ m.2 ∉ m.1
  · rw [if_pos hm, if_pos hm]; exact rfl
  · rw [if_neg hm, if_neg hm]
    have hc := not_not.1 (not_or.1 hm).1
    unfold checkedFlipFacet
    rw [h.inf, mirror_congr h, hp.facet h]
    have hf := flipFacet_congr h.inf h.cells hc m.2
    generalize K.flipFacet m.1 m.2 = r at hf ⊢
    generalize L.flipFacet m.1 m.2 = s at hf ⊢
    by_cases h1 : K.inf ∈ m.1
    · rw [if_pos h1, if_pos h1]; exact rfl
    · rw [if_neg h1, if_neg h1]
      cases K.mirror m.1 m.2 with
      | none => exact rfl
      | some w =>
        dsimp only
        split_ifs
        · exact rfl
        · cases r <;> cases s <;> first | exact rfl | exact hf.elim | exact ⟨hf.1, hf.2.1⟩
        · exact rfl

theorem executeThreeTwo_congr {K L : Tri V} (h : SameManifold K L) (hp : PointsOnly env) (m : V × V) :
    SameResult (executeThreeTwo env K m) (executeThreeTwo env L m) := by
  unfold executeThreeTwo checkedFlipEdge
  rw [isEdge_congr h, edgeCells_congr h, h.inf, hp.edge h]
  have hf := flipEdge_congr h.inf h.cells m.1 m.2
  generalize K.flipEdge m.1 m.2 = r at hf ⊢
  generalize L.flipEdge m.1 m.2 = s at hf ⊢
  split_ifs
  · exact rfl
  · exact rfl
  · cases r <;> cases s <;> first | exact rfl | exact hf.elim | exact ⟨hf.1, hf.2.1⟩
  · exact rfl

theorem insertInFacet_congr {K L : Tri V} (h : SameManifold K L) (c : Finset V) (v m : V) :
    (K.insertInFacet c v m = none ∧ L.insertInFacet c v m = none) ∨
    ∃ K1 L1, K.insertInFacet c v m = some K1 ∧ L.insertInFacet c v m = some L1 ∧ L1.inf = K1.inf ∧
      L1.cells = K1.cells := by
  unfold Tri.insertInFacet
  rw [mirror_congr h, h.cells]
  cases K.mirror c v with
  | none => exact .inl ⟨rfl, rfl⟩
  | some w => exact .inr ⟨_, _, rfl, rfl, h.inf, rfl⟩

theorem executeTwoSix_congr {K L : Tri V} (h : SameManifold K L) (m : Finset V × V) :
    SameResult (executeTwoSix env (fun _ => true) K m) (executeTwoSix env (fun _ => true) L m) := by
  unfold executeTwoSix
  rw [h.cells]
  by_cases hm : m.1 ∉ K.cells ∨ m.2 ∉ m.1
  · rw [if_pos hm, if_pos hm]; exact rfl
  · rw [if_neg hm, if_neg hm]
    dsimp only
    rcases insertInFacet_congr h m.1 m.2 (env.centroid (m.1.erase m.2)) with ⟨e1, e2⟩ | ⟨K1, L1, e1, e2, i1, c1⟩
    · rw [e1, e2]; exact rfl
    · rw [e1, e2]
      dsimp only
      have ec : L1.vertexCells (env.centroid (m.1.erase m.2)) = K1.vertexCells (env.centroid (m.1.erase m.2)) := by
        unfold Tri.vertexCells; rw [c1]
      rw [ec]
      by_cases h6 : (K1.vertexCells (env.centroid (m.1.erase m.2))).card ≠ 6
      · rw [if_pos h6, if_pos h6]; exact rfl
      · rw [if_neg h6, if_neg h6]; exact ⟨i1, c1⟩

theorem executeFourFour_congr {K L : Tri V} (h : SameManifold K L) (m : FourFour V) :
    SameResult (executeFourFour (fun _ => true) K m) (executeFourFour (fun _ => true) L m) := by
  unfold executeFourFour
  rw [isEdge_congr h, finiteVerts_congr h, verts_congr h, h.cells]
  split_ifs
  · exact rfl
  · dsimp only
    cases hx : (K.verts.filter (fun x => x ∉ ({m.a, m.b, m.bottom} : Finset V) ∧
        insert x ({m.a, m.b, m.bottom} : Finset V) ∈ K.cells)).min with
    | top => exact rfl
    | coe x =>
      have hmem := (Finset.mem_filter.1 (Finset.mem_of_min hx)).2.2
      have hf := flipFacet_congr h.inf h.cells hmem x
      dsimp only
      generalize K.flipFacet (insert x {m.a, m.b, m.bottom}) x = r at hf ⊢
      generalize L.flipFacet (insert x {m.a, m.b, m.bottom}) x = s at hf ⊢
      cases r with
      | none => cases s with
        | none => exact rfl
        | some _ => exact hf.elim
      | some K1 => cases s with
        | none => exact hf.elim
        | some L1 =>
          obtain ⟨i1, c1, -⟩ := hf
          dsimp only
          have e1 : L1.isEdge m.a m.b = K1.isEdge m.a m.b := by unfold Tri.isEdge; rw [c1]
          rw [e1]
          split_ifs
          · exact rfl
          · have hf := flipEdge_congr i1 c1 m.a m.b
            generalize K1.flipEdge m.a m.b = r at hf ⊢
            generalize L1.flipEdge m.a m.b = s at hf ⊢
            cases r with
            | none => cases s with
              | none => exact rfl
              | some _ => exact hf.elim
            | some K2 => cases s with
              | none => exact hf.elim
              | some L2 =>
                obtain ⟨i2, c2, -⟩ := hf
                dsimp only
                have e2 : L2.isValid = K2.isValid := by unfold Tri.isValid; rw [c2]
                rw [e2]
                split_ifs
                · exact rfl
                · exact ⟨i2, c2⟩

theorem flipFirst_congr {K L : Tri V} (h : SameManifold K L) {v : V} (hv : v ∈ K.finiteVerts) :
    ∀ es : List (Finset V), (∀ e ∈ es, ∀ w ∈ e, w ∈ K.finiteVerts) →
      SameOption K L (flipFirst K v es) (flipFirst L v es) := by
  intro es
  induction es with
  | nil => intro _; trivial
  | cons e es ih =>
    intro hes
    have ih := ih (fun e' he' => hes e' (by simp [he']))
    unfold flipFirst
    cases hw : (canonicalPoints (e.erase v)).head? with
    | none => exact ih
    | some w =>
      have hwe : w ∈ e := Finset.mem_of_mem_erase (mem_canonicalPoints.1 (List.mem_of_head? hw))
      dsimp only
      rw [time_congr h hv, time_congr h (hes e (by simp) w hwe)]
      split_ifs
      · have hf := flipEdge_congr h.inf h.cells v w
        generalize K.flipEdge v w = r at hf ⊢
        generalize L.flipEdge v w = s at hf ⊢
        cases r <;> cases s <;> first | exact hf.elim | exact ih | exact hf
      · exact ih

theorem executeSixTwo_congr (hl : env.Lawful) {K L : Tri V} (h : SameManifold K L) (v : V) (g : G) :
    SameResult (executeSixTwo env (fun _ => true) K v g).1 (executeSixTwo env (fun _ => true) L v g).1 ∧
    (executeSixTwo env (fun _ => true) L v g).2 = (executeSixTwo env (fun _ => true) K v g).2 := by
  unfold executeSixTwo
  rw [finiteVerts_congr h]
  by_cases hv : v ∉ K.finiteVerts
  · rw [if_pos hv, if_pos hv]; exact ⟨rfl, rfl⟩
  · rw [if_neg hv, if_neg hv]
    have hv := not_not.1 hv
    have hie : incidentEdges L v = incidentEdges K v := by unfold incidentEdges; rw [finiteEdges_congr h]
    have hperm : (env.iter L (incidentEdges L v)).Perm (env.iter K (incidentEdges K v)) := by
      rw [List.perm_ext_iff_of_nodup (hl.iter_nodup _ _) (hl.iter_nodup _ _)]
      intro s; rw [hl.mem_iter, hl.mem_iter, hie]
    rw [canonicalize_congr hperm]
    have hsh := hl.shuffle_perm (canonicalize (env.iter K (incidentEdges K v))) g
    generalize env.shuffle (canonicalize (env.iter K (incidentEdges K v))) g = q at hsh ⊢
    obtain ⟨es, g'⟩ := q
    have hes : ∀ e ∈ es, ∀ w ∈ e, w ∈ K.finiteVerts := by
      intro e he w hw
      have := (hl.mem_iter _ _ _).1 (mem_canonicalize.1 (hsh.mem_iff.1 he))
      obtain ⟨hf, hi, -⟩ := mem_finiteEdges.1 (Finset.mem_filter.1 this).1
      obtain ⟨c, hc, hec⟩ := mem_faces.1 hf
      exact mem_finiteVerts.2 ⟨fun e => hi (e ▸ hw), c, hc, hec hw⟩
    dsimp only
    refine ⟨?_, rfl⟩
    have hf := flipFirst_congr h hv es hes
    generalize flipFirst K v es = r at hf ⊢
    generalize flipFirst L v es = s at hf ⊢
    cases r with
    | none => cases s with
      | none => exact rfl
      | some _ => exact hf.elim
    | some K1 => cases s with
      | none => exact hf.elim
      | some L1 =>
        obtain ⟨i1, c1, tK, tL, iK, vs⟩ := hf
        dsimp only
        have ed : L1.degree v = K1.degree v := by unfold Tri.degree Tri.vertexCells; rw [c1]
        have ev : L1.isValid = K1.isValid := by unfold Tri.isValid; rw [c1]
        rw [ed, ev]
        by_cases hb : (K1.degree v ≠ 4 || !K1.isValid) = true
        · rw [if_pos hb, if_pos hb]; exact rfl
        · rw [if_neg hb, if_neg hb]
          have c2 : (L1.removeVertex v).cells = (K1.removeVertex v).cells := by
            unfold Tri.removeVertex Tri.vertexCells; rw [c1]
          have i2 : (L1.removeVertex v).inf = (K1.removeVertex v).inf := i1
          have iK2 : (K1.removeVertex v).inf = K.inf := iK
          have tK2 : (K1.removeVertex v).time = K.time := tK
          have tL2 : (L1.removeVertex v).time = L.time := tL
          have vs2 : ∀ u ∈ vertices (K1.removeVertex v).cells, u ∈ vertices K.cells := by
            intro u hu
            refine vs u ?_
            obtain ⟨d, hd, hud⟩ := mem_vertices.1 hu
            rcases Finset.mem_union.1 hd with hd | hd
            · exact mem_vertices.2 ⟨d, (Finset.mem_sdiff.1 hd).1, hud⟩
            · rw [Finset.mem_singleton] at hd
              subst hd
              obtain ⟨c, hc, huc⟩ := Finset.mem_biUnion.1 (Finset.mem_of_mem_erase hud)
              exact mem_vertices.2 ⟨c, (Finset.mem_filter.1 hc).1, huc⟩
          generalize L1.removeVertex v = L2 at *
          generalize K1.removeVertex v = K2 at *
          have ev2 : L2.isValid = K2.isValid := by unfold Tri.isValid; rw [c2]
          have efc : L2.finiteCells = K2.finiteCells := by unfold Tri.finiteCells; rw [c2, i2]
          have efv : L2.finiteVerts = K2.finiteVerts := by unfold Tri.finiteVerts Tri.verts; rw [c2, i2]
          have ety : ∀ c ∈ K2.finiteCells, L2.expectedType c = K2.expectedType c := by
            intro c hc
            unfold Tri.expectedType Tri.cellTimes
            rw [tK2, tL2]
            congr 1
            refine List.map_congr_left fun u hu => ?_
            have hu := mem_canonicalPoints.1 hu
            obtain ⟨h1, h2⟩ := mem_finiteCells.1 hc
            exact h.times u (vs2 u (mem_vertices.2 ⟨c, h1, hu⟩)) (fun e => h2 (by rw [iK2, ← e]; exact hu))
          have eex : (∃ c ∈ L2.finiteCells, L2.expectedType c = .acausal ∨ L2.expectedType c = .unclassified) ↔
              ∃ c ∈ K2.finiteCells, K2.expectedType c = .acausal ∨ K2.expectedType c = .unclassified := by
            rw [efc]
            exact exists_congr fun c => and_congr_right fun hc => by rw [ety c hc]
          simp only [ev2, efc, efv, finiteCells_congr h] at *
          split_ifs with q1 q2 q3 q3
          · exact rfl
          · exact rfl
          · exact absurd (eex.2 q2) q3
          · exact absurd (eex.1 q3) q2
          · exact ⟨i2, c2⟩

/-! ### Whole calls -/

theorem rawSites_congr (hl : env.Lawful) {K L : Tri V} (h : SameManifold K L) (mv : MoveType) :
    (rawSites env L mv).Perm (rawSites env K mv) := by
  have iter : ∀ S : Finset (Finset V), (env.iter L S).Perm (env.iter K S) := by
    intro S
    rw [List.perm_ext_iff_of_nodup (hl.iter_nodup _ _) (hl.iter_nodup _ _)]
    intro s; rw [hl.mem_iter, hl.mem_iter]
  have fc : ∀ k : ℤ, (env.iter K K.finiteCells).filter (fun c => L.info c = k) =
      (env.iter K K.finiteCells).filter (fun c => K.info c = k) := by
    intro k
    refine List.filter_congr fun c hc => ?_
    obtain ⟨h1, h2⟩ := mem_finiteCells.1 ((hl.mem_iter _ _ _).1 hc)
    rw [h.labels c h1 h2]
  have fe : ∀ k : EdgeType, (env.iter K K.finiteEdges).filter (fun c => edgeTypeOf L c = k) =
      (env.iter K K.finiteEdges).filter (fun c => edgeTypeOf K c = k) := by
    intro k
    refine List.filter_congr fun e he => ?_
    obtain ⟨h1, h2, -⟩ := mem_finiteEdges.1 ((hl.mem_iter _ _ _).1 he)
    obtain ⟨c, hc, hec⟩ := mem_faces.1 h1
    have ht : ∀ v ∈ e, L.time v = K.time v := fun v hv =>
      h.times v (mem_vertices.2 ⟨c, hc, hec hv⟩) (fun e => h2 (e ▸ hv))
    have : edgeTypeOf L e = edgeTypeOf K e := by
      unfold edgeTypeOf
      rcases hcp : canonicalPoints e with _ | ⟨a, _ | ⟨b, _ | ⟨c, l⟩⟩⟩
      · rfl
      · rfl
      · have ha : a ∈ e := by rw [← mem_canonicalPoints, hcp]; simp
        have hb : b ∈ e := by rw [← mem_canonicalPoints, hcp]; simp
        simp only [ht a ha, ht b hb]
      · rfl
    rw [this]
  cases mv
  · show (cellSites env L _).Perm (cellSites env K _)
    unfold cellSites
    rw [finiteCells_congr h, ← fc]
    exact (iter _).filter _
  · show (edgeSites env L _).Perm (edgeSites env K _)
    unfold edgeSites
    rw [finiteEdges_congr h, ← fe]
    exact (iter _).filter _
  · show (cellSites env L _).Perm (cellSites env K _)
    unfold cellSites
    rw [finiteCells_congr h, ← fc]
    exact (iter _).filter _
  · show (vertexSites env L).Perm (vertexSites env K)
    unfold vertexSites
    rw [finiteVerts_congr h]
    exact iter _
  · show (edgeSites env L _).Perm (edgeSites env K _)
    unfold edgeSites
    rw [finiteEdges_congr h, ← fe]
    exact (iter _).filter _

theorem prepare_congr {K L : Tri V} (h : SameManifold K L) (hK : QuietInfinity K) (hL : QuietInfinity L)
    (mv : MoveType) {s : Finset V} (hs : K.inf ∉ s) : prepare L mv s = prepare K mv s := by
  unfold prepare
  cases mv
  · dsimp only; rw [prepareTwoThree_congr h hs]
  · dsimp only; simp only [prepareThreeTwo_congr h]
  · dsimp only; rw [prepareTwoSix_congr h hK hL hs]
  · dsimp only; simp only [prepareSixTwo_congr h]
  · dsimp only; simp only [prepareFourFour_congr h]

theorem execute_congr (hl : env.Lawful) (hp : PointsOnly env) {K L : Tri V} (h : SameManifold K L) (p : Prepared V)
    (g : G) : SameResult (execute env K p g).1 (execute env L p g).1 ∧ (execute env L p g).2 = (execute env K p g).2 := by
  cases p with
  | twoThree m => exact ⟨executeTwoThree_congr h hp m, rfl⟩
  | threeTwo m => exact ⟨executeThreeTwo_congr h hp m, rfl⟩
  | twoSix m => exact ⟨executeTwoSix_congr h m, rfl⟩
  | sixTwo v => exact executeSixTwo_congr hl h v g
  | fourFour m => exact ⟨executeFourFour_congr h m, rfl⟩

end CDT

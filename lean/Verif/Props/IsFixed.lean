import Verif.Props.Repair
/-
C105: `is_fixed` on a finished triangulation, and the choice of the vertex a repair removes (C38).
-/
namespace CDT.Props
open CDT Spec Cavity Moves

/-- The vertices of a cell in its latest slice. -/
def latest {V : Type} (time : V → ℤ) (c : Finset V) : Finset V := {v ∈ c | ∀ u ∈ c, time u ≤ time v}

/-- The vertices of a cell in its earliest slice. -/
def earliest {V : Type} (time : V → ℤ) (c : Finset V) : Finset V := {v ∈ c | ∀ u ∈ c, time v ≤ time u}

/-- The offending vertex of a cell: one of the latest slice, unless that has more vertices than the
earliest; then one of the earliest. -/
def Offends {V : Type} (time : V → ℤ) (c : Finset V) (v : V) : Prop :=
  ((latest time c).card ≤ (earliest time c).card → v ∈ latest time c) ∧
  ((earliest time c).card < (latest time c).card → v ∈ earliest time c)

theorem offends_mem {V : Type} {time : V → ℤ} {c : Finset V} {v : V} (h : Offends time c v) : v ∈ c := by
  rcases le_or_gt (latest time c).card (earliest time c).card with h' | h'
  · exact (Finset.mem_filter.1 (h.1 h')).1
  · exact (Finset.mem_filter.1 (h.2 h')).1

section
variable {V G : Type} [LinearOrder V] {env : Env V G} {re : RepairEnv V}

theorem count_eq {vs : List V} {c : Finset V} (hn : vs.Nodup) (hm : ∀ v, v ∈ vs ↔ v ∈ c) (p : V → Prop) [DecidablePred p]
    {S : Finset V} (hS : ∀ v, v ∈ S ↔ v ∈ c ∧ p v) : (vs.filter (fun v => decide (p v))).length = S.card := by
  have e : S = (vs.filter (fun v => decide (p v))).toFinset := by
    ext v
    simp [hS, hm]
  rw [e, List.toFinset_card_of_nodup (hn.filter _)]

/-- C38.  `find_bad_vertex` returns the offending vertex of the cell. -/
theorem C38_bad_vertex_choice (hr : re.Lawful) (K : Tri V) {c : Finset V} (h : c.Nonempty) :
    ∃ v, findBadVertex re K c = some v ∧ Offends K.time c v := by
  have hm : ∀ v, v ∈ (re.stored K c).insertionSort (fun a b => K.time a ≤ K.time b) ↔ v ∈ c := by
    intro v; rw [(List.perm_insertionSort _ _).mem_iff, hr.mem_stored]
  have hn : ((re.stored K c).insertionSort (fun a b => K.time a ≤ K.time b)).Nodup :=
    (List.perm_insertionSort _ _).nodup_iff.2 (hr.stored_nodup K c)
  have hs : ((re.stored K c).insertionSort (fun a b => K.time a ≤ K.time b)).Pairwise
      (fun a b => K.time a ≤ K.time b) := by
    have : Std.Total (fun (a b : V) => K.time a ≤ K.time b) := ⟨fun a b => le_total _ _⟩
    have : IsTrans V (fun a b => K.time a ≤ K.time b) := ⟨fun a b c => le_trans⟩
    exact List.pairwise_insertionSort _ _
  unfold findBadVertex
  generalize (re.stored K c).insertionSort (fun a b => K.time a ≤ K.time b) = vs at hm hs hn
  have hne : vs ≠ [] := by
    obtain ⟨v, hv⟩ := h
    rintro rfl
    simpa using (hm v).2 hv
  obtain ⟨lo, l, rfl⟩ := List.exists_cons_of_ne_nil hne
  obtain ⟨l', hi, he⟩ : ∃ l' hi, lo :: l = l' ++ [hi] :=
    ⟨(lo :: l).dropLast, (lo :: l).getLast hne, (List.dropLast_append_getLast hne).symm⟩
  have hlast : (lo :: l).getLast? = some hi := by rw [he]; simp
  dsimp only
  rw [hlast]
  dsimp only [List.head?_cons]
  have hlo : ∀ u ∈ c, K.time lo ≤ K.time u := by
    intro u hu
    rcases List.mem_cons.1 ((hm u).2 hu) with rfl | h
    · exact le_rfl
    · exact (List.pairwise_cons.1 hs).1 u h
  have hhi : ∀ u ∈ c, K.time u ≤ K.time hi := by
    intro u hu
    have hu' := (hm u).2 hu
    rw [he] at hu' hs
    rcases List.mem_append.1 hu' with h | h
    · exact (List.pairwise_append.1 hs).2.2 u h hi (by simp)
    · rw [List.mem_singleton.1 h]
  have mlo : lo ∈ c := (hm lo).1 (by simp)
  have mhi : hi ∈ c := (hm hi).1 (by rw [he]; simp)
  have elo := count_eq hn hm (fun v => K.time v = K.time lo) (S := earliest K.time c) (by
    intro v
    rw [earliest, Finset.mem_filter]
    refine ⟨fun ⟨hv, h⟩ => ⟨hv, le_antisymm (h lo mlo) (hlo v hv)⟩, fun ⟨hv, h⟩ => ⟨hv, fun u hu => ?_⟩⟩
    rw [h]; exact hlo u hu)
  have ehi := count_eq hn hm (fun v => K.time v = K.time hi) (S := latest K.time c) (by
    intro v
    rw [latest, Finset.mem_filter]
    refine ⟨fun ⟨hv, h⟩ => ⟨hv, le_antisymm (hhi v hv) (h hi mhi)⟩, fun ⟨hv, h⟩ => ⟨hv, fun u hu => ?_⟩⟩
    rw [h]; exact hhi u hu)
  rw [elo, ehi]
  split_ifs with h'
  · exact ⟨hi, rfl, fun _ => Finset.mem_filter.2 ⟨mhi, hhi⟩, fun h'' => absurd h'' (by omega)⟩
  · exact ⟨lo, rfl, fun h'' => absurd h'' h', fun _ => Finset.mem_filter.2 ⟨mlo, hlo⟩⟩

/-- C38.  `has_valid_timevalues` tells whether every tetrahedron joins two neighbouring slices. -/
theorem C38_has_valid_timevalues (hl : env.Lawful) {K : Tri V} (hK : ∀ c ∈ K.cells, c.card = 4) :
    hasValidTimevalues env K = true ↔ Causal K.inf K.time K.cells := invalid_empty_iff hl hK

theorem constructed_time {K K' : Tri V} {cs : Caches V} (h : construct env K = .ok (K', cs)) {v : V}
    (hv : v ≠ K'.inf) : K'.time v = env.label v := by
  obtain ⟨he, -⟩ := construct_ok h
  rw [he] at hv ⊢
  simp only [makeManifold, relabel] at hv ⊢
  rw [if_neg hv]

theorem fixVertices_constructed (hl : env.Lawful) (hr : re.Lawful) {K K' : Tri V} {cs : Caches V}
    (h : construct env K = .ok (K', cs)) : fixVertices env re K' = (false, K') := by
  obtain ⟨he, hb⟩ := construct_ok h
  have hlab : ∀ v, v ≠ K'.inf → K'.time v = env.label v := by
    intro v hv
    rw [he] at hv ⊢
    simp only [makeManifold, relabel] at hv ⊢
    rw [if_neg hv]
  have h0 : findIncorrectVertices env re K' = [] := by
    rw [List.eq_nil_iff_forall_not_mem]
    intro v hv
    obtain ⟨h1, h2⟩ := (mem_findIncorrectVertices hl hr).1 hv
    obtain ⟨c, hc, hvc⟩ := mem_vertices.1 h1
    exact h2 (hlab v (fun e => (Finset.mem_filter.1 hc).2 (e ▸ hvc))).symm
  unfold fixVertices
  dsimp only
  rw [h0]
  rfl

theorem fixCells_constructed (hl : env.Lawful) {K K' : Tri V} {cs : Caches V}
    (hK : ∀ c ∈ K.cells, c.card = 4) (h : construct env K = .ok (K', cs)) : (fixCells env K').2 = K' := by
  obtain ⟨he, hb⟩ := construct_ok h
  have hcells : K'.cells = K.cells := by rw [he]; rfl
  have hK' : ∀ c ∈ K'.cells, c.card = 4 := by rw [hcells]; exact hK
  obtain ⟨_, g2, g3, g4, g5, g6, g7⟩ := C37_fix_cells hl hK'
  apply tri_ext g6 g5 g7
  funext c
  by_cases hm : c ∈ finitePart K'.inf K'.cells
  · have h4 := hK' c (Finset.mem_filter.1 hm).1
    have hinf : K'.inf ∉ c := (Finset.mem_filter.1 hm).2
    have hinfo : K'.info c = (K'.expectedType c).code := by
      rw [he] at hinf ⊢
      simp only [makeManifold, relabel] at hinf ⊢
      rw [if_neg hinf]; rfl
    by_cases hcc : CausalCell K'.time c
    · have e2 := g2 c hm hcc
      unfold Tri.typeCorrect Tri.cellTimes isCellTypeCorrect at e2
      rw [g7] at e2
      simp only [Bool.and_eq_true, beq_iff_eq] at e2
      rw [← e2.2, hinfo]; rfl
    · rw [g3 c hm hcc, hinfo, (acausal_iff h4).2 hcc]; rfl
  · exact g4 c hm

/-- The vertices of a triangulation other than CGAL's infinite one. -/
def realVertices (inf : V) (cells : Finset (Finset V)) : Finset V := (vertices cells).erase inf

theorem finiteVerts_eq (K : Tri V) : K.finiteVerts = realVertices K.inf K.cells := by
  ext v
  rw [mem_finiteVerts, realVertices, Finset.mem_erase, mem_vertices]

theorem finite_sub (inf : V) (cells : Finset (Finset V)) :
    vertices (finitePart inf cells) ⊆ realVertices inf cells := by
  intro v hv
  obtain ⟨c, hc, hvc⟩ := mem_vertices.1 hv
  obtain ⟨h1, h2⟩ := Finset.mem_filter.1 hc
  exact Finset.mem_erase.2 ⟨fun e => h2 (e ▸ hvc), mem_vertices.2 ⟨c, h1, hvc⟩⟩

/-- A finished triangulation with its vertices, as `is_fixed` copies it. -/
def held (K : Tri V) : Del V := ⟨K.finiteVerts, K⟩

theorem held_wf {K : Tri V} (hK : ∀ c ∈ K.cells, c.card = 4) : (held K).Wf :=
  ⟨subset_rfl, hK, fun h => (mem_finiteVerts.1 h).1 rfl⟩

/-- C105.  `is_fixed` on a finished triangulation.  If it is causal the answer is no and nothing changes.
Otherwise the answer is yes: one offending vertex of every acausal tetrahedron is removed, no other vertex
is, and the object becomes the triangulation constructed from what CGAL's removal leaves; if that
construction throws, so does `is_fixed` (which has only changed its own copy by then). -/
theorem C105_is_fixed (hl : env.Lawful) (hr : re.Lawful) {K K' : Tri V} {cs : Caches V}
    (hK : ∀ c ∈ K.cells, c.card = 4) (h : construct env K = .ok (K', cs)) :
    (Causal K'.inf K'.time K'.cells → isFixedMethod env re (K', cs) = .ok (false, (K', cs))) ∧
    (¬ Causal K'.inf K'.time K'.cells → ∃ R : Finset V,
      R.Nonempty ∧ R ⊆ vertices (finitePart K'.inf K'.cells) ∧
      (∀ v ∈ R, ∃ c ∈ finitePart K'.inf K'.cells, ¬ CausalCell K'.time c ∧ Offends K'.time c v) ∧
      (∀ c ∈ finitePart K'.inf K'.cells, ¬ CausalCell K'.time c → ∃ v ∈ R, Offends K'.time c v) ∧
      isFixedMethod env re (K', cs) =
        (construct env (re.remove (held K') R).tri).map (fun m => (true, m))) := by
  obtain ⟨he, hb⟩ := construct_ok h
  have hcells : K'.cells = K.cells := by rw [he]; rfl
  have hK' : ∀ c ∈ K'.cells, c.card = 4 := by rw [hcells]; exact hK
  have hw := held_wf hK'
  have hv := fixVertices_constructed (re := re) hl hr h
  have hf := fixCells_constructed hl hK h
  obtain ⟨g1, g2, _⟩ := C37_fix_cells hl hK'
  have hunf : isFixedMethod env re (K', cs) =
      if (fixCells env K').1 || (fixTimevalues env re (held K')).1 then
        (construct env (fixTimevalues env re (held K')).2.tri).map (fun m => (true, m))
      else .ok (false, (K', cs)) := by
    unfold isFixedMethod
    simp only [hv, hf, Bool.false_or]
    show (if _ then _ else _) = if _ then _ else _
    congr 1
    change (match construct env (fixTimevalues env re (held K')).2.tri with | .error e => _ | .ok m' => _) = _
    cases construct env (fixTimevalues env re (held K')).2.tri <;> rfl
  constructor
  · intro hc
    have e := (C38_pass (env := env) (re := re) hl hr hw).1 hc
    have e2 : (fixCells env K').1 = false := by
      obtain ⟨b, hb1, hb2⟩ := (C37_methods_on_constructed (re := re) hl hr hK h).2
      unfold fixCellsMethod at hb1
      dsimp only at hb1
      by_contra hx
      have hx : (fixCells env K').1 = true := by simpa using hx
      rw [if_pos hx] at hb1
      have : b = true := by
        cases hcon : construct env (fixCells env K').2 with
        | error e => rw [hcon] at hb1; simp at hb1
        | ok m => rw [hcon] at hb1; simp at hb1; exact hb1.1
      exact hb2.1 this hc
    rw [hunf, e, e2]
    rfl
  · intro hc
    have hne : ¬ (findInvalidTimevalueCells env K').isEmpty = true :=
      fun h => hc ((invalid_empty_iff hl hK').1 h)
    have hft : fixTimevalues env re (held K') = (true, re.remove (held K') (verticesToRemove env re K')) := by
      unfold fixTimevalues; exact if_neg hne
    have hcell : ∀ c ∈ findInvalidTimevalueCells env K', c ∈ finitePart K'.inf K'.cells ∧ ¬CausalCell K'.time c :=
      fun c hc => (mem_invalid hl hK').1 hc
    have hnon : ∀ c ∈ finitePart K'.inf K'.cells, c.Nonempty := fun c hc =>
      Finset.card_pos.1 (by rw [hK' c (Finset.mem_filter.1 hc).1]; omega)
    have hall : ∀ c ∈ finitePart K'.inf K'.cells, ¬ CausalCell K'.time c →
        ∃ v ∈ verticesToRemove env re K', Offends K'.time c v := by
      intro c hcm hcc
      obtain ⟨v, hv, ho⟩ := C38_bad_vertex_choice (re := re) hr K' (hnon c hcm)
      exact ⟨v, mem_toRemove.2 ⟨c, (mem_invalid hl hK').2 ⟨hcm, hcc⟩, hv⟩, ho⟩
    refine ⟨verticesToRemove env re K', ?_, ?_, ?_, hall, ?_⟩
    · unfold Causal at hc
      push Not at hc
      obtain ⟨c, hm, hi, hcc⟩ := hc
      obtain ⟨v, hv, -⟩ := hall c (Finset.mem_filter.2 ⟨hm, hi⟩) (by unfold CausalCell; tauto)
      exact ⟨v, hv⟩
    · intro v hv
      obtain ⟨c, hc, hb⟩ := mem_toRemove.1 hv
      obtain ⟨h1, -⟩ := hcell c hc
      obtain ⟨u, hu, ho⟩ := C38_bad_vertex_choice (re := re) hr K' (hnon c h1)
      rw [hb] at hu; cases hu
      exact mem_vertices.2 ⟨c, h1, offends_mem ho⟩
    · intro v hv
      obtain ⟨c, hc, hb⟩ := mem_toRemove.1 hv
      obtain ⟨h1, h2⟩ := hcell c hc
      obtain ⟨u, hu, ho⟩ := C38_bad_vertex_choice (re := re) hr K' (hnon c h1)
      rw [hb] at hu; cases hu
      exact ⟨c, h1, h2, ho⟩
    · rw [hunf, hft]
      simp

/-- One successful call of `is_fixed` that answers `b`. -/
def Answers (env : Env V G) (re : RepairEnv V) (b : Bool) (m m' : Tri V × Caches V) : Prop :=
  isFixedMethod env re m = .ok (b, m')

/-- A finished triangulation. -/
def Finished (env : Env V G) (m : Tri V × Caches V) : Prop :=
  ∃ K : Tri V, (∀ c ∈ K.cells, c.card = 4) ∧ construct env K = .ok m

/-- C105.  A yes leaves a finished triangulation with fewer vertices, all of them vertices from before. -/
theorem C105_yes_shrinks (hl : env.Lawful) (hr : re.Lawful) {m m' : Tri V × Caches V} (hm : Finished env m)
    (h : Answers env re true m m') :
    Finished env m' ∧ m'.1.inf = m.1.inf ∧
      realVertices m'.1.inf m'.1.cells ⊂ realVertices m.1.inf m.1.cells ∧
      ∀ v ∈ realVertices m'.1.inf m'.1.cells, m'.1.time v = m.1.time v := by
  obtain ⟨K, hK, hcon⟩ := hm
  obtain ⟨K', cs⟩ := m
  obtain ⟨he, hb⟩ := construct_ok hcon
  have hcells : K'.cells = K.cells := by rw [he]; rfl
  have hK' : ∀ c ∈ K'.cells, c.card = 4 := by rw [hcells]; exact hK
  have hw := held_wf hK'
  have hnc : ¬ Causal K'.inf K'.time K'.cells := by
    intro hc
    have := (C105_is_fixed (re := re) hl hr hK hcon).1 hc
    rw [Answers, this] at h
    simp at h
  obtain ⟨R, ⟨v0, hv0⟩, hR, -, -, hres⟩ := (C105_is_fixed (re := re) hl hr hK hcon).2 hnc
  rw [Answers, hres] at h
  cases hc' : construct env (re.remove (held K') R).tri with
  | error e => rw [hc'] at h; simp [Except.map] at h
  | ok q =>
    rw [hc'] at h
    simp only [Except.map, Except.ok.injEq, Prod.mk.injEq, true_and] at h
    subst h
    have hR' : R ⊆ (held K').points := by rw [held, finiteVerts_eq]; exact hR.trans (finite_sub _ _)
    have hw' := hr.remove_wf _ _ hR' hw
    obtain ⟨L, cs'⟩ := q
    obtain ⟨he', -⟩ := construct_ok hc'
    have hi : L.inf = K'.inf := by rw [he']; exact hr.remove_inf _ _
    have hsub : realVertices L.inf L.cells ⊆ realVertices K'.inf K'.cells \ R := by
      have e1 : L.finiteVerts = (re.remove (held K') R).tri.finiteVerts := by rw [he']; rfl
      have e2 := hw'.verts
      rw [hr.remove_points _ _ hR', ← e1] at e2
      rw [finiteVerts_eq] at e2
      simpa only [held, finiteVerts_eq] using e2
    refine ⟨⟨_, hw'.card, hc'⟩, hi, ?_, ?_⟩
    · refine Finset.ssubset_iff_subset_ne.2 ⟨fun v hv => (Finset.mem_sdiff.1 (hsub hv)).1, fun e => ?_⟩
      have := finite_sub _ _ (hR hv0)
      simp only at e
      rw [← e] at this
      exact (Finset.mem_sdiff.1 (hsub this)).2 hv0
    · intro v hv
      have h1 : v ≠ L.inf := (Finset.mem_erase.1 hv).1
      have h2 : v ≠ K'.inf := (Finset.mem_erase.1 (Finset.mem_sdiff.1 (hsub hv)).1).1
      exact (constructed_time hc' h1).trans (constructed_time hcon h2).symm

/-- C105.  A no leaves the object as it was, and it is causal. -/
theorem C105_no_is_causal (hl : env.Lawful) (hr : re.Lawful) {m m' : Tri V × Caches V} (hm : Finished env m)
    (h : Answers env re false m m') : m' = m ∧ Causal m.1.inf m.1.time m.1.cells := by
  obtain ⟨K, hK, hcon⟩ := hm
  obtain ⟨K', cs⟩ := m
  by_cases hc : Causal K'.inf K'.time K'.cells
  · have := (C105_is_fixed (re := re) hl hr hK hcon).1 hc
    rw [Answers, this] at h
    simp only [Except.ok.injEq, Prod.mk.injEq, true_and] at h
    exact ⟨h.symm, hc⟩
  · obtain ⟨R, -, -, -, -, hres⟩ := (C105_is_fixed (re := re) hl hr hK hcon).2 hc
    rw [Answers, hres] at h
    cases hc' : construct env (re.remove (held K') R).tri with
    | error e => rw [hc'] at h; simp [Except.map] at h
    | ok q => rw [hc'] at h; simp [Except.map] at h

/-- C105.  `while (t.is_fixed()) {}` ends: any run of answers yes is at most as long as there are vertices
beyond the three that cannot form a tetrahedron. -/
theorem C105_loop_ends (hl : env.Lawful) (hr : re.Lawful) (m : ℕ → Tri V × Caches V) (n : ℕ) (hm : Finished env (m 0))
    (h : ∀ i < n, Answers env re true (m i) (m (i + 1))) :
    n ≤ (realVertices (m 0).1.inf (m 0).1.cells).card - 3 := by
  have fin : ∀ i ≤ n, Finished env (m i) ∧
      (realVertices (m i).1.inf (m i).1.cells).card + i ≤
        (realVertices (m 0).1.inf (m 0).1.cells).card := by
    intro i
    induction i with
    | zero => exact fun _ => ⟨hm, by omega⟩
    | succ i ih =>
      intro hi
      obtain ⟨hf, hcard⟩ := ih (by omega)
      obtain ⟨h1, -, h2, -⟩ := C105_yes_shrinks hl hr hf (h i (by omega))
      have := Finset.card_lt_card h2
      exact ⟨h1, by omega⟩
  rcases Nat.eq_zero_or_pos n with rfl | hpos
  · omega
  · obtain ⟨hf, hcard⟩ := fin (n - 1) (by omega)
    obtain ⟨K, hK, hcon⟩ := hf
    have ha := h (n - 1) (by omega)
    generalize hmm : m (n - 1) = mm at *
    obtain ⟨K', cs⟩ := mm
    obtain ⟨he, -⟩ := construct_ok hcon
    have hK' : ∀ c ∈ K'.cells, c.card = 4 := by rw [he]; exact hK
    have hnc : ¬ Causal K'.inf K'.time K'.cells := by
      intro hc
      have := (C105_is_fixed (re := re) hl hr hK hcon).1 hc
      rw [Answers, this] at ha
      simp at ha
    unfold Causal at hnc
    push Not at hnc
    obtain ⟨c, hmem, hi, -⟩ := hnc
    have : c ⊆ realVertices K'.inf K'.cells := fun v hv =>
      finite_sub _ _ (mem_vertices.2 ⟨c, Finset.mem_filter.2 ⟨hmem, hi⟩, hv⟩)
    have := Finset.card_le_card this
    rw [hK' c hmem] at this
    simp only at hcard
    omega

end

/-! Hypotheses are met.  Six points of one slice: the three tetrahedra of their fan are acausal, a yes
removes a point that each of them holds. -/

def Fixture.flat : Tri ℕ := Fixture.fan 0 (fun _ => 1) {11, 21, 31, 41, 51, 61}

example : (∀ c ∈ Fixture.flat.cells, c.card = 4) ∧
    (∃ m, construct Fixture.env Fixture.flat = .ok m) ∧
    ¬ Causal Fixture.flat.inf Fixture.flat.time Fixture.flat.cells ∧
    (finitePart Fixture.flat.inf Fixture.flat.cells).card = 3 := by
  refine ⟨by decide +kernel, ?_, ?_, by decide +kernel⟩
  · exact ⟨_, rfl⟩
  · intro h
    have := h {11, 21, 31, 41} (by decide +kernel) (by decide +kernel)
    revert this
    decide +kernel

/-- Three calls in a row on the flat fan: yes, yes, and an exception, since the third leaves three points. -/
example : ∃ m m₁ m₂ e, construct Fixture.env Fixture.flat = .ok m ∧
    Answers Fixture.env Fixture.fanRepair true m m₁ ∧ Answers Fixture.env Fixture.fanRepair true m₁ m₂ ∧
    isFixedMethod Fixture.env Fixture.fanRepair m₂ = .error e := ⟨_, _, _, _, rfl, rfl, rfl, rfl⟩

/-- A causal triangulation: no. -/
example : ∃ m, construct Fixture.env Fixture.k26 = .ok m ∧ Answers Fixture.env Fixture.fanRepair false m m :=
  ⟨_, rfl, rfl⟩

/-- Two cells of the kinds (1,3) and (3,1): the lone vertex offends. -/
example : Offends (fun v : ℕ => (v % 10 : ℤ)) {11, 13, 23, 33} 11 ∧
    ¬ Offends (fun v : ℕ => (v % 10 : ℤ)) {11, 13, 23, 33} 13 ∧
    Offends (fun v : ℕ => (v % 10 : ℤ)) {11, 21, 31, 13} 13 ∧
    ¬ Offends (fun v : ℕ => (v % 10 : ℤ)) {11, 21, 31, 13} 11 := by
  unfold Offends latest earliest
  decide +kernel

end CDT.Props

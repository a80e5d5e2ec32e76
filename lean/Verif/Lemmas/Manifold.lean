/-
Caches, counts and correctness predicates of a constructed manifold versus the census of its
complex.
-/
import Verif.Model.Manifold
import Verif.Lemmas.Types
import Verif.Lemmas.Mirror
import Verif.Lemmas.Cavity

namespace CDT
open Spec Cavity Moves

variable {V G : Type} [LinearOrder V]

theorem length_filter_iter {env : Env V G} (hl : env.Lawful) (K : Tri V) (S : Finset (Finset V))
    (p : Finset V → Bool) : ((env.iter K S).filter p).length = (S.filter (fun s => p s = true)).card := by
  rw [← List.toFinset_card_of_nodup ((hl.iter_nodup K S).filter _)]
  congr 1
  ext s
  simp [hl.mem_iter]

theorem length_iter {env : Env V G} (hl : env.Lawful) (K : Tri V) (S : Finset (Finset V)) :
    (env.iter K S).length = S.card := by
  rw [← List.toFinset_card_of_nodup (hl.iter_nodup K S)]
  congr 1
  ext s
  simp [hl.mem_iter]

theorem mem_finiteEdges {K : Tri V} {e : Finset V} :
    e ∈ K.finiteEdges ↔ e ∈ faces K.cells ∧ K.inf ∉ e ∧ e.card = 2 := by
  simp only [Tri.finiteEdges, Finset.mem_filter, Finset.mem_biUnion, Finset.mem_powersetCard, mem_faces]
  grind

theorem mem_finiteFacets {K : Tri V} {e : Finset V} :
    e ∈ K.finiteFacets ↔ e ∈ faces K.cells ∧ K.inf ∉ e ∧ e.card = 3 := by
  simp only [Tri.finiteFacets, Finset.mem_filter, Finset.mem_biUnion, Finset.mem_powersetCard, mem_faces]
  grind

theorem mem_finiteCells {K : Tri V} {c : Finset V} :
    c ∈ K.finiteCells ↔ c ∈ K.cells ∧ K.inf ∉ c := by
  simp [Tri.finiteCells]

theorem mem_finiteVerts {K : Tri V} {v : V} :
    v ∈ K.finiteVerts ↔ v ≠ K.inf ∧ ∃ c ∈ K.cells, v ∈ c := by
  simp [Tri.finiteVerts, Tri.verts]

theorem face_four {K : Finset (Finset V)} (hK : ∀ c ∈ K, c.card = 4) {s : Finset V} (h : s.card = 4) :
    s ∈ faces K ↔ s ∈ K := by
  rw [mem_faces]
  constructor
  · rintro ⟨c, hc, hs⟩
    rw [Finset.eq_of_subset_of_card_le hs (by rw [hK c hc, h])]
    exact hc
  · intro hs; exact ⟨s, hs, subset_rfl⟩

/-- The label of every finite cell is that of its causal type. -/
theorem typeCorrect_iff {K : Tri V} {c : Finset V} (h4 : c.card = 4) :
    K.typeCorrect c = true ↔
      (K.info c = 31 ∧ HasType K.time 3 1 c) ∨ (K.info c = 22 ∧ HasType K.time 2 2 c) ∨
      (K.info c = 13 ∧ HasType K.time 1 3 c) := by
  have ht : K.typeCorrect c = (K.expectedType c != .acausal && K.expectedType c != .unclassified &&
      (K.expectedType c).code == K.info c) := rfl
  rw [ht]
  rcases expectedType_cases K h4 with h | h | h | h
  · have n1 : ¬ HasType K.time 2 2 c := fun x => by
      have := hasType_unique (K := K) (by omega) (by omega) (by omega) (by omega) x h.2; omega
    have n2 : ¬ HasType K.time 1 3 c := fun x => by
      have := hasType_unique (K := K) (by omega) (by omega) (by omega) (by omega) x h.2; omega
    simp [h.1, h.2, n1, n2, CellType.code]; omega
  · have n1 : ¬ HasType K.time 3 1 c := fun x => by
      have := hasType_unique (K := K) (by omega) (by omega) (by omega) (by omega) x h.2; omega
    have n2 : ¬ HasType K.time 1 3 c := fun x => by
      have := hasType_unique (K := K) (by omega) (by omega) (by omega) (by omega) x h.2; omega
    simp [h.1, h.2, n1, n2, CellType.code]; omega
  · have n1 : ¬ HasType K.time 3 1 c := fun x => by
      have := hasType_unique (K := K) (by omega) (by omega) (by omega) (by omega) x h.2; omega
    have n2 : ¬ HasType K.time 2 2 c := fun x => by
      have := hasType_unique (K := K) (by omega) (by omega) (by omega) (by omega) x h.2; omega
    simp [h.1, h.2, n1, n2, CellType.code]; omega
  · have n1 := h.2 3 1 (by omega) (by omega)
    have n2 := h.2 2 2 (by omega) (by omega)
    have n3 := h.2 1 3 (by omega) (by omega)
    simp [h.1, n1, n2, n3]

theorem edgeTypeOf_spacelike {K : Tri V} {e : Finset V} (h : e.card = 2) :
    (edgeTypeOf K e = .spacelike ↔ Spacelike K.time e) ∧
    (edgeTypeOf K e = .timelike ↔ ¬ Spacelike K.time e) := by
  have hl : (canonicalPoints e).length = 2 := by rw [length_canonicalPoints, h]
  unfold edgeTypeOf
  rcases hc : canonicalPoints e with _ | ⟨a, _ | ⟨b, _ | ⟨c, l⟩⟩⟩
  · rw [hc] at hl; simp at hl
  · rw [hc] at hl; simp at hl
  · have hm : ∀ v, v ∈ e ↔ v = a ∨ v = b := by
      intro v; rw [← mem_canonicalPoints, hc]; simp
    have : Spacelike K.time e ↔ K.time a = K.time b := by
      constructor
      · intro hs; exact hs a ((hm a).2 (.inl rfl)) b ((hm b).2 (.inr rfl))
      · intro hs u hu v hv
        rcases (hm u).1 hu with rfl | rfl <;> rcases (hm v).1 hv with rfl | rfl <;> simp [hs]
    rw [this]
    dsimp only [classifyEdge]
    by_cases hab : K.time a = K.time b <;> simp [hab]
  · rw [hc] at hl; simp at hl

theorem isStructurallyCorrect_data {K : Tri V} {cs : Caches V}
    (h : isStructurallyCorrect K cs = true) :
    Closed K.cells ∧ ∀ c ∈ K.finiteCells, K.typeCorrect c = true := by
  simp only [isStructurallyCorrect, Bool.and_eq_true, checkCells, decide_eq_true_eq] at h
  exact ⟨isValid_iff.1 h.1.2, h.2⟩

theorem causal_of_correct {K : Tri V} (h4 : ∀ c ∈ K.cells, c.card = 4)
    (h : ∀ c ∈ K.finiteCells, K.typeCorrect c = true) : Causal K.inf K.time K.cells := by
  intro c hc hinf
  rcases (typeCorrect_iff (h4 c hc)).1 (h c (mem_finiteCells.2 ⟨hc, hinf⟩)) with h | h | h
  · exact .inl h.2
  · exact .inr (.inl h.2)
  · exact .inr (.inr h.2)

theorem correct_relabel {K : Tri V} (h4 : ∀ c ∈ K.cells, c.card = 4)
    (h : Causal K.inf K.time K.cells) : ∀ c ∈ (relabel K).finiteCells, (relabel K).typeCorrect c = true := by
  intro c hc
  obtain ⟨hc, hinf⟩ := mem_finiteCells.1 hc
  have hinf' : K.inf ∉ c := hinf
  rw [typeCorrect_iff (h4 c hc)]
  have hi : (relabel K).info c = (K.expectedType c).code := by simp [relabel, hinf']
  rw [hi]
  show ((K.expectedType c).code = 31 ∧ HasType K.time 3 1 c) ∨ ((K.expectedType c).code = 22 ∧ HasType K.time 2 2 c)
    ∨ ((K.expectedType c).code = 13 ∧ HasType K.time 1 3 c)
  rcases h c hc hinf' with h | h | h
  · left; rw [(expectedType_threeOne (h4 c hc)).2 h]; exact ⟨rfl, h⟩
  · right; left; rw [(expectedType_twoTwo (h4 c hc)).2 h]; exact ⟨rfl, h⟩
  · right; right; rw [(expectedType_oneThree (h4 c hc)).2 h]; exact ⟨rfl, h⟩

/-! ### Cache contents -/

theorem buildCaches_ok {env : Env V G} {K : Tri V} {cs : Caches V} (h : buildCaches env K = .ok cs) :
    K.finiteVerts ≠ ∅ ∧ cs.vertices = vertexSites env K ∧ cs.cells = env.iter K K.finiteCells ∧
    cs.threeOne = cs.cells.filter (fun c => K.info c = 31) ∧
    cs.twoTwo = cs.cells.filter (fun c => K.info c = 22) ∧
    cs.oneThree = cs.cells.filter (fun c => K.info c = 13) ∧
    cs.faces = env.iter K K.finiteFacets ∧ cs.spacelikeFacets = collectSpacelikeFacets K cs.faces ∧
    cs.edges = env.iter K K.finiteEdges ∧
    cs.timelikeEdges = cs.edges.filter (fun e => edgeTypeOf K e = .timelike) ∧
    cs.spacelikeEdges = cs.edges.filter (fun e => edgeTypeOf K e = .spacelike) ∧
    findMaxTimevalue K cs.vertices = some cs.maxTime ∧ findMinTimevalue K cs.vertices = some cs.minTime := by
  unfold buildCaches at h
  by_cases h0 : K.finiteVerts = ∅
  · simp [h0] at h
  · rw [if_neg h0] at h
    dsimp only at h
    cases h1 : findMaxTimevalue K (vertexSites env K) with
    | none => rw [h1] at h; simp at h
    | some hi =>
      cases h2 : findMinTimevalue K (vertexSites env K) with
      | none => rw [h1, h2] at h; simp at h
      | some lo =>
        rw [h1, h2] at h
        injection h with h
        subst h
        refine ⟨h0, rfl, rfl, rfl, rfl, rfl, rfl, rfl, rfl, rfl, rfl, h1, h2⟩

/-- All observed times of the vertex list. -/
theorem mem_vertexTimes {env : Env V G} (hl : env.Lawful) {K : Tri V} {t : ℤ} :
    t ∈ (vertexSites env K).flatMap (fun s => (canonicalPoints s).map K.time) ↔
      ∃ v ∈ K.finiteVerts, K.time v = t := by
  simp only [List.mem_flatMap, List.mem_map, vertexSites, hl.mem_iter, Finset.mem_image,
    mem_canonicalPoints]
  constructor
  · rintro ⟨s, ⟨v, hv, rfl⟩, u, hu, rfl⟩
    exact ⟨v, hv, by rw [Finset.mem_singleton.1 hu]⟩
  · rintro ⟨v, hv, rfl⟩
    exact ⟨{v}, ⟨v, hv, rfl⟩, v, by simp, rfl⟩

theorem foldl_max_mem (x : ℤ) (xs : List ℤ) :
    xs.foldl max x ∈ x :: xs ∧ ∀ y ∈ x :: xs, y ≤ xs.foldl max x := by
  induction xs generalizing x with
  | nil => simp
  | cons a xs ih =>
    obtain ⟨h1, h2⟩ := ih (max x a)
    simp only [List.foldl_cons, List.mem_cons] at *
    constructor
    · rcases h1 with h1 | h1
      · rw [h1]; rcases max_choice x a with h | h <;> simp [h]
      · exact .inr (.inr h1)
    · have := h2 (max x a) (.inl rfl)
      rintro y (rfl | rfl | hy)
      · exact le_trans (le_max_left _ _) this
      · exact le_trans (le_max_right _ _) this
      · exact h2 y (.inr hy)

theorem foldl_min_mem (x : ℤ) (xs : List ℤ) :
    xs.foldl min x ∈ x :: xs ∧ ∀ y ∈ x :: xs, xs.foldl min x ≤ y := by
  induction xs generalizing x with
  | nil => simp
  | cons a xs ih =>
    obtain ⟨h1, h2⟩ := ih (min x a)
    simp only [List.foldl_cons, List.mem_cons] at *
    constructor
    · rcases h1 with h1 | h1
      · rw [h1]; rcases min_choice x a with h | h <;> simp [h]
      · exact .inr (.inr h1)
    · have := h2 (min x a) (.inl rfl)
      rintro y (rfl | rfl | hy)
      · exact le_trans this (min_le_left _ _)
      · exact le_trans this (min_le_right _ _)
      · exact h2 y (.inr hy)

theorem maxTime_spec {env : Env V G} (hl : env.Lawful) {K : Tri V} {cs : Caches V}
    (h : buildCaches env K = .ok cs) :
    (∃ v ∈ K.finiteVerts, K.time v = cs.maxTime) ∧ ∀ v ∈ K.finiteVerts, K.time v ≤ cs.maxTime := by
  obtain ⟨_, hv, _, _, _, _, _, _, _, _, _, hm, _⟩ := buildCaches_ok h
  rw [hv] at hm
  unfold findMaxTimevalue at hm
  cases he : (vertexSites env K).flatMap (fun s => (canonicalPoints s).map K.time) with
  | nil => rw [he] at hm; simp at hm
  | cons t ts =>
    rw [he] at hm
    injection hm with hm
    obtain ⟨h1, h2⟩ := foldl_max_mem t ts
    rw [← he, hm] at h1
    refine ⟨(mem_vertexTimes hl).1 h1, fun v hv => ?_⟩
    rw [← hm]
    exact h2 _ (by rw [← he]; exact (mem_vertexTimes hl).2 ⟨v, hv, rfl⟩)

theorem minTime_spec {env : Env V G} (hl : env.Lawful) {K : Tri V} {cs : Caches V}
    (h : buildCaches env K = .ok cs) :
    (∃ v ∈ K.finiteVerts, K.time v = cs.minTime) ∧ ∀ v ∈ K.finiteVerts, cs.minTime ≤ K.time v := by
  obtain ⟨_, hv, _, _, _, _, _, _, _, _, _, _, hm⟩ := buildCaches_ok h
  rw [hv] at hm
  unfold findMinTimevalue at hm
  cases he : (vertexSites env K).flatMap (fun s => (canonicalPoints s).map K.time) with
  | nil => rw [he] at hm; simp at hm
  | cons t ts =>
    rw [he] at hm
    injection hm with hm
    obtain ⟨h1, h2⟩ := foldl_min_mem t ts
    rw [← he, hm] at h1
    refine ⟨(mem_vertexTimes hl).1 h1, fun v hv => ?_⟩
    rw [← hm]
    exact h2 _ (by rw [← he]; exact (mem_vertexTimes hl).2 ⟨v, hv, rfl⟩)

theorem buildCaches_total {env : Env V G} (hl : env.Lawful) {K : Tri V} (h : K.finiteVerts ≠ ∅) :
    ∃ cs, buildCaches env K = .ok cs := by
  obtain ⟨v, hv⟩ := Finset.nonempty_iff_ne_empty.2 h
  have hm := (mem_vertexTimes hl (K := K)).2 ⟨v, hv, rfl⟩
  unfold buildCaches
  rw [if_neg h]
  dsimp only
  cases he : (vertexSites env K).flatMap (fun s => (canonicalPoints s).map K.time) with
  | nil => rw [he] at hm; simp at hm
  | cons t ts =>
    have h1 : findMaxTimevalue K (vertexSites env K) = some (ts.foldl max t) := by
      unfold findMaxTimevalue; rw [he]
    have h2 : findMinTimevalue K (vertexSites env K) = some (ts.foldl min t) := by
      unfold findMinTimevalue; rw [he]
    rw [h1, h2]
    exact ⟨_, rfl⟩

/-! ### Counts -/

theorem count_vertices (inf : V) (K : Finset (Finset V)) :
    count inf K (fun s => s.card = 1) = (((vertices K).erase inf).card : ℤ) := by
  unfold count
  congr 1
  rw [← Finset.card_image_of_injective ((vertices K).erase inf) (f := fun v => ({v} : Finset V))
    (fun _ _ h => by simpa using h)]
  congr 1
  ext s
  simp only [Finset.mem_filter, mem_faces, Finset.mem_image, Finset.mem_erase, mem_vertices]
  constructor
  · rintro ⟨⟨⟨c, hc, hs⟩, hi⟩, h1⟩
    obtain ⟨v, rfl⟩ := Finset.card_eq_one.1 h1
    exact ⟨v, ⟨fun h => hi (by simp [h]), c, hc, by simpa using hs⟩, rfl⟩
  · rintro ⟨v, ⟨hv, c, hc, hvc⟩, rfl⟩
    exact ⟨⟨⟨c, hc, by simpa using hvc⟩, by simpa [eq_comm] using hv⟩, by simp⟩

theorem geometry_census {env : Env V G} (hl : env.Lawful) {K : Tri V} {cs : Caches V}
    (hK : ∀ c ∈ K.cells, c.card = 4) (hok : ∀ c ∈ K.finiteCells, K.typeCorrect c = true)
    (h : buildCaches env K = .ok cs) :
    let n := census K.inf K.time K.cells
    let g := geometryOf K cs
    g.N0 = n.N0 ∧ g.N1_SL = n.N1SL ∧ g.N1_TL = n.N1TL ∧ g.N2 = n.N2 ∧ g.N3_31 = n.N31 ∧
    g.N3_22 = n.N22 ∧ g.N3_13 = n.N13 ∧ g.N3 = n.N3 ∧ g.N1 = n.N1SL + n.N1TL := by
  obtain ⟨_, _, hcs, h31, h22, h13, _, _, hes, htl, hsl, _, _⟩ := buildCaches_ok h
  have cellc : ∀ (k : ℤ) (i j : ℕ), 1 ≤ i → 1 ≤ j → i + j = 4 →
      (∀ c ∈ K.finiteCells, K.info c = k ↔ HasType K.time i j c) →
      (((cs.cells.filter (fun c => K.info c = k)).length : ℤ)
        = count K.inf K.cells (fun s => s.card = 4 ∧ HasType K.time i j s)) := by
    intro k i j hi hj hij hk
    rw [hcs, length_filter_iter hl]
    unfold count
    congr 2
    ext c
    simp only [Finset.mem_filter, decide_eq_true_eq]
    constructor
    · rintro ⟨hc, hi⟩
      obtain ⟨h1, h2⟩ := mem_finiteCells.1 hc
      exact ⟨⟨mem_faces.2 ⟨c, h1, subset_rfl⟩, h2⟩, hK c h1, (hk c hc).1 hi⟩
    · rintro ⟨⟨h1, h2⟩, h3, h4⟩
      have hc := mem_finiteCells.2 ⟨(face_four hK h3).1 h1, h2⟩
      exact ⟨hc, (hk c hc).2 h4⟩
  have excl : ∀ {c} {i j i' j' : ℕ}, 1 ≤ i → 1 ≤ j → 1 ≤ i' → 1 ≤ j' → i ≠ i' →
      HasType K.time i j c → HasType K.time i' j' c → False := by
    intro c i j i' j' h1 h2 h3 h4 hne ha hb
    exact hne (hasType_unique (K := K) h1 h2 h3 h4 ha hb).1
  have edgec : ∀ (b : EdgeType) (q : Finset V → Prop) [DecidablePred q],
      (∀ e : Finset V, e.card = 2 → (edgeTypeOf K e = b ↔ q e)) →
      (((cs.edges.filter (fun e => edgeTypeOf K e = b)).length : ℤ)
        = count K.inf K.cells (fun s => s.card = 2 ∧ q s)) := by
    intro b q _ hq
    rw [hes, length_filter_iter hl]
    unfold count
    congr 2
    ext e
    simp only [Finset.mem_filter, decide_eq_true_eq, mem_finiteEdges]
    constructor
    · rintro ⟨⟨h1, h2, h3⟩, h4⟩; exact ⟨⟨h1, h2⟩, h3, (hq e h3).1 h4⟩
    · rintro ⟨⟨h1, h2⟩, h3, h4⟩; exact ⟨⟨h1, h2, h3⟩, (hq e h3).2 h4⟩
  have hSL := edgec .spacelike (Spacelike K.time) (fun e he => (edgeTypeOf_spacelike he).1)
  have hTL := edgec .timelike (fun e => ¬ Spacelike K.time e) (fun e he => (edgeTypeOf_spacelike he).2)
  have ok := fun c (hc : c ∈ K.finiteCells) =>
    (typeCorrect_iff (hK c (mem_finiteCells.1 hc).1)).1 (hok c hc)
  refine ⟨?_, ?_, ?_, ?_, ?_, ?_, ?_, ?_, ?_⟩
  · exact (count_vertices K.inf K.cells).symm
  · show (cs.spacelikeEdges.length : ℤ) = _
    rw [hsl]; exact hSL
  · show (cs.timelikeEdges.length : ℤ) = _
    rw [htl]; exact hTL
  · show ((K.finiteFacets.card : ℕ) : ℤ) = count _ _ _
    unfold count
    congr 2
    ext s
    simp only [Finset.mem_filter, mem_finiteFacets]
    tauto
  · show (cs.threeOne.length : ℤ) = _
    rw [h31]
    refine cellc 31 3 1 (by omega) (by omega) rfl (fun c hc => ?_)
    rcases ok c hc with ⟨h1, h2⟩ | ⟨h1, h2⟩ | ⟨h1, h2⟩
    · simp [h1, h2]
    · exact ⟨fun h => by omega, fun h => (excl (by omega) (by omega) (by omega) (by omega) (by omega) h h2).elim⟩
    · exact ⟨fun h => by omega, fun h => (excl (by omega) (by omega) (by omega) (by omega) (by omega) h h2).elim⟩
  · show (cs.twoTwo.length : ℤ) = _
    rw [h22]
    refine cellc 22 2 2 (by omega) (by omega) rfl (fun c hc => ?_)
    rcases ok c hc with ⟨h1, h2⟩ | ⟨h1, h2⟩ | ⟨h1, h2⟩
    · exact ⟨fun h => by omega, fun h => (excl (by omega) (by omega) (by omega) (by omega) (by omega) h h2).elim⟩
    · simp [h1, h2]
    · exact ⟨fun h => by omega, fun h => (excl (by omega) (by omega) (by omega) (by omega) (by omega) h h2).elim⟩
  · show (cs.oneThree.length : ℤ) = _
    rw [h13]
    refine cellc 13 1 3 (by omega) (by omega) rfl (fun c hc => ?_)
    rcases ok c hc with ⟨h1, h2⟩ | ⟨h1, h2⟩ | ⟨h1, h2⟩
    · exact ⟨fun h => by omega, fun h => (excl (by omega) (by omega) (by omega) (by omega) (by omega) h h2).elim⟩
    · exact ⟨fun h => by omega, fun h => (excl (by omega) (by omega) (by omega) (by omega) (by omega) h h2).elim⟩
    · simp [h1, h2]
  · show ((K.finiteCells.card : ℕ) : ℤ) = count _ _ _
    unfold count
    congr 2
    ext s
    simp only [Finset.mem_filter, mem_finiteCells]
    constructor
    · rintro ⟨h1, h2⟩; exact ⟨⟨mem_faces.2 ⟨s, h1, subset_rfl⟩, h2⟩, hK s h1⟩
    · rintro ⟨⟨h1, h2⟩, h3⟩; exact ⟨(face_four hK h3).1 h1, h2⟩
  · show ((K.finiteEdges.card : ℕ) : ℤ) = count _ _ _ + count _ _ _
    unfold count
    rw [← Nat.cast_add]
    congr 1
    rw [← Finset.card_filter_add_card_filter_not (s := K.finiteEdges) (Spacelike K.time)]
    congr 2
    · ext e; simp only [Finset.mem_filter, mem_finiteEdges]; tauto
    · ext e; simp only [Finset.mem_filter, mem_finiteEdges]; tauto

/-- For a freshly built manifold `is_correct` says exactly: closed pseudo-manifold with correctly
labelled cells. -/
theorem isStructurallyCorrect_iff {env : Env V G} (hl : env.Lawful) {K : Tri V} {cs : Caches V}
    (h : buildCaches env K = .ok cs) :
    isStructurallyCorrect K cs = true ↔
      Closed K.cells ∧ ∀ c ∈ K.finiteCells, K.typeCorrect c = true := by
  refine ⟨isStructurallyCorrect_data, fun ⟨hc, hok⟩ => ?_⟩
  obtain ⟨_, hvs, hcs, h31, h22, h13, hf, hsf, hes, htl, hsl, _, _⟩ := buildCaches_ok h
  simp only [isStructurallyCorrect, hasConsistentStructure, checkCells, Bool.and_eq_true,
    decide_eq_true_eq, beq_iff_eq]
  refine ⟨⟨⟨⟨⟨⟨?_, ?_⟩, ?_⟩, ?_⟩, ?_⟩, isValid_iff.2 hc⟩, hok⟩
  · rw [hvs, vertexSites, length_iter hl, Finset.card_image_of_injective _ (fun _ _ h => by simpa using h)]
  · rw [hsf, collectSpacelikeFacets, List.length_insertionSort]
    exact List.length_filterMap_le _ _
  · rw [h31, h22, h13]
    have : ∀ l : List (Finset V), (∀ c ∈ l, c ∈ K.finiteCells) →
        (l.filter (fun c => K.info c = 31)).length + (l.filter (fun c => K.info c = 22)).length +
        (l.filter (fun c => K.info c = 13)).length = l.length := by
      intro l
      induction l with
      | nil => simp
      | cons c l ih =>
        intro hl
        have hi := ih (fun d hd => hl d (List.mem_cons_of_mem _ hd))
        have := (typeCorrect_iff (hc.1 c (mem_finiteCells.1 (hl c (by simp))).1)).1 (hok c (hl c (by simp)))
        rcases this with h | h | h <;> simp [List.filter_cons, h.1] <;> omega
    exact this _ (fun c hcm => by rw [hcs] at hcm; exact (hl.mem_iter _ _ _).1 hcm)
  · rw [htl, hsl]
    have : ∀ l : List (Finset V), (l.filter (fun e => edgeTypeOf K e = .timelike)).length +
        (l.filter (fun e => edgeTypeOf K e = .spacelike)).length = l.length := by
      intro l
      induction l with
      | nil => simp
      | cons e l ih => cases he : edgeTypeOf K e <;> simp [List.filter_cons, he] <;> omega
    exact this _
  · have hne : cs.vertices ≠ [] := by
      intro h0
      have := (maxTime_spec hl h).1
      obtain ⟨v, hv, _⟩ := this
      have hm := (mem_vertexTimes hl (K := K)).2 ⟨v, hv, rfl⟩
      rw [← hvs, h0] at hm
      simp at hm
    rw [if_neg (by simp [hne])]
    obtain ⟨v, hv, _⟩ := (maxTime_spec hl h).1
    have := (maxTime_spec hl h).2 v hv
    have := (minTime_spec hl h).2 v hv
    simp only [decide_eq_true_eq]
    omega

end CDT

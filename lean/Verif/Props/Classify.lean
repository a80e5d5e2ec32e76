/-
C35, C36, C41: causal classification of tetrahedra, count partitions and time bounds.
-/
import Verif.Lemmas.Manifold
import Verif.Fixture.Complexes
import Mathlib.Tactic.Ring
import Mathlib.Order.Interval.Finset.Basic
import Mathlib.Data.Int.Interval

namespace CDT.Props
open CDT Spec Cavity Moves

/-! ### C35: cell classification -/

/-- C35.  The expected type of a tetrahedron with time values `ts` (in whatever storage order) is
(3,1), (2,2) or (1,3) exactly when the vertices occupy two adjacent slices with 3+1, 2+2 or 1+3 of
them; it is acausal exactly when they do not occupy two adjacent slices; and nothing is left
unclassified. -/
theorem C35_classification {ts : List ℤ} (h4 : ts.length = 4) :
    (expectedCellType ts = .threeOne ↔ ∃ t, ts.count t = 3 ∧ ts.count (t + 1) = 1) ∧
    (expectedCellType ts = .twoTwo ↔ ∃ t, ts.count t = 2 ∧ ts.count (t + 1) = 2) ∧
    (expectedCellType ts = .oneThree ↔ ∃ t, ts.count t = 1 ∧ ts.count (t + 1) = 3) ∧
    (expectedCellType ts = .acausal ↔
      ¬ ∃ t, t ∈ ts ∧ t + 1 ∈ ts ∧ ∀ x ∈ ts, x = t ∨ x = t + 1) ∧
    expectedCellType ts ≠ .unclassified := by
  have occ : ∀ i j, i + j = 4 → (Occupies ts i j ↔ ∃ t, ts.count t = i ∧ ts.count (t + 1) = j) := by
    intro i j hij; unfold Occupies; simp [h4, hij]
  have hadj : ∀ i j, 1 ≤ i → 1 ≤ j → Occupies ts i j →
      ∃ t, t ∈ ts ∧ t + 1 ∈ ts ∧ ∀ x ∈ ts, x = t ∨ x = t + 1 := by
    rintro i j hi hj ⟨hl, t, h1, h2⟩
    exact ⟨t, List.count_pos_iff.1 (by omega), List.count_pos_iff.1 (by omega),
      two_of_count ts t (by omega)⟩
  have hocc : (∃ t, t ∈ ts ∧ t + 1 ∈ ts ∧ ∀ x ∈ ts, x = t ∨ x = t + 1) →
      ∃ i j, 1 ≤ i ∧ 1 ≤ j ∧ Occupies ts i j := by
    rintro ⟨t, h1, h2, h3⟩
    have := count_two ts t h3
    exact ⟨ts.count t, ts.count (t + 1), List.count_pos_iff.2 h1, List.count_pos_iff.2 h2,
      by omega, t, rfl, rfl⟩
  rw [← occ 3 1 rfl, ← occ 2 2 rfl, ← occ 1 3 rfl]
  have uniq : ∀ {i j i' j'}, 1 ≤ i → 1 ≤ j → 1 ≤ i' → 1 ≤ j' → i ≠ i' → Occupies ts i j →
      ¬ Occupies ts i' j' := fun h1 h2 h3 h4 hne ha hb => hne (occupies_unique h1 h2 h3 h4 ha hb).1
  rcases expected_cases h4 with ⟨he, ho⟩ | ⟨he, ho⟩ | ⟨he, ho⟩ | ⟨he, ho⟩
  · refine ⟨by simp [he, ho], ?_, ?_, ?_, by simp [he]⟩
    · simpa [he] using uniq (by omega) (by omega) (by omega) (by omega) (by omega) ho
    · simpa [he] using uniq (by omega) (by omega) (by omega) (by omega) (by omega) ho
    · rw [he]; exact ⟨fun h => by simp at h, fun h => absurd (hadj _ _ (by omega) (by omega) ho) h⟩
  · refine ⟨?_, by simp [he, ho], ?_, ?_, by simp [he]⟩
    · simpa [he] using uniq (by omega) (by omega) (by omega) (by omega) (by omega) ho
    · simpa [he] using uniq (by omega) (by omega) (by omega) (by omega) (by omega) ho
    · rw [he]; exact ⟨fun h => by simp at h, fun h => absurd (hadj _ _ (by omega) (by omega) ho) h⟩
  · refine ⟨?_, ?_, by simp [he, ho], ?_, by simp [he]⟩
    · simpa [he] using uniq (by omega) (by omega) (by omega) (by omega) (by omega) ho
    · simpa [he] using uniq (by omega) (by omega) (by omega) (by omega) (by omega) ho
    · rw [he]; exact ⟨fun h => by simp at h, fun h => absurd (hadj _ _ (by omega) (by omega) ho) h⟩
  · refine ⟨?_, ?_, ?_, ?_, by simp [he]⟩
    · simpa [he] using ho 3 1 (by omega) (by omega)
    · simpa [he] using ho 2 2 (by omega) (by omega)
    · simpa [he] using ho 1 3 (by omega) (by omega)
    · rw [he]
      refine ⟨fun _ hx => ?_, fun _ => rfl⟩
      obtain ⟨i, j, hi, hj, h⟩ := hocc hx
      exact ho i j hi hj h

/-- C35.  The classification does not depend on the order in which the vertices are stored. -/
theorem C35_order_independent {ts ts' : List ℤ} (h4 : ts.length = 4) (hp : ts'.Perm ts) :
    expectedCellType ts' = expectedCellType ts := by
  have h4' : ts'.length = 4 := by rw [hp.length_eq, h4]
  obtain ⟨a1, a2, a3, a4, a5⟩ := C35_classification h4
  obtain ⟨b1, b2, b3, b4, b5⟩ := C35_classification h4'
  simp only [hp.count_eq, hp.mem_iff] at b1 b2 b3 b4
  cases he : expectedCellType ts with
  | threeOne => exact b1.2 (a1.1 he)
  | twoTwo => exact b2.2 (a2.1 he)
  | oneThree => exact b3.2 (a3.1 he)
  | acausal => exact b4.2 (a4.1 he)
  | unclassified => exact absurd he a5

/-- C35.  Adding the same amount to all times, or renumbering the slices backwards, changes the
type in the obvious way: the classification sees only relative times, and time reversal exchanges
(3,1) with (1,3). -/
theorem C35_symmetries {ts : List ℤ} (h4 : ts.length = 4) (k : ℤ) :
    expectedCellType (ts.map (· + k)) = expectedCellType ts ∧
    expectedCellType (ts.map (k - ·)) =
      (match expectedCellType ts with
       | .threeOne => .oneThree | .oneThree => .threeOne | x => x) := by
  have ca : ∀ t, (ts.map (· + k)).count (t + k) = ts.count t := fun t =>
    List.count_map_of_injective ts (· + k) (fun a b h => by simpa using h) t
  have cb : ∀ t, (ts.map (k - ·)).count (k - t) = ts.count t := fun t =>
    List.count_map_of_injective ts (k - ·) (fun a b h => by simpa using h) t
  constructor
  · obtain ⟨a1, a2, a3, a4, a5⟩ := C35_classification h4
    obtain ⟨b1, b2, b3, b4, b5⟩ := C35_classification (ts := ts.map (· + k)) (by simpa using h4)
    have lift : ∀ {i j}, (∃ t, ts.count t = i ∧ ts.count (t + 1) = j) →
        ∃ t, (ts.map (· + k)).count t = i ∧ (ts.map (· + k)).count (t + 1) = j := by
      rintro i j ⟨t, h1, h2⟩
      exact ⟨t + k, by rw [ca, h1], by rw [show t + k + 1 = (t + 1) + k by ring, ca, h2]⟩
    cases he : expectedCellType ts with
    | threeOne => exact b1.2 (lift (a1.1 he))
    | twoTwo => exact b2.2 (lift (a2.1 he))
    | oneThree => exact b3.2 (lift (a3.1 he))
    | acausal =>
      refine b4.2 (fun hx => a4.1 he ?_)
      obtain ⟨t, h1, h2, h3⟩ := hx
      simp only [List.mem_map] at h1 h2 h3
      obtain ⟨x, hx, rfl⟩ := h1
      obtain ⟨y, hy, hyx⟩ := h2
      refine ⟨x, hx, by rwa [show x + 1 = y by omega], fun z hz => ?_⟩
      have := h3 (z + k) ⟨z, hz, rfl⟩
      omega
    | unclassified => exact absurd he a5
  · obtain ⟨a1, a2, a3, a4, a5⟩ := C35_classification h4
    obtain ⟨b1, b2, b3, b4, b5⟩ := C35_classification (ts := ts.map (k - ·)) (by simpa using h4)
    have lift : ∀ {i j}, (∃ t, ts.count t = i ∧ ts.count (t + 1) = j) →
        ∃ t, (ts.map (k - ·)).count t = j ∧ (ts.map (k - ·)).count (t + 1) = i := by
      rintro i j ⟨t, h1, h2⟩
      exact ⟨k - (t + 1), by rw [cb, h2], by rw [show k - (t + 1) + 1 = k - t by ring, cb, h1]⟩
    cases he : expectedCellType ts with
    | threeOne => exact b3.2 (lift (a1.1 he))
    | twoTwo => exact b2.2 (lift (a2.1 he))
    | oneThree => exact b1.2 (lift (a3.1 he))
    | acausal =>
      refine b4.2 (fun hx => a4.1 he ?_)
      obtain ⟨t, h1, h2, h3⟩ := hx
      simp only [List.mem_map] at h1 h2 h3
      obtain ⟨x, hx, rfl⟩ := h1
      obtain ⟨y, hy, hyx⟩ := h2
      refine ⟨y, hy, by rwa [show y + 1 = x by omega], fun z hz => ?_⟩
      have := h3 (k - z) ⟨z, hz, rfl⟩
      omega
    | unclassified => exact absurd he a5

/-- C35.  A stored label is accepted exactly when it is the code of the causal type. -/
theorem C35_label_correct_iff {ts : List ℤ} (h4 : ts.length = 4) (info : ℤ) :
    isCellTypeCorrect ts info = true ↔
      (info = 31 ∧ ∃ t, ts.count t = 3 ∧ ts.count (t + 1) = 1) ∨
      (info = 22 ∧ ∃ t, ts.count t = 2 ∧ ts.count (t + 1) = 2) ∨
      (info = 13 ∧ ∃ t, ts.count t = 1 ∧ ts.count (t + 1) = 3) := by
  obtain ⟨a1, a2, a3, a4, a5⟩ := C35_classification h4
  rw [← a1, ← a2, ← a3]
  unfold isCellTypeCorrect
  cases he : expectedCellType ts <;> simp [CellType.code, eq_comm (a := info)]

example : expectedCellType [2, 3, 2, 2] = .threeOne ∧ expectedCellType [-1, 0, 0, -1] = .twoTwo ∧
    expectedCellType [5, 4, 5, 5] = .oneThree ∧ expectedCellType [1, 1, 1, 1] = .acausal ∧
    expectedCellType [1, 1, 2, 3] = .acausal := by decide

/-! ### C41: time bounds -/

section
variable {V G : Type} [LinearOrder V] {env : Env V G}

/-- C41.  The published time bounds of a constructed triangulation are attained by finite vertices
and bound all of them. -/
theorem C41_bounds_attained (hl : env.Lawful) {K K' : Tri V} {cs : Caches V}
    (h : construct env K = .ok (K', cs)) :
    (∃ v ∈ (vertices K'.cells).erase K'.inf, K'.time v = cs.maxTime) ∧
    (∃ v ∈ (vertices K'.cells).erase K'.inf, K'.time v = cs.minTime) ∧
    ∀ v ∈ (vertices K'.cells).erase K'.inf, cs.minTime ≤ K'.time v ∧ K'.time v ≤ cs.maxTime := by
  have hb : buildCaches env K' = .ok cs := by
    unfold construct at h
    cases hb : buildCaches env (makeManifold env K) with
    | error e => rw [hb] at h; simp at h
    | ok c => rw [hb] at h; simp only [Except.ok.injEq, Prod.mk.injEq] at h; rw [← h.1, ← h.2]; exact hb
  have hv : K'.finiteVerts = (vertices K'.cells).erase K'.inf := rfl
  rw [← hv]
  exact ⟨(maxTime_spec hl hb).1, (minTime_spec hl hb).1,
    fun v hm => ⟨(minTime_spec hl hb).2 v hm, (maxTime_spec hl hb).2 v hm⟩⟩

/-- C41.  Construction from an empty vertex set is rejected with `invalid_argument`, and that is
the only rejection. -/
theorem C41_rejected_iff_empty (hl : env.Lawful) (K : Tri V) :
    (∃ e, construct env K = .error e) ↔ (vertices K.cells).erase K.inf = ∅ := by
  have hv : (makeManifold env K).finiteVerts = (vertices K.cells).erase K.inf := rfl
  constructor
  · rintro ⟨e, he⟩
    by_contra hne
    obtain ⟨cs, hcs⟩ := buildCaches_total hl (K := makeManifold env K) (by rw [hv]; exact hne)
    rw [construct, hcs] at he
    simp at he
  · intro h0
    refine ⟨.invalidArgument, ?_⟩
    have : buildCaches env (makeManifold env K) = .error .invalidArgument := by
      unfold buildCaches; rw [if_pos (by rw [hv]; exact h0)]
    rw [construct, this]

theorem C41_empty_error (K : Tri V) (h : (vertices K.cells).erase K.inf = ∅) :
    construct env K = .error .invalidArgument := by
  have : buildCaches env (makeManifold env K) = .error .invalidArgument := by
    unfold buildCaches; rw [if_pos]; exact h
  rw [construct, this]

example : (construct Fixture.env Fixture.k26).toOption.map (fun p => (p.2.minTime, p.2.maxTime)) =
    some (1, 3) := by decide +kernel

/-! ### C36: partitions -/

theorem construct_ok {K K' : Tri V} {cs : Caches V} (h : construct env K = .ok (K', cs)) :
    K' = makeManifold env K ∧ buildCaches env K' = .ok cs := by
  unfold construct at h
  cases hb : buildCaches env (makeManifold env K) with
  | error e => rw [hb] at h; simp at h
  | ok c =>
    rw [hb] at h
    simp only [Except.ok.injEq, Prod.mk.injEq] at h
    rw [← h.1, ← h.2]; exact ⟨rfl, hb⟩

/-- C36.  Count identities of a structurally correct triangulation. -/
theorem C36_partition_identities (hl : env.Lawful) {K K' : Tri V} {cs : Caches V}
    (h : construct env K = .ok (K', cs)) (hc : isStructurallyCorrect K' cs = true) :
    let g := geometryOf K' cs
    g.N3 = g.N3_31 + g.N3_22 + g.N3_13 ∧ g.N3_31_13 = g.N3_31 + g.N3_13 ∧ g.N1 = g.N1_SL + g.N1_TL := by
  obtain ⟨_, hb⟩ := construct_ok h
  obtain ⟨hcl, hok⟩ := isStructurallyCorrect_data hc
  have hg := geometry_census hl hcl.1 hok hb
  have hs : hasConsistentStructure K' cs = true := by
    simp only [isStructurallyCorrect, Bool.and_eq_true] at hc; exact hc.1.1
  simp only [hasConsistentStructure, Bool.and_eq_true, beq_iff_eq, decide_eq_true_eq] at hs
  obtain ⟨_, _, hcs, _⟩ := buildCaches_ok hb
  have hlen : cs.cells.length = K'.finiteCells.card := by rw [hcs, length_iter hl]
  refine ⟨?_, rfl, ?_⟩
  · show ((K'.finiteCells.card : ℕ) : ℤ) = (cs.threeOne.length : ℤ) + cs.twoTwo.length + cs.oneThree.length
    rw [← hlen]; exact_mod_cast hs.1.1.2.symm
  · rw [hg.2.2.2.2.2.2.2.2, hg.2.1, hg.2.2.1]

/-- C36.  The three cell caches split the finite tetrahedra without overlap, each holding exactly
the tetrahedra of its type; the two edge caches split the finite edges. -/
theorem C36_caches_partition (hl : env.Lawful) {K K' : Tri V} {cs : Caches V}
    (h : construct env K = .ok (K', cs)) (hc : isStructurallyCorrect K' cs = true) :
    (cs.threeOne ++ cs.twoTwo ++ cs.oneThree).Nodup ∧
    (∀ c, c ∈ cs.threeOne ++ cs.twoTwo ++ cs.oneThree ↔ c ∈ finitePart K'.inf K'.cells) ∧
    (∀ c, c ∈ cs.threeOne ↔ c ∈ finitePart K'.inf K'.cells ∧ HasType K'.time 3 1 c) ∧
    (∀ c, c ∈ cs.twoTwo ↔ c ∈ finitePart K'.inf K'.cells ∧ HasType K'.time 2 2 c) ∧
    (∀ c, c ∈ cs.oneThree ↔ c ∈ finitePart K'.inf K'.cells ∧ HasType K'.time 1 3 c) ∧
    (cs.spacelikeEdges ++ cs.timelikeEdges).Nodup ∧
    (∀ e, e ∈ cs.spacelikeEdges ↔
      e ∈ faces K'.cells ∧ K'.inf ∉ e ∧ e.card = 2 ∧ Spacelike K'.time e) ∧
    (∀ e, e ∈ cs.timelikeEdges ↔
      e ∈ faces K'.cells ∧ K'.inf ∉ e ∧ e.card = 2 ∧ ¬ Spacelike K'.time e) := by
  obtain ⟨_, hb⟩ := construct_ok h
  obtain ⟨hcl, hok⟩ := isStructurallyCorrect_data hc
  obtain ⟨_, _, hcs, h31, h22, h13, _, _, hes, htl, hsl, _⟩ := buildCaches_ok hb
  have nd : cs.cells.Nodup := by rw [hcs]; exact hl.iter_nodup _ _
  have nde : cs.edges.Nodup := by rw [hes]; exact hl.iter_nodup _ _
  have mc : ∀ c, c ∈ cs.cells ↔ c ∈ finitePart K'.inf K'.cells := by
    intro c; rw [hcs, hl.mem_iter]; rfl
  have ok : ∀ c ∈ finitePart K'.inf K'.cells, _ := fun c (hm : c ∈ K'.finiteCells) =>
    (typeCorrect_iff (hcl.1 c (mem_finiteCells.1 hm).1)).1 (hok c hm)
  have t31 : ∀ c, c ∈ cs.threeOne ↔ c ∈ finitePart K'.inf K'.cells ∧ K'.info c = 31 := by
    intro c; rw [h31, List.mem_filter, mc]; simp
  have t22 : ∀ c, c ∈ cs.twoTwo ↔ c ∈ finitePart K'.inf K'.cells ∧ K'.info c = 22 := by
    intro c; rw [h22, List.mem_filter, mc]; simp
  have t13 : ∀ c, c ∈ cs.oneThree ↔ c ∈ finitePart K'.inf K'.cells ∧ K'.info c = 13 := by
    intro c; rw [h13, List.mem_filter, mc]; simp
  have uniq := fun c {i j i' j' : ℕ} (h1 : 1 ≤ i) (h2 : 1 ≤ j) (h3 : 1 ≤ i') (h4 : 1 ≤ j')
    (hne : i ≠ i') (ha : HasType K'.time i j c) (hb : HasType K'.time i' j' c) =>
      hne (hasType_unique (K := K') h1 h2 h3 h4 ha hb).1
  refine ⟨?_, ?_, ?_, ?_, ?_, ?_, ?_, ?_⟩
  · rw [List.nodup_append, List.nodup_append]
    refine ⟨⟨by rw [h31]; exact nd.filter _, by rw [h22]; exact nd.filter _, ?_⟩,
      by rw [h13]; exact nd.filter _, ?_⟩
    · rintro a ha b hb rfl
      have := ((t31 a).1 ha).2; have := ((t22 a).1 hb).2; omega
    · rintro a ha b hb rfl
      have := ((t13 a).1 hb).2
      rcases List.mem_append.1 ha with ha | ha
      · have := ((t31 a).1 ha).2; omega
      · have := ((t22 a).1 ha).2; omega
  · intro c
    rw [List.mem_append, List.mem_append, t31, t22, t13]
    constructor
    · rintro ((h | h) | h) <;> exact h.1
    · intro hm; rcases ok c hm with h | h | h <;> simp [hm, h.1]
  · intro c; rw [t31]
    refine and_congr_right (fun hm => ?_)
    rcases ok c hm with ⟨h1, h2⟩ | ⟨h1, h2⟩ | ⟨h1, h2⟩
    · simp [h1, h2]
    · exact ⟨fun h => by omega, fun h => (uniq c (by omega) (by omega) (by omega) (by omega) (by omega) h h2).elim⟩
    · exact ⟨fun h => by omega, fun h => (uniq c (by omega) (by omega) (by omega) (by omega) (by omega) h h2).elim⟩
  · intro c; rw [t22]
    refine and_congr_right (fun hm => ?_)
    rcases ok c hm with ⟨h1, h2⟩ | ⟨h1, h2⟩ | ⟨h1, h2⟩
    · exact ⟨fun h => by omega, fun h => (uniq c (by omega) (by omega) (by omega) (by omega) (by omega) h h2).elim⟩
    · simp [h1, h2]
    · exact ⟨fun h => by omega, fun h => (uniq c (by omega) (by omega) (by omega) (by omega) (by omega) h h2).elim⟩
  · intro c; rw [t13]
    refine and_congr_right (fun hm => ?_)
    rcases ok c hm with ⟨h1, h2⟩ | ⟨h1, h2⟩ | ⟨h1, h2⟩
    · exact ⟨fun h => by omega, fun h => (uniq c (by omega) (by omega) (by omega) (by omega) (by omega) h h2).elim⟩
    · exact ⟨fun h => by omega, fun h => (uniq c (by omega) (by omega) (by omega) (by omega) (by omega) h h2).elim⟩
    · simp [h1, h2]
  · rw [List.nodup_append]
    refine ⟨by rw [hsl]; exact nde.filter _, by rw [htl]; exact nde.filter _, ?_⟩
    rintro a ha b hb rfl
    rw [hsl, List.mem_filter] at ha
    rw [htl, List.mem_filter] at hb
    have h1 := of_decide_eq_true ha.2
    have h2 := of_decide_eq_true hb.2
    rw [h1] at h2; cases h2
  · intro e
    rw [hsl, List.mem_filter, hes, hl.mem_iter, mem_finiteEdges, decide_eq_true_eq]
    constructor
    · rintro ⟨⟨h1, h2, h3⟩, h4⟩; exact ⟨h1, h2, h3, (edgeTypeOf_spacelike h3).1.1 h4⟩
    · rintro ⟨h1, h2, h3, h4⟩; exact ⟨⟨h1, h2, h3⟩, (edgeTypeOf_spacelike h3).1.2 h4⟩
  · intro e
    rw [htl, List.mem_filter, hes, hl.mem_iter, mem_finiteEdges, decide_eq_true_eq]
    constructor
    · rintro ⟨⟨h1, h2, h3⟩, h4⟩; exact ⟨h1, h2, h3, (edgeTypeOf_spacelike h3).2.1 h4⟩
    · rintro ⟨h1, h2, h3, h4⟩; exact ⟨⟨h1, h2, h3⟩, (edgeTypeOf_spacelike h3).2.2 h4⟩

/-! Spacelike faces by slice. -/

theorem dedup_singleton_iff {ts : List ℤ} {t : ℤ} (h : ts ≠ []) :
    ts.dedup = [t] ↔ ∀ x ∈ ts, x = t := by
  constructor
  · intro hd x hx
    have := List.mem_dedup.2 hx
    rw [hd] at this; simpa using this
  · intro hall
    have h1 : ∀ x ∈ ts.dedup, x = t := fun x hx => hall x (List.mem_dedup.1 hx)
    have h2 := List.nodup_dedup ts
    rcases hd : ts.dedup with _ | ⟨a, _ | ⟨b, l⟩⟩
    · obtain ⟨x, hx⟩ := List.exists_mem_of_ne_nil _ h
      have := List.mem_dedup.2 hx; rw [hd] at this; simp at this
    · rw [hd] at h1; rw [h1 a (by simp)]
    · rw [hd] at h1 h2
      have e1 := h1 a (by simp); have e2 := h1 b (by simp)
      rw [e1, e2] at h2; simp at h2

theorem tagged_iff (K : Tri V) {s : Finset V} (hs : s.card = 3) (t : ℤ) (s' : Finset V) :
    (match ((canonicalPoints s).map K.time).dedup with
      | [t] => some (t, s) | _ => none) = some (t, s') ↔ s' = s ∧ ∀ v ∈ s, K.time v = t := by
  have hne : (canonicalPoints s).map K.time ≠ [] := by
    intro h
    have := congrArg List.length h
    simp [length_canonicalPoints, hs] at this
  have key : ((canonicalPoints s).map K.time).dedup = [t] ↔ ∀ v ∈ s, K.time v = t := by
    rw [dedup_singleton_iff hne]; simp [mem_canonicalPoints]
  constructor
  · intro h
    split at h
    · next t' ht =>
      simp only [Option.some.injEq, Prod.mk.injEq] at h
      rw [h.1] at ht
      exact ⟨h.2.symm, key.1 ht⟩
    · simp at h
  · rintro ⟨rfl, h⟩
    rw [key.2 h]

theorem takeWhile_sorted {α : Type} (l : List (ℤ × α)) (hl : l.Pairwise (fun a b => a.1 ≤ b.1)) (t : ℤ) :
    (l.dropWhile (fun e => e.1 < t)).takeWhile (fun e => !(t < e.1)) = l.filter (fun e => e.1 = t) := by
  induction l with
  | nil => rfl
  | cons a l ih =>
    obtain ⟨h1, h2⟩ := List.pairwise_cons.1 hl
    rcases lt_trichotomy a.1 t with h | h | h
    · rw [List.dropWhile_cons_of_pos (by simpa using h), List.filter_cons_of_neg (by simp; omega)]
      exact ih h2
    · rw [List.dropWhile_cons_of_neg (by simp [h]), List.takeWhile_cons_of_pos (by simp [h]),
        List.filter_cons_of_pos (by simp [h])]
      congr 1
      rw [← ih h2]
      cases l with
      | nil => rfl
      | cons b l' =>
        rw [List.dropWhile_cons_of_neg]
        have := h1 b (by simp)
        simp; omega
    · rw [List.dropWhile_cons_of_neg (by simp; omega), List.takeWhile_cons_of_neg (by simp [h])]
      symm
      rw [List.filter_eq_nil_iff]
      intro x hx
      rcases List.mem_cons.1 hx with rfl | hx
      · simp; omega
      · have := h1 x hx; simp; omega

theorem facets_spec (hl : env.Lawful) {K : Tri V} {cs : Caches V} (hb : buildCaches env K = .ok cs) :
    cs.spacelikeFacets.Pairwise (fun a b => a.1 ≤ b.1) ∧ cs.spacelikeFacets.Nodup ∧
    ∀ t s, (t, s) ∈ cs.spacelikeFacets ↔
      s ∈ faces K.cells ∧ K.inf ∉ s ∧ s.card = 3 ∧ ∀ v ∈ s, K.time v = t := by
  obtain ⟨_, _, _, _, _, _, hf, hsf, _⟩ := buildCaches_ok hb
  rw [hsf, collectSpacelikeFacets]
  refine ⟨?_, ?_, ?_⟩
  · have : Std.Total (fun (a b : ℤ × Finset V) => a.1 ≤ b.1) := ⟨fun a b => le_total _ _⟩
    have : IsTrans (ℤ × Finset V) (fun a b => a.1 ≤ b.1) := ⟨fun a b c => le_trans⟩
    exact List.pairwise_insertionSort _ _
  · rw [(List.perm_insertionSort _ _).nodup_iff]
    have : cs.faces.Nodup := by rw [hf]; exact hl.iter_nodup _ _
    refine this.filterMap ?_
    intro a a' b h1 h2
    simp only [Option.mem_def] at h1 h2
    split at h1 <;> simp at h1
    split at h2 <;> simp at h2
    rw [← h1] at h2
    exact (Prod.mk.inj h2).2.symm
  · intro t s
    rw [(List.perm_insertionSort _ _).mem_iff, List.mem_filterMap, hf]
    constructor
    · rintro ⟨a, ha, he⟩
      rw [hl.mem_iter, mem_finiteFacets] at ha
      obtain ⟨rfl, hall⟩ := (tagged_iff K ha.2.2 t s).1 he
      exact ⟨ha.1, ha.2.1, ha.2.2, hall⟩
    · rintro ⟨h1, h2, h3, h4⟩
      exact ⟨s, by rw [hl.mem_iter, mem_finiteFacets]; exact ⟨h1, h2, h3⟩, (tagged_iff K h3 t s).2 ⟨rfl, h4⟩⟩

theorem slice_count_of_caches (hl : env.Lawful) {K' : Tri V} {cs : Caches V}
    (hb : buildCaches env K' = .ok cs) (t : ℤ) :
    (cs.spacelikeFaceCount t : ℤ) =
      count K'.inf K'.cells (fun s => s.card = 3 ∧ ∀ v ∈ s, K'.time v = t) := by
  obtain ⟨hs, hn, hm⟩ := facets_spec hl hb
  unfold Caches.spacelikeFaceCount count
  rw [takeWhile_sorted _ hs, ← List.toFinset_card_of_nodup (hn.filter _)]
  congr 1
  rw [← Finset.card_image_of_injective
    (((faces K'.cells).filter (K'.inf ∉ ·)).filter (fun s => s.card = 3 ∧ ∀ v ∈ s, K'.time v = t))
    (f := fun s => (t, s)) (fun _ _ h => by simpa using h)]
  congr 1
  ext ⟨t', s⟩
  simp only [List.mem_toFinset, List.mem_filter, decide_eq_true_eq, Finset.mem_image, Finset.mem_filter,
    Prod.mk.injEq, hm]
  constructor
  · rintro ⟨⟨h1, h2, h3, h4⟩, rfl⟩; exact ⟨s, ⟨⟨h1, h2⟩, h3, h4⟩, rfl, rfl⟩
  · rintro ⟨s', ⟨⟨h1, h2⟩, h3, h4⟩, rfl, rfl⟩; exact ⟨⟨h1, h2, h3, h4⟩, rfl⟩

/-- C36.  `spacelike_face_count(t)` is the number of finite triangles all of whose vertices are on
slice `t`. -/
theorem C36_slice_count (hl : env.Lawful) {K K' : Tri V} {cs : Caches V}
    (h : construct env K = .ok (K', cs)) (t : ℤ) :
    (cs.spacelikeFaceCount t : ℤ) =
      count K'.inf K'.cells (fun s => s.card = 3 ∧ ∀ v ∈ s, K'.time v = t) :=
  slice_count_of_caches hl (construct_ok h).2 t

/-- C36.  The total number of spacelike faces is the number of finite triangles on one slice, and
the slice counts sum to it over the published time range; outside the range they vanish. -/
theorem C36_slices_sum (hl : env.Lawful) {K K' : Tri V} {cs : Caches V}
    (h : construct env K = .ok (K', cs)) :
    (cs.numberOfSpacelikeFaces : ℤ) =
      count K'.inf K'.cells (fun s => s.card = 3 ∧ Spacelike K'.time s) ∧
    cs.numberOfSpacelikeFaces = ∑ t ∈ Finset.Icc cs.minTime cs.maxTime, cs.spacelikeFaceCount t ∧
    ∀ t, t < cs.minTime ∨ cs.maxTime < t → cs.spacelikeFaceCount t = 0 := by
  obtain ⟨_, hb⟩ := construct_ok h
  obtain ⟨hs, hn, hm⟩ := facets_spec hl hb
  have range : ∀ t s, (t, s) ∈ cs.spacelikeFacets → t ∈ Finset.Icc cs.minTime cs.maxTime := by
    intro t s hts
    obtain ⟨h1, h2, h3, h4⟩ := (hm t s).1 hts
    obtain ⟨v, hv⟩ := Finset.card_pos.1 (show 0 < s.card by omega)
    have hfv : v ∈ K'.finiteVerts := by
      rw [mem_finiteVerts]
      obtain ⟨c, hc, hsc⟩ := mem_faces.1 h1
      exact ⟨fun he => h2 (he ▸ hv), c, hc, hsc hv⟩
    rw [← h4 v hv, Finset.mem_Icc]
    exact ⟨(minTime_spec hl hb).2 v hfv, (maxTime_spec hl hb).2 v hfv⟩
  have cnt : ∀ t, cs.spacelikeFaceCount t = (cs.spacelikeFacets.filter (fun e => e.1 = t)).length := by
    intro t; unfold Caches.spacelikeFaceCount; rw [takeWhile_sorted _ hs]
  refine ⟨?_, ?_, ?_⟩
  · unfold Caches.numberOfSpacelikeFaces count
    rw [← List.length_map (f := Prod.snd), ← List.toFinset_card_of_nodup]
    · congr 2
      ext s
      simp only [List.mem_toFinset, List.mem_map, Finset.mem_filter, Prod.exists, hm]
      constructor
      · rintro ⟨t, s', ⟨h1, h2, h3, h4⟩, rfl⟩
        exact ⟨⟨h1, h2⟩, h3, fun u hu v hv => by rw [h4 u hu, h4 v hv]⟩
      · rintro ⟨⟨h1, h2⟩, h3, h4⟩
        obtain ⟨v, hv⟩ := Finset.card_pos.1 (show 0 < s.card by omega)
        exact ⟨K'.time v, s, ⟨h1, h2, h3, fun u hu => h4 u hu v hv⟩, rfl⟩
    · refine (List.nodup_map_iff_inj_on hn).2 ?_
      rintro ⟨t, s⟩ ha ⟨t', s'⟩ hb' he
      simp only at he
      subst he
      obtain ⟨_, _, h3, h4⟩ := (hm _ _).1 ha
      obtain ⟨v, hv⟩ := Finset.card_pos.1 (show 0 < s.card by omega)
      rw [← h4 v hv, ((hm _ _).1 hb').2.2.2 v hv]
  · unfold Caches.numberOfSpacelikeFaces
    rw [Finset.sum_congr rfl (fun t _ => cnt t)]
    have : ∀ l : List (ℤ × Finset V), (∀ e ∈ l, e.1 ∈ Finset.Icc cs.minTime cs.maxTime) →
        l.length = ∑ t ∈ Finset.Icc cs.minTime cs.maxTime, (l.filter (fun e => e.1 = t)).length := by
      intro l
      induction l with
      | nil => simp
      | cons e l ih =>
        intro hmem
        have hl' := ih (fun x hx => hmem x (List.mem_cons_of_mem _ hx))
        have hsp : ∀ t, ((e :: l).filter (fun e => e.1 = t)).length =
            (l.filter (fun e => e.1 = t)).length + if e.1 = t then 1 else 0 := by
          intro t; by_cases ht : e.1 = t <;> simp [ht]
        rw [Finset.sum_congr rfl (fun t _ => hsp t), Finset.sum_add_distrib, ← hl', Finset.sum_ite_eq,
          if_pos (hmem e (by simp))]
        simp
    exact this _ (fun e he => range e.1 e.2 he)
  · intro t ht
    rw [cnt, List.length_eq_zero_iff, List.filter_eq_nil_iff]
    rintro ⟨t', s⟩ he
    have := Finset.mem_Icc.1 (range t' s he)
    simp; omega

example : (construct Fixture.env Fixture.k26).toOption.map (fun p =>
    (isStructurallyCorrect p.1 p.2, p.2.numberOfSpacelikeFaces, p.2.spacelikeFaceCount 2,
      p.2.spacelikeFaceCount 1)) = some (true, 1, 1, 0) := by decide +kernel

end

end CDT.Props

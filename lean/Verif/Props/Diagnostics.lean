import Verif.Model.Diagnostics
import Verif.Props.Values
import Verif.Lemmas.MoveResult
/-
C77: the cheap correctness test and the diagnostic one.
-/
namespace CDT.Props
open CDT CDT.Val CDT.Spec CDT.Moves CDT.Cavity

variable {V G : Type} [LinearOrder V] {S : Setting V G} {w : World V}

theorem collectHandles_tagged (K : Tri V) (b : ℕ) (fs : List (Finset V)) :
    collectSpacelikeHandles K (fs.map (Prod.mk b)) =
      (collectSpacelikeFacets K fs).map (fun e => (e.1, b, e.2)) := by
  unfold collectSpacelikeHandles collectSpacelikeFacets
  rw [List.filterMap_map, List.map_insertionSort (r := fun a b : ℤ × Finset V => a.1 ≤ b.1) (s := fun a b : ℤ × Handle V => a.1 ≤ b.1)]
  · congr 1
    rw [List.map_filterMap]
    congr 1
    funext s
    simp only [Function.comp]
    generalize (List.map K.time (canonicalPoints s)).dedup = l
    rcases l with _ | ⟨t, _ | _⟩ <;> rfl
  · intro a _ b _; rfl

theorem filter_tagged (b : ℕ) (p : Finset V → Bool) (l : List (Finset V)) :
    (l.map (Prod.mk b)).filter (fun h => p h.2) = (l.filter p).map (Prod.mk b) := by
  rw [List.filter_map]; rfl

/-- Members computed by the constructor pass the tests on derived data whenever they pass the
structural one. -/
theorem derived_of_build {env : Env V G} (hl : env.Lawful) {K : Tri V} {cs : Caches V} {b : ℕ} {r s : BitVec 64}
    (h : buildCaches env K = .ok cs) (hs : isStructurallyCorrect K cs = true) :
    hasConsistentDerivedState K b (tagged b r s cs) = true := by
  obtain ⟨hcl, -⟩ := isStructurallyCorrect_data hs
  have hst : hasConsistentStructure K cs = true := by
    simp only [isStructurallyCorrect, Bool.and_eq_true] at hs; exact hs.1.1
  obtain ⟨_, hvs, hcs, h31, h22, h13, hf, hsf, hes, htl, hsl, hmax, hmin⟩ := buildCaches_ok h
  unfold hasConsistentDerivedState
  rw [tagged_caches, hst]
  simp only [Bool.not_true, Bool.false_eq_true, if_false]
  rw [if_neg, if_neg, if_neg]
  · split
    · rfl
    · simp only [tagged, hmax, hmin, beq_self_eq_true, Bool.and_self]
  · simp only [tagged, not_or, not_not]
    refine ⟨?_, ?_, ?_, ?_, ?_, ?_⟩
    · rw [h31, filter_tagged b (fun c => decide (K.info c = _))]; rfl
    · rw [h22, filter_tagged b (fun c => decide (K.info c = _))]; rfl
    · rw [h13, filter_tagged b (fun c => decide (K.info c = _))]; rfl
    · rw [hsf, collectHandles_tagged]
    · rw [htl, filter_tagged b (fun e => decide (edgeTypeOf K e = _))]
    · rw [hsl, filter_tagged b (fun e => decide (edgeTypeOf K e = _))]
  · have face : ∀ {e : Finset V}, e ∈ faces K.cells → ∃ c ∈ K.cells, e ⊆ c := by
      intro e he; unfold faces at he; simpa using he
    simp only [Bool.or_eq_true, Bool.not_eq_true', Bool.eq_false_iff, not_or, not_not, ne_eq, List.all_eq_true]
    simp only [tagged, List.mem_map, forall_exists_index, and_imp]
    refine ⟨⟨⟨?_, ?_⟩, ?_⟩, ?_⟩
    · rintro _ x hx rfl
      rw [hvs, vertexSites, hl.mem_iter] at hx
      obtain ⟨v, hv, rfl⟩ := Finset.mem_image.1 hx
      have hv' : ∃ c ∈ K.cells, v ∈ c := by
        have := hv
        simp only [Tri.finiteVerts, Tri.verts, Finset.mem_erase, Finset.mem_biUnion, id] at this
        exact this.2
      simpa [isVertexHandle] using hv'
    · rintro _ x hx rfl
      rw [hcs, hl.mem_iter] at hx
      simpa [isCellHandle] using (mem_finiteCells.1 hx).1
    · rintro _ x hx rfl
      rw [hf, hl.mem_iter, mem_finiteFacets] at hx
      simpa [isFacetHandle] using ⟨hx.2.2, face hx.1⟩
    · rintro _ x hx rfl
      rw [hes, hl.mem_iter, mem_finiteEdges] at hx
      simpa [isEdgeHandle] using ⟨hx.2.2, face hx.1⟩
  · simp only [tagged, List.length_map, not_or, not_not, ne_eq]
    refine ⟨?_, ?_, ?_⟩
    · rw [hcs, length_iter hl]
    · rw [hf, length_iter hl]
    · rw [hes, length_iter hl]

/-- C77: on every manifold a program can hold, whatever was done to it before, the cheap test and the
diagnostic test give the same answer. -/
theorem C77_tests_agree (hS : Val.Lawful S) (h : Reached S w) {a : ℕ} (hi : Intact w a) :
    isCorrectWithDiagnostics w a = isCorrect w a := by
  obtain ⟨x, b, hx, hb⟩ := hi
  unfold isCorrectWithDiagnostics isCorrect
  rw [hx]
  dsimp only
  rw [hb]
  dsimp only [Option.bind_some]
  rcases (reached_inv hS h).good a x b hx hb with ⟨hc, -, r, s, e⟩ | ⟨K, cs, r, s, hc, -, hbc, e, -⟩
  · rw [hc]
    dsimp only
    rcases hs : isStructurallyCorrect S.empty x.tri.caches with _ | _
    · rfl
    rw [Bool.true_and]
    have hd := isStructurallyCorrect_data hs
    have hst : hasConsistentStructure S.empty x.tri.caches = true := by
      simp only [isStructurallyCorrect, Bool.and_eq_true] at hs; exact hs.1.1
    have none : ∀ t : Finset V, t.Nonempty → S.empty.inf ∉ t → t ∉ faces S.empty.cells := by
      rintro t ⟨v, hv⟩ hinf ht
      obtain ⟨c, hc, hsub⟩ := mem_faces.1 ht
      have : v ∈ S.empty.finiteVerts := mem_finiteVerts.2 ⟨fun e => hinf (e ▸ hv), c, hc, hsub hv⟩
      rw [hS.empty] at this
      simp at this
    have h3 : S.empty.finiteCells = ∅ := by
      rw [Finset.eq_empty_iff_forall_notMem]
      intro c hc
      obtain ⟨h1, h2⟩ := mem_finiteCells.1 hc
      exact none c (Finset.card_pos.1 (by rw [hd.1.1 c h1]; norm_num)) h2 (mem_faces.2 ⟨c, h1, subset_rfl⟩)
    have h2 : S.empty.finiteFacets = ∅ := by
      rw [Finset.eq_empty_iff_forall_notMem]
      intro c hc
      obtain ⟨h1, h2, h3⟩ := mem_finiteFacets.1 hc
      exact none c (Finset.card_pos.1 (by rw [h3]; norm_num)) h2 h1
    have h1 : S.empty.finiteEdges = ∅ := by
      rw [Finset.eq_empty_iff_forall_notMem]
      intro c hc
      obtain ⟨h1, h2, h3⟩ := mem_finiteEdges.1 hc
      exact none c (Finset.card_pos.1 (by rw [h3]; norm_num)) h2 h1
    unfold hasConsistentDerivedState
    rw [hst, h1, h2, h3, e]
    simp [defaultMembers, collectSpacelikeHandles]
  · rw [hc]
    dsimp only
    rcases hs : isStructurallyCorrect K x.tri.caches with _ | _
    · rfl
    rw [Bool.true_and, e]
    rw [e, tagged_caches] at hs
    exact derived_of_build (hS.env b r s) hbc hs

/-- C77: on such a manifold with vertices, both say exactly that the complex is a closed
pseudo-manifold whose finite tetrahedra each span two adjacent slices. -/
theorem C77_correct_iff (hS : Val.Lawful S) (h : Reached S w) {a : ℕ} {y : Seen V} (hy : seen w a = some y)
    (hne : y.tri.finiteVerts ≠ ∅) :
    isCorrect w a = true ↔ Closed y.tri.cells ∧ Causal y.tri.inf y.tri.time y.tri.cells := by
  obtain ⟨b, hm, hbc, -⟩ := C43_always_consistent hS h hy hne
  have hval : isCorrect w a = isStructurallyCorrect y.tri y.caches := by
    unfold seen at hy
    unfold isCorrect
    cases ho : w.obj a with
    | none => rw [ho] at hy; cases hy
    | some o =>
      rw [ho] at hy
      dsimp only at hy ⊢
      cases hk : o.tri.body.bind w.body with
      | none => rw [hk] at hy; cases hy
      | some K => rw [hk] at hy; cases hy; rfl
  rw [hval, isStructurallyCorrect_iff (hS.env b y.radius y.spacing) hbc]
  constructor
  · rintro ⟨h1, h2⟩; exact ⟨h1, causal_of_correct h1.1 h2⟩
  · rintro ⟨h1, h2⟩
    refine ⟨h1, fun c hc => ?_⟩
    obtain ⟨hcm, hci⟩ := mem_finiteCells.1 hc
    have := makeManifold_labels (env := S.env b y.radius y.spacing) (K := y.tri) h1.1 (by rw [hm]; exact h2) c hcm hci
    rw [hm] at this
    exact (typeCorrect_iff (h1.1 c hcm)).2 this

/-- C77: a default-constructed manifold passes both tests. -/
theorem C77_default (hS : Val.Lawful S) (h : Reached S w) (he : S.empty.cells = ∅) {a : ℕ}
    (hp : Permitted w (.default a)) {w' : World V} (hw : step S w (.default a) = .ok w') :
    isCorrect w' a = true ∧ isCorrectWithDiagnostics w' a = true := by
  have hr := Reached.next h hp hw
  have hw' : w' = defaultObject S w a := by simp only [step] at hw; cases hw; rfl
  have hi : Intact w' a := by
    rw [hw']; exact ⟨⟨defaultMembers S w.next, {}⟩, w.next, by simp [defaultObject, World.set], rfl⟩
  have hc : isCorrect w' a = true := by
    have hv : S.empty.finiteVerts = ∅ := hS.empty
    rw [hw']
    simp only [isCorrect, defaultObject, World.set, Function.update_self, defaultMembers, Option.bind_some,
      isStructurallyCorrect, hasConsistentStructure, Members.caches, hv, checkCells, Tri.isValid, Tri.finiteCells, he]
    simp
  exact ⟨hc, by rw [C77_tests_agree hS hr hi]; exact hc⟩

theorem Nodup.length_eq_mem {α : Type} [DecidableEq α] {l : List α} {s : Finset α} (hn : l.Nodup)
    (hlen : l.length = s.card) (hsub : ∀ x ∈ l, x ∈ s) : ∀ x, x ∈ l ↔ x ∈ s := by
  have h1 : l.toFinset ⊆ s := fun x hx => hsub x (List.mem_toFinset.1 hx)
  have h2 : l.toFinset = s := Finset.eq_of_subset_of_card_le h1 (by rw [List.toFinset_card_of_nodup hn]; omega)
  intro x; rw [← h2, List.mem_toFinset]

/-- C77: what the diagnostic test is worth by itself, on data of any origin: if no container repeats a
handle or holds one at infinity and the test passes, then every container holds exactly the simplices
of its kind. -/
theorem C77_diagnostics_exact {a b : ℕ} {x : Object V} {K : Tri V} (hx : w.obj a = some x)
    (hb : x.tri.body = some b) (hK : w.body b = some K)
    (hnc : x.tri.cells.Nodup) (hne : x.tri.edges.Nodup)
    (hfin : ∀ h ∈ x.tri.cells ++ x.tri.edges, K.inf ∉ h.2)
    (h : isCorrectWithDiagnostics w a = true) :
    Foliated K.inf K.time K.cells ∧ (∀ h ∈ x.tri.cells ++ x.tri.edges, h.1 = b) ∧
    (∀ c, (b, c) ∈ x.tri.threeOne ↔ c ∈ finitePart K.inf K.cells ∧ HasType K.time 3 1 c) ∧
    (∀ c, (b, c) ∈ x.tri.twoTwo ↔ c ∈ finitePart K.inf K.cells ∧ HasType K.time 2 2 c) ∧
    (∀ c, (b, c) ∈ x.tri.oneThree ↔ c ∈ finitePart K.inf K.cells ∧ HasType K.time 1 3 c) ∧
    (∀ e, (b, e) ∈ x.tri.spacelikeEdges ↔
      e ∈ faces K.cells ∧ K.inf ∉ e ∧ e.card = 2 ∧ Spacelike K.time e) ∧
    (∀ e, (b, e) ∈ x.tri.timelikeEdges ↔
      e ∈ faces K.cells ∧ K.inf ∉ e ∧ e.card = 2 ∧ ¬ Spacelike K.time e) := by
  unfold isCorrectWithDiagnostics at h
  rw [hx] at h
  dsimp only at h
  rw [hb] at h
  dsimp only at h
  rw [hK] at h
  dsimp only at h
  rw [Bool.and_eq_true] at h
  obtain ⟨hs, hd⟩ := h
  obtain ⟨hcl, hok⟩ := isStructurallyCorrect_data hs
  unfold hasConsistentDerivedState at hd
  split at hd
  · cases hd
  split at hd
  · cases hd
  rename_i hlen
  split at hd
  · cases hd
  rename_i hval
  split at hd
  · cases hd
  rename_i hfil
  simp only [not_or, not_not, ne_eq] at hlen hfil
  simp only [Bool.or_eq_true, Bool.not_eq_true', Bool.eq_false_iff, not_or, not_not, ne_eq, List.all_eq_true] at hval
  obtain ⟨⟨⟨-, vc⟩, -⟩, ve⟩ := hval
  obtain ⟨lc, -, le⟩ := hlen
  obtain ⟨f31, f22, f13, -, ftl, fsl⟩ := hfil
  have ownc : ∀ h ∈ x.tri.cells, h.1 = b ∧ h.2 ∈ K.cells := fun h hh => by
    simpa [isCellHandle] using vc h hh
  have owne : ∀ h ∈ x.tri.edges, h.1 = b ∧ h.2.card = 2 ∧ h.2 ∈ faces K.cells := fun h hh => by
    have := ve h hh
    rw [mem_faces]
    simpa [isEdgeHandle] using this
  have memc : ∀ c, (b, c) ∈ x.tri.cells ↔ c ∈ K.finiteCells := by
    have nd : (x.tri.cells.map Prod.snd).Nodup := by
      refine (List.nodup_map_iff_inj_on hnc).2 fun p hp q hq e => ?_
      exact Prod.ext ((ownc p hp).1.trans (ownc q hq).1.symm) e
    have := Nodup.length_eq_mem nd (by rw [List.length_map, lc]) (s := K.finiteCells) (fun c hc => by
      obtain ⟨p, hp, rfl⟩ := List.mem_map.1 hc
      exact mem_finiteCells.2 ⟨(ownc p hp).2, hfin p (List.mem_append_left _ hp)⟩)
    intro c
    rw [← this c, List.mem_map]
    constructor
    · intro h; exact ⟨_, h, rfl⟩
    · rintro ⟨p, hp, rfl⟩
      have : p = (b, p.2) := Prod.ext (ownc p hp).1 rfl
      rw [← this]; exact hp
  have meme : ∀ e, (b, e) ∈ x.tri.edges ↔ e ∈ K.finiteEdges := by
    have nd : (x.tri.edges.map Prod.snd).Nodup := by
      refine (List.nodup_map_iff_inj_on hne).2 fun p hp q hq e => ?_
      exact Prod.ext ((owne p hp).1.trans (owne q hq).1.symm) e
    have := Nodup.length_eq_mem nd (by rw [List.length_map, le]) (s := K.finiteEdges) (fun c hc => by
      obtain ⟨p, hp, rfl⟩ := List.mem_map.1 hc
      exact mem_finiteEdges.2 ⟨(owne p hp).2.2, hfin p (List.mem_append_right _ hp), (owne p hp).2.1⟩)
    intro c
    rw [← this c, List.mem_map]
    constructor
    · intro h; exact ⟨_, h, rfl⟩
    · rintro ⟨p, hp, rfl⟩
      have : p = (b, p.2) := Prod.ext (owne p hp).1 rfl
      rw [← this]; exact hp
  have ok : ∀ c ∈ K.finiteCells, _ := fun c (hm : c ∈ K.finiteCells) =>
    (typeCorrect_iff (hcl.1 c (mem_finiteCells.1 hm).1)).1 (hok c hm)
  have uniq := fun c {i j i' j' : ℕ} (h1 : 1 ≤ i) (h2 : 1 ≤ j) (h3 : 1 ≤ i') (h4 : 1 ≤ j')
    (hne : i ≠ i') (ha : HasType K.time i j c) (hb : HasType K.time i' j' c) =>
      hne (hasType_unique (K := K) h1 h2 h3 h4 ha hb).1
  refine ⟨⟨hcl, causal_of_correct hcl.1 hok⟩, ?_, ?_, ?_, ?_, ?_, ?_⟩
  · intro h hh
    rcases List.mem_append.1 hh with hh | hh
    · exact (ownc h hh).1
    · exact (owne h hh).1
  · intro c
    rw [f31, List.mem_filter, memc, decide_eq_true_eq]
    refine and_congr_right (fun hm => ?_)
    rcases ok c hm with ⟨h1, h2⟩ | ⟨h1, h2⟩ | ⟨h1, h2⟩
    · simp [h1, h2, CellType.code]
    · exact ⟨fun h => by simp [h1, CellType.code] at h, fun h => (uniq c (by omega) (by omega) (by omega) (by omega) (by omega) h h2).elim⟩
    · exact ⟨fun h => by simp [h1, CellType.code] at h, fun h => (uniq c (by omega) (by omega) (by omega) (by omega) (by omega) h h2).elim⟩
  · intro c
    rw [f22, List.mem_filter, memc, decide_eq_true_eq]
    refine and_congr_right (fun hm => ?_)
    rcases ok c hm with ⟨h1, h2⟩ | ⟨h1, h2⟩ | ⟨h1, h2⟩
    · exact ⟨fun h => by simp [h1, CellType.code] at h, fun h => (uniq c (by omega) (by omega) (by omega) (by omega) (by omega) h h2).elim⟩
    · simp [h1, h2, CellType.code]
    · exact ⟨fun h => by simp [h1, CellType.code] at h, fun h => (uniq c (by omega) (by omega) (by omega) (by omega) (by omega) h h2).elim⟩
  · intro c
    rw [f13, List.mem_filter, memc, decide_eq_true_eq]
    refine and_congr_right (fun hm => ?_)
    rcases ok c hm with ⟨h1, h2⟩ | ⟨h1, h2⟩ | ⟨h1, h2⟩
    · exact ⟨fun h => by simp [h1, CellType.code] at h, fun h => (uniq c (by omega) (by omega) (by omega) (by omega) (by omega) h h2).elim⟩
    · exact ⟨fun h => by simp [h1, CellType.code] at h, fun h => (uniq c (by omega) (by omega) (by omega) (by omega) (by omega) h h2).elim⟩
    · simp [h1, h2, CellType.code]
  · intro e
    rw [fsl, List.mem_filter, meme, mem_finiteEdges, decide_eq_true_eq]
    constructor
    · rintro ⟨⟨h1, h2, h3⟩, h4⟩; exact ⟨h1, h2, h3, (edgeTypeOf_spacelike h3).1.1 h4⟩
    · rintro ⟨h1, h2, h3, h4⟩; exact ⟨⟨h1, h2, h3⟩, (edgeTypeOf_spacelike h3).1.2 h4⟩
  · intro e
    rw [ftl, List.mem_filter, meme, mem_finiteEdges, decide_eq_true_eq]
    constructor
    · rintro ⟨⟨h1, h2, h3⟩, h4⟩; exact ⟨h1, h2, h3, (edgeTypeOf_spacelike h3).2.1 h4⟩
    · rintro ⟨h1, h2, h3, h4⟩; exact ⟨⟨h1, h2, h3⟩, (edgeTypeOf_spacelike h3).2.2 h4⟩

section
open ValuesExample

/-- A program: construct a manifold and move it elsewhere.  Both tests pass. -/
example : ∃ w : World ℕ, Reached setting w ∧ Intact w 1 ∧ isCorrect w 1 = true ∧
    isCorrectWithDiagnostics w 1 = true := by
  obtain ⟨w1, x1, s1, v1, -⟩ :=
    C43_construct lawful (.start : Reached setting (World.initial : World ℕ)) (a := 1) (K := Fixture.k23) 7 8 (by decide +kernel)
  have c1 := Reached.next (o := .construct 1 Fixture.k23 7 8) .start (by simp [Permitted, World.initial]) s1
  have h : (match step setting World.initial (.construct 1 Fixture.k23 7 8) with
    | .ok w => isCorrect w 1 | .error _ => false) = true := by decide +kernel
  rw [s1] at h
  have hi := intact_of_seen v1
  exact ⟨w1, c1, hi, h, by rw [C77_tests_agree lawful c1 hi]; exact h⟩

/-- Data that no program can produce, with the (3,1) and (1,3) containers exchanged: the cheap test
passes it, the diagnostic test does not. -/
example : ∃ w : World ℕ, isCorrect w 0 = true ∧ isCorrectWithDiagnostics w 0 = false := by
  have h : (match step setting World.initial (.construct 0 Fixture.k23 7 8) with
    | .ok w => (match w.obj 0 with
      | some x =>
        let w' := w.set 0 (some { x with tri := { x.tri with threeOne := x.tri.twoTwo, twoTwo := x.tri.threeOne } })
        isCorrect w' 0 && !isCorrectWithDiagnostics w' 0
      | none => false)
    | .error _ => false) = true := by decide +kernel
  split at h
  · split at h
    · simp only [Bool.and_eq_true, Bool.not_eq_true'] at h
      exact ⟨_, h⟩
    · cases h
  · cases h

end

end CDT.Props

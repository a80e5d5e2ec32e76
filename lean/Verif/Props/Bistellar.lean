/-
C75: the low-level diagonal exchange `bistellar_flip` and its helpers.
-/
import Verif.Lemmas.Bistellar
import Verif.Fixture.Complexes

namespace CDT.Props
open CDT Spec Cavity Moves

variable {V : Type} [LinearOrder V]

/-! ### Helpers -/

theorem hasType_spread {time : V → ℤ} {i j : ℕ} {s : Finset V} (h : HasType time i j s) :
    ∀ p ∈ s, ∀ q ∈ s, time p ≤ time q + 1 := by
  obtain ⟨hc, v, -, h1, h2⟩ := h
  have hd : Disjoint (s.filter (fun u => time u = time v)) (s.filter (fun u => time u = time v + 1)) := by
    rw [Finset.disjoint_filter]; intro x _ e1 e2; omega
  have hall : s.filter (fun u => time u = time v) ∪ s.filter (fun u => time u = time v + 1) = s := by
    apply Finset.eq_of_subset_of_card_le
    · exact Finset.union_subset (Finset.filter_subset _ _) (Finset.filter_subset _ _)
    · rw [Finset.card_union_of_disjoint hd, h1, h2, hc]
  have key : ∀ p ∈ s, time p = time v ∨ time p = time v + 1 := by
    intro p hp
    rw [← hall] at hp
    simp only [Finset.mem_union, Finset.mem_filter] at hp
    tauto
  intro p hp q hq
  rcases key p hp with e | e <;> rcases key q hq with e' | e' <;> omega

theorem code_expected {K : Tri V} {c : Finset V} (h4 : c.card = 4) :
    (K.expectedType c).code = label K.time c := by
  unfold label
  rcases expectedType_cases K h4 with h | h | h | h
  · rw [if_pos h.2, h.1]; rfl
  · rw [if_neg, if_pos h.2, h.1]; rfl
    intro hx; rw [← expectedType_threeOne h4, h.1] at hx; simp at hx
  · rw [if_neg, if_neg, if_pos h.2, h.1]; rfl
    · intro hx; rw [← expectedType_twoTwo h4, h.1] at hx; simp at hx
    · intro hx; rw [← expectedType_threeOne h4, h.1] at hx; simp at hx
  · rw [if_neg (h.2 _ _ (by omega) (by omega)), if_neg (h.2 _ _ (by omega) (by omega)),
      if_neg (h.2 _ _ (by omega) (by omega)), h.1]; rfl

theorem flip_some {K K' : Tri V} (hK : Closed K.cells) {a b top bottom : V} :
    bistellarFlip K a b top bottom = some K' ↔
      ∃ x y u, Diamond K.inf K.cells a b x y u bottom ∧ (top = x ∨ top = y ∨ top = u) ∧
        ({x, y} : Finset V) ∉ faces K.cells ∧
        K' = relabel { K with cells := exchanged K.cells a b x y u bottom } := by
  unfold bistellarFlip bistellarFlipImpl
  have htv : ∀ {x y u}, Diamond K.inf K.cells a b x y u bottom → (top = x ∨ top = y ∨ top = u) →
      top ∈ K.finiteVerts := by
    intro x y u hD ht
    obtain ⟨m1, m2, m3, m4⟩ := hD.mem_cells
    have hf := hD.finite
    simp only [List.mem_cons, List.not_mem_nil, or_false, not_or] at hf
    rcases ht with rfl | rfl | rfl
    · exact mem_finiteVerts.2 ⟨Ne.symm hf.2.2.1, _, m1, by simp⟩
    · exact mem_finiteVerts.2 ⟨Ne.symm hf.2.2.2.1, _, m2, by simp⟩
    · exact mem_finiteVerts.2 ⟨Ne.symm hf.2.2.2.2.1, _, m1, by simp⟩
  constructor
  · intro h
    rcases hp : prepareBistellarFlip K a b top bottom with e | m
    · rw [hp] at h; simp at h
    · rw [hp] at h
      simp only at h
      obtain ⟨rfl, x, y, u, hD, ht⟩ := (prepareBistellar_iff hK).1 hp
      rcases he : executeFourFour (fun _ => true) K ⟨a, b, top, bottom⟩ with e | K2
      · rw [he] at h; simp at h
      · rw [he] at h
        obtain ⟨h1, -, h2⟩ := (exec_diamond hK hD (htv hD ht)).1 he
        cases h
        exact ⟨x, y, u, hD, ht, h1, h2⟩
  · rintro ⟨x, y, u, hD, ht, hfree, rfl⟩
    rw [(prepareBistellar_iff hK).2 ⟨rfl, x, y, u, hD, ht⟩]
    simp only
    rw [(exec_diamond hK hD (htv hD ht)).2 ⟨hfree, rfl, rfl⟩]

/-! ### The flip -/

/-- C75.  The flip is performed exactly when the edge is the axis of four finite tetrahedra, the
two vertices are different members of the ring around it, and the two neighbours of `bottom` in
that ring are not joined already. -/
theorem C75_flip_iff {K : Tri V} (hK : Closed K.cells) (a b top bottom : V) :
    (∃ K', bistellarFlip K a b top bottom = some K') ↔
      ∃ x y u, Diamond K.inf K.cells a b x y u bottom ∧ (top = x ∨ top = y ∨ top = u) ∧
        ({x, y} : Finset V) ∉ faces K.cells := by
  constructor
  · rintro ⟨K', h⟩
    obtain ⟨x, y, u, h1, h2, h3, -⟩ := (flip_some hK).1 h
    exact ⟨x, y, u, h1, h2, h3⟩
  · rintro ⟨x, y, u, h1, h2, h3⟩
    exact ⟨_, (flip_some hK).2 ⟨x, y, u, h1, h2, h3, rfl⟩⟩

/-- C75.  The result is the exchange of the axis for the edge between the two neighbours of
`bottom`: a closed complex with the same vertices, times and numbers of finite simplices of every
dimension, every finite tetrahedron carrying its label. -/
theorem C75_flip_effect {K K' : Tri V} (hK : Closed K.cells) {a b top bottom : V}
    (h : bistellarFlip K a b top bottom = some K') :
    ∃ x y u, Diamond K.inf K.cells a b x y u bottom ∧ (top = x ∨ top = y ∨ top = u) ∧
      K'.cells = exchanged K.cells a b x y u bottom ∧ Closed K'.cells ∧
      K'.inf = K.inf ∧ K'.time = K.time ∧ vertices K'.cells = vertices K.cells ∧
      (∀ n, count K'.inf K'.cells (·.card = n) = count K.inf K.cells (·.card = n)) ∧
      (∀ c ∈ K'.cells, K'.inf ∉ c → K'.info c = label K'.time c) ∧
      ∀ c, K.inf ∈ c → K'.info c = K.info c := by
  obtain ⟨x, y, u, hD, ht, hfree, rfl⟩ := (flip_some hK).1 h
  obtain ⟨f, hp, hr, -⟩ := hD.placed hfree
  have hc := hD.closed hfree hK
  refine ⟨x, y, u, hD, ht, rfl, hc, rfl, rfl, ?_, ?_, ?_, ?_⟩
  · show vertices (exchanged _ _ _ _ _ _ _) = _
    apply Finset.Subset.antisymm
    · intro v hv
      rw [← hr] at hv
      exact vertices_replace hp (by decide +kernel) v hv
    · intro v hv
      have hp' := placed_rev hp (by decide +kernel)
      have hb := replace_rev good44 hp
      rw [hr] at hp' hb
      rw [← hb] at hv
      exact vertices_replace hp' (by decide +kernel) v hv
  · intro n
    show count K.inf (exchanged _ _ _ _ _ _ _) _ = _
    rw [← hr, count_replace good44 hp _ (·.card = n) (by intro r; rw [Finset.card_map])]
    have e1 : (faces p44.N \ faces p44.O).filter (·.card = n) = ∅ ∧
        (faces p44.O \ faces p44.N).filter (·.card = n) = ∅ ∨ n < 5 := by
      by_cases hn : n < 5
      · exact .inr hn
      · left
        have w : ∀ s ∈ faces p44.N ∪ faces p44.O, s.card < 5 := by decide +kernel
        constructor
        · apply Finset.filter_eq_empty_iff.2
          intro s hs e
          have := w s (Finset.mem_union_left _ (Finset.mem_sdiff.1 hs).1); omega
        · apply Finset.filter_eq_empty_iff.2
          intro s hs e
          have := w s (Finset.mem_union_right _ (Finset.mem_sdiff.1 hs).1); omega
    rcases e1 with ⟨e1, e2⟩ | hn
    · rw [e1, e2]; simp
    · have w : ∀ n < 5, (((faces p44.N \ faces p44.O).filter (·.card = n)).card : ℤ) -
        ((faces p44.O \ faces p44.N).filter (·.card = n)).card = 0 := by decide +kernel
      rw [w n hn, add_zero]
  · intro c hcm hinf
    rw [← code_expected (K := relabel { K with cells := exchanged K.cells a b x y u bottom }) (hc.1 c hcm)]
    show (if K.inf ∈ c then _ else _) = _
    exact (if_neg hinf).trans rfl
  · intro c hinf
    show (if K.inf ∈ c then _ else _) = _
    rw [if_pos hinf]

/-- C75.  The result is determined by the axis and `bottom`: any other admissible `top` gives the
same triangulation. -/
theorem C75_top_does_not_matter {K K₁ K₂ : Tri V} (hK : Closed K.cells) {a b t₁ t₂ bottom : V}
    (h₁ : bistellarFlip K a b t₁ bottom = some K₁) (h₂ : bistellarFlip K a b t₂ bottom = some K₂) :
    K₁ = K₂ := by
  obtain ⟨x, y, u, hD, -, -, rfl⟩ := (flip_some hK).1 h₁
  obtain ⟨x', y', u', hD', -, -, rfl⟩ := (flip_some hK).1 h₂
  have hx := diamond_link hD
  have hx' := diamond_link hD'
  have e : ∀ w, (w = x ∨ w = y) ↔ (w = x' ∨ w = y') := fun w => (hx w).symm.trans (hx' w)
  have n := nodup6.1 hD.distinct
  have n' := nodup6.1 hD'.distinct
  have hxy : (x = x' ∧ y = y') ∨ (x = y' ∧ y = x') := by
    have a1 := (e x).1 (.inl rfl)
    have a2 := (e y).1 (.inr rfl)
    rcases a1 with a1 | a1 <;> rcases a2 with a2 | a2
    · exact absurd (a1.trans a2.symm) n.2.2.1.1
    · exact .inl ⟨a1, a2⟩
    · exact .inr ⟨a1, a2⟩
    · exact absurd (a1.trans a2.symm) n.2.2.1.1
  -- the vertex opposite `bottom`
  have hu : u = u' := by
    have l1 := diamond_link hD.turn.swapUD
    have l2 := diamond_link hD'.turn.swapUD
    rcases hxy with ⟨rfl, rfl⟩ | ⟨rfl, rfl⟩
    · have := ((l1 u).trans Iff.rfl).2 (.inl rfl)
      rcases (l2 u).1 this with h | h
      · exact h
      · exact absurd h n.2.2.2.2
    · have l2 := diamond_link hD'.swapXY.turn.swapUD
      rcases (l2 u).1 ((l1 u).2 (.inl rfl)) with h | h
      · exact h
      · exact absurd h n.2.2.2.2
  subst hu
  rcases hxy with ⟨rfl, rfl⟩ | ⟨rfl, rfl⟩
  · rfl
  · rw [exchanged_swapXY]

/-- C75.  Naming the vertex of the ring opposite `bottom` instead of `bottom` gives the same
triangulation. -/
theorem C75_opposite {K K' : Tri V} (hK : Closed K.cells) {a b x y u d : V}
    (hD : Diamond K.inf K.cells a b x y u d) :
    bistellarFlip K a b u d = some K' ↔ bistellarFlip K a b d u = some K' := by
  have key : ∀ {u d : V}, Diamond K.inf K.cells a b x y u d →
      bistellarFlip K a b u d = some K' → bistellarFlip K a b d u = some K' := by
    intro u d hD h
    by_cases hfree : ({x, y} : Finset V) ∉ faces K.cells
    · have h' := (flip_some hK).2 ⟨x, y, u, hD, .inr (.inr rfl), hfree, rfl⟩
      have e := C75_top_does_not_matter hK h h'
      refine (flip_some hK).2 ⟨x, y, d, hD.swapUD, .inr (.inr rfl), hfree, ?_⟩
      rw [e, exchanged_swapUD]
    · obtain ⟨x', y', u', hD', -, hf, -⟩ := (flip_some hK).1 h
      exfalso
      apply hfree
      have l := diamond_link hD
      have l' := diamond_link hD'
      have a1 := (l' x).1 ((l x).2 (.inl rfl))
      have a2 := (l' y).1 ((l y).2 (.inr rfl))
      have n := (nodup6.1 hD.distinct).2.2.1.1
      rcases a1 with rfl | rfl <;> rcases a2 with rfl | rfl
      · exact absurd rfl n
      · exact hf
      · rwa [Finset.pair_comm]
      · exact absurd rfl n
  exact ⟨key hD, key hD.swapUD⟩

/-- C75.  A flip can be undone: flipping the new edge about the same ring vertices restores the
tetrahedra, times and the labels of the tetrahedra at infinity, and labels every finite
tetrahedron. -/
theorem C75_undo {K K' : Tri V} (hK : Closed K.cells) {a b x y u d : V}
    (hD : Diamond K.inf K.cells a b x y u d) (h : bistellarFlip K a b u d = some K') :
    ∃ K'', bistellarFlip K' x y u d = some K'' ∧ K''.cells = K.cells ∧ K''.inf = K.inf ∧
      K''.time = K.time ∧ (∀ c, K.inf ∈ c → K''.info c = K.info c) ∧
      ∀ c ∈ K.cells, K.inf ∉ c → K''.info c = label K.time c := by
  have hfree : ({x, y} : Finset V) ∉ faces K.cells := by
    obtain ⟨x', y', u', hD', -, hf, -⟩ := (flip_some hK).1 h
    have l := diamond_link hD
    have l' := diamond_link hD'
    have a1 := (l' x).1 ((l x).2 (.inl rfl))
    have a2 := (l' y).1 ((l y).2 (.inr rfl))
    have n := (nodup6.1 hD.distinct).2.2.1.1
    rcases a1 with rfl | rfl <;> rcases a2 with rfl | rfl
    · exact absurd rfl n
    · exact hf
    · rwa [Finset.pair_comm]
    · exact absurd rfl n
  have h' := (flip_some hK).2 ⟨x, y, u, hD, .inr (.inr rfl), hfree, rfl⟩
  obtain rfl := C75_top_does_not_matter hK h h'
  obtain ⟨f, hp, hr, f0, f1, f2, f3, f4, f5⟩ := hD.placed hfree
  have hp' := placed_rev hp (by decide +kernel)
  have hb := replace_rev good44 hp
  rw [hr] at hp' hb
  obtain ⟨eO, eN, cO, cN⟩ := place44 (f := f)
  have n := nodup6.1 hD.distinct
  have hat : cellsAt (exchanged K.cells a b x y u d) {x, y} =
      {{x, y, a, u}, {x, y, b, u}, {x, y, a, d}, {x, y, b, d}} := by
    ext c
    rw [mem_cellsAt]
    unfold exchanged
    simp only [Finset.mem_union, Finset.mem_sdiff]
    constructor
    · rintro ⟨⟨hk, -⟩ | hn, hs⟩
      · exact absurd (mem_faces.2 ⟨c, hk, hs⟩) hfree
      · exact hn
    · intro hn
      refine ⟨.inr hn, ?_⟩
      simp only [Finset.mem_insert, Finset.mem_singleton] at hn
      rcases hn with rfl | rfl | rfl | rfl <;> simp [Finset.insert_subset_iff]
  have hD' : Diamond K.inf (exchanged K.cells a b x y u d) x y a b u d := by
    refine ⟨nodup6.2 (by grind), ?_, hat⟩
    have := hD.finite
    simp only [List.mem_cons, List.not_mem_nil, or_false, not_or] at *; tauto
  have hfree' : ({a, b} : Finset V) ∉ faces (exchanged K.cells a b x y u d) := by
    rw [mem_faces]
    rintro ⟨c, hc, hs⟩
    have ma : a ∈ c := hs (by simp)
    have mb : b ∈ c := hs (by simp)
    unfold exchanged at hc
    simp only [Finset.mem_union, Finset.mem_sdiff, mem_cellsAt, Finset.mem_insert, Finset.mem_singleton] at hc
    rcases hc with ⟨hk, hx⟩ | rfl | rfl | rfl | rfl
    · exact hx ⟨hk, hs⟩
    all_goals simp only [Finset.mem_insert, Finset.mem_singleton] at ma mb; grind
  have hback : exchanged (exchanged K.cells a b x y u d) x y a b u d = K.cells := by
    refine Eq.trans ?_ hb
    show _ = (_ \ place f p44.N) ∪ place f p44.O
    rw [eO, eN, f0, f1, f2, f3, f4, f5, ← hat]
    rfl
  have hc' := hD.closed hfree hK
  set K₁ : Tri V := relabel { K with cells := exchanged K.cells a b x y u d } with hK1
  refine ⟨_, (flip_some (K := K₁) hc').2 ⟨a, b, u, hD', .inr (.inr rfl), hfree', rfl⟩, hback, rfl, rfl, ?_, ?_⟩
  · intro c hi
    show (if K.inf ∈ c then (if K.inf ∈ c then _ else _) else _) = _
    rw [if_pos hi, if_pos hi]
  · intro c hc hi
    rw [← code_expected (K := K) (hK.1 c hc)]
    show (if K.inf ∈ c then _ else _) = _
    rw [if_neg hi]; rfl

/-! ### Causality is the caller's business -/

/-- C75.  At a (4,4) site of a causal triangulation, flipping about the vertex above or below the
quadrilateral keeps causality. -/
theorem C75_causal {K K' : Tri V} (hK : Closed K.cells) (hc : Causal K.inf K.time K.cells)
    {a b x y u d top bottom : V} (hS : Site44 K.inf K.time K.cells a b x y u d) (hb : bottom = u ∨ bottom = d)
    (h : bistellarFlip K a b top bottom = some K') : Causal K'.inf K'.time K'.cells := by
  have hD : Diamond K.inf K.cells a b x y u d := ⟨hS.distinct, hS.finite, hS.degree⟩
  have base : ∀ {K'}, bistellarFlip K a b u d = some K' → Causal K'.inf K'.time K'.cells := by
    intro K' h
    have hfree : ({x, y} : Finset V) ∉ faces K.cells := by
      obtain ⟨x', y', u', hD', -, hf, -⟩ := (flip_some hK).1 h
      have l := diamond_link hD
      have l' := diamond_link hD'
      have a1 := (l' x).1 ((l x).2 (.inl rfl))
      have a2 := (l' y).1 ((l y).2 (.inr rfl))
      have n := (nodup6.1 hD.distinct).2.2.1.1
      rcases a1 with rfl | rfl <;> rcases a2 with rfl | rfl
      · exact absurd rfl n
      · exact hf
      · rwa [Finset.pair_comm]
      · exact absurd rfl n
    have h' := (flip_some hK).2 ⟨x, y, u, hD, .inr (.inr rfl), hfree, rfl⟩
    obtain rfl := C75_top_does_not_matter hK h h'
    have hfin : ∀ c ∈ K.edgeCells a b, K.inf ∉ c := by
      obtain ⟨f1, f2, f3, f4, f5, f6⟩ : K.inf ≠ a ∧ K.inf ≠ b ∧ K.inf ≠ x ∧ K.inf ≠ y ∧ K.inf ≠ u ∧ K.inf ≠ d := by
        have := hS.finite
        simpa only [List.mem_cons, List.not_mem_nil, or_false, not_or] using this
      intro c hc
      rw [← cellsAt_pair, hS.degree] at hc
      simp only [Finset.mem_insert, Finset.mem_singleton] at hc
      rcases hc with rfl | rfl | rfl | rfl <;> apply notMem_four <;> assumption
    obtain ⟨s1, s2, s3⟩ := hS.slice
    obtain ⟨hpl, hr⟩ := placed44 (inj_of_nodup hS.distinct) (by rw [← cellsAt_pair]; exact hS.degree)
      (pair_free.1 hfree) hfin ⟨s1, s2, s3, hS.above, by have := hS.below; omega⟩
    have := causal_replace timed44 hpl hc
    rw [hr, ← cellsAt_pair] at this
    exact this
  have dn : d ≠ u := fun e => (nodup6.1 hD.distinct).2.2.2.2 e.symm
  have go : ∀ {bottom' opp : V}, Diamond K.inf K.cells a b x y opp bottom' →
      bistellarFlip K a b top bottom' = some K' → bistellarFlip K a b opp bottom' = some K' := by
    intro bottom' opp hD h
    have hf := (C75_flip_iff hK a b top bottom').1 ⟨_, h⟩
    obtain ⟨x', y', u', hD', -, hf⟩ := hf
    have l := diamond_link hD
    have l' := diamond_link hD'
    have hfree : ({x, y} : Finset V) ∉ faces K.cells := by
      have a1 := (l' x).1 ((l x).2 (.inl rfl))
      have a2 := (l' y).1 ((l y).2 (.inr rfl))
      have n := (nodup6.1 hD.distinct).2.2.1.1
      rcases a1 with rfl | rfl <;> rcases a2 with rfl | rfl
      · exact absurd rfl n
      · exact hf
      · rwa [Finset.pair_comm]
      · exact absurd rfl n
    have h' := (flip_some hK).2 ⟨x, y, opp, hD, .inr (.inr rfl), hfree, rfl⟩
    rw [h', C75_top_does_not_matter hK h h']
  rcases hb with rfl | rfl
  · exact base ((C75_opposite hK hD.swapUD).1 (go hD.swapUD h))
  · exact base (go hD h)

/-- C75.  At the same site, flipping about one of the two other corners of the quadrilateral is
also carried out, always, and always destroys causality: an edge between non-adjacent slices
appears and its tetrahedra are labelled acausal. -/
theorem C75_not_causal {K : Tri V} (hK : Closed K.cells) (hc : Causal K.inf K.time K.cells)
    {a b x y u d : V} (hS : Site44 K.inf K.time K.cells a b x y u d) :
    ∃ K', bistellarFlip K a b y x = some K' ∧ ¬ Causal K'.inf K'.time K'.cells ∧
      {a, x, u, d} ∈ K'.cells ∧ K'.info {a, x, u, d} = 99 := by
  have hD : Diamond K.inf K.cells a b x y u d := ⟨hS.distinct, hS.finite, hS.degree⟩
  have hD2 : Diamond K.inf K.cells a b u d y x := hD.turn.swapUD
  have hf := hS.finite
  simp only [List.mem_cons, List.not_mem_nil, or_false, not_or] at hf
  obtain ⟨f1, f2, f3, f4, f5, f6⟩ := hf
  have ud := (nodup6.1 hS.distinct).2.2.2.2
  have hno : ∀ c : Finset V, K.inf ∉ c → u ∈ c → d ∈ c → ∀ i j, ¬ HasType K.time i j c := by
    intro c _ hu hd i j ht
    have := hasType_spread ht u hu d hd
    have := hS.above; have := hS.below; omega
  have hfree : ({u, d} : Finset V) ∉ faces K.cells := by
    rw [pair_free]
    have hfin : ∀ c ∈ K.cells, K.inf ∉ c → u ∈ c → d ∈ c → False := by
      intro c hcm hi hu hd
      rcases hc c hcm hi with h | h | h
      · exact hno c hi hu hd _ _ h
      · exact hno c hi hu hd _ _ h
      · exact hno c hi hu hd _ _ h
    intro c hcm hu hd
    by_cases hi : K.inf ∈ c
    · obtain ⟨w, hw, hwK, -⟩ := hK.across hcm hi
      refine hfin _ hwK ?_ ?_ ?_
      · intro hx
        rcases Finset.mem_insert.1 hx with rfl | hx
        · exact hw hi
        · exact (Finset.mem_erase.1 hx).1 rfl
      · exact Finset.mem_insert_of_mem (Finset.mem_erase.2 ⟨Ne.symm f5, hu⟩)
      · exact Finset.mem_insert_of_mem (Finset.mem_erase.2 ⟨Ne.symm f6, hd⟩)
    · exact hfin c hcm hi hu hd
  have h' := (flip_some hK).2 ⟨u, d, y, hD2, .inr (.inr rfl), hfree, rfl⟩
  have hcell : ({a, x, u, d} : Finset V) ∈ exchanged K.cells a b u d y x := by
    have : ({a, x, u, d} : Finset V) = {u, d, a, x} := by
      ext v; simp only [Finset.mem_insert, Finset.mem_singleton]; tauto
    rw [this]; unfold exchanged; simp
  have hi : K.inf ∉ ({a, x, u, d} : Finset V) := notMem_four f1 f3 f5 f6
  refine ⟨_, h', ?_, hcell, ?_⟩
  · intro hcz
    rcases hcz _ hcell hi with h | h | h
    · exact hno _ hi (by simp) (by simp) _ _ h
    · exact hno _ hi (by simp) (by simp) _ _ h
    · exact hno _ hi (by simp) (by simp) _ _ h
  · have hcl := hD2.closed hfree hK
    show (if K.inf ∈ _ then _ else _) = _
    rw [if_neg hi, code_expected (hcl.1 _ hcell)]
    unfold label
    rw [if_neg (hno _ hi (by simp) (by simp) _ _), if_neg (hno _ hi (by simp) (by simp) _ _),
      if_neg (hno _ hi (by simp) (by simp) _ _)]

/-! ### Finding the axis and its vertices -/

/-- C75.  `find_pivot_edge` returns the first edge of the container that is the axis of four
finite tetrahedra, and nothing exactly when there is none. -/
theorem C75_pivot {K : Tri V} (hK : Closed K.cells) (es : List (V × V)) :
    (∀ e, findPivotEdge K es = some e ↔
      ∃ pre post, es = pre ++ e :: post ∧ IsPivot K.inf K.cells e ∧ ∀ e' ∈ pre, ¬ IsPivot K.inf K.cells e') ∧
    (findPivotEdge K es = none ↔ ∀ e ∈ es, ¬ IsPivot K.inf K.cells e) := by
  have yes : ∀ e : V × V, ∀ {cs}, finiteIncidentCells K e.1 e.2 = some cs →
      (cs.card = 4 ↔ IsPivot K.inf K.cells e) := by
    intro e cs hcs
    constructor
    · intro h4; exact (diamond_of_incident hK hcs h4).2
    · rintro ⟨x, y, u, d, hD⟩
      have := (diamond_incident hD).1
      rw [hcs] at this; cases this
      exact diamond_card hD
  have no : ∀ e : V × V, finiteIncidentCells K e.1 e.2 = none → ¬ IsPivot K.inf K.cells e := by
    rintro e hn ⟨x, y, u, d, hD⟩
    rw [(diamond_incident hD).1] at hn; simp at hn
  have step : ∀ e rest, (IsPivot K.inf K.cells e → findPivotEdge K (e :: rest) = some e) ∧
      (¬ IsPivot K.inf K.cells e → findPivotEdge K (e :: rest) = findPivotEdge K rest) := by
    intro e rest
    rcases hcs : finiteIncidentCells K e.1 e.2 with _ | cs
    · exact ⟨fun h => absurd h (no e hcs), fun _ => by
        conv_lhs => unfold findPivotEdge
        rw [hcs]⟩
    · refine ⟨fun h => ?_, fun h => ?_⟩
      · unfold findPivotEdge; rw [hcs]; exact if_pos ((yes e hcs).2 h)
      · conv_lhs => unfold findPivotEdge
        rw [hcs]; exact if_neg (fun h4 => h ((yes e hcs).1 h4))
  induction es with
  | nil => simp [findPivotEdge]
  | cons e0 rest ih =>
    by_cases h0 : IsPivot K.inf K.cells e0
    · rw [(step e0 rest).1 h0]
      constructor
      · intro e
        constructor
        · rintro h; cases h
          exact ⟨[], rest, rfl, h0, by simp⟩
        · rintro ⟨pre, post, he, hp, hn⟩
          cases pre with
          | nil => simp at he; rw [he.1]
          | cons q pre => simp at he; exact absurd h0 (he.1 ▸ hn q (by simp))
      · simp [h0]
    · rw [(step e0 rest).2 h0]
      constructor
      · intro e
        rw [ih.1 e]
        constructor
        · rintro ⟨pre, post, he, hp, hn⟩
          exact ⟨e0 :: pre, post, by simp [he], hp, by simp; exact ⟨h0, fun a b hm => hn (a, b) hm⟩⟩
        · rintro ⟨pre, post, he, hp, hn⟩
          cases pre with
          | nil => simp at he; exact absurd hp (he.1 ▸ h0)
          | cons q pre =>
            simp at he
            exact ⟨pre, post, he.2, hp, fun e' he' => hn e' (by simp [he'])⟩
      · rw [ih.2]; simp [h0]

/-- C75.  `get_vertices` lists every vertex of the given tetrahedra exactly once. -/
theorem C75_vertices (cs : List (Finset V)) :
    (getVertices cs).Nodup ∧ ∀ v, v ∈ getVertices cs ↔ ∃ c ∈ cs, v ∈ c := by
  refine ⟨Multiset.coe_nodup.1 (by unfold getVertices; rw [canonicalPoints_perm]; exact Finset.nodup _), fun v => ?_⟩
  unfold getVertices
  rw [mem_canonicalPoints]
  have : ∀ (cs : List (Finset V)) (s : Finset V),
      v ∈ cs.foldl (fun seen c => seen ∪ c) s ↔ v ∈ s ∨ ∃ c ∈ cs, v ∈ c := by
    intro cs
    induction cs with
    | nil => simp
    | cons c cs ih => intro s; simp [ih, or_assoc]
  rw [this]; simp

/-! ### The hypotheses are met -/

open Fixture in
/-- A (4,4) site of a ball with six vertices: the axis `12 22`, ring `32, 53, 42, 61`. -/
theorem site_k44 : Site44 k44.inf k44.time k44.cells 12 22 32 42 53 61 :=
  ⟨by decide +kernel, by decide +kernel, by decide +kernel, by decide +kernel, by decide +kernel, by decide +kernel⟩

open Fixture in
example : Diamond k44.inf k44.cells 12 22 32 42 53 61 := ⟨site_k44.distinct, site_k44.finite, site_k44.degree⟩

open Fixture in
/-- Flips about the lower vertex succeed with each of the three other ring vertices as `top`. -/
example : (bistellarFlip k44 12 22 53 61).isSome ∧ (bistellarFlip k44 12 22 32 61).isSome ∧
    (bistellarFlip k44 12 22 42 61).isSome := by decide +kernel

open Fixture in
/-- The acausal flip is reachable. -/
example : ((bistellarFlip k44 12 22 42 32).map fun K => decide (Causal K.inf K.time K.cells)) = some false := by
  decide +kernel

open Fixture in
example : Causal k44.inf k44.time k44.cells := by decide +kernel

open Fixture in
/-- Refused: an edge that is not an axis, a vertex outside the ring, coinciding vertices. -/
example : bistellarFlip k44 12 32 53 61 = none ∧ bistellarFlip k44 12 22 12 61 = none ∧
    bistellarFlip k44 12 22 61 61 = none := by decide +kernel

open Fixture in
example : findPivotEdge k44 [(12, 32), (12, 22), (22, 12)] = some (12, 22) := by decide +kernel

example : getVertices [({1, 2, 3, 4} : Finset ℕ), {2, 3, 4, 5}] = [1, 2, 3, 4, 5] := by decide +kernel

end CDT.Props

/-
(3,2): accepted sites are placed reversed patterns.
-/
import Verif.Lemmas.Site23

namespace CDT
open Spec Cavity Moves
variable {V G : Type} [LinearOrder V]

theorem mem_edgeCells {K : Tri V} {a b : V} {c : Finset V} :
    c ∈ K.edgeCells a b ↔ c ∈ K.cells ∧ a ∈ c ∧ b ∈ c := by
  simp [Tri.edgeCells]

/-- A four-element set containing two given vertices. -/
theorem exists_four2 {c : Finset V} {a b : V} (h : c.card = 4) (ha : a ∈ c) (hb : b ∈ c) (hab : a ≠ b) :
    ∃ x y, a ≠ x ∧ a ≠ y ∧ b ≠ x ∧ b ≠ y ∧ x ≠ y ∧ c = {a, b, x, y} := by
  have h2 : ((c.erase a).erase b).card = 2 := by
    rw [Finset.card_erase_of_mem (by simp [hb, hab.symm]), Finset.card_erase_of_mem ha, h]
  obtain ⟨x, y, hxy, e⟩ := Finset.card_eq_two.1 h2
  have hx : x ∈ (c.erase a).erase b := by rw [e]; simp
  have hy : y ∈ (c.erase a).erase b := by rw [e]; simp
  simp only [Finset.mem_erase] at hx hy
  refine ⟨x, y, hx.2.1.symm, hy.2.1.symm, hx.1.symm, hy.1.symm, hxy, ?_⟩
  rw [← e, Finset.insert_erase (by simp [hb, hab.symm]), Finset.insert_erase ha]

/-- The neighbour of `{a,b,x,y}` across the triangle `{a,b,y}`. -/
theorem Spec.Closed.turn {K : Finset (Finset V)} (hK : Closed K) {a b x y : V}
    (d1 : a ≠ b) (d2 : a ≠ x) (d3 : a ≠ y) (d4 : b ≠ x) (d5 : b ≠ y) (d6 : x ≠ y)
    (hc : {a, b, x, y} ∈ K) : ∃ z, z ≠ a ∧ z ≠ b ∧ z ≠ x ∧ z ≠ y ∧ {a, b, y, z} ∈ K ∧
      ∀ d ∈ K, a ∈ d → b ∈ d → y ∈ d → d = {a, b, x, y} ∨ d = {a, b, y, z} := by
  obtain ⟨z, hz, hzK, hall⟩ := hK.across hc (v := x) (by simp)
  have e : ({a, b, x, y} : Finset V).erase x = {a, b, y} := by grind
  rw [e] at hzK hall
  simp only [Finset.mem_insert, Finset.mem_singleton, not_or] at hz
  have e2 : insert z ({a, b, y} : Finset V) = {a, b, y, z} := by grind
  rw [e2] at hzK hall
  refine ⟨z, hz.1, hz.2.1, hz.2.2.1, hz.2.2.2, hzK, ?_⟩
  intro d hd ha hb hy
  apply hall d hd
  intro u hu
  simp only [Finset.mem_insert, Finset.mem_singleton] at hu
  rcases hu with rfl | rfl | rfl <;> assumption

/-- The link of an edge with three cells is a triangle. -/
theorem link3 {K : Tri V} (hK : Closed K.cells) {a b : V} (hab : a ≠ b)
    (h3 : (K.edgeCells a b).card = 3) {c : Finset V} (hc : c ∈ K.edgeCells a b) :
    ∃ x y z, a ≠ x ∧ a ≠ y ∧ a ≠ z ∧ b ≠ x ∧ b ≠ y ∧ b ≠ z ∧ x ≠ y ∧ x ≠ z ∧ y ≠ z ∧
      c = {a, b, x, y} ∧ K.edgeCells a b = {{a, b, x, y}, {a, b, x, z}, {a, b, y, z}} := by
  obtain ⟨hcK, ha, hb⟩ := mem_edgeCells.1 hc
  obtain ⟨x, y, ax, ay, bx, by', xy, rfl⟩ := exists_four2 (hK.1 c hcK) ha hb hab
  obtain ⟨z, za, zb, zx, zy, hz, _⟩ := hK.turn hab ax ay bx by' xy hcK
  obtain ⟨u, ua, ub, uy, ux, hu, hux⟩ := hK.turn hab ay ax by' bx xy.symm (by
    have : ({a, b, y, x} : Finset V) = {a, b, x, y} := by grind
    rw [this]; exact hcK)
  obtain ⟨r, ra, rb, ry, rz, hr, _⟩ := hK.turn hab ay za.symm by' zb.symm zy.symm hz
  have huz : u = z := by
    by_contra hne
    have hsub : ({{a, b, x, y}, {a, b, y, z}, {a, b, x, u}} : Finset (Finset V)) ⊆ K.edgeCells a b := by
      intro d hd
      simp only [Finset.mem_insert, Finset.mem_singleton] at hd
      rcases hd with rfl | rfl | rfl <;> simp [mem_edgeCells, *]
    have hcard : ({{a, b, x, y}, {a, b, y, z}, {a, b, x, u}} : Finset (Finset V)).card = 3 := by
      rw [Finset.card_eq_three]
      refine ⟨_, _, _, ?_, ?_, ?_, rfl⟩
      · intro h
        have : z ∈ ({a, b, x, y} : Finset V) := h ▸ by simp
        simp [za, zb, zx, zy] at this
      · intro h
        have : u ∈ ({a, b, x, y} : Finset V) := h ▸ by simp
        simp [ua, ub, ux, uy] at this
      · intro h
        have : u ∈ ({a, b, y, z} : Finset V) := h ▸ by simp
        simp [ua, ub, uy, hne] at this
    have heq := Finset.eq_of_subset_of_card_le hsub (by rw [hcard, h3])
    have hr' : ({a, b, z, r} : Finset V) ∈ K.edgeCells a b := by simp [mem_edgeCells, hr]
    rw [← heq] at hr'
    simp only [Finset.mem_insert, Finset.mem_singleton] at hr'
    rcases hr' with h | h | h
    · have : z ∈ ({a, b, x, y} : Finset V) := h ▸ by simp
      simp [za, zb, zx, zy] at this
    · have : r ∈ ({a, b, y, z} : Finset V) := h ▸ by simp
      simp [ra, rb, ry, rz] at this
    · have : z ∈ ({a, b, x, u} : Finset V) := h ▸ by simp
      simp [za, zb, zx, Ne.symm hne] at this
  subst huz
  refine ⟨x, y, u, ax, ay, ua.symm, bx, by', ub.symm, xy, ux.symm, uy.symm, rfl, ?_⟩
  symm
  apply Finset.eq_of_subset_of_card_le
  · intro d hd
    simp only [Finset.mem_insert, Finset.mem_singleton] at hd
    rcases hd with rfl | rfl | rfl <;> simp [mem_edgeCells, *]
  · rw [h3]
    apply le_of_eq
    symm
    rw [Finset.card_eq_three]
    refine ⟨_, _, _, ?_, ?_, ?_, rfl⟩
    · intro h
      have : u ∈ ({a, b, x, y} : Finset V) := h ▸ by simp
      simp [ua, ub, ux, uy] at this
    · intro h
      have : u ∈ ({a, b, x, y} : Finset V) := h ▸ by simp
      simp [ua, ub, ux, uy] at this
    · intro h
      have : x ∈ ({a, b, y, u} : Finset V) := h ▸ by simp
      simp [ax.symm, bx.symm, xy, ux.symm] at this

/-- Two (2,2) cells and one of another kind. -/
theorem special_of_counts {K : Tri V} {cs : Finset (Finset V)} {ct : CellType} (hct : ct ≠ .twoTwo)
    (h3 : cs.card = 3) (h22 : typeCount K cs .twoTwo = 2) (h1 : typeCount K cs ct = 1) :
    ∃ S ∈ cs, K.expectedType S = ct ∧ ∀ d ∈ cs, d ≠ S → K.expectedType d = .twoTwo := by
  unfold typeCount at h22 h1
  obtain ⟨S, hS⟩ := Finset.card_eq_one.1 h1
  have hS' : S ∈ cs.filter (fun c => K.expectedType c = ct) := by rw [hS]; simp
  obtain ⟨hScs, hSt⟩ := Finset.mem_filter.1 hS'
  refine ⟨S, hScs, hSt, ?_⟩
  have heq : cs.filter (fun c => K.expectedType c = .twoTwo) = cs.erase S := by
    apply Finset.eq_of_subset_of_card_le
    · intro d hd
      obtain ⟨h1, h2⟩ := Finset.mem_filter.1 hd
      exact Finset.mem_erase.2 ⟨fun h => hct (by rw [← hSt, ← h, h2]), h1⟩
    · rw [h22, Finset.card_erase_of_mem hScs, h3]
  intro d hd hne
  have : d ∈ cs.filter (fun c => K.expectedType c = .twoTwo) := by
    rw [heq]; exact Finset.mem_erase.2 ⟨hne, hd⟩
  exact (Finset.mem_filter.1 this).2

theorem timeDifference_eq_one {s t : ℤ} : timeDifference s t = 1 ↔ s = t + 1 ∨ t = s + 1 := by
  unfold timeDifference
  split <;> omega

/-- What an accepted (3,2) site is. -/
theorem is32Movable_ok {K : Tri V} (hK : Closed K.cells) {a b : V} (h : is32Movable K a b = true) :
    a ≠ b ∧ (∀ c ∈ K.edgeCells a b, K.inf ∉ c ∧ K.typeCorrect c = true) ∧
    (K.time a = K.time b + 1 ∨ K.time b = K.time a + 1) ∧
    ∃ x y z, a ≠ x ∧ a ≠ y ∧ a ≠ z ∧ b ≠ x ∧ b ≠ y ∧ b ≠ z ∧ x ≠ y ∧ x ≠ z ∧ y ≠ z ∧
      K.edgeCells a b = {{a, b, x, y}, {a, b, x, z}, {a, b, y, z}} ∧
      (HasType K.time 3 1 {a, b, x, y} ∨ HasType K.time 1 3 {a, b, x, y}) ∧
      HasType K.time 2 2 {a, b, x, z} ∧ HasType K.time 2 2 {a, b, y, z} := by
  unfold is32Movable at h
  split at h
  · simp at h
  · rename_i cs hcs
    unfold finiteIncidentCells at hcs
    split at hcs
    · simp at hcs
    · rename_i hedge
      split at hcs
      · simp at hcs
      · rename_i hinf
        simp only [Option.some.injEq] at hcs
        subst hcs
        simp only [not_exists, not_and] at hinf
        simp only [Tri.isEdge, Bool.not_eq_true', decide_eq_false_iff_not, not_not] at hedge
        have hab := hedge.1
        split at h
        · simp at h
        · rename_i h3
          rw [not_not] at h3
          split at h
          · simp at h
          · rename_i ht
            rw [not_not, timeDifference_eq_one] at ht
            split at h
            · simp at h
            · rename_i hcorr
              rw [not_not] at hcorr
              simp only [decide_eq_true_eq] at h
              have hS : ∃ S ∈ K.edgeCells a b, (K.expectedType S = .threeOne ∨ K.expectedType S = .oneThree)
                  ∧ ∀ d ∈ K.edgeCells a b, d ≠ S → K.expectedType d = .twoTwo := by
                rcases h.2 with h1 | h1
                · obtain ⟨S, a, b, c⟩ := special_of_counts (by decide) h3 h.1 h1.1
                  exact ⟨S, a, Or.inl b, c⟩
                · obtain ⟨S, a, b, c⟩ := special_of_counts (by decide) h3 h.1 h1.2
                  exact ⟨S, a, Or.inr b, c⟩
              obtain ⟨S, hSc, hSt, hrest⟩ := hS
              obtain ⟨x, y, z, d1, d2, d3, d4, d5, d6, d7, d8, d9, rfl, e⟩ := link3 hK hab h3 hSc
              have h4 : ∀ d ∈ K.edgeCells a b, d.card = 4 := fun d hd => hK.1 d (mem_edgeCells.1 hd).1
              refine ⟨hab, fun c hc => ⟨hinf c hc, hcorr c hc⟩, ht, x, y, z, d1, d2, d3, d4, d5, d6, d7, d8,
                d9, e, ?_, ?_, ?_⟩
              · rw [← expectedType_threeOne (h4 _ hSc), ← expectedType_oneThree (h4 _ hSc)]
                exact hSt
              · have hm : ({a, b, x, z} : Finset V) ∈ K.edgeCells a b := by rw [e]; simp
                rw [← expectedType_twoTwo (h4 _ hm)]
                apply hrest _ hm
                intro h
                have : z ∈ ({a, b, x, y} : Finset V) := h ▸ by simp
                simp [d3.symm, d6.symm, d8.symm, d9.symm] at this
              · have hm : ({a, b, y, z} : Finset V) ∈ K.edgeCells a b := by rw [e]; simp
                rw [← expectedType_twoTwo (h4 _ hm)]
                apply hrest _ hm
                intro h
                have : z ∈ ({a, b, x, y} : Finset V) := h ▸ by simp
                simp [d3.symm, d6.symm, d8.symm, d9.symm] at this


/-- Placement of the (3,2) pattern from the three cells. -/
theorem placed32 {K : Finset (Finset V)} {inf : V} {time : V → ℤ} {t : ℤ} {p : Pattern 5}
    (hp : p = p23up ∨ p = p23down) {f : Fin 5 ↪ V}
    (h1 : ∀ d, d ∈ K ∧ f 0 ∈ d ∧ f 1 ∈ d ↔
      d = {f 0, f 1, f 2, f 3} ∨ d = {f 0, f 1, f 2, f 4} ∨ d = {f 0, f 1, f 3, f 4})
    (h4 : ∀ d ∈ K, ¬ ({f 2, f 3, f 4} ⊆ d)) (hfin : ∀ i, f i ≠ inf)
    (ht : ∀ i, time (f i) = t + p.τ i) : Placed p.rev inf time K f t := by
  obtain ⟨eO, eN, cO, cN⟩ := place23 (f := f) hp
  refine ⟨?_, ?_, ?_, hfin, ht⟩
  · intro c hc
    have : c.map f ∈ place f p.N := map_mem_place.2 hc
    rw [eN] at this
    simp only [Finset.mem_insert, Finset.mem_singleton] at this
    exact ((h1 _).2 this).1
  · intro d hd hs
    change p.coreN.map f ⊆ d at hs
    rw [cN] at hs
    change d ∈ place f p.N
    rw [eN]
    simp only [Finset.mem_insert, Finset.mem_singleton]
    exact (h1 d).1 ⟨hd, hs (by simp), hs (by simp)⟩
  · change p.coreO.map f ∉ _
    rw [cO]
    intro hf
    obtain ⟨d, hd, hs⟩ := mem_faces.1 hf
    exact h4 d hd hs

theorem times_32_up {a b x y z : ℤ} (hab : a = b + 1 ∨ b = a + 1) (h1 : Quad 1 a b x y)
    (h2 : Quad 2 a b x z) (h3 : Quad 2 a b y z) :
    ∃ t, x = t ∧ y = t ∧ z = t + 1 ∧ ((a = t + 1 ∧ b = t) ∨ (a = t ∧ b = t + 1)) := by
  obtain ⟨t, g1, g2, g3, g4, g5⟩ := h1
  obtain ⟨s, k1, k2, k3, k4, k5⟩ := h2
  obtain ⟨r, l1, l2, l3, l4, l5⟩ := h3
  exact ⟨t, by omega⟩

theorem times_32_down {a b x y z : ℤ} (hab : a = b + 1 ∨ b = a + 1) (h1 : Quad 3 a b x y)
    (h2 : Quad 2 a b x z) (h3 : Quad 2 a b y z) :
    ∃ t, x = t + 1 ∧ y = t + 1 ∧ z = t ∧ ((a = t ∧ b = t + 1) ∨ (a = t + 1 ∧ b = t)) := by
  obtain ⟨t, g1, g2, g3, g4, g5⟩ := h1
  obtain ⟨s, k1, k2, k3, k4, k5⟩ := h2
  obtain ⟨r, l1, l2, l3, l4, l5⟩ := h3
  exact ⟨t, by omega⟩

theorem flipEdge_some {K K' : Tri V} {a b : V} (h : K.flipEdge a b = some K') :
    (K.edgeCells a b).card = 3 ∧
    (∀ d ∈ K.cells, ¬ ((((K.edgeCells a b).biUnion id).erase a).erase b ⊆ d)) ∧
    K' = { K with cells := (K.cells \ K.edgeCells a b) ∪
      {(insert a ((((K.edgeCells a b).biUnion id).erase a).erase b)),
       (insert b ((((K.edgeCells a b).biUnion id).erase a).erase b))} } := by
  unfold Tri.flipEdge at h
  simp only at h
  split at h
  · simp at h
  · rename_i h3
    split at h
    · simp at h
    · rename_i hl
      simp only [Option.some.injEq] at h
      exact ⟨by simpa using h3, fun d hd hs => hl ⟨d, hd, hs⟩, h.symm⟩

theorem executeThreeTwo_ok {env : Env V G} {K K' : Tri V} {m : V × V}
    (h : executeThreeTwo env K m = .ok K') :
    K.flipEdge m.1 m.2 = some K' ∧ env.geoEdge K m.1 m.2 = true := by
  unfold executeThreeTwo at h
  split at h
  · simp at h
  · split at h
    · simp at h
    · rename_i K1 hf
      simp only [Except.ok.injEq] at h
      subst h
      unfold checkedFlipEdge at hf
      split at hf
      · simp at hf
      · split at hf
        · rename_i hg; exact ⟨hf, hg⟩
        · simp at hf

theorem prepareThreeTwo_ok {K : Tri V} {a b : V} {m : V × V} (h : prepareThreeTwo K a b = .ok m) :
    m = (a, b) ∧ is32Movable K a b = true := by
  unfold prepareThreeTwo at h
  split at h
  · simp at h
  · split at h
    · simp at h
    · rename_i hm
      simp only [Except.ok.injEq] at h
      exact ⟨h.symm, by simpa using hm⟩

theorem link_of_three {K : Tri V} {a b x y z : V} (hab : a ≠ b) (d1 : a ≠ x) (d2 : a ≠ y) (d3 : a ≠ z)
    (d4 : b ≠ x) (d5 : b ≠ y) (d6 : b ≠ z)
    (e : K.edgeCells a b = {{a, b, x, y}, {a, b, x, z}, {a, b, y, z}}) :
    (((K.edgeCells a b).biUnion id).erase a).erase b = {x, y, z} := by
  rw [e]
  ext u
  simp only [Finset.mem_erase, Finset.mem_biUnion, Finset.mem_insert, Finset.mem_singleton, id]
  constructor
  · rintro ⟨h1, h2, d, rfl | rfl | rfl, hd⟩ <;> simp at hd <;> tauto
  · rintro (rfl | rfl | rfl)
    · exact ⟨d4.symm, d1.symm, _, Or.inl rfl, by simp⟩
    · exact ⟨d5.symm, d2.symm, _, Or.inl rfl, by simp⟩
    · exact ⟨d6.symm, d3.symm, _, Or.inr (Or.inl rfl), by simp⟩

/-- A triangular link with the accepted types is a placed reversed pattern. -/
theorem placed_of_link {K : Tri V} (hK : Closed K.cells) {a b : V} (h : is32Movable K a b = true)
    (hnew : ∀ d ∈ K.cells, ¬ ((((K.edgeCells a b).biUnion id).erase a).erase b ⊆ d)) :
    ∃ p f t, (p = p23up ∨ p = p23down) ∧ Placed p.rev K.inf K.time K.cells f t ∧
      ({f 0, f 1} : Finset V) = {a, b} ∧
      ({f 2, f 3, f 4} : Finset V) = (((K.edgeCells a b).biUnion id).erase a).erase b ∧
      K.edgeCells a b = {{f 0, f 1, f 2, f 3}, {f 0, f 1, f 2, f 4}, {f 0, f 1, f 3, f 4}} := by
  obtain ⟨hab, hall, hdt, x, y, z, d1, d2, d3, d4, d5, d6, d7, d8, d9, e, tS, tA, tB⟩ := is32Movable_ok hK h
  have el := link_of_three hab d1 d2 d3 d4 d5 d6 e
  rw [el] at hnew ⊢
  have fin : ∀ u, u ∈ ({a, b, x, y, z} : Finset V) → u ≠ K.inf := by
    rintro u hu rfl
    have h1 := (hall {a, b, x, y} (by rw [e]; simp)).1
    have h2 := (hall {a, b, x, z} (by rw [e]; simp)).1
    simp at hu h1 h2
    tauto
  have build : ∀ (p : Pattern 5) (a' b' : V) (t : ℤ), (p = p23up ∨ p = p23down) →
      ({a', b'} : Finset V) = {a, b} → a' ≠ b' →
      (∀ i, K.time (![a', b', x, y, z] i) = t + p.τ i) →
      ∃ p f t, (p = p23up ∨ p = p23down) ∧ Placed p.rev K.inf K.time K.cells f t ∧
        ({f 0, f 1} : Finset V) = {a, b} ∧ ({f 2, f 3, f 4} : Finset V) = {x, y, z} ∧
        K.edgeCells a b = {{f 0, f 1, f 2, f 3}, {f 0, f 1, f 2, f 4}, {f 0, f 1, f 3, f 4}} := by
    intro p a' b' t hp ee hne ht
    have ha : a' ∈ ({a, b} : Finset V) := by rw [← ee]; simp
    have hb : b' ∈ ({a, b} : Finset V) := by rw [← ee]; simp
    have inj : Function.Injective ![a', b', x, y, z] := by
      simp only [Finset.mem_insert, Finset.mem_singleton] at ha hb
      apply inj5 <;> grind
    have ins : ∀ s : Finset V, insert a' (insert b' s) = insert a (insert b s) := by
      intro s
      have h1 : insert a' (insert b' s) = ({a', b'} : Finset V) ∪ s := by ext; simp
      have h2 : insert a (insert b s) = ({a, b} : Finset V) ∪ s := by ext; simp
      rw [h1, h2, ee]
    have e' : K.edgeCells a b = {{a', b', x, y}, {a', b', x, z}, {a', b', y, z}} := by
      rw [e, ins, ins, ins]
    refine ⟨p, ⟨_, inj⟩, t, hp, ?_, ee, rfl, e'⟩
    apply placed32 hp
    · intro d
      have : d ∈ K.cells ∧ a' ∈ d ∧ b' ∈ d ↔ d ∈ K.edgeCells a b := by
        rw [mem_edgeCells]
        have k : (a' ∈ d ∧ b' ∈ d) ↔ (a ∈ d ∧ b ∈ d) := by
          have h1 : (a' ∈ d ∧ b' ∈ d) ↔ ({a', b'} : Finset V) ⊆ d := by simp [Finset.insert_subset_iff]
          have h2 : (a ∈ d ∧ b ∈ d) ↔ ({a, b} : Finset V) ⊆ d := by simp [Finset.insert_subset_iff]
          rw [h1, h2, ee]
        rw [k]
      exact this.trans (by rw [e']; simp)
    · exact hnew
    · intro i
      apply fin
      have : ∀ i, ![a', b', x, y, z] i ∈ ({a, b, x, y, z} : Finset V) := by
        intro i
        simp only [Finset.mem_insert, Finset.mem_singleton] at ha hb ⊢
        fin_cases i <;> simp <;> grind
      exact this i
    · exact ht
  rw [hasType_quad _ (by omega) (by omega) hab d1 d3 d4 d6 d8] at tA
  rw [hasType_quad _ (by omega) (by omega) hab d2 d3 d5 d6 d9] at tB
  rw [hasType_quad _ (by omega) (by omega) hab d1 d2 d4 d5 d7,
    hasType_quad _ (by omega) (by omega) hab d1 d2 d4 d5 d7] at tS
  rcases tS with tS | tS
  · obtain ⟨t, hx, hy, hz, ⟨ha, hb⟩ | ⟨ha, hb⟩⟩ := times_32_up hdt tS tA tB
    · exact build p23up a b t (Or.inl rfl) rfl hab (by intro i; fin_cases i <;> simp [p23up, *])
    · exact build p23up b a t (Or.inl rfl) (Finset.pair_comm _ _) hab.symm
        (by intro i; fin_cases i <;> simp [p23up, *])
  · obtain ⟨t, hx, hy, hz, ⟨ha, hb⟩ | ⟨ha, hb⟩⟩ := times_32_down hdt tS tA tB
    · exact build p23down a b t (Or.inr rfl) rfl hab (by intro i; fin_cases i <;> simp [p23down, *])
    · exact build p23down b a t (Or.inr rfl) (Finset.pair_comm _ _) hab.symm
        (by intro i; fin_cases i <;> simp [p23down, *])

/-- A successful (3,2) move is a replacement of the reversed pattern. -/
theorem site32 {env : Env V G} {K K' : Tri V} (hK : Closed K.cells) {a b : V} {m : V × V}
    (hp : prepareThreeTwo K a b = .ok m) (he : executeThreeTwo env K m = .ok K') :
    ∃ p f t, (p = p23up ∨ p = p23down) ∧ Placed p.rev K.inf K.time K.cells f t ∧
      K'.cells = replace p.rev K.cells f ∧ K'.inf = K.inf ∧ K'.time = K.time ∧ K'.info = K.info ∧
      ({f 0, f 1} : Finset V) = {a, b} := by
  obtain ⟨rfl, hm⟩ := prepareThreeTwo_ok hp
  obtain ⟨_, hnew, rfl⟩ := flipEdge_some (executeThreeTwo_ok he).1
  dsimp only at hnew
  obtain ⟨p, f, t, hp, hpl, hab, hl, hcs⟩ := placed_of_link hK hm hnew
  refine ⟨p, f, t, hp, hpl, ?_, rfl, rfl, rfl, hab⟩
  obtain ⟨eO, eN, _, _⟩ := place23 (f := f) hp
  dsimp only
  rw [← hl, hcs]
  show _ = (K.cells \ place f p.N) ∪ place f p.O
  rw [eO, eN]
  congr 1
  have : ({(insert a ({f 2, f 3, f 4} : Finset V)), (insert b {f 2, f 3, f 4})} : Finset (Finset V))
      = ({a, b} : Finset V).image (fun u => insert u {f 2, f 3, f 4}) := by
    simp
  rw [this, ← hab]
  simp

end CDT

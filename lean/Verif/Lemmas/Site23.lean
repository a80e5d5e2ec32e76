/-
(2,3) and (3,2): accepted sites are placed patterns.
-/
import Verif.Lemmas.Mirror
import Verif.Lemmas.Patterns

namespace CDT
open Spec Cavity Moves
variable {V G : Type} [LinearOrder V]

theorem place23 {f : Fin 5 ↪ V} {p : Pattern 5} (hp : p = p23up ∨ p = p23down) :
    place f p.O = {{f 0, f 2, f 3, f 4}, {f 1, f 2, f 3, f 4}} ∧
    place f p.N = {{f 0, f 1, f 2, f 3}, {f 0, f 1, f 2, f 4}, {f 0, f 1, f 3, f 4}} ∧
    p.coreO.map f = {f 2, f 3, f 4} ∧ p.coreN.map f = {f 0, f 1} := by
  rcases hp with rfl | rfl <;> simp [place, p23up, p23down]

/-- Placement of the (2,3) pattern from the two cells. -/
theorem placed23 {K : Finset (Finset V)} {inf : V} {time : V → ℤ} {t : ℤ} {p : Pattern 5}
    (hp : p = p23up ∨ p = p23down) {f : Fin 5 ↪ V}
    (h1 : {f 0, f 2, f 3, f 4} ∈ K) (h2 : {f 1, f 2, f 3, f 4} ∈ K)
    (h3 : ∀ d ∈ K, {f 2, f 3, f 4} ⊆ d → d = {f 0, f 2, f 3, f 4} ∨ d = {f 1, f 2, f 3, f 4})
    (h4 : ∀ d ∈ K, f 0 ∈ d → f 1 ∉ d) (hfin : ∀ i, f i ≠ inf)
    (ht : ∀ i, time (f i) = t + p.τ i) : Placed p inf time K f t := by
  obtain ⟨eO, eN, cO, cN⟩ := place23 (f := f) hp
  refine ⟨?_, ?_, ?_, hfin, ht⟩
  · intro c hc
    have : c.map f ∈ place f p.O := map_mem_place.2 hc
    rw [eO] at this
    simp only [Finset.mem_insert, Finset.mem_singleton] at this
    rcases this with h | h <;> rw [h] <;> assumption
  · intro d hd hs
    rw [cO] at hs
    rw [eO]
    simp only [Finset.mem_insert, Finset.mem_singleton]
    exact h3 d hd hs
  · rw [cN]
    intro hf
    obtain ⟨d, hd, hs⟩ := mem_faces.1 hf
    exact h4 d hd (hs (by simp)) (hs (by simp))

/-- The times of a (2,2) cell sharing a facet with a (3,1) cell. -/
theorem times_22_31 {v w x y z : ℤ} (h : Quad 2 v x y z) (h' : Quad 1 w x y z) :
    ∃ t, v = t + 1 ∧ w = t ∧ ((x = t ∧ y = t ∧ z = t + 1) ∨ (x = t ∧ y = t + 1 ∧ z = t) ∨
      (x = t + 1 ∧ y = t ∧ z = t)) := by
  obtain ⟨t, h1, h2, h3, h4, h5⟩ := h
  obtain ⟨s, g1, g2, g3, g4, g5⟩ := h'
  refine ⟨t, ?_⟩
  omega

theorem times_22_13 {v w x y z : ℤ} (h : Quad 2 v x y z) (h' : Quad 3 w x y z) :
    ∃ t, v = t ∧ w = t + 1 ∧ ((x = t + 1 ∧ y = t + 1 ∧ z = t) ∨ (x = t + 1 ∧ y = t ∧ z = t + 1) ∨
      (x = t ∧ y = t + 1 ∧ z = t + 1)) := by
  obtain ⟨t, h1, h2, h3, h4, h5⟩ := h
  obtain ⟨s, g1, g2, g3, g4, g5⟩ := h'
  refine ⟨t, ?_⟩
  omega

/-- Two finite cells of types (2,2) and (3,1) (or (1,3)) sharing a facet, whose opposite
vertices are not yet joined, are a placed (2,3) pattern with vertex 0 opposite in the (2,2)
cell. -/
theorem placed_of_pair {K : Tri V} (hK : Closed K.cells) {v w x y z : V}
    (d1 : v ≠ w) (d2 : v ≠ x) (d3 : v ≠ y) (d4 : v ≠ z) (d5 : w ≠ x) (d6 : w ≠ y) (d7 : w ≠ z)
    (d8 : x ≠ y) (d9 : x ≠ z) (d10 : y ≠ z)
    (hc : {v, x, y, z} ∈ K.cells) (hn : {w, x, y, z} ∈ K.cells)
    (hic : K.inf ∉ ({v, x, y, z} : Finset V)) (hin : K.inf ∉ ({w, x, y, z} : Finset V))
    (t22 : HasType K.time 2 2 {v, x, y, z})
    (tn : HasType K.time 3 1 {w, x, y, z} ∨ HasType K.time 1 3 {w, x, y, z})
    (hnew : ∀ d ∈ K.cells, v ∈ d → w ∉ d) :
    ∃ p f t, (p = p23up ∨ p = p23down) ∧ Placed p K.inf K.time K.cells f t ∧ f 0 = v ∧ f 1 = w ∧
      ({f 2, f 3, f 4} : Finset V) = {x, y, z} := by
  have hall : ∀ d ∈ K.cells, ({x, y, z} : Finset V) ⊆ d → d = {v, x, y, z} ∨ d = {w, x, y, z} := by
    have e : ({v, x, y, z} : Finset V).erase v = {x, y, z} := by
      rw [Finset.erase_insert]; simp [d2, d3, d4]
    obtain ⟨u, hu, huK, h⟩ := hK.across hc (v := v) (by simp)
    rw [e] at huK h
    have : ({w, x, y, z} : Finset V) = insert u {x, y, z} := by
      rcases h _ hn (by intro a ha; simp at ha ⊢; tauto) with h' | h'
      · have : w ∈ ({v, x, y, z} : Finset V) := h' ▸ by simp
        simp [d1.symm, d5, d6, d7] at this
      · exact h'
    intro d hd hs
    rw [this]
    exact h d hd hs
  have fin : ∀ u, u ∈ ({v, w, x, y, z} : Finset V) → u ≠ K.inf := by
    rintro u hu rfl
    simp at hu hic hin
    tauto
  have build : ∀ (p : Pattern 5) (x' y' z' : V) (t : ℤ), (p = p23up ∨ p = p23down) →
      ({x', y', z'} : Finset V) = {x, y, z} → x' ≠ y' → x' ≠ z' → y' ≠ z' →
      (∀ i, K.time (![v, w, x', y', z'] i) = t + p.τ i) →
      ∃ p f t, (p = p23up ∨ p = p23down) ∧ Placed p K.inf K.time K.cells f t ∧ f 0 = v ∧ f 1 = w ∧
      ({f 2, f 3, f 4} : Finset V) = {x, y, z} := by
    intro p x' y' z' t hp e e1 e2 e3 ht
    have hx : x' ∈ ({x, y, z} : Finset V) := by rw [← e]; simp
    have hy : y' ∈ ({x, y, z} : Finset V) := by rw [← e]; simp
    have hz : z' ∈ ({x, y, z} : Finset V) := by rw [← e]; simp
    have inj : Function.Injective ![v, w, x', y', z'] := by
      simp only [Finset.mem_insert, Finset.mem_singleton] at hx hy hz
      apply inj5 <;> grind
    refine ⟨p, ⟨_, inj⟩, t, hp, ?_, rfl, rfl, e⟩
    apply placed23 hp
    · show ({v, x', y', z'} : Finset V) ∈ _
      rw [e]; exact hc
    · show ({w, x', y', z'} : Finset V) ∈ _
      rw [e]; exact hn
    · show ∀ d ∈ _, ({x', y', z'} : Finset V) ⊆ d → d = {v, x', y', z'} ∨ d = {w, x', y', z'}
      rw [e]; exact hall
    · exact hnew
    · intro i
      apply fin
      have : ∀ i, ![v, w, x', y', z'] i ∈ ({v, w, x, y, z} : Finset V) := by
        intro i
        simp only [Finset.mem_insert, Finset.mem_singleton] at hx hy hz ⊢
        fin_cases i <;> simp <;> grind
      exact this i
    · exact ht
  rw [hasType_quad _ (by omega) (by omega) d2 d3 d4 d8 d9 d10] at t22
  rw [hasType_quad _ (by omega) (by omega) d5 d6 d7 d8 d9 d10,
    hasType_quad _ (by omega) (by omega) d5 d6 d7 d8 d9 d10] at tn
  rcases tn with tn | tn
  · obtain ⟨t, hv, hw, ⟨hx, hy, hz⟩ | ⟨hx, hy, hz⟩ | ⟨hx, hy, hz⟩⟩ := times_22_31 t22 tn
    · exact build p23up x y z t (Or.inl rfl) rfl d8 d9 d10 (by intro i; fin_cases i <;> simp [p23up, *])
    · exact build p23up x z y t (Or.inl rfl) (by ext; simp; tauto) d9 d8 d10.symm
        (by intro i; fin_cases i <;> simp [p23up, *])
    · exact build p23up y z x t (Or.inl rfl) (by ext; simp; tauto) d10 d8.symm d9.symm
        (by intro i; fin_cases i <;> simp [p23up, *])
  · obtain ⟨t, hv, hw, ⟨hx, hy, hz⟩ | ⟨hx, hy, hz⟩ | ⟨hx, hy, hz⟩⟩ := times_22_13 t22 tn
    · exact build p23down x y z t (Or.inr rfl) rfl d8 d9 d10 (by intro i; fin_cases i <;> simp [p23down, *])
    · exact build p23down x z y t (Or.inr rfl) (by ext; simp; tauto) d9 d8 d10.symm
        (by intro i; fin_cases i <;> simp [p23down, *])
    · exact build p23down y z x t (Or.inr rfl) (by ext; simp; tauto) d10 d8.symm d9.symm
        (by intro i; fin_cases i <;> simp [p23down, *])


/-- What an accepted (2,3) site is. -/
theorem prepareTwoThree_ok {K : Tri V} (hK : Closed K.cells) {c c' : Finset V} {i : V}
    (h : prepareTwoThree K c = .ok (c', i)) :
    c' = c ∧ c ∈ K.cells ∧ i ∈ c ∧ HasType K.time 2 2 c ∧ K.info c = 22 ∧
    ∃ w, K.mirror c i = some w ∧ w ∉ c ∧ insert w (c.erase i) ∈ K.cells ∧
      K.inf ∉ insert w (c.erase i) ∧ (HasType K.time 3 1 (insert w (c.erase i)) ∨
        HasType K.time 1 3 (insert w (c.erase i))) := by
  unfold prepareTwoThree at h
  split at h
  · simp at h
  · rename_i hc
    rw [not_not] at hc
    split at h
    · simp at h
    · rename_i ht
      have h4 := hK.1 c hc
      simp only [Bool.or_eq_true, Bool.not_eq_true', bne_iff_ne, not_or, Bool.not_eq_false, not_not] at ht
      split at h
      · rename_i i' hi
        simp only [Except.ok.injEq, Prod.mk.injEq] at h
        obtain ⟨rfl, rfl⟩ := h
        have hic := mem_canonicalPoints.1 (List.mem_of_find?_eq_some hi)
        have hq := List.find?_some hi
        refine ⟨rfl, hc, hic, (expectedType_twoTwo h4).1 ht.2, ?_, ?_⟩
        · have := ht.1
          unfold Tri.typeCorrect isCellTypeCorrect at this
          have e := ht.2
          unfold Tri.expectedType at e
          rw [e] at this
          simp [CellType.code] at this
          exact this.symm
        · unfold facetQualifies at hq
          obtain ⟨w, hw, hwc, hwK, _⟩ := exists_mirror hK hc hic
          rw [hw] at hq
          simp only at hq
          split at hq
          · simp at hq
          · rename_i hinf
            split at hq
            · simp at hq
            · rename_i hn
              simp only [Bool.or_eq_true, Bool.not_eq_true', Bool.and_eq_true, bne_iff_ne, not_or, not_and,
                not_not, Bool.not_eq_false] at hn
              have h4n := hK.1 _ hwK
              refine ⟨w, hw, hwc, hwK, hinf, ?_⟩
              by_cases h31 : K.expectedType (insert w (c.erase i')) = .threeOne
              · left; exact (expectedType_threeOne h4n).1 h31
              · right; exact (expectedType_oneThree h4n).1 (hn.2 h31)
      · simp at h

theorem flipFacet_some {K K' : Tri V} {c : Finset V} {v w : V} (hm : K.mirror c v = some w)
    (h : K.flipFacet c v = some K') :
    (∀ d ∈ K.cells, v ∈ d → w ∉ d) ∧ K' = { K with
      cells := (K.cells \ {c, insert w (c.erase v)}) ∪
        (c.erase v).image (fun x => (insert w c).erase x) } := by
  unfold Tri.flipFacet at h
  rw [hm] at h
  simp only at h
  split at h
  · simp at h
  · rename_i hn
    simp only [Option.some.injEq] at h
    refine ⟨fun d hd h1 h2 => hn ⟨d, hd, h1, h2⟩, h.symm⟩

theorem executeTwoThree_ok {env : Env V G} {K K' : Tri V} {m : Finset V × V} {w : V}
    (hm : K.mirror m.1 m.2 = some w) (h : executeTwoThree env K m = .ok K') :
    m.1 ∈ K.cells ∧ m.2 ∈ m.1 ∧ K.inf ∉ m.1 ∧ w ≠ K.inf ∧ env.geoFacet K m.1 m.2 = true ∧
      (∀ d ∈ K.cells, m.2 ∈ d → w ∉ d) ∧ K' = { K with
      cells := (K.cells \ {m.1, insert w (m.1.erase m.2)}) ∪
        (m.1.erase m.2).image (fun x => (insert w m.1).erase x) } := by
  unfold executeTwoThree at h
  split at h
  · simp at h
  · rename_i hmem
    simp only [not_or, not_not] at hmem
    split at h
    · simp at h
    · rename_i K1 hf
      simp only [Except.ok.injEq] at h
      subst h
      unfold checkedFlipFacet at hf
      split at hf
      · simp at hf
      · rename_i hinf
        rw [hm] at hf
        simp only at hf
        split at hf
        · simp at hf
        · rename_i hwi
          split at hf
          · rename_i hg
            obtain ⟨a, b⟩ := flipFacet_some hm hf
            exact ⟨hmem.1, hmem.2, hinf, hwi, hg, a, b⟩
          · simp at hf

/-- A successful (2,3) move is a replacement of the (2,3) pattern. -/
theorem site23 {env : Env V G} {K K' : Tri V} (hK : Closed K.cells) {c : Finset V}
    {m : Finset V × V} (hp : prepareTwoThree K c = .ok m) (he : executeTwoThree env K m = .ok K') :
    ∃ p f t, (p = p23up ∨ p = p23down) ∧ Placed p K.inf K.time K.cells f t ∧
      K'.cells = replace p K.cells f ∧ K'.inf = K.inf ∧ K'.time = K.time ∧ K'.info = K.info ∧
      c = {f 0, f 2, f 3, f 4} ∧ m = (c, f 0) := by
  obtain ⟨c', i⟩ := m
  obtain ⟨rfl, hc, hi, t22, _, w, hw, hwc, hwK, hinf, tn⟩ := prepareTwoThree_ok hK hp
  obtain ⟨_, _, hinfc, _, _, hnew, rfl⟩ := executeTwoThree_ok (m := (c', i)) hw he
  obtain ⟨x, y, z, d2, d3, d4, d8, d9, d10, e, ee⟩ := exists_four (hK.1 _ hc) hi
  dsimp only at hinfc hnew
  rw [ee] at hwK hinf tn
  have d1 : i ≠ w := fun h => hwc (h ▸ hi)
  have d5 : w ≠ x := fun h => hwc (by rw [e, h]; simp)
  have d6 : w ≠ y := fun h => hwc (by rw [e, h]; simp)
  have d7 : w ≠ z := fun h => hwc (by rw [e, h]; simp)
  obtain ⟨p, f, t, hp, hpl, h0, h1, hxyz⟩ := placed_of_pair hK d1 d2 d3 d4 d5 d6 d7 d8 d9 d10
    (e ▸ hc) hwK (e ▸ hinfc) hinf (e ▸ t22) tn hnew
  refine ⟨p, f, t, hp, hpl, ?_, rfl, rfl, rfl, ?_, ?_⟩
  · obtain ⟨eO, eN, _, _⟩ := place23 (f := f) hp
    have e' : c' = {i, f 2, f 3, f 4} := by rw [e, hxyz]
    have ee' : c'.erase i = {f 2, f 3, f 4} := by rw [ee, hxyz]
    have n23 : f 2 ≠ f 3 := f.injective.ne (by decide)
    have n24 : f 2 ≠ f 4 := f.injective.ne (by decide)
    have n34 : f 3 ≠ f 4 := f.injective.ne (by decide)
    have n02 : i ≠ f 2 := h0 ▸ f.injective.ne (by decide)
    have n03 : i ≠ f 3 := h0 ▸ f.injective.ne (by decide)
    have n04 : i ≠ f 4 := h0 ▸ f.injective.ne (by decide)
    have n12 : w ≠ f 2 := h1 ▸ f.injective.ne (by decide)
    have n13 : w ≠ f 3 := h1 ▸ f.injective.ne (by decide)
    have n14 : w ≠ f 4 := h1 ▸ f.injective.ne (by decide)
    have a1 : (insert w ({i, f 2, f 3, f 4} : Finset V)).erase (f 2) = {i, w, f 3, f 4} := by grind
    have a2 : (insert w ({i, f 2, f 3, f 4} : Finset V)).erase (f 3) = {i, w, f 2, f 4} := by grind
    have a3 : (insert w ({i, f 2, f 3, f 4} : Finset V)).erase (f 4) = {i, w, f 2, f 3} := by grind
    unfold replace
    dsimp only
    rw [eO, eN, h0, h1, ee', e']
    simp only [Finset.image_insert, Finset.image_singleton]
    rw [a1, a2, a3]
    congr 1
    ext s; simp only [Finset.mem_insert, Finset.mem_singleton]; tauto
  · rw [h0, e, hxyz]
  · rw [h0]

end CDT

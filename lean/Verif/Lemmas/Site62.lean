/-
(6,2): accepted vertices have a bipyramid star.
-/
import Verif.Lemmas.Site26

namespace CDT
open Spec Cavity Moves
variable {V G : Type} [LinearOrder V]

/-- Every edge of a closed complex has at least three cells. -/
theorem three_le_edgeCells {K : Tri V} (hK : Closed K.cells) {a b : V} (hab : a ≠ b) {c : Finset V}
    (hc : c ∈ K.edgeCells a b) : 3 ≤ (K.edgeCells a b).card := by
  obtain ⟨hcK, ha, hb⟩ := mem_edgeCells.1 hc
  obtain ⟨x, y, ax, ay, bx, by', xy, rfl⟩ := exists_four2 (hK.1 c hcK) ha hb hab
  obtain ⟨z, za, zb, zx, zy, hz, _⟩ := hK.turn hab ax ay bx by' xy hcK
  obtain ⟨u, ua, ub, uy, ux, hu, hux⟩ := hK.turn hab ay ax by' bx xy.symm (by
    have : ({a, b, y, x} : Finset V) = {a, b, x, y} := by grind
    rw [this]; exact hcK)
  have hsub : ({{a, b, x, y}, {a, b, y, z}, {a, b, x, u}} : Finset (Finset V)) ⊆ K.edgeCells a b := by
    intro d hd
    simp only [Finset.mem_insert, Finset.mem_singleton] at hd
    rcases hd with rfl | rfl | rfl <;> simp [mem_edgeCells, *]
  refine le_trans (le_of_eq ?_) (Finset.card_le_card hsub)
  symm
  rw [Finset.card_eq_three]
  refine ⟨_, _, _, ?_, ?_, ?_, rfl⟩
  · intro h
    have : z ∈ ({a, b, x, y} : Finset V) := h ▸ by simp
    simp [za, zb, zx, zy] at this
  · intro h
    have : u ∈ ({a, b, x, y} : Finset V) := h ▸ by simp
    simp [ua, ub, ux, uy] at this
  · intro h
    have : x ∈ ({a, b, y, z} : Finset V) := h ▸ by simp
    simp [ax.symm, bx.symm, xy, zx.symm] at this

/-- A cone over a triangle of special vertices forces at least four cells. -/
theorem four_of_cone {K : Finset (Finset V)} (hK : Closed K) {v : V} {r : V → Prop}
    {S : Finset (Finset V)}
    (hS : ∀ x y u, v ≠ x → v ≠ y → v ≠ u → x ≠ y → x ≠ u → y ≠ u → r x → r y →
      {v, x, y, u} ∈ K → {v, x, y, u} ∈ S)
    {x y z : V} (vx : v ≠ x) (vy : v ≠ y) (vz : v ≠ z) (xy : x ≠ y) (xz : x ≠ z) (yz : y ≠ z)
    (hc : {v, x, y, z} ∈ K) (hx : r x) (hy : r y) (hz : r z) : 4 ≤ S.card := by
  have e1 : ({v, x, z, y} : Finset V) = {v, x, y, z} := by ext; simp; tauto
  have e2 : ({v, y, x, z} : Finset V) = {v, x, y, z} := by ext; simp; tauto
  obtain ⟨a, av, ax, az, ay, ha, _⟩ := hK.turn vx vz vy xz xy yz.symm (e1 ▸ hc)
  obtain ⟨b, bv, bx, by', bz, hb, _⟩ := hK.turn vx vy vz xy xz yz hc
  obtain ⟨c, cv, cy, cx, cz, hc', _⟩ := hK.turn vy vx vz xy.symm yz xz (e2 ▸ hc)
  have m0 := hS x y z vx vy vz xy xz yz hx hy hc
  have m1 := hS x y a vx vy av.symm xy ax.symm ay.symm hx hy ha
  have m2 := hS x z b vx vz bv.symm xz bx.symm bz.symm hx hz hb
  have m3 := hS y z c vy vz cv.symm yz cy.symm cz.symm hy hz hc'
  have n01 : ({v, x, y, z} : Finset V) ≠ {v, x, y, a} := by
    intro h
    have : a ∈ ({v, x, y, z} : Finset V) := h ▸ by simp
    simp [av, ax, ay, az] at this
  have n02 : ({v, x, y, z} : Finset V) ≠ {v, x, z, b} := by
    intro h
    have : b ∈ ({v, x, y, z} : Finset V) := h ▸ by simp
    simp [bv, bx, by', bz] at this
  have n03 : ({v, x, y, z} : Finset V) ≠ {v, y, z, c} := by
    intro h
    have : c ∈ ({v, x, y, z} : Finset V) := h ▸ by simp
    simp [cv, cx, cy, cz] at this
  have n12 : ({v, x, y, a} : Finset V) ≠ {v, x, z, b} := by
    intro h
    have : z ∈ ({v, x, y, a} : Finset V) := h ▸ by simp
    simp [vz.symm, xz.symm, yz.symm, az.symm] at this
  have n13 : ({v, x, y, a} : Finset V) ≠ {v, y, z, c} := by
    intro h
    have : z ∈ ({v, x, y, a} : Finset V) := h ▸ by simp
    simp [vz.symm, xz.symm, yz.symm, az.symm] at this
  have n23 : ({v, x, z, b} : Finset V) ≠ {v, y, z, c} := by
    intro h
    have : y ∈ ({v, x, z, b} : Finset V) := h ▸ by simp
    simp [vy.symm, xy.symm, yz, by'.symm] at this
  have hsub : ({{v, x, y, z}, {v, x, y, a}, {v, x, z, b}, {v, y, z, c}} : Finset (Finset V)) ⊆ S := by
    intro d hd
    simp only [Finset.mem_insert, Finset.mem_singleton] at hd
    rcases hd with rfl | rfl | rfl | rfl <;> assumption
  refine le_trans (le_of_eq ?_) (Finset.card_le_card hsub)
  rw [Finset.card_insert_of_notMem (by simp [n01, n02, n03]),
    Finset.card_insert_of_notMem (by simp [n12, n13]), Finset.card_insert_of_notMem (by simp [n23]),
    Finset.card_singleton]

/-- What `is_62_movable` establishes. -/
theorem is62Movable_ok {K : Tri V} {v : V} (h : is62Movable K v = true) :
    K.degree v = 5 ∧ (K.vertexCells v).card = 6 ∧
    (∀ c ∈ K.vertexCells v, K.inf ∉ c ∧ K.typeCorrect c = true) ∧
    typeCount K (K.vertexCells v) .threeOne = 3 ∧ typeCount K (K.vertexCells v) .twoTwo = 0 ∧
    typeCount K (K.vertexCells v) .oneThree = 3 := by
  unfold is62Movable at h
  simp only at h
  split at h
  · simp at h
  · split at h
    · simp at h
    · split at h
      · simp at h
      · split at h
        · simp at h
        · split at h
          · simp at h
          · rename_i h1 h2 h3 h4 h5
            simp only [decide_eq_true_eq] at h
            simp only [not_or, not_not] at h5
            simp only [not_exists, not_and] at h4
            exact ⟨by simpa using h2, by simpa using h3, fun c hc => ⟨h4 c hc, h5.2 c hc⟩, h⟩

theorem mem_vertexCells {K : Tri V} {v : V} {c : Finset V} :
    c ∈ K.vertexCells v ↔ c ∈ K.cells ∧ v ∈ c := by simp [Tri.vertexCells]

theorem mem_typeFilter {K : Tri V} {v : V} {ct : CellType} {c : Finset V} :
    c ∈ (K.vertexCells v).filter (fun c => K.expectedType c = ct) ↔
      (c ∈ K.cells ∧ v ∈ c) ∧ K.expectedType c = ct := by
  rw [Finset.mem_filter, mem_vertexCells]

theorem rot4 (v a b c : V) : ({v, a, b, c} : Finset V) = {v, b, c, a} := by
  rw [Finset.insert_comm a b {c}, Finset.pair_comm a c]

set_option maxHeartbeats 800000 in
/-- The star of a vertex whose cells are three (3,1) and three (1,3) cells is a bipyramid
over a triangle of the vertex's own slice. -/
theorem star62 {K : Tri V} (hK : Closed K.cells) {v : V}
    (h6 : (K.vertexCells v).card = 6)
    (h31 : typeCount K (K.vertexCells v) .threeOne = 3)
    (h13 : typeCount K (K.vertexCells v) .oneThree = 3) :
    ∃ x y z p q, [v, x, y, z, p, q].Nodup ∧ K.time x = K.time v ∧ K.time y = K.time v ∧
      K.time z = K.time v ∧ K.time p = K.time v + 1 ∧ K.time q = K.time v + -1 ∧
      K.vertexCells v = {{v, x, y, p}, {v, x, z, p}, {v, y, z, p}, {v, x, y, q}, {v, x, z, q}, {v, y, z, q}} ∧
      K.edgeCells v p = {{v, p, x, y}, {v, p, x, z}, {v, p, y, z}} ∧
      K.edgeCells v q = {{v, q, x, y}, {v, q, x, z}, {v, q, y, z}} := by
  have hty : ∀ c ∈ K.cells, v ∈ c → K.expectedType c = .threeOne ∨ K.expectedType c = .oneThree := by
    have hsub : (K.vertexCells v).filter (fun c => K.expectedType c = .threeOne) ∪
        (K.vertexCells v).filter (fun c => K.expectedType c = .oneThree) = K.vertexCells v := by
      apply Finset.eq_of_subset_of_card_le
      · exact Finset.union_subset (Finset.filter_subset _ _) (Finset.filter_subset _ _)
      · rw [Finset.card_union_of_disjoint]
        · unfold typeCount at h31 h13
          omega
        · rw [Finset.disjoint_left]
          intro c h1 h2
          rw [Finset.mem_filter] at h1 h2
          rw [h1.2] at h2
          simp at h2
    intro c hc hv
    have : c ∈ K.vertexCells v := mem_vertexCells.2 ⟨hc, hv⟩
    rw [← hsub, Finset.mem_union, mem_typeFilter, mem_typeFilter] at this
    tauto
  have hq : ∀ x y z, v ≠ x → v ≠ y → v ≠ z → x ≠ y → x ≠ z → y ≠ z → {v, x, y, z} ∈ K.cells →
      (K.expectedType {v, x, y, z} = .threeOne ∧ Quad 1 (K.time v) (K.time x) (K.time y) (K.time z)) ∨
      (K.expectedType {v, x, y, z} = .oneThree ∧ Quad 3 (K.time v) (K.time x) (K.time y) (K.time z)) := by
    intro x y z vx vy vz xy xz yz hc
    have h4 := hK.1 _ hc
    rcases hty _ hc (by simp) with h | h
    · left
      exact ⟨h, (hasType_quad (i := 3) (j := 1) K.time (by omega) (by omega) vx vy vz xy xz yz).1 ((expectedType_threeOne h4).1 h)⟩
    · right
      exact ⟨h, (hasType_quad (i := 1) (j := 3) K.time (by omega) (by omega) vx vy vz xy xz yz).1 ((expectedType_oneThree h4).1 h)⟩
  -- no (3,1) cell has `v` as apex, no (1,3) cell has `v` as its single lower vertex
  have noApex : ∀ x y z, v ≠ x → v ≠ y → v ≠ z → x ≠ y → x ≠ z → y ≠ z → {v, x, y, z} ∈ K.cells →
      ¬ (K.time x = K.time v - 1 ∧ K.time y = K.time v - 1 ∧ K.time z = K.time v - 1) := by
    rintro x y z vx vy vz xy xz yz hc ⟨hx, hy, hz⟩
    have := four_of_cone hK (v := v) (r := fun u => K.time u = K.time v - 1)
      (S := (K.vertexCells v).filter (fun c => K.expectedType c = .threeOne)) (by
        intro x y u vx vy vu xy xu yu hx hy hc
        rw [mem_typeFilter]
        refine ⟨⟨hc, by simp⟩, ?_⟩
        rcases hq x y u vx vy vu xy xu yu hc with h | h
        · exact h.1
        · obtain ⟨_, t, g1, g2, g3, g4, g5⟩ := h
          omega) vx vy vz xy xz yz hc hx hy hz
    unfold typeCount at h31
    omega
  have noFoot : ∀ x y z, v ≠ x → v ≠ y → v ≠ z → x ≠ y → x ≠ z → y ≠ z → {v, x, y, z} ∈ K.cells →
      ¬ (K.time x = K.time v + 1 ∧ K.time y = K.time v + 1 ∧ K.time z = K.time v + 1) := by
    rintro x y z vx vy vz xy xz yz hc ⟨hx, hy, hz⟩
    have := four_of_cone hK (v := v) (r := fun u => K.time u = K.time v + 1)
      (S := (K.vertexCells v).filter (fun c => K.expectedType c = .oneThree)) (by
        intro x y u vx vy vu xy xu yu hx hy hc
        rw [mem_typeFilter]
        refine ⟨⟨hc, by simp⟩, ?_⟩
        rcases hq x y u vx vy vu xy xu yu hc with h | h
        · obtain ⟨_, t, g1, g2, g3, g4, g5⟩ := h
          omega
        · exact h.1) vx vy vz xy xz yz hc hx hy hz
    unfold typeCount at h13
    omega
  -- a vertex above, whose edge carries exactly the (3,1) cells
  have hp : ∃ p, v ≠ p ∧ K.time p = K.time v + 1 ∧
      K.edgeCells v p = (K.vertexCells v).filter (fun c => K.expectedType c = .threeOne) := by
    have key : ∀ p, v ≠ p → K.time p = K.time v + 1 → (∃ c, c ∈ K.edgeCells v p) →
        K.edgeCells v p = (K.vertexCells v).filter (fun c => K.expectedType c = .threeOne) := by
      rintro p vp ht ⟨c, hc⟩
      apply Finset.eq_of_subset_of_card_le
      · intro d hd
        obtain ⟨hdK, hv, hpd⟩ := mem_edgeCells.1 hd
        obtain ⟨x, y, vx, vy, px, py, xy, rfl⟩ := exists_four2 (hK.1 d hdK) hv hpd vp
        rw [mem_typeFilter]
        refine ⟨⟨hdK, hv⟩, ?_⟩
        rcases hq p x y vp vx vy px py xy hdK with h | h
        · exact h.1
        · obtain ⟨_, t, g1, g2, g3, g4, g5⟩ := h
          exact absurd ⟨by omega, by omega, by omega⟩ (noFoot p x y vp vx vy px py xy hdK)
      · have := three_le_edgeCells hK vp hc
        unfold typeCount at h31
        omega
    obtain ⟨c, hc⟩ := Finset.card_pos.1 (show 0 < ((K.vertexCells v).filter
      (fun c => K.expectedType c = .threeOne)).card by unfold typeCount at h31; omega)
    obtain ⟨⟨hcK, hv⟩, ht⟩ := mem_typeFilter.1 hc
    obtain ⟨x, y, z, vx, vy, vz, xy, xz, yz, rfl, _⟩ := exists_four (hK.1 _ hcK) hv
    have hcx : {v, x, y, z} ∈ K.edgeCells v x := mem_edgeCells.2 ⟨hcK, by simp, by simp⟩
    have hcy : {v, x, y, z} ∈ K.edgeCells v y := mem_edgeCells.2 ⟨hcK, by simp, by simp⟩
    have hcz : {v, x, y, z} ∈ K.edgeCells v z := mem_edgeCells.2 ⟨hcK, by simp, by simp⟩
    rcases hq x y z vx vy vz xy xz yz hcK with h | h
    · have na := noApex x y z vx vy vz xy xz yz hcK
      obtain ⟨_, t, g1, g2, g3, g4, g5⟩ := h
      have : K.time x = K.time v + 1 ∨ K.time y = K.time v + 1 ∨ K.time z = K.time v + 1 := by omega
      rcases this with h | h | h
      · exact ⟨x, vx, h, key x vx h ⟨_, hcx⟩⟩
      · exact ⟨y, vy, h, key y vy h ⟨_, hcy⟩⟩
      · exact ⟨z, vz, h, key z vz h ⟨_, hcz⟩⟩
    · rw [h.1] at ht; simp at ht
  have hqq : ∃ q, v ≠ q ∧ K.time q = K.time v + -1 ∧
      K.edgeCells v q = (K.vertexCells v).filter (fun c => K.expectedType c = .oneThree) := by
    have key : ∀ p, v ≠ p → K.time p = K.time v + -1 → (∃ c, c ∈ K.edgeCells v p) →
        K.edgeCells v p = (K.vertexCells v).filter (fun c => K.expectedType c = .oneThree) := by
      rintro p vp ht ⟨c, hc⟩
      apply Finset.eq_of_subset_of_card_le
      · intro d hd
        obtain ⟨hdK, hv, hpd⟩ := mem_edgeCells.1 hd
        obtain ⟨x, y, vx, vy, px, py, xy, rfl⟩ := exists_four2 (hK.1 d hdK) hv hpd vp
        rw [mem_typeFilter]
        refine ⟨⟨hdK, hv⟩, ?_⟩
        rcases hq p x y vp vx vy px py xy hdK with h | h
        · obtain ⟨_, t, g1, g2, g3, g4, g5⟩ := h
          exact absurd ⟨by omega, by omega, by omega⟩ (noApex p x y vp vx vy px py xy hdK)
        · exact h.1
      · have := three_le_edgeCells hK vp hc
        unfold typeCount at h13
        omega
    obtain ⟨c, hc⟩ := Finset.card_pos.1 (show 0 < ((K.vertexCells v).filter
      (fun c => K.expectedType c = .oneThree)).card by unfold typeCount at h13; omega)
    obtain ⟨⟨hcK, hv⟩, ht⟩ := mem_typeFilter.1 hc
    obtain ⟨x, y, z, vx, vy, vz, xy, xz, yz, rfl, _⟩ := exists_four (hK.1 _ hcK) hv
    have hcx : {v, x, y, z} ∈ K.edgeCells v x := mem_edgeCells.2 ⟨hcK, by simp, by simp⟩
    have hcy : {v, x, y, z} ∈ K.edgeCells v y := mem_edgeCells.2 ⟨hcK, by simp, by simp⟩
    have hcz : {v, x, y, z} ∈ K.edgeCells v z := mem_edgeCells.2 ⟨hcK, by simp, by simp⟩
    rcases hq x y z vx vy vz xy xz yz hcK with h | h
    · rw [h.1] at ht; simp at ht
    · have na := noFoot x y z vx vy vz xy xz yz hcK
      obtain ⟨_, t, g1, g2, g3, g4, g5⟩ := h
      have : K.time x = K.time v + -1 ∨ K.time y = K.time v + -1 ∨ K.time z = K.time v + -1 := by omega
      rcases this with h | h | h
      · exact ⟨x, vx, h, key x vx h ⟨_, hcx⟩⟩
      · exact ⟨y, vy, h, key y vy h ⟨_, hcy⟩⟩
      · exact ⟨z, vz, h, key z vz h ⟨_, hcz⟩⟩
  obtain ⟨p, vp, tp, ep⟩ := hp
  obtain ⟨q, vq, tq, eq⟩ := hqq
  have cp : (K.edgeCells v p).card = 3 := by rw [ep]; exact h31
  have cq : (K.edgeCells v q).card = 3 := by rw [eq]; exact h13
  obtain ⟨c, hc⟩ := Finset.card_pos.1 (show 0 < (K.edgeCells v p).card by omega)
  obtain ⟨x, y, z, vx, vy, vz, px, py, pz, xy, xz, yz, _, ecs⟩ := link3 hK vp cp hc
  -- times of the link of `v p`
  have tlink : ∀ a b, v ≠ a → v ≠ b → p ≠ a → p ≠ b → a ≠ b → {v, p, a, b} ∈ K.cells →
      K.time a = K.time v ∧ K.time b = K.time v := by
    intro a b va vb pa pb ab hd
    rcases hq p a b vp va vb pa pb ab hd with h | h
    · obtain ⟨_, t, g1, g2, g3, g4, g5⟩ := h
      omega
    · obtain ⟨_, t, g1, g2, g3, g4, g5⟩ := h
      exact absurd ⟨by omega, by omega, by omega⟩ (noFoot p a b vp va vb pa pb ab hd)
  have mxy : {v, p, x, y} ∈ K.cells := (mem_edgeCells.1 (show {v, p, x, y} ∈ K.edgeCells v p by rw [ecs]; simp)).1
  have mxz : {v, p, x, z} ∈ K.cells := (mem_edgeCells.1 (show {v, p, x, z} ∈ K.edgeCells v p by rw [ecs]; simp)).1
  have myz : {v, p, y, z} ∈ K.cells := (mem_edgeCells.1 (show {v, p, y, z} ∈ K.edgeCells v p by rw [ecs]; simp)).1
  obtain ⟨tx, ty⟩ := tlink x y vx vy px py xy mxy
  obtain ⟨_, tz⟩ := tlink x z vx vz px pz xz mxz
  -- the cell on the other side of `{v, a, b}` contains `q`
  have below : ∀ a b, v ≠ a → v ≠ b → p ≠ a → p ≠ b → a ≠ b → {v, p, a, b} ∈ K.cells →
      K.time a = K.time v → K.time b = K.time v → {v, q, a, b} ∈ K.edgeCells v q := by
    intro a b va vb pa pb ab hd ta tb
    have e1 : ({v, a, p, b} : Finset V) = {v, p, a, b} := by rw [Finset.insert_comm a p]
    obtain ⟨u, uv, ua, up, ub, hu, _⟩ := hK.turn va vp vb pa.symm ab pb (e1 ▸ hd)
    rcases hq a b u va vb uv.symm ab ua.symm ub.symm hu with h | h
    · have hm : {v, a, b, u} ∈ K.edgeCells v p := by
        rw [ep, mem_typeFilter]; exact ⟨⟨hu, by simp⟩, h.1⟩
      have := (mem_edgeCells.1 hm).2.2
      simp [vp.symm, pa, pb, up.symm] at this
    · have hm : {v, a, b, u} ∈ K.edgeCells v q := by
        rw [eq, mem_typeFilter]; exact ⟨⟨hu, by simp⟩, h.1⟩
      have hqm := (mem_edgeCells.1 hm).2.2
      have : q = u := by
        simp only [Finset.mem_insert, Finset.mem_singleton] at hqm
        rcases hqm with h | h | h | h
        · exact absurd h.symm vq
        · rw [h] at tq; omega
        · rw [h] at tq; omega
        · exact h
      have e2 : ({v, q, a, b} : Finset V) = {v, a, b, u} := by rw [this, rot4]
      rw [e2]; exact hm
  have bxy := below x y vx vy px py xy mxy tx ty
  have bxz := below x z vx vz px pz xz mxz tx tz
  have byz := below y z vy vz py pz yz myz ty tz
  have xq : x ≠ q := fun h => by rw [← h] at tq; omega
  have yq : y ≠ q := fun h => by rw [← h] at tq; omega
  have zq : z ≠ q := fun h => by rw [← h] at tq; omega
  have pq : p ≠ q := fun h => by rw [← h] at tq; omega
  have ecq : K.edgeCells v q = {{v, q, x, y}, {v, q, x, z}, {v, q, y, z}} := by
    symm
    apply Finset.eq_of_subset_of_card_le
    · intro d hd
      simp only [Finset.mem_insert, Finset.mem_singleton] at hd
      rcases hd with rfl | rfl | rfl <;> assumption
    · rw [cq]
      apply le_of_eq
      symm
      rw [Finset.card_eq_three]
      refine ⟨_, _, _, ?_, ?_, ?_, rfl⟩
      · intro h
        have : z ∈ ({v, q, x, y} : Finset V) := h ▸ by simp
        simp [vz.symm, zq, xz.symm, yz.symm] at this
      · intro h
        have : z ∈ ({v, q, x, y} : Finset V) := h ▸ by simp
        simp [vz.symm, zq, xz.symm, yz.symm] at this
      · intro h
        have : x ∈ ({v, q, y, z} : Finset V) := h ▸ by simp
        simp [vx.symm, xq, xy, xz] at this
  refine ⟨x, y, z, p, q, ?_, tx, ty, tz, tp, tq, ?_, ecs, ecq⟩
  · simp only [List.nodup_cons, List.mem_cons, List.not_mem_nil, or_false, not_or, not_false_eq_true,
      List.nodup_nil, and_true]
    exact ⟨⟨vx, vy, vz, vp, vq⟩, ⟨xy, xz, px.symm, xq⟩, ⟨yz, py.symm, yq⟩, ⟨pz.symm, zq⟩, pq⟩
  · ext d
    have : d ∈ K.vertexCells v ↔ d ∈ K.edgeCells v p ∨ d ∈ K.edgeCells v q := by
      rw [ep, eq, mem_typeFilter, mem_typeFilter, mem_vertexCells]
      constructor
      · intro h
        rcases hty d h.1 h.2 with h' | h'
        · exact Or.inl ⟨h, h'⟩
        · exact Or.inr ⟨h, h'⟩
      · rintro (h | h) <;> exact h.1
    rw [this, ecs, ecq]
    rw [rot4 v p x y, rot4 v p x z, rot4 v p y z, rot4 v q x y, rot4 v q x z, rot4 v q y z]
    simp only [Finset.mem_insert, Finset.mem_singleton, or_assoc]


theorem flipFirst_some {K K1 : Tri V} {v : V} {edges : List (Finset V)}
    (h : flipFirst K v edges = some K1) :
    ∃ e ∈ edges, ∃ w ∈ e.erase v, K.time v ≠ K.time w ∧ K.flipEdge v w = some K1 := by
  induction edges with
  | nil => simp [flipFirst] at h
  | cons e es ih =>
    unfold flipFirst at h
    split at h
    · obtain ⟨e', he', r⟩ := ih h
      exact ⟨e', List.mem_cons_of_mem _ he', r⟩
    · rename_i w hw
      split at h
      · rename_i ht
        split at h
        · rename_i K' hf
          simp only [Option.some.injEq] at h
          subst h
          exact ⟨e, List.mem_cons_self, w, mem_canonicalPoints.1 (List.mem_of_mem_head? (Option.mem_def.2 hw)),
            ht, hf⟩
        · obtain ⟨e', he', r⟩ := ih h
          exact ⟨e', List.mem_cons_of_mem _ he', r⟩
      · obtain ⟨e', he', r⟩ := ih h
        exact ⟨e', List.mem_cons_of_mem _ he', r⟩

theorem mem_edges_shuffle {env : Env V G} (hl : env.Lawful) {K : Tri V} {v : V} {g : G} {e : Finset V}
    (h : e ∈ (env.shuffle (canonicalize (env.iter K (incidentEdges K v))) g).1) :
    v ∈ e ∧ e.card = 2 ∧ K.inf ∉ e ∧ ∃ c ∈ K.cells, e ⊆ c := by
  have h1 := (hl.shuffle_perm _ _).mem_iff.1 h
  have h2 := (List.perm_insertionSort _ _).mem_iff.1 h1
  rw [hl.mem_iter] at h2
  unfold incidentEdges Tri.finiteEdges at h2
  simp only [Finset.mem_filter, Finset.mem_biUnion, Finset.mem_powersetCard] at h2
  obtain ⟨⟨⟨c, hc, hs, h2⟩, hi⟩, hv⟩ := h2
  exact ⟨hv, h2, hi, c, hc, hs⟩

/-- What a successful (6,2) execution did. -/
theorem executeSixTwo_ok {env : Env V G} {validator : Tri V → Bool} {K K' : Tri V} {v : V} {g g' : G}
    (h : executeSixTwo env validator K v g = (.ok K', g')) :
    ∃ K1, flipFirst K v (env.shuffle (canonicalize (env.iter K (incidentEdges K v))) g).1 = some K1 ∧
      Closed K1.cells ∧ K' = relabel (K1.removeVertex v) ∧ Closed (K1.removeVertex v).cells := by
  unfold executeSixTwo at h
  split at h
  · simp at h
  · simp only [Prod.mk.injEq] at h
    replace h := h.1
    split at h
    · simp at h
    · rename_i K1 hf
      rcases ite_eq_iff.1 h with ⟨_, h⟩ | ⟨hv, h⟩
      · simp at h
      · rcases ite_eq_iff.1 h with ⟨_, h⟩ | ⟨hv2, h⟩
        · simp at h
        · rcases ite_eq_iff.1 h with ⟨_, h⟩ | ⟨_, h⟩
          · simp at h
          · simp only [Except.ok.injEq] at h
            simp only [Bool.or_eq_true, decide_eq_true_eq, Bool.not_eq_true', not_or, Bool.not_eq_false] at hv hv2
            exact ⟨K1, hf, isValid_iff.1 hv.2, h.symm, isValid_iff.1 hv2.1.1.2⟩

theorem prepareSixTwo_ok {K : Tri V} {v u : V} (h : prepareSixTwo K v = .ok u) :
    u = v ∧ v ≠ K.inf ∧ v ∈ K.verts ∧ is62Movable K v = true := by
  unfold prepareSixTwo at h
  split at h
  · simp at h
  · rename_i h1
    split at h
    · simp at h
    · rename_i hm
      simp only [Except.ok.injEq] at h
      simp only [not_or, not_not] at h1
      exact ⟨h.symm, h1.2, h1.1, by simpa using hm⟩

/-- Flipping the edge `v a` of a bipyramid star and removing `v`. -/
theorem remove_bipyramid {K K1 : Tri V} {v x y z a b : V}
    (vx : v ≠ x) (vy : v ≠ y) (vz : v ≠ z) (va : v ≠ a) (vb : v ≠ b) (ax : a ≠ x) (ay : a ≠ y) (az : a ≠ z)
    (hst : ∀ d, d ∈ K.vertexCells v ↔ d ∈ K.edgeCells v a ∨ d ∈ K.edgeCells v b)
    (ea : K.edgeCells v a = {{v, a, x, y}, {v, a, x, z}, {v, a, y, z}})
    (eb : K.edgeCells v b = {{v, b, x, y}, {v, b, x, z}, {v, b, y, z}})
    (hd : ∀ d ∈ K.edgeCells v b, d ∉ K.edgeCells v a)
    (h : K.flipEdge v a = some K1) :
    (∀ d ∈ K.cells, ¬ (({x, y, z} : Finset V) ⊆ d)) ∧
    (K1.removeVertex v).cells = (K.cells \ K.vertexCells v) ∪ {{x, y, z, a}, {x, y, z, b}} ∧
    (K1.removeVertex v).inf = K.inf ∧ (K1.removeVertex v).time = K.time ∧
    (K1.removeVertex v).info = K.info := by
  obtain ⟨_, hl, rfl⟩ := flipEdge_some h
  have el := link_of_three va vx vy vz ax ay az ea
  rw [el] at hl
  refine ⟨hl, ?_, rfl, rfl, rfl⟩
  rw [el]
  have hv1 : ∀ K1 : Tri V, K1.cells = (K.cells \ K.edgeCells v a) ∪ {{v, x, y, z}, {a, x, y, z}} →
      K1.vertexCells v = insert {v, x, y, z} (K.edgeCells v b) := by
    intro K1 hK1
    ext d
    rw [mem_vertexCells, hK1]
    simp only [Finset.mem_union, Finset.mem_sdiff, Finset.mem_insert, Finset.mem_singleton]
    constructor
    · rintro ⟨⟨hdK, hda⟩ | rfl | rfl, hv⟩
      · rcases (hst d).1 (mem_vertexCells.2 ⟨hdK, hv⟩) with h' | h'
        · exact absurd h' hda
        · exact Or.inr h'
      · exact Or.inl rfl
      · simp [va, vx, vy, vz] at hv
    · rintro (rfl | h')
      · exact ⟨Or.inr (Or.inl rfl), by simp⟩
      · obtain ⟨h1, h2, _⟩ := mem_edgeCells.1 h'
        exact ⟨Or.inl ⟨h1, hd d h'⟩, h2⟩
  unfold Tri.removeVertex
  simp only
  rw [hv1 _ rfl]
  have hbi : ((insert {v, x, y, z} (K.edgeCells v b)).biUnion id).erase v = {x, y, z, b} := by
    rw [eb]
    ext u
    simp only [Finset.mem_erase, Finset.mem_biUnion, Finset.mem_insert, Finset.mem_singleton, id]
    constructor
    · rintro ⟨h1, d, rfl | rfl | rfl | rfl, hd⟩ <;> simp at hd <;> tauto
    · rintro (rfl | rfl | rfl | rfl)
      · exact ⟨vx.symm, _, Or.inl rfl, by simp⟩
      · exact ⟨vy.symm, _, Or.inl rfl, by simp⟩
      · exact ⟨vz.symm, _, Or.inl rfl, by simp⟩
      · exact ⟨vb.symm, _, Or.inr (Or.inl rfl), by simp⟩
  rw [hbi]
  ext d
  simp only [Finset.mem_union, Finset.mem_sdiff, Finset.mem_insert, Finset.mem_singleton, not_or]
  have ea2 : ({x, y, z, a} : Finset V) = {a, x, y, z} := by
    rw [Finset.pair_comm z a, Finset.insert_comm y a, Finset.insert_comm x a]
  rw [ea2]
  constructor
  · rintro (⟨⟨hdK, hda⟩ | rfl | rfl, hne, hdb⟩ | rfl)
    · left
      refine ⟨hdK, fun hv => ?_⟩
      rcases (hst d).1 hv with h' | h'
      · exact hda h'
      · exact hdb h'
    · exact absurd rfl hne
    · right; left; rfl
    · right; right; rfl
  · rintro (⟨hdK, hv⟩ | rfl | rfl)
    · left
      refine ⟨Or.inl ⟨hdK, fun h' => hv ((hst d).2 (Or.inl h'))⟩, ?_, fun h' => hv ((hst d).2 (Or.inr h'))⟩
      rintro rfl
      exact hv (mem_vertexCells.2 ⟨hdK, by simp⟩)
    · left
      refine ⟨Or.inr (Or.inr rfl), ?_, ?_⟩
      · intro h'
        have : v ∈ ({a, x, y, z} : Finset V) := h' ▸ by simp
        simp [va, vx, vy, vz] at this
      · intro h'
        have := (mem_edgeCells.1 h').2.1
        simp [va, vx, vy, vz] at this
    · right; rfl

/-- Placement of the reversed subdivision pattern. -/
theorem placed62 {K : Tri V} {x y z p q v : V} (inj : Function.Injective ![x, y, z, p, q, v])
    (hst : K.vertexCells v =
      {{v, x, y, p}, {v, x, z, p}, {v, y, z, p}, {v, x, y, q}, {v, x, z, q}, {v, y, z, q}})
    (hfree : ∀ d ∈ K.cells, ¬ (({x, y, z} : Finset V) ⊆ d)) (hfin : ∀ c ∈ K.vertexCells v, K.inf ∉ c)
    (ht : K.time x = K.time v ∧ K.time y = K.time v ∧ K.time z = K.time v ∧ K.time p = K.time v + 1 ∧
      K.time q = K.time v + -1) :
    Placed (p26 0).rev K.inf K.time K.cells (emb6 x y z p q v inj) (K.time v) ∧
    replace (p26 0).rev K.cells (emb6 x y z p q v inj)
      = (K.cells \ K.vertexCells v) ∪ {{x, y, z, p}, {x, y, z, q}} := by
  obtain ⟨eO, eN, cO, cN⟩ := place26 (f := emb6 x y z p q v inj) (d := 0)
  have r : ∀ a b c : V, ({a, b, v, c} : Finset V) = {v, a, b, c} := by
    intro a b c
    rw [Finset.insert_comm b v, Finset.insert_comm a v]
  have eN' : place (emb6 x y z p q v inj) (p26 0).N = K.vertexCells v := by
    rw [eN, hst]
    show ({{x, y, v, p}, {x, z, v, p}, {y, z, v, p}, {x, y, v, q}, {x, z, v, q}, {y, z, v, q}} :
      Finset (Finset V)) = _
    rw [r x y p, r x z p, r y z p, r x y q, r x z q, r y z q]
  refine ⟨⟨?_, ?_, ?_, ?_, ?_⟩, ?_⟩
  · intro c hc
    have : c.map (emb6 x y z p q v inj) ∈ place (emb6 x y z p q v inj) (p26 0).N := map_mem_place.2 hc
    rw [eN'] at this
    exact (mem_vertexCells.1 this).1
  · intro c hc hs
    change (p26 0).coreN.map _ ⊆ c at hs
    rw [cN] at hs
    change c ∈ place _ (p26 0).N
    rw [eN']
    exact mem_vertexCells.2 ⟨hc, hs (by show v ∈ ({v} : Finset V); simp)⟩
  · change (p26 0).coreO.map _ ∉ _
    rw [cO]
    intro hf
    obtain ⟨c, hc, hs⟩ := mem_faces.1 hf
    exact hfree c hc hs
  · have h1 := hfin {v, x, y, p} (by rw [hst]; simp)
    have h2 := hfin {v, x, z, q} (by rw [hst]; simp)
    simp only [Finset.mem_insert, Finset.mem_singleton, not_or] at h1 h2
    have : ∀ j, ![x, y, z, p, q, v] j ≠ K.inf := by
      intro j; fin_cases j <;> simp <;> grind
    exact this
  · have : ∀ j, K.time (![x, y, z, p, q, v] j) = K.time v + (p26 0).τ j := by
      intro j; fin_cases j <;> simp [p26, ht]
    exact this
  · show (K.cells \ place _ (p26 0).N) ∪ place _ (p26 0).O = _
    rw [eN', eO]
    rfl

/-- A successful (6,2) mutation undoes a subdivision. -/
theorem site62 {env : Env V G} (hlaw : env.Lawful) {validator : Tri V → Bool} {K K' : Tri V}
    (hK : Closed K.cells) {v u : V} {g g' : G} (hp : prepareSixTwo K v = .ok u)
    (he : executeSixTwo env validator K u g = (.ok K', g')) :
    ∃ f t, Placed (p26 0).rev K.inf K.time K.cells f t ∧ K'.cells = replace (p26 0).rev K.cells f ∧
      K'.inf = K.inf ∧ K'.time = K.time ∧ (∀ c, K.inf ∈ c → K'.info c = K.info c) ∧ f 5 = v ∧ u = v := by
  obtain ⟨rfl, _, _, hm⟩ := prepareSixTwo_ok hp
  obtain ⟨h5, h6, hfin, h31, _, h13⟩ := is62Movable_ok hm
  obtain ⟨x, y, z, p, q, hnd, tx, ty, tz, tp, tq, hst, ep, eq⟩ := star62 hK h6 h31 h13
  obtain ⟨K1, hf, _, rfl, _⟩ := executeSixTwo_ok he
  obtain ⟨e, hee, w, hw, htw, hflip⟩ := flipFirst_some hf
  obtain ⟨hve, _, _, c, hc, hec⟩ := mem_edges_shuffle hlaw hee
  simp only [List.nodup_cons, List.mem_cons, List.not_mem_nil, or_false, not_or, not_false_eq_true,
    List.nodup_nil, and_true] at hnd
  obtain ⟨⟨vx, vy, vz, vp, vq⟩, ⟨xy, xz, xp, xq⟩, ⟨yz, yp, yq⟩, ⟨zp, zq⟩, pq⟩ := hnd
  have inj : Function.Injective ![x, y, z, p, q, u] := by
    apply inj6 <;> first | assumption | (apply Ne.symm; assumption)
  have hstm : ∀ d, d ∈ K.vertexCells u ↔ d ∈ K.edgeCells u p ∨ d ∈ K.edgeCells u q := by
    intro d
    rw [hst, ep, eq, rot4 u p x y, rot4 u p x z, rot4 u p y z, rot4 u q x y, rot4 u q x z, rot4 u q y z]
    simp only [Finset.mem_insert, Finset.mem_singleton, or_assoc]
  have hdis : ∀ d, d ∈ K.edgeCells u p → d ∈ K.edgeCells u q → False := by
    intro d h1 h2
    rw [ep] at h1
    have := (mem_edgeCells.1 h2).2.2
    simp only [Finset.mem_insert, Finset.mem_singleton] at h1
    rcases h1 with rfl | rfl | rfl <;>
      simp [Ne.symm vq, Ne.symm pq, Ne.symm xq, Ne.symm yq, Ne.symm zq] at this
  have hwpq : w = p ∨ w = q := by
    have hwc : c ∈ K.vertexCells u := mem_vertexCells.2 ⟨hc, hec hve⟩
    have hwm : w ∈ c := hec (Finset.mem_of_mem_erase hw)
    have hwu : w ≠ u := Finset.ne_of_mem_erase hw
    have hall : w = x ∨ w = y ∨ w = z ∨ w = p ∨ w = q := by
      rw [hst] at hwc
      simp only [Finset.mem_insert, Finset.mem_singleton] at hwc
      rcases hwc with rfl | rfl | rfl | rfl | rfl | rfl <;>
        simp only [Finset.mem_insert, Finset.mem_singleton] at hwm <;>
        rcases hwm with h | h | h | h <;>
        first | exact absurd h hwu | simp only [h, true_or, or_true]
    rcases hall with rfl | rfl | rfl | h | h
    · exact absurd tx.symm htw
    · exact absurd ty.symm htw
    · exact absurd tz.symm htw
    · exact Or.inl h
    · exact Or.inr h
  have fin : ∀ c ∈ K.vertexCells u, K.inf ∉ c := fun c hc => (hfin c hc).1
  have hres : (∀ d ∈ K.cells, ¬ (({x, y, z} : Finset V) ⊆ d)) ∧
      (K1.removeVertex u).cells = (K.cells \ K.vertexCells u) ∪ {{x, y, z, p}, {x, y, z, q}} ∧
      (K1.removeVertex u).inf = K.inf ∧ (K1.removeVertex u).time = K.time ∧
      (K1.removeVertex u).info = K.info := by
    rcases hwpq with rfl | rfl
    · exact remove_bipyramid vx vy vz vp vq (Ne.symm xp) (Ne.symm yp) (Ne.symm zp) hstm ep eq
        (fun d h1 h2 => hdis d h2 h1) hflip
    · have := remove_bipyramid vx vy vz vq vp (Ne.symm xq) (Ne.symm yq) (Ne.symm zq)
        (fun d => (hstm d).trans or_comm) eq ep (fun d h1 h2 => hdis d h1 h2) hflip
      rw [Finset.pair_comm ({x, y, z, w} : Finset V)] at this
      exact this
  obtain ⟨hfree, r1, r2, r3, r4⟩ := hres
  obtain ⟨hpl, hrep⟩ := placed62 inj hst hfree fin ⟨tx, ty, tz, tp, tq⟩
  refine ⟨_, _, hpl, ?_, r2, r3, ?_, rfl, rfl⟩
  · rw [hrep]; exact r1
  · intro c hc
    unfold relabel
    simp only [r2, r4]
    rw [if_pos hc]

end CDT

/-
(4,4): accepted edges have a quadrilateral link, and the execution exchanges the diagonal.
-/
import Verif.Lemmas.Site62

namespace CDT
open Spec Cavity Moves
variable {V G : Type} [LinearOrder V]

theorem pair_eq_cases {a b x y r s : V} (hr : r ≠ a) (hr' : r ≠ b) (hs : s ≠ a) (hs' : s ≠ b) (rs : r ≠ s)
    (xa : x ≠ a) (xb : x ≠ b) (ya : y ≠ a) (yb : y ≠ b)
    (h : ({a, b, r, s} : Finset V) = {a, b, x, y}) : (r = x ∧ s = y) ∨ (r = y ∧ s = x) := by
  have h1 : r ∈ ({a, b, x, y} : Finset V) := h ▸ by simp
  have h2 : s ∈ ({a, b, x, y} : Finset V) := h ▸ by simp
  simp only [Finset.mem_insert, Finset.mem_singleton, hr, hr', hs, hs', false_or] at h1 h2
  rcases h1 with rfl | rfl <;> rcases h2 with rfl | rfl <;> simp_all

/-- The link of an edge with four cells is a four-cycle. -/
theorem link4 {K : Tri V} (hK : Closed K.cells) {a b : V} (hab : a ≠ b)
    (h4 : (K.edgeCells a b).card = 4) :
    ∃ x y z u, [a, b, x, y, z, u].Nodup ∧
      K.edgeCells a b = {{a, b, x, y}, {a, b, y, z}, {a, b, z, u}, {a, b, u, x}} := by
  obtain ⟨c, hc⟩ := Finset.card_pos.1 (show 0 < (K.edgeCells a b).card by omega)
  obtain ⟨hcK, ha, hb⟩ := mem_edgeCells.1 hc
  obtain ⟨x, y, ax, ay, bx, by', xy, rfl⟩ := exists_four2 (hK.1 c hcK) ha hb hab
  have hcK' : {a, b, y, x} ∈ K.cells := by rw [Finset.pair_comm y x]; exact hcK
  obtain ⟨z, za, zb, zx, zy, hz, hyall⟩ := hK.turn hab ax ay bx by' xy hcK
  obtain ⟨u, ua, ub, uy, ux, hu, hxall⟩ := hK.turn hab ay ax by' bx xy.symm hcK'
  obtain ⟨k, ka, kb, ky, kz, hk, hzall⟩ := hK.turn hab ay za.symm by' zb.symm zy.symm hz
  obtain ⟨l, la, lb, lx, lu, hl, huall⟩ := hK.turn hab ax ua.symm bx ub.symm ux.symm hu
  have m : ∀ r s, {a, b, r, s} ∈ K.cells → {a, b, r, s} ∈ K.edgeCells a b := fun r s h =>
    mem_edgeCells.2 ⟨h, by simp, by simp⟩
  have n1 : ({a, b, x, y} : Finset V) ≠ {a, b, y, z} := by
    intro h
    have : z ∈ ({a, b, x, y} : Finset V) := h ▸ by simp
    simp [za, zb, zx, zy] at this
  have n2 : ({a, b, x, y} : Finset V) ≠ {a, b, x, u} := by
    intro h
    have : u ∈ ({a, b, x, y} : Finset V) := h ▸ by simp
    simp [ua, ub, ux, uy] at this
  have n3 : ({a, b, y, z} : Finset V) ≠ {a, b, x, u} := by
    intro h
    have : x ∈ ({a, b, y, z} : Finset V) := h ▸ by simp
    simp [ax.symm, bx.symm, xy, zx.symm] at this
  by_cases huz : u = z
  · -- a triangle exhausts the star of each of its vertices
    exfalso
    subst huz
    have hsub : ({{a, b, x, y}, {a, b, y, u}, {a, b, x, u}} : Finset (Finset V)) ⊆ K.edgeCells a b := by
      intro d hd
      simp only [Finset.mem_insert, Finset.mem_singleton] at hd
      rcases hd with rfl | rfl | rfl
      · exact m _ _ hcK
      · exact m _ _ hz
      · exact m _ _ hu
    have hcard : ({{a, b, x, y}, {a, b, y, u}, {a, b, x, u}} : Finset (Finset V)).card = 3 :=
      Finset.card_eq_three.2 ⟨_, _, _, n1, n2, n3, rfl⟩
    obtain ⟨d, hd, hdn⟩ := Finset.exists_mem_notMem_of_card_lt_card
      (show ({{a, b, x, y}, {a, b, y, u}, {a, b, x, u}} : Finset (Finset V)).card < (K.edgeCells a b).card
        by rw [hcard]; omega)
    obtain ⟨hdK, hda, hdb⟩ := mem_edgeCells.1 hd
    obtain ⟨r, s, ar, as, br, bs, rs, rfl⟩ := exists_four2 (hK.1 d hdK) hda hdb hab
    obtain ⟨w, wa, wb, wr, ws, hw, hsall⟩ := hK.turn hab ar as br bs rs hdK
    simp only [Finset.mem_insert, Finset.mem_singleton, not_or] at hdn
    -- `s` is none of the triangle's vertices
    have sx : s ≠ x := by
      rintro rfl
      rcases hxall _ hdK (by simp) (by simp) (by simp) with h | h
      · exact hdn.1 (by rw [h, Finset.pair_comm])
      · exact hdn.2.2 h
    have sy : s ≠ y := by
      rintro rfl
      rcases hyall _ hdK (by simp) (by simp) (by simp) with h | h
      · exact hdn.1 h
      · exact hdn.2.1 h
    have su : s ≠ u := by
      rintro rfl
      rcases hzall _ hdK (by simp) (by simp) (by simp) with h | h
      · exact hdn.2.1 h
      · rcases huall _ hu (by simp) (by simp) (by simp) with h' | h'
        all_goals
          rcases hzall _ hu (by simp) (by simp) (by simp) with h'' | h''
          · exact n3 h''.symm
          · exact hdn.2.2 (h.trans h''.symm)
    -- the next cell around would be a fifth one
    have hsub5 : ({{a, b, x, y}, {a, b, y, u}, {a, b, x, u}, {a, b, r, s}, {a, b, s, w}} :
        Finset (Finset V)) ⊆ K.edgeCells a b := by
      intro e he
      simp only [Finset.mem_insert, Finset.mem_singleton] at he
      rcases he with rfl | rfl | rfl | rfl | rfl
      · exact m _ _ hcK
      · exact m _ _ hz
      · exact m _ _ hu
      · exact m _ _ hdK
      · exact m _ _ hw
    have no : ∀ p q : V, s ≠ p → s ≠ q → ({a, b, p, q} : Finset V) ≠ {a, b, s, w} := by
      intro p q sp sq h
      have : s ∈ ({a, b, p, q} : Finset V) := h ▸ by simp
      simp [as.symm, bs.symm, sp, sq] at this
    have nlast : ({a, b, r, s} : Finset V) ≠ {a, b, s, w} := by
      intro h
      have : w ∈ ({a, b, r, s} : Finset V) := h ▸ by simp
      simp [wa, wb, wr, ws] at this
    have h5 : ({{a, b, x, y}, {a, b, y, u}, {a, b, x, u}, {a, b, r, s}, {a, b, s, w}} :
        Finset (Finset V)).card = 5 := by
      rw [Finset.card_insert_of_notMem (by
          simp only [Finset.mem_insert, Finset.mem_singleton, not_or]
          exact ⟨n1, n2, Ne.symm hdn.1, no x y sx sy⟩),
        Finset.card_insert_of_notMem (by
          simp only [Finset.mem_insert, Finset.mem_singleton, not_or]
          exact ⟨n3, Ne.symm hdn.2.1, no y u sy su⟩),
        Finset.card_insert_of_notMem (by
          simp only [Finset.mem_insert, Finset.mem_singleton, not_or]
          exact ⟨Ne.symm hdn.2.2, no x u sx su⟩),
        Finset.card_insert_of_notMem (by simp only [Finset.mem_singleton]; exact nlast),
        Finset.card_singleton]
    have := Finset.card_le_card hsub5
    omega
  · have n4 : ({a, b, x, y} : Finset V) ≠ {a, b, z, k} := by
      intro h
      have : z ∈ ({a, b, x, y} : Finset V) := h ▸ by simp
      simp [za, zb, zx, zy] at this
    have n5 : ({a, b, y, z} : Finset V) ≠ {a, b, z, k} := by
      intro h
      have : k ∈ ({a, b, y, z} : Finset V) := h ▸ by simp
      simp [ka, kb, ky, kz] at this
    have n6 : ({a, b, x, u} : Finset V) ≠ {a, b, z, k} := by
      intro h
      have : z ∈ ({a, b, x, u} : Finset V) := h ▸ by simp
      simp [za, zb, zx, Ne.symm huz] at this
    have hsub : ({{a, b, x, y}, {a, b, y, z}, {a, b, x, u}, {a, b, z, k}} : Finset (Finset V))
        ⊆ K.edgeCells a b := by
      intro d hd
      simp only [Finset.mem_insert, Finset.mem_singleton] at hd
      rcases hd with rfl | rfl | rfl | rfl
      · exact m _ _ hcK
      · exact m _ _ hz
      · exact m _ _ hu
      · exact m _ _ hk
    have hcard : ({{a, b, x, y}, {a, b, y, z}, {a, b, x, u}, {a, b, z, k}} : Finset (Finset V)).card = 4 := by
      rw [Finset.card_insert_of_notMem (by
          simp only [Finset.mem_insert, Finset.mem_singleton, not_or]; exact ⟨n1, n2, n4⟩),
        Finset.card_insert_of_notMem (by
          simp only [Finset.mem_insert, Finset.mem_singleton, not_or]; exact ⟨n3, n5⟩),
        Finset.card_insert_of_notMem (by simp only [Finset.mem_singleton]; exact n6),
        Finset.card_singleton]
    have heq := Finset.eq_of_subset_of_card_le hsub (by rw [hcard, h4])
    have hl' := m _ _ hl
    rw [← heq] at hl'
    simp only [Finset.mem_insert, Finset.mem_singleton] at hl'
    have hku : k = u := by
      rcases hl' with h | h | h | h
      · have : u ∈ ({a, b, x, y} : Finset V) := h ▸ by simp
        simp [ua, ub, ux, uy] at this
      · have : u ∈ ({a, b, y, z} : Finset V) := h ▸ by simp
        simp [ua, ub, uy, huz] at this
      · have : l ∈ ({a, b, x, u} : Finset V) := h ▸ by simp
        simp [la, lb, lx, lu] at this
      · have : u ∈ ({a, b, z, k} : Finset V) := h ▸ by simp
        simp [ua, ub, huz] at this
        exact this.symm
    subst hku
    refine ⟨x, y, z, k, ?_, ?_⟩
    · simp only [List.nodup_cons, List.mem_cons, List.not_mem_nil, or_false, not_or, not_false_eq_true,
        List.nodup_nil, and_true]
      exact ⟨⟨hab, ax, ay, za.symm, ua.symm⟩, ⟨bx, by', zb.symm, ub.symm⟩, ⟨xy, zx.symm, ux.symm⟩,
        ⟨zy.symm, uy.symm⟩, kz.symm⟩
    · rw [← heq, Finset.pair_comm k x]
      ext d
      simp only [Finset.mem_insert, Finset.mem_singleton]
      constructor <;> (rintro (h | h | h | h) <;> simp only [h, true_or, or_true])


/-- What `find_bistellar_flip_location` establishes. -/
theorem findBistellar_ok {K : Tri V} {a b : V} {cs : Finset (Finset V)}
    (h : findBistellarFlipLocation K a b = some cs) :
    cs = K.edgeCells a b ∧ a ≠ b ∧ (K.edgeCells a b).card = 4 ∧ K.time a = K.time b ∧
    (∀ c ∈ K.edgeCells a b, K.inf ∉ c) ∧
    correctTypeCount K (K.edgeCells a b) .threeOne = 2 ∧
    correctTypeCount K (K.edgeCells a b) .oneThree = 2 := by
  unfold findBistellarFlipLocation at h
  split at h
  · simp at h
  · rename_i cs' hcs
    unfold finiteIncidentCells at hcs
    split at hcs
    · simp at hcs
    · rename_i hedge
      split at hcs
      · simp at hcs
      · rename_i hinf
        simp only [Option.some.injEq] at hcs
        subst hcs
        simp only [not_exists, not_and] at hinf
        simp only [Tri.isEdge, Bool.not_eq_true', decide_eq_false_iff_not, not_not] at hedge
        split at h
        · simp at h
        · split at h
          · simp at h
          · split at h
            · rename_i h1 h2 h3
              simp only [Option.some.injEq] at h
              exact ⟨h.symm, hedge.1, by simpa using h1, by simpa using h2, hinf, h3⟩
            · simp at h

theorem times_44_31 {a b x y : ℤ} (hab : a = b) (h : Quad 1 a b x y) :
    (x = a ∧ y = a + 1) ∨ (x = a + 1 ∧ y = a) := by
  obtain ⟨t, g1, g2, g3, g4, g5⟩ := h
  omega

theorem times_44_13 {a b x y : ℤ} (hab : a = b) (h : Quad 3 a b x y) :
    (x = a ∧ y = a + -1) ∨ (x = a + -1 ∧ y = a) := by
  obtain ⟨t, g1, g2, g3, g4, g5⟩ := h
  omega

/-- The accepted (4,4) configuration: a spatial quadrilateral `a x b z` with one vertex above
and one below. -/
theorem shape44 {K : Tri V} (hK : Closed K.cells) {a b : V} {cs : Finset (Finset V)}
    (h : findBistellarFlipLocation K a b = some cs) :
    ∃ x z p q, [a, b, x, z, p, q].Nodup ∧ K.time b = K.time a ∧ K.time x = K.time a ∧
      K.time z = K.time a ∧ K.time p = K.time a + 1 ∧ K.time q = K.time a + -1 ∧
      K.edgeCells a b = {{a, b, x, p}, {a, b, z, p}, {a, b, x, q}, {a, b, z, q}} := by
  obtain ⟨rfl, hab, h4, tab, hfin, h31, h13⟩ := findBistellar_ok h
  obtain ⟨x, y, z, u, hnd, e⟩ := link4 hK hab h4
  simp only [List.nodup_cons, List.mem_cons, List.not_mem_nil, or_false, not_or, not_false_eq_true,
    List.nodup_nil, and_true] at hnd
  obtain ⟨⟨_, ax, ay, az, au⟩, ⟨bx, by', bz, bu⟩, ⟨xy, xz, xu⟩, ⟨yz, yu⟩, zu⟩ := hnd
  -- every cell has one of the two types
  have hty : ∀ c ∈ K.edgeCells a b, K.expectedType c = .threeOne ∨ K.expectedType c = .oneThree := by
    unfold correctTypeCount at h31 h13
    have hsub : (K.edgeCells a b).filter (fun c => K.typeCorrect c = true ∧ K.expectedType c = .threeOne) ∪
        (K.edgeCells a b).filter (fun c => K.typeCorrect c = true ∧ K.expectedType c = .oneThree)
        = K.edgeCells a b := by
      apply Finset.eq_of_subset_of_card_le
      · exact Finset.union_subset (Finset.filter_subset _ _) (Finset.filter_subset _ _)
      · rw [Finset.card_union_of_disjoint]
        · omega
        · rw [Finset.disjoint_left]
          intro c h1 h2
          rw [Finset.mem_filter] at h1 h2
          rw [h1.2.2] at h2
          simp at h2
    intro c hc
    rw [← hsub, Finset.mem_union, Finset.mem_filter, Finset.mem_filter] at hc
    tauto
  have hq : ∀ r s, a ≠ r → a ≠ s → b ≠ r → b ≠ s → r ≠ s → {a, b, r, s} ∈ K.edgeCells a b →
      (K.expectedType {a, b, r, s} = .threeOne ∧ ((K.time r = K.time a ∧ K.time s = K.time a + 1) ∨
        (K.time r = K.time a + 1 ∧ K.time s = K.time a))) ∨
      (K.expectedType {a, b, r, s} = .oneThree ∧ ((K.time r = K.time a ∧ K.time s = K.time a + -1) ∨
        (K.time r = K.time a + -1 ∧ K.time s = K.time a))) := by
    intro r s ar as br bs rs hc
    have hc4 := hK.1 _ (mem_edgeCells.1 hc).1
    rcases hty _ hc with h | h
    · left
      exact ⟨h, times_44_31 tab ((hasType_quad (i := 3) (j := 1) K.time (by omega) (by omega) hab ar as br bs rs).1
        ((expectedType_threeOne hc4).1 h))⟩
    · right
      exact ⟨h, times_44_13 tab ((hasType_quad (i := 1) (j := 3) K.time (by omega) (by omega) hab ar as br bs rs).1
        ((expectedType_oneThree hc4).1 h))⟩
  have c1 := hq x y ax ay bx by' xy (by rw [e]; simp)
  have c2 := hq y z ay az by' bz yz (by rw [e]; simp)
  have c3 := hq z u az au bz bu zu (by rw [e]; simp)
  have c4 := hq u x au ax bu bx (Ne.symm xu) (by rw [e]; simp)
  -- not all four cells have the same type
  have not31 : ¬ ∀ c ∈ K.edgeCells a b, K.expectedType c = .threeOne := by
    intro hall
    have : correctTypeCount K (K.edgeCells a b) .oneThree = 0 := by
      unfold correctTypeCount
      rw [Finset.card_eq_zero, Finset.filter_eq_empty_iff]
      intro c hc h
      rw [hall c hc] at h
      simp at h
    omega
  have not13 : ¬ ∀ c ∈ K.edgeCells a b, K.expectedType c = .oneThree := by
    intro hall
    have : correctTypeCount K (K.edgeCells a b) .threeOne = 0 := by
      unfold correctTypeCount
      rw [Finset.card_eq_zero, Finset.filter_eq_empty_iff]
      intro c hc h
      rw [hall c hc] at h
      simp at h
    omega
  have all4 : ∀ ct, K.expectedType {a, b, x, y} = ct → K.expectedType {a, b, y, z} = ct →
      K.expectedType {a, b, z, u} = ct → K.expectedType {a, b, u, x} = ct →
      ∀ c ∈ K.edgeCells a b, K.expectedType c = ct := by
    intro ct h1 h2 h3 h4 c hc
    rw [e] at hc
    simp only [Finset.mem_insert, Finset.mem_singleton] at hc
    rcases hc with rfl | rfl | rfl | rfl <;> assumption
  by_cases tx : K.time x = K.time a
  · -- `x` and `z` on the slice
    have tz : K.time z = K.time a := by omega
    have hyu : (K.time y = K.time a + 1 ∧ K.time u = K.time a + -1) ∨
        (K.time y = K.time a + -1 ∧ K.time u = K.time a + 1) := by
      rcases c1 with ⟨k1, d1⟩ | ⟨k1, d1⟩ <;> rcases c2 with ⟨k2, d2⟩ | ⟨k2, d2⟩ <;>
        rcases c3 with ⟨k3, d3⟩ | ⟨k3, d3⟩ <;> rcases c4 with ⟨k4, d4⟩ | ⟨k4, d4⟩ <;>
        first
          | exact absurd (all4 _ k1 k2 k3 k4) not31
          | exact absurd (all4 _ k1 k2 k3 k4) not13
          | omega
    rcases hyu with ⟨ty, tu⟩ | ⟨ty, tu⟩
    · refine ⟨x, z, y, u, ?_, tab.symm, tx, tz, ty, tu, ?_⟩
      · simp only [List.nodup_cons, List.mem_cons, List.not_mem_nil, or_false, not_or, not_false_eq_true,
          List.nodup_nil, and_true]
        exact ⟨⟨hab, ax, az, ay, au⟩, ⟨bx, bz, by', bu⟩, ⟨xz, xy, xu⟩, ⟨Ne.symm yz, zu⟩, yu⟩
      · rw [e, Finset.pair_comm y z, Finset.pair_comm u x]
        ext d
        simp only [Finset.mem_insert, Finset.mem_singleton]
        constructor <;> (rintro (h | h | h | h) <;> simp only [h, true_or, or_true])
    · refine ⟨x, z, u, y, ?_, tab.symm, tx, tz, tu, ty, ?_⟩
      · simp only [List.nodup_cons, List.mem_cons, List.not_mem_nil, or_false, not_or, not_false_eq_true,
          List.nodup_nil, and_true]
        exact ⟨⟨hab, ax, az, au, ay⟩, ⟨bx, bz, bu, by'⟩, ⟨xz, xu, xy⟩, ⟨zu, Ne.symm yz⟩, Ne.symm yu⟩
      · rw [e, Finset.pair_comm y z, Finset.pair_comm u x]
        ext d
        simp only [Finset.mem_insert, Finset.mem_singleton]
        constructor <;> (rintro (h | h | h | h) <;> simp only [h, true_or, or_true])
  · have ty : K.time y = K.time a := by omega
    have tu : K.time u = K.time a := by omega
    have hxz : (K.time x = K.time a + 1 ∧ K.time z = K.time a + -1) ∨
        (K.time x = K.time a + -1 ∧ K.time z = K.time a + 1) := by
      rcases c1 with ⟨k1, d1⟩ | ⟨k1, d1⟩ <;> rcases c2 with ⟨k2, d2⟩ | ⟨k2, d2⟩ <;>
        rcases c3 with ⟨k3, d3⟩ | ⟨k3, d3⟩ <;> rcases c4 with ⟨k4, d4⟩ | ⟨k4, d4⟩ <;>
        first
          | exact absurd (all4 _ k1 k2 k3 k4) not31
          | exact absurd (all4 _ k1 k2 k3 k4) not13
          | omega
    rcases hxz with ⟨tx, tz⟩ | ⟨tx, tz⟩
    · refine ⟨y, u, x, z, ?_, tab.symm, ty, tu, tx, tz, ?_⟩
      · simp only [List.nodup_cons, List.mem_cons, List.not_mem_nil, or_false, not_or, not_false_eq_true,
          List.nodup_nil, and_true]
        exact ⟨⟨hab, ay, au, ax, az⟩, ⟨by', bu, bx, bz⟩, ⟨yu, Ne.symm xy, yz⟩, ⟨Ne.symm xu, Ne.symm zu⟩, xz⟩
      · rw [e, Finset.pair_comm x y, Finset.pair_comm z u]
        ext d
        simp only [Finset.mem_insert, Finset.mem_singleton]
        constructor <;> (rintro (h | h | h | h) <;> simp only [h, true_or, or_true])
    · refine ⟨y, u, z, x, ?_, tab.symm, ty, tu, tz, tx, ?_⟩
      · simp only [List.nodup_cons, List.mem_cons, List.not_mem_nil, or_false, not_or, not_false_eq_true,
          List.nodup_nil, and_true]
        exact ⟨⟨hab, ay, au, az, ax⟩, ⟨by', bu, bz, bx⟩, ⟨yu, yz, Ne.symm xy⟩, ⟨Ne.symm zu, Ne.symm xu⟩,
          Ne.symm xz⟩
      · rw [e, Finset.pair_comm x y, Finset.pair_comm z u]
        ext d
        simp only [Finset.mem_insert, Finset.mem_singleton]
        constructor <;> (rintro (h | h | h | h) <;> simp only [h, true_or, or_true])


theorem vertexPrecedes_le {K : Tri V} {l r : V} (h : vertexPrecedes K l r = true) : K.time l ≤ K.time r := by
  unfold vertexPrecedes at h
  split at h
  · simp at h; omega
  · omega

theorem le_of_not_vertexPrecedes {K : Tri V} {l r : V} (h : ¬ vertexPrecedes K l r = true) :
    K.time r ≤ K.time l := by
  unfold vertexPrecedes at h
  split at h
  · simp at h; omega
  · omega

theorem topOf_fold {K : Tri V} (l : List V) (t0 : V) :
    ∃ t, l.foldl (fun acc v => match acc with
      | none => some v
      | some t => if vertexPrecedes K t v then some v else some t) (some t0) = some t ∧
      (t = t0 ∨ t ∈ l) ∧ K.time t0 ≤ K.time t ∧ ∀ v ∈ l, K.time v ≤ K.time t := by
  induction l generalizing t0 with
  | nil => exact ⟨t0, rfl, Or.inl rfl, le_refl _, by simp⟩
  | cons w ws ih =>
    simp only [List.foldl_cons]
    split
    · rename_i hp
      obtain ⟨t, h1, h2, h3, h4⟩ := ih w
      have := vertexPrecedes_le hp
      refine ⟨t, h1, ?_, le_trans this h3, ?_⟩
      · rcases h2 with rfl | h2
        · right; simp
        · right; exact List.mem_cons_of_mem _ h2
      · intro v hv
        rcases List.mem_cons.1 hv with rfl | hv
        · exact h3
        · exact h4 v hv
    · rename_i hp
      obtain ⟨t, h1, h2, h3, h4⟩ := ih t0
      have := le_of_not_vertexPrecedes hp
      refine ⟨t, h1, ?_, h3, ?_⟩
      · rcases h2 with rfl | h2
        · left; rfl
        · right; exact List.mem_cons_of_mem _ h2
      · intro v hv
        rcases List.mem_cons.1 hv with rfl | hv
        · exact le_trans this h3
        · exact h4 v hv

theorem bottomOf_fold {K : Tri V} (l : List V) (t0 : V) :
    ∃ t, l.foldl (fun acc v => match acc with
      | none => some v
      | some t => if vertexPrecedes K v t then some v else some t) (some t0) = some t ∧
      (t = t0 ∨ t ∈ l) ∧ K.time t ≤ K.time t0 ∧ ∀ v ∈ l, K.time t ≤ K.time v := by
  induction l generalizing t0 with
  | nil => exact ⟨t0, rfl, Or.inl rfl, le_refl _, by simp⟩
  | cons w ws ih =>
    simp only [List.foldl_cons]
    split
    · rename_i hp
      obtain ⟨t, h1, h2, h3, h4⟩ := ih w
      have := vertexPrecedes_le hp
      refine ⟨t, h1, ?_, le_trans h3 this, ?_⟩
      · rcases h2 with rfl | h2
        · right; simp
        · right; exact List.mem_cons_of_mem _ h2
      · intro v hv
        rcases List.mem_cons.1 hv with rfl | hv
        · exact h3
        · exact h4 v hv
    · rename_i hp
      obtain ⟨t, h1, h2, h3, h4⟩ := ih t0
      have := le_of_not_vertexPrecedes hp
      refine ⟨t, h1, ?_, h3, ?_⟩
      · rcases h2 with rfl | h2
        · left; rfl
        · right; exact List.mem_cons_of_mem _ h2
      · intro v hv
        rcases List.mem_cons.1 hv with rfl | hv
        · exact le_trans h3 this
        · exact h4 v hv

/-- The vertex of strictly largest time is `topOf`. -/
theorem topOf_eq {K : Tri V} {l : List V} {p : V} (hp : p ∈ l)
    (h : ∀ v ∈ l, v ≠ p → K.time v < K.time p) : topOf K l = some p := by
  unfold topOf
  cases l with
  | nil => simp at hp
  | cons w ws =>
    simp only [List.foldl_cons]
    obtain ⟨t, h1, h2, h3, h4⟩ := topOf_fold (K := K) ws w
    refine h1.trans ?_
    congr 1
    by_contra hne
    have ht : t ∈ w :: ws := by
      rcases h2 with rfl | h2
      · simp
      · exact List.mem_cons_of_mem _ h2
    have := h t ht hne
    rcases List.mem_cons.1 hp with rfl | hp
    · omega
    · have := h4 p hp; omega

theorem bottomOf_eq {K : Tri V} {l : List V} {p : V} (hp : p ∈ l)
    (h : ∀ v ∈ l, v ≠ p → K.time p < K.time v) : bottomOf K l = some p := by
  unfold bottomOf
  cases l with
  | nil => simp at hp
  | cons w ws =>
    simp only [List.foldl_cons]
    obtain ⟨t, h1, h2, h3, h4⟩ := bottomOf_fold (K := K) ws w
    refine h1.trans ?_
    congr 1
    by_contra hne
    have ht : t ∈ w :: ws := by
      rcases h2 with rfl | h2
      · simp
      · exact List.mem_cons_of_mem _ h2
    have := h t ht hne
    rcases List.mem_cons.1 hp with rfl | hp
    · omega
    · have := h4 p hp; omega

theorem link_of_four {K : Tri V} {a b x z p q : V} (ax : a ≠ x) (az : a ≠ z) (ap : a ≠ p) (aq : a ≠ q)
    (bx : b ≠ x) (bz : b ≠ z) (bp : b ≠ p) (bq : b ≠ q)
    (e : K.edgeCells a b = {{a, b, x, p}, {a, b, z, p}, {a, b, x, q}, {a, b, z, q}}) :
    (((K.edgeCells a b).biUnion id).erase a).erase b = {x, z, p, q} := by
  rw [e]
  ext u
  simp only [Finset.mem_erase, Finset.mem_biUnion, Finset.mem_insert, Finset.mem_singleton, id]
  constructor
  · rintro ⟨h1, h2, d, rfl | rfl | rfl | rfl, hd⟩ <;> simp at hd <;> tauto
  · rintro (rfl | rfl | rfl | rfl)
    · exact ⟨bx.symm, ax.symm, _, Or.inl rfl, by simp⟩
    · exact ⟨bz.symm, az.symm, _, Or.inr (Or.inl rfl), by simp⟩
    · exact ⟨bp.symm, ap.symm, _, Or.inl rfl, by simp⟩
    · exact ⟨bq.symm, aq.symm, _, Or.inr (Or.inr (Or.inl rfl)), by simp⟩

/-- What an accepted (4,4) site is, with the apexes chosen by the code. -/
theorem prepareFourFour_ok {K : Tri V} (hK : Closed K.cells) {a b : V} {m : FourFour V}
    (h : prepareFourFour K a b = .ok m) :
    m.a = a ∧ m.b = b ∧ (∀ c ∈ K.edgeCells a b, K.inf ∉ c) ∧
    ∃ x z, [a, b, x, z, m.top, m.bottom].Nodup ∧ K.time b = K.time a ∧ K.time x = K.time a ∧
      K.time z = K.time a ∧ K.time m.top = K.time a + 1 ∧ K.time m.bottom = K.time a + -1 ∧
      K.edgeCells a b = {{a, b, x, m.top}, {a, b, z, m.top}, {a, b, x, m.bottom}, {a, b, z, m.bottom}} := by
  unfold prepareFourFour at h
  split at h
  · simp at h
  · split at h
    · simp at h
    · rename_i cs hcs
      obtain ⟨x, z, p, q, hnd, tb, tx, tz, tp, tq, e⟩ := shape44 hK hcs
      obtain ⟨rfl, hab, h4, tab, hfin, h31, h13⟩ := findBistellar_ok hcs
      have hnd' := hnd
      simp only [List.nodup_cons, List.mem_cons, List.not_mem_nil, or_false, not_or, not_false_eq_true,
        List.nodup_nil, and_true] at hnd'
      obtain ⟨⟨_, ax, az, ap, aq⟩, ⟨bx, bz, bp, bq⟩, ⟨xz, xp, xq⟩, ⟨zp, zq⟩, pq⟩ := hnd'
      rw [link_of_four ax az ap aq bx bz bp bq e] at h
      have ht : topOf K (canonicalPoints {x, z, p, q}) = some p := by
        apply topOf_eq
        · rw [mem_canonicalPoints]; simp
        · intro v hv hne
          rw [mem_canonicalPoints] at hv
          simp only [Finset.mem_insert, Finset.mem_singleton] at hv
          rcases hv with rfl | rfl | rfl | rfl
          · omega
          · omega
          · exact absurd rfl hne
          · omega
      have hb : bottomOf K (canonicalPoints {x, z, p, q}) = some q := by
        apply bottomOf_eq
        · rw [mem_canonicalPoints]; simp
        · intro v hv hne
          rw [mem_canonicalPoints] at hv
          simp only [Finset.mem_insert, Finset.mem_singleton] at hv
          rcases hv with rfl | rfl | rfl | rfl
          · omega
          · omega
          · omega
          · exact absurd rfl hne
      simp only [ht, hb] at h
      split at h
      · simp at h
      · split at h
        · simp at h
        · simp only [Except.ok.injEq] at h
          subst h
          exact ⟨rfl, rfl, hfin, x, z, hnd, tb, tx, tz, tp, tq, e⟩

end CDT

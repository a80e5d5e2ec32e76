/-
C27-C30: the site tests of the move code accept exactly the sites of the elementary moves.
-/
import Verif.Lemmas.Sites
import Verif.Fixture.Complexes

namespace CDT.Props
open Spec Moves

variable {V G : Type} [LinearOrder V] {env : Env V G}

/-! ### C27: (6,2) -/

/-- C27: `prepare_six_two` accepts a vertex exactly when its star is three (3,1) tetrahedra over
and three (1,3) tetrahedra under a slice triangle, all finite. -/
theorem C27_accepts_iff_site {K : Tri V} (hK : Sound env K) (v : V) :
    prepareSixTwo K v = .ok v ↔ ∃ x y z u d, Site62 K.inf K.time K.cells x y z u d v := by
  rw [prepareSixTwo_iff hK]; simp

/-- C27: whatever `prepare_six_two` returns is the vertex it was given. -/
theorem C27_returns_site {K : Tri V} (hK : Sound env K) {v w : V} (h : prepareSixTwo K v = .ok w) : w = v :=
  ((prepareSixTwo_iff hK).1 h).1

/-- C27: removing the vertex of such a site leaves one (3,1) and one (1,3) tetrahedron. -/
theorem C27_removal_types {inf : V} {time : V → ℤ} {K : Finset (Finset V)} {x y z u d m : V}
    (h : Site62 inf time K x y z u d m) :
    HasType time 3 1 {x, y, z, u} ∧ HasType time 1 3 {x, y, z, d} :=
  ⟨(site62_types h).2.2.2.2.2.2.1, (site62_types h).2.2.2.2.2.2.2⟩

/-- C27: sufficiency from the cell counts alone, in any closed complex, whatever the labels say:
six tetrahedra at `v`, three of type (3,1) and three of type (1,3), force the star above; in
particular the degree of `v` is five. -/
theorem C27_counts_suffice {K : Tri V} (hK : Closed K.cells) {v : V}
    (h6 : (cellsAt K.cells {v}).card = 6)
    (h31 : ((cellsAt K.cells {v}).filter (HasType K.time 3 1)).card = 3)
    (h13 : ((cellsAt K.cells {v}).filter (HasType K.time 1 3)).card = 3) :
    ∃ x y z u d, [x, y, z, u, d, v].Nodup ∧ cellsAt K.cells {v} = sixAround x y z u d v ∧
      K.time x = K.time v ∧ K.time y = K.time v ∧ K.time z = K.time v ∧
      K.time u = K.time v + 1 ∧ K.time d = K.time v - 1 ∧ K.degree v = 5 := by
  rw [cellsAt_one] at h6 h31 h13
  have conv : ∀ c ∈ K.vertexCells v, c.card = 4 := fun c hc => hK.1 c (mem_vertexCells.1 hc).1
  have g31 : typeCount K (K.vertexCells v) .threeOne = 3 := by
    rw [← h31]; unfold typeCount; congr 1
    exact Finset.filter_congr fun c hc => expectedType_threeOne (conv c hc)
  have g13 : typeCount K (K.vertexCells v) .oneThree = 3 := by
    rw [← h13]; unfold typeCount; congr 1
    exact Finset.filter_congr fun c hc => expectedType_oneThree (conv c hc)
  obtain ⟨x, y, z, p, q, hn, tx, ty, tz, tp, tq, e, e1, e2⟩ := star62 hK h6 g31 g13
  have hn' : [x, y, z, p, q, v].Nodup := by
    simp only [List.nodup_cons, List.mem_cons, List.not_mem_nil, or_false, not_or, not_false_eq_true,
      List.nodup_nil, and_true] at hn ⊢
    obtain ⟨⟨a1, a2, a3, a4, a5⟩, ⟨b1, b2, b3, b4⟩, ⟨c1, c2, c3⟩, ⟨d1, d2⟩, f1⟩ := hn
    exact ⟨⟨b1, b2, b3, b4, Ne.symm a1⟩, ⟨c1, c2, c3, Ne.symm a2⟩, ⟨d1, d2, Ne.symm a3⟩, ⟨f1, Ne.symm a4⟩,
      Ne.symm a5⟩
  have hs : cellsAt K.cells {v} = sixAround x y z p q v := by
    rw [cellsAt_one, e, sixAround]
    have r : ∀ a b c : V, ({v, a, b, c} : Finset V) = {a, b, v, c} := by intro a b c; ext; simp; tauto
    simp only [r]
  exact ⟨x, y, z, p, q, hn', hs, tx, ty, tz, tp, by omega, degree_of_six hn' hs⟩

example : prepareSixTwo Fixture.k62 62 = .ok 62 :=
  (C27_accepts_iff_site Fixture.sound62 62).2
    ⟨12, 22, 32, 43, 51, by decide, by decide +kernel, by decide +kernel, by decide +kernel, by decide +kernel,
      by decide +kernel⟩

example : ∃ x y z u d, [x, y, z, u, d, 62].Nodup ∧ cellsAt Fixture.k62.cells {62} = sixAround x y z u d 62 ∧
    Fixture.k62.degree 62 = 5 := by
  obtain ⟨x, y, z, u, d, h1, h2, -, -, -, -, -, h3⟩ := C27_counts_suffice Fixture.sound62.closed (v := 62)
    (by decide +kernel) (by decide +kernel) (by decide +kernel)
  exact ⟨x, y, z, u, d, h1, h2, h3⟩

/-! ### C28: (4,4) -/

/-- C28: `prepare_four_four` accepts an edge exactly when it is the diagonal of a (4,4) site, and
then it returns the apex above and the apex below. -/
theorem C28_accepts_iff_site {K : Tri V} (hK : Sound env K) (a b : V) (m : FourFour V) :
    prepareFourFour K a b = .ok m ↔
      ∃ x y u d, m = ⟨a, b, u, d⟩ ∧ Site44 K.inf K.time K.cells a b x y u d :=
  prepareFourFour_iff hK

/-- C28: at such a site the four tetrahedra are two (3,1) and two (1,3), and the exchange for the
other diagonal again gives two (3,1) and two (1,3) tetrahedra. -/
theorem C28_exchange_types {inf : V} {time : V → ℤ} {K : Finset (Finset V)} {a b x y u d : V}
    (h : Site44 inf time K a b x y u d) :
    (HasType time 3 1 {a, b, x, u} ∧ HasType time 3 1 {a, b, y, u} ∧
      HasType time 1 3 {a, b, x, d} ∧ HasType time 1 3 {a, b, y, d}) ∧
    (HasType time 3 1 {x, y, a, u} ∧ HasType time 3 1 {x, y, b, u} ∧
      HasType time 1 3 {x, y, a, d} ∧ HasType time 1 3 {x, y, b, d}) := by
  refine ⟨site44_types h, ?_⟩
  have hn := h.distinct
  simp only [List.nodup_cons, List.mem_cons, List.not_mem_nil, or_false, not_or, not_false_eq_true,
    List.nodup_nil, and_true] at hn
  obtain ⟨⟨ab, ax, ay, au, ad⟩, ⟨bx, bz, bu, bd⟩, ⟨xy, xu, xd⟩, ⟨yu, yd⟩, ud⟩ := hn
  obtain ⟨s1, s2, s3⟩ := h.slice
  have u' := h.above; have d' := h.below
  refine ⟨?_, ?_, ?_, ?_⟩
  · rw [hasType_quad (i := 3) (j := 1) _ (by omega) (by omega) xy (Ne.symm ax) xu (Ne.symm ay) yu au]
    exact ⟨time a, .inl s2, .inl s3, .inl rfl, .inr u', by push_cast; omega⟩
  · rw [hasType_quad (i := 3) (j := 1) _ (by omega) (by omega) xy (Ne.symm bx) xu (Ne.symm bz) yu bu]
    exact ⟨time a, .inl s2, .inl s3, .inl s1, .inr u', by push_cast; omega⟩
  · rw [hasType_quad (i := 1) (j := 3) _ (by omega) (by omega) xy (Ne.symm ax) xd (Ne.symm ay) yd ad]
    exact ⟨time a - 1, .inr (by omega), .inr (by omega), .inr (by omega), .inl d', by push_cast; omega⟩
  · rw [hasType_quad (i := 1) (j := 3) _ (by omega) (by omega) xy (Ne.symm bx) xd (Ne.symm bz) yd bd]
    exact ⟨time a - 1, .inr (by omega), .inr (by omega), .inr (by omega), .inl d', by push_cast; omega⟩

example : prepareFourFour Fixture.k44 12 22 = .ok ⟨12, 22, 53, 61⟩ :=
  (C28_accepts_iff_site Fixture.sound44 12 22 _).2
    ⟨32, 42, 53, 61, rfl, by decide, by decide +kernel, by decide +kernel, by decide +kernel, by decide +kernel,
      by decide +kernel⟩

/-! ### C29: (3,2) and (2,3) -/

/-- C29: `prepare_three_two` accepts an edge exactly when its star is a (3,2) site. -/
theorem C29_three_two_accepts_iff_site {K : Tri V} (hK : Sound env K) (a b : V) (m : V × V) :
    prepareThreeTwo K a b = .ok m ↔ m = (a, b) ∧ ∃ x y z, Site32 K.inf K.time K.cells a b x y z :=
  prepareThreeTwo_iff hK

/-- C29: at a (3,2) site the edge is timelike, and flipping gives a (2,2) tetrahedron and a
tetrahedron of the same pure type. -/
theorem C29_three_two_types {inf : V} {time : V → ℤ} {K : Finset (Finset V)} {p q x y z : V}
    (h : Site32 inf time K p q x y z) :
    ¬ Spacelike time {p, q} ∧ ∃ r s, ({r, s} : Finset V) = {p, q} ∧ HasType time 2 2 {r, x, y, z} ∧
      ((HasType time 3 1 {p, q, x, y} ∧ HasType time 3 1 {s, x, y, z}) ∨
        (HasType time 1 3 {p, q, x, y} ∧ HasType time 1 3 {s, x, y, z})) := by
  have ht := time_of_site32 h
  have hn := h.distinct
  simp only [List.nodup_cons, List.mem_cons, List.not_mem_nil, or_false, not_or, not_false_eq_true,
    List.nodup_nil, and_true] at hn
  obtain ⟨⟨pq, px, py, pz⟩, ⟨qx, qy, qz⟩, ⟨xy, xz⟩, yz⟩ := hn
  refine ⟨?_, ?_⟩
  · intro hs
    have := hs p (by simp) q (by simp)
    rcases ht with ⟨t, _, _, _, h | h⟩ | ⟨t, _, _, _, h | h⟩ <;> omega
  rcases ht with ⟨t, tx, ty, tz, ⟨tp, tq⟩ | ⟨tp, tq⟩⟩ | ⟨t, tx, ty, tz, ⟨tp, tq⟩ | ⟨tp, tq⟩⟩
  · refine ⟨p, q, rfl, ?_, .inl ⟨?_, ?_⟩⟩
    · rw [hasType_quad (i := 2) (j := 2) _ (by omega) (by omega) px py pz xy xz yz]
      exact ⟨t, .inr tp, .inl tx, .inl ty, .inr tz, by push_cast; omega⟩
    · rw [hasType_quad (i := 3) (j := 1) _ (by omega) (by omega) pq px py qx qy xy]
      exact ⟨t, .inr tp, .inl tq, .inl tx, .inl ty, by push_cast; omega⟩
    · rw [hasType_quad (i := 3) (j := 1) _ (by omega) (by omega) qx qy qz xy xz yz]
      exact ⟨t, .inl tq, .inl tx, .inl ty, .inr tz, by push_cast; omega⟩
  · refine ⟨q, p, Finset.pair_comm _ _, ?_, .inl ⟨?_, ?_⟩⟩
    · rw [hasType_quad (i := 2) (j := 2) _ (by omega) (by omega) qx qy qz xy xz yz]
      exact ⟨t, .inr tq, .inl tx, .inl ty, .inr tz, by push_cast; omega⟩
    · rw [hasType_quad (i := 3) (j := 1) _ (by omega) (by omega) pq px py qx qy xy]
      exact ⟨t, .inl tp, .inr tq, .inl tx, .inl ty, by push_cast; omega⟩
    · rw [hasType_quad (i := 3) (j := 1) _ (by omega) (by omega) px py pz xy xz yz]
      exact ⟨t, .inl tp, .inl tx, .inl ty, .inr tz, by push_cast; omega⟩
  · refine ⟨p, q, rfl, ?_, .inr ⟨?_, ?_⟩⟩
    · rw [hasType_quad (i := 2) (j := 2) _ (by omega) (by omega) px py pz xy xz yz]
      exact ⟨t, .inl tp, .inr tx, .inr ty, .inl tz, by push_cast; omega⟩
    · rw [hasType_quad (i := 1) (j := 3) _ (by omega) (by omega) pq px py qx qy xy]
      exact ⟨t, .inl tp, .inr tq, .inr tx, .inr ty, by push_cast; omega⟩
    · rw [hasType_quad (i := 1) (j := 3) _ (by omega) (by omega) qx qy qz xy xz yz]
      exact ⟨t, .inr tq, .inr tx, .inr ty, .inl tz, by push_cast; omega⟩
  · refine ⟨q, p, Finset.pair_comm _ _, ?_, .inr ⟨?_, ?_⟩⟩
    · rw [hasType_quad (i := 2) (j := 2) _ (by omega) (by omega) qx qy qz xy xz yz]
      exact ⟨t, .inl tq, .inr tx, .inr ty, .inl tz, by push_cast; omega⟩
    · rw [hasType_quad (i := 1) (j := 3) _ (by omega) (by omega) pq px py qx qy xy]
      exact ⟨t, .inr tp, .inl tq, .inr tx, .inr ty, by push_cast; omega⟩
    · rw [hasType_quad (i := 1) (j := 3) _ (by omega) (by omega) px py pz xy xz yz]
      exact ⟨t, .inr tp, .inr tx, .inr ty, .inl tz, by push_cast; omega⟩

/-- C29: `prepare_two_three` on a finite cell selects the site whose opposite vertex comes first
in point order among all (2,3) sites of that cell, and fails exactly when there is none. -/
theorem C29_two_three_selects_first_site {K : Tri V} (hK : Sound env K) {c : Finset V}
    (hc : c ∈ K.cells) (hf : K.inf ∉ c) (c' : Finset V) (i : V) :
    prepareTwoThree K c = .ok (c', i) ↔ c' = c ∧
      (∃ q x y z, Site23 K.inf K.time K.cells i q x y z ∧ c = {i, x, y, z}) ∧
      ∀ j < i, ¬ ∃ q x y z, Site23 K.inf K.time K.cells j q x y z ∧ c = {j, x, y, z} :=
  prepareTwoThree_iff hK (mem_finiteCells.2 ⟨hc, hf⟩)

/-- C29: a finite cell is accepted exactly when it has some (2,3) site. -/
theorem C29_two_three_accepts_iff_site {K : Tri V} (hK : Sound env K) {c : Finset V}
    (hc : c ∈ K.cells) (hf : K.inf ∉ c) :
    (∃ m, prepareTwoThree K c = .ok m) ↔
      ∃ p q x y z, Site23 K.inf K.time K.cells p q x y z ∧ c = {p, x, y, z} := by
  constructor
  · rintro ⟨⟨c', i⟩, h⟩
    obtain ⟨-, ⟨q, x, y, z, hs⟩, -⟩ := (C29_two_three_selects_first_site hK hc hf c' i).1 h
    exact ⟨i, q, x, y, z, hs⟩
  · rintro ⟨p, hp⟩
    classical
    let S := c.filter (fun j => ∃ q x y z, Site23 K.inf K.time K.cells j q x y z ∧ c = {j, x, y, z})
    have hS : S.Nonempty := ⟨p, Finset.mem_filter.2 ⟨by obtain ⟨q, x, y, z, -, e⟩ := hp; rw [e]; simp, hp⟩⟩
    refine ⟨(c, S.min' hS), (C29_two_three_selects_first_site hK hc hf _ _).2
      ⟨rfl, (Finset.mem_filter.1 (S.min'_mem hS)).2, fun j hj hs => ?_⟩⟩
    have hjS : j ∈ S := Finset.mem_filter.2 ⟨by obtain ⟨q, x, y, z, -, e⟩ := hs; rw [e]; simp, hs⟩
    exact absurd (S.min'_le j hjS) (not_le.2 hj)

/-- Arithmetic of the (2,3) site: which of the three shared vertices is on the other slice. -/
theorem split_31 {p q x y z t t' : ℤ}
    (m : (p = t' ∨ p = t' + 1) ∧ (x = t' ∨ x = t' + 1) ∧ (y = t' ∨ y = t' + 1) ∧ (z = t' ∨ z = t' + 1) ∧
      p + x + y + z = 4 * t' + 2)
    (h : (q = t ∨ q = t + 1) ∧ (x = t ∨ x = t + 1) ∧ (y = t ∨ y = t + 1) ∧ (z = t ∨ z = t + 1) ∧
      q + x + y + z = 4 * t + 1) :
    (x = t ∧ y = t ∧ z = t + 1 ∧ q = t ∧ p = t + 1) ∨ (x = t ∧ z = t ∧ y = t + 1 ∧ q = t ∧ p = t + 1) ∨
      (y = t ∧ z = t ∧ x = t + 1 ∧ q = t ∧ p = t + 1) := by
  omega

theorem split_13 {p q x y z t t' : ℤ}
    (m : (p = t' ∨ p = t' + 1) ∧ (x = t' ∨ x = t' + 1) ∧ (y = t' ∨ y = t' + 1) ∧ (z = t' ∨ z = t' + 1) ∧
      p + x + y + z = 4 * t' + 2)
    (h : (q = t ∨ q = t + 1) ∧ (x = t ∨ x = t + 1) ∧ (y = t ∨ y = t + 1) ∧ (z = t ∨ z = t + 1) ∧
      q + x + y + z = 4 * t + 3) :
    (x = t + 1 ∧ y = t + 1 ∧ z = t ∧ q = t + 1 ∧ p = t) ∨ (x = t + 1 ∧ z = t + 1 ∧ y = t ∧ q = t + 1 ∧ p = t) ∨
      (y = t + 1 ∧ z = t + 1 ∧ x = t ∧ q = t + 1 ∧ p = t) := by
  omega

/-- C29: at a (2,3) site the new edge is timelike, and the three new tetrahedra are two (2,2) and
one of the same pure type. -/
theorem C29_two_three_types {inf : V} {time : V → ℤ} {K : Finset (Finset V)} {p q x y z : V}
    (h : Site23 inf time K p q x y z) :
    ¬ Spacelike time {p, q} ∧ ∃ a b c, [a, b, c].Perm [x, y, z] ∧
      HasType time 2 2 {p, q, a, c} ∧ HasType time 2 2 {p, q, b, c} ∧
      ((HasType time 3 1 {q, x, y, z} ∧ HasType time 3 1 {p, q, a, b}) ∨
        (HasType time 1 3 {q, x, y, z} ∧ HasType time 1 3 {p, q, a, b})) := by
  have hpq := site23_types h
  have hn := h.distinct
  simp only [List.nodup_cons, List.mem_cons, List.not_mem_nil, or_false, not_or, not_false_eq_true,
    List.nodup_nil, and_true] at hn
  obtain ⟨⟨pq, px, py, pz⟩, ⟨qx, qy, qz⟩, ⟨xy, xz⟩, yz⟩ := hn
  refine ⟨fun hs => by have := hs p (by simp) q (by simp); omega, ?_⟩
  have m1 := h.mixed
  rw [hasType_quad (i := 2) (j := 2) _ (by omega) (by omega) px py pz xy xz yz] at m1
  simp only [Quad] at m1; push_cast at m1
  obtain ⟨t', m1⟩ := m1
  -- the created types, given which of the three vertices is on the other slice
  have up : ∀ a b c t, p ≠ a → p ≠ b → p ≠ c → q ≠ a → q ≠ b → q ≠ c → a ≠ b → a ≠ c → b ≠ c →
      time a = t → time b = t → time c = t + 1 → time q = t → time p = t + 1 →
      HasType time 2 2 {p, q, a, c} ∧ HasType time 2 2 {p, q, b, c} ∧ HasType time 3 1 {p, q, a, b} := by
    intro a b c t pa pb pc qa qb qc ab ac bc ta tb tc tq tp
    rw [hasType_quad (i := 2) (j := 2) _ (by omega) (by omega) pq pa pc qa qc ac,
      hasType_quad (i := 2) (j := 2) _ (by omega) (by omega) pq pb pc qb qc bc,
      hasType_quad (i := 3) (j := 1) _ (by omega) (by omega) pq pa pb qa qb ab]
    exact ⟨⟨t, .inr tp, .inl tq, .inl ta, .inr tc, by push_cast; omega⟩,
      ⟨t, .inr tp, .inl tq, .inl tb, .inr tc, by push_cast; omega⟩,
      ⟨t, .inr tp, .inl tq, .inl ta, .inl tb, by push_cast; omega⟩⟩
  have dn : ∀ a b c t, p ≠ a → p ≠ b → p ≠ c → q ≠ a → q ≠ b → q ≠ c → a ≠ b → a ≠ c → b ≠ c →
      time a = t + 1 → time b = t + 1 → time c = t → time q = t + 1 → time p = t →
      HasType time 2 2 {p, q, a, c} ∧ HasType time 2 2 {p, q, b, c} ∧ HasType time 1 3 {p, q, a, b} := by
    intro a b c t pa pb pc qa qb qc ab ac bc ta tb tc tq tp
    rw [hasType_quad (i := 2) (j := 2) _ (by omega) (by omega) pq pa pc qa qc ac,
      hasType_quad (i := 2) (j := 2) _ (by omega) (by omega) pq pb pc qb qc bc,
      hasType_quad (i := 1) (j := 3) _ (by omega) (by omega) pq pa pb qa qb ab]
    exact ⟨⟨t, .inl tp, .inr tq, .inr ta, .inl tc, by push_cast; omega⟩,
      ⟨t, .inl tp, .inr tq, .inr tb, .inl tc, by push_cast; omega⟩,
      ⟨t, .inl tp, .inr tq, .inr ta, .inr tb, by push_cast; omega⟩⟩
  have P1 : [y, z, x].Perm [x, y, z] :=
    (List.Perm.trans (List.Perm.cons _ (List.Perm.swap _ _ _)) (List.Perm.swap _ _ _))
  have P2 : [x, z, y].Perm [x, y, z] := List.Perm.cons _ (List.Perm.swap _ _ _)
  rcases h.pure with h1 | h1
  · have h1' := h1
    rw [hasType_quad (i := 3) (j := 1) _ (by omega) (by omega) qx qy qz xy xz yz] at h1'
    simp only [Quad] at h1'; push_cast at h1'
    obtain ⟨t, h2⟩ := h1'
    have : (time x = t ∧ time y = t ∧ time z = t + 1 ∧ time q = t ∧ time p = t + 1) ∨
        (time x = t ∧ time z = t ∧ time y = t + 1 ∧ time q = t ∧ time p = t + 1) ∨
        (time y = t ∧ time z = t ∧ time x = t + 1 ∧ time q = t ∧ time p = t + 1) := split_31 m1 h2
    rcases this with ⟨k1, k2, k3, k4, k5⟩ | ⟨k1, k2, k3, k4, k5⟩ | ⟨k1, k2, k3, k4, k5⟩
    · obtain ⟨r1, r2, r3⟩ := up x y z t px py pz qx qy qz xy xz yz k1 k2 k3 k4 k5
      exact ⟨x, y, z, List.Perm.refl _, r1, r2, .inl ⟨h1, r3⟩⟩
    · obtain ⟨r1, r2, r3⟩ := up x z y t px pz py qx qz qy xz xy (Ne.symm yz) k1 k2 k3 k4 k5
      exact ⟨x, z, y, P2, r1, r2, .inl ⟨h1, r3⟩⟩
    · obtain ⟨r1, r2, r3⟩ := up y z x t py pz px qy qz qx yz (Ne.symm xy) (Ne.symm xz) k1 k2 k3 k4 k5
      exact ⟨y, z, x, P1, r1, r2, .inl ⟨h1, r3⟩⟩
  · have h1' := h1
    rw [hasType_quad (i := 1) (j := 3) _ (by omega) (by omega) qx qy qz xy xz yz] at h1'
    simp only [Quad] at h1'; push_cast at h1'
    obtain ⟨t, h2⟩ := h1'
    have : (time x = t + 1 ∧ time y = t + 1 ∧ time z = t ∧ time q = t + 1 ∧ time p = t) ∨
        (time x = t + 1 ∧ time z = t + 1 ∧ time y = t ∧ time q = t + 1 ∧ time p = t) ∨
        (time y = t + 1 ∧ time z = t + 1 ∧ time x = t ∧ time q = t + 1 ∧ time p = t) := split_13 m1 h2
    rcases this with ⟨k1, k2, k3, k4, k5⟩ | ⟨k1, k2, k3, k4, k5⟩ | ⟨k1, k2, k3, k4, k5⟩
    · obtain ⟨r1, r2, r3⟩ := dn x y z t px py pz qx qy qz xy xz yz k1 k2 k3 k4 k5
      exact ⟨x, y, z, List.Perm.refl _, r1, r2, .inr ⟨h1, r3⟩⟩
    · obtain ⟨r1, r2, r3⟩ := dn x z y t px pz py qx qz qy xz xy (Ne.symm yz) k1 k2 k3 k4 k5
      exact ⟨x, z, y, P2, r1, r2, .inr ⟨h1, r3⟩⟩
    · obtain ⟨r1, r2, r3⟩ := dn y z x t py pz px qy qz qx yz (Ne.symm xy) (Ne.symm xz) k1 k2 k3 k4 k5
      exact ⟨y, z, x, P1, r1, r2, .inr ⟨h1, r3⟩⟩

example : ∃ x y z, Site32 Fixture.k32.inf Fixture.k32.time Fixture.k32.cells 12 21 x y z :=
  ((C29_three_two_accepts_iff_site Fixture.sound32 12 21 (12, 21)).1 (by decide +kernel)).2

example : prepareTwoThree Fixture.k23 {12, 31, 41, 52} = .ok ({12, 31, 41, 52}, 12) := by decide +kernel

example : ∃ p q x y z, Site23 Fixture.k23.inf Fixture.k23.time Fixture.k23.cells p q x y z ∧
    ({12, 31, 41, 52} : Finset ℕ) = {p, x, y, z} :=
  (C29_two_three_accepts_iff_site Fixture.sound23 (by decide +kernel) (by decide +kernel)).1
    ⟨({12, 31, 41, 52}, 12), by decide +kernel⟩

/-! ### C30: (2,6) -/

/-- C30: in any closed complex a (1,3) tetrahedron `c` has at most one adjacent (3,1)
tetrahedron, and the triangle they share is spacelike. -/
theorem C30_partner_unique {time : V → ℤ} {K : Finset (Finset V)} (hK : Closed K)
    {c : Finset V} (hc : c ∈ K) (h13 : HasType time 1 3 c) {i j u w : V} (hi : i ∈ c) (hj : j ∈ c)
    (hu : u ∉ c) (hw : w ∉ c) (hui : insert u (c.erase i) ∈ K) (hwj : insert w (c.erase j) ∈ K)
    (h1 : HasType time 3 1 (insert u (c.erase i))) (h2 : HasType time 3 1 (insert w (c.erase j))) :
    i = j ∧ u = w ∧ Spacelike time (c.erase i) := by
  have key : ∀ {i u : V}, i ∈ c → u ∉ c → HasType time 3 1 (insert u (c.erase i)) →
      ∃ t, (∀ x ∈ c.erase i, time x = t) ∧ time i = t + -1 := by
    intro i u hi hu h1
    obtain ⟨x', y', z', d2, d3, d4, d8, d9, d10, e, ee⟩ := exists_four (hK.1 _ hc) hi
    rw [ee] at h1 ⊢
    have d5 : u ≠ x' := fun h => hu (by rw [e, h]; simp)
    have d6 : u ≠ y' := fun h => hu (by rw [e, h]; simp)
    have d7 : u ≠ z' := fun h => hu (by rw [e, h]; simp)
    have q1 := (hasType_quad (i := 1) (j := 3) time (by omega) (by omega) d2 d3 d4 d8 d9 d10).1 (e ▸ h13)
    have q2 := (hasType_quad (i := 3) (j := 1) time (by omega) (by omega) d5 d6 d7 d8 d9 d10).1 h1
    obtain ⟨t, a, b, c, _, f⟩ := times_13_31 q1 q2
    refine ⟨t, ?_, f⟩
    intro x hx
    simp only [Finset.mem_insert, Finset.mem_singleton] at hx
    rcases hx with rfl | rfl | rfl <;> assumption
  obtain ⟨t, ht, hti⟩ := key hi hu h1
  obtain ⟨s, hs, hsj⟩ := key hj hw h2
  have hij : i = j := by
    by_contra hne
    have a := ht j (Finset.mem_erase.2 ⟨fun h => hne h.symm, hj⟩)
    have b := hs i (Finset.mem_erase.2 ⟨hne, hi⟩)
    omega
  refine ⟨hij, ?_, fun x hx y hy => by rw [ht x hx, ht y hy]⟩
  subst hij
  let T : Tri V := { inf := u, cells := K, time := fun _ => 0, info := fun _ => 0 }
  have a : T.mirror c i = some u := mirror_eq (K := T) hK hc hi hu hui
  have b : T.mirror c i = some w := mirror_eq (K := T) hK hc hi hw hwj
  rw [a] at b
  exact Option.some.inj b

/-- C30: `prepare_two_six` accepts a finite cell exactly when it is the lower tetrahedron of a
(2,6) site, and then it returns the vertex opposite the site's triangle. -/
theorem C30_accepts_iff_site {K : Tri V} (hK : Sound env K) {c : Finset V} (hc : c ∈ K.cells)
    (hf : K.inf ∉ c) (c' : Finset V) (i : V) :
    prepareTwoSix K c = .ok (c', i) ↔ c' = c ∧
      ∃ x y z u, Site26 K.inf K.time K.cells x y z u i ∧ c = {x, y, z, i} :=
  prepareTwoSix_iff hK (mem_finiteCells.2 ⟨hc, hf⟩)

/-- C30: the spacelike check of `prepare_two_six` never fails: whenever a partner is found the
preparation succeeds. -/
theorem C30_spacelike_check_never_fails {K : Tri V} (hK : Sound env K) {c : Finset V} (hc : c ∈ K.cells)
    (hf : K.inf ∉ c) {i : V} (h : findAdjacent31 K c = some i) : prepareTwoSix K c = .ok (c, i) := by
  obtain ⟨hi, h13, -, w, hw, hwc, hwK, -, h31⟩ := findAdjacent31_some hK.closed hc h
  obtain ⟨-, -, hsp⟩ := C30_partner_unique hK.closed hc
    h13 hi hi hwc hwc hwK hwK h31 h31
  unfold prepareTwoSix
  rw [if_neg (not_not.2 hc), h]
  dsimp only
  rw [if_neg]
  rintro ⟨a, ha, b, hb, hne⟩
  exact hne (hsp a ha b hb)

example : prepareTwoSix Fixture.k26 {12, 22, 32, 51} = .ok ({12, 22, 32, 51}, 51) :=
  C30_spacelike_check_never_fails Fixture.sound26 (by decide +kernel) (by decide +kernel) (by decide +kernel)

/-- Finding 14: `find_adjacent_31_cell` does not exclude cells at infinity.  If the uninitialised
data of the vertex and of a cell at infinity happen to look like a (3,1) tetrahedron, the code
accepts a boundary cell that is no (2,6) site. -/
theorem C30_infinite_partner_accepted :
    ∃ K : Tri ℕ, Closed K.cells ∧ (∀ c ∈ K.cells, K.inf ∉ c → K.typeCorrect c = true) ∧
      ∃ c ∈ K.cells, K.inf ∉ c ∧ ∃ i, prepareTwoSix K c = .ok (c, i) ∧
        ¬ ∃ x y z u, Site26 K.inf K.time K.cells x y z u i := by
  refine ⟨{ Fixture.ball {{12, 22, 32, 51}} with
    time := fun v => if v = 0 then 3 else (v % 10 : ℕ)
    info := fun c => if 0 ∈ c then 31 else 13 }, isValid_iff.1 (by decide +kernel), by decide +kernel,
    {12, 22, 32, 51}, by decide +kernel, by decide +kernel, 51, by decide +kernel, ?_⟩
  rintro ⟨x, y, z, u, h⟩
  have hup := h.upper
  have hcells : (Fixture.ball {{12, 22, 32, 51}}).cells.filter (0 ∉ ·) = {{12, 22, 32, 51}} := by
    decide +kernel
  have hf := h.finite
  simp only [List.mem_cons, List.not_mem_nil, or_false, not_or] at hf
  have hinf : (Fixture.ball {{12, 22, 32, 51}}).inf = 0 := by decide +kernel
  have hf0 : (0 : ℕ) ∉ ({x, y, z, u} : Finset ℕ) := by
    rw [hinf] at hf
    exact notMem_four hf.1 hf.2.1 hf.2.2.1 hf.2.2.2.1
  have : ({x, y, z, u} : Finset ℕ) ∈ (Fixture.ball {{12, 22, 32, 51}}).cells.filter (0 ∉ ·) :=
    Finset.mem_filter.2 ⟨hup, hf0⟩
  rw [hcells, Finset.mem_singleton] at this
  have h51 : (51 : ℕ) ∈ ({x, y, z, u} : Finset ℕ) := by rw [this]; decide
  have hn := h.distinct
  simp only [List.nodup_cons, List.mem_cons, List.not_mem_nil, or_false, not_or, not_false_eq_true,
    List.nodup_nil, and_true] at hn
  simp only [Finset.mem_insert, Finset.mem_singleton] at h51
  omega

end CDT.Props

/-
C31: on which slice does the vertex inserted by a (2,6) move lie?
-/
import Verif.Props.Preserve
import Verif.Fixture.Geo

namespace CDT.Props
open Spec Cavity Moves

variable {V G : Type} [LinearOrder V] {env : Env V G}

/-- The environment's labels and centroids are those of points in Euclidean space: slice 1 has
radius `I`, slices are `S` apart (real arithmetic in place of `double`). -/
structure Geometric (env : Env V G) (inf : V) (pos : V → Point) (I S : ℝ) : Prop where
  spacing : 0 < S
  label : ∀ v ≠ inf, env.label v = timevalue I S ‖pos v‖
  centroid : ∀ x y z, inf ∉ [x, y, z] → [x, y, z].Nodup →
    pos (env.centroid {x, y, z}) = centroid (pos x) (pos y) (pos z)

/-- C31, accepted candidates.  Every (2,6) candidate that `check_move` accepts carries its new
vertex on the slice of the subdivided triangle. -/
theorem C31_accepted_vertex_on_slice (hl : env.Lawful) {K K' : Tri V} (hK : Sound env K)
    (hfr : FreshCentroids env K) (h : MoveReturns env .twoSix K K') (ha : Accepted env .twoSix K K') :
    ∃ x y z u d m, Move26 K.inf K.time K.cells K'.cells x y z u d m ∧ K'.time m = K.time x := by
  obtain ⟨cs, cs', hb, hb', hc⟩ := ha
  exact (C21_check_move_iff_slice hl hK hfr h hb hb' 0 0).1 (hc 0 0)

/-- C31, all successful moves.  The new vertex is never above the slice `t` of its triangle, and
(for `t ≥ 1`) it is on it exactly when the centroid is less than half a spacing below the
sphere of that slice. -/
theorem C31_slice_criterion (hl : env.Lawful) {pos : V → Point} {I S : ℝ} {K K' : Tri V}
    (hg : Geometric env K.inf pos I S) (hK : Sound env K)
    (hfr : FreshCentroids env K) (h : MoveReturns env .twoSix K K') :
    ∃ x y z u d m, Move26 K.inf K.time K.cells K'.cells x y z u d m ∧
      pos m = centroid (pos x) (pos y) (pos z) ∧
      K'.time m = timevalue I S ‖pos m‖ ∧
      K'.time m ≤ K.time x ∧
      (1 ≤ K.time x → (K'.time m = K.time x ↔ sliceRadius I S (K.time x) - S / 2 ≤ ‖pos m‖)) := by
  obtain ⟨-, ⟨x, y, z, u, d, m, hm, hmc, hml⟩, -, -⟩ := C21_two_six_subdivision hl hK hfr h
  refine ⟨x, y, z, u, d, m, hm, ?_⟩
  have hf := hm.finite
  have hn := hm.distinct
  simp only [List.mem_cons, List.not_mem_nil, or_false, not_or] at hf
  obtain ⟨ix, iy, iz, iu, id, im⟩ := hf
  have hpos : pos m = centroid (pos x) (pos y) (pos z) := by
    rw [hmc]
    refine hg.centroid x y z (by simp; tauto) ?_
    simp only [List.nodup_cons, List.mem_cons, List.not_mem_nil, or_false, not_or] at hn ⊢
    simp; tauto
  have htm : K'.time m = timevalue I S ‖pos m‖ := by rw [hml, hg.label m (Ne.symm im)]
  have hx : ∀ v ∈ [x, y, z], K.time x = timevalue I S ‖pos v‖ := by
    intro v hv
    have hvt : K.time v = K.time x := by
      simp only [List.mem_cons, List.not_mem_nil, or_false] at hv
      rcases hv with rfl | rfl | rfl
      exacts [rfl, hm.slice.1, hm.slice.2]
    have hvi : v ≠ K.inf := by
      simp only [List.mem_cons, List.not_mem_nil, or_false] at hv
      rcases hv with rfl | rfl | rfl
      exacts [Ne.symm ix, Ne.symm iy, Ne.symm iz]
    have hvm : v ∈ vertices K.cells := by
      refine mem_vertices.2 ⟨{x, y, z, u}, hm.cells.present (by simp), ?_⟩
      simp only [List.mem_cons, List.not_mem_nil, or_false] at hv
      rcases hv with rfl | rfl | rfl <;> simp
    rw [← hvt, hK.times v hvm hvi, hg.label v hvi]
  have hle : K'.time m ≤ K.time x := by
    rw [htm]
    -- the centroid's radius is at most the largest of the three
    have hmax : ‖pos m‖ ≤ max ‖pos x‖ (max ‖pos y‖ ‖pos z‖) := by
      rw [hpos]
      exact norm_centroid_le (le_max_left _ _) (le_trans (le_max_left _ _) (le_max_right _ _))
        (le_trans (le_max_right _ _) (le_max_right _ _))
    refine (timevalue_mono hg.spacing hmax).trans ?_
    rcases max_choice ‖pos x‖ (max ‖pos y‖ ‖pos z‖) with e | e
    · rw [e, ← hx x (by simp)]
    · rw [e]
      rcases max_choice ‖pos y‖ ‖pos z‖ with e | e <;> rw [e]
      · rw [← hx y (by simp)]
      · rw [← hx z (by simp)]
  refine ⟨hpos, htm, hle, fun h1 => ?_⟩
  rw [← le_timevalue_iff hg.spacing h1, ← htm]
  omega

/-- C31, in terms of the triangle.  When the triangle's vertices lie exactly on the sphere of
radius `R` of slice `t ≥ 1` with `S/2 ≤ R`, the new vertex is on that slice exactly when the
squared edge lengths sum to at most `9 S (R - S/4)`. -/
theorem C31_edge_length_criterion (hl : env.Lawful) {pos : V → Point} {I S : ℝ} {K K' : Tri V}
    (hg : Geometric env K.inf pos I S) (hK : Sound env K)
    (hfr : FreshCentroids env K) (h : MoveReturns env .twoSix K K')
    (hexact : ∀ v ∈ vertices K.cells, v ≠ K.inf → ‖pos v‖ = sliceRadius I S (K.time v))
    (ht : ∀ v ∈ vertices K.cells, v ≠ K.inf → 1 ≤ K.time v ∧ S / 2 ≤ sliceRadius I S (K.time v)) :
    ∃ x y z u d m, Move26 K.inf K.time K.cells K'.cells x y z u d m ∧
      (K'.time m = K.time x ↔
        ‖pos x - pos y‖ ^ 2 + ‖pos y - pos z‖ ^ 2 + ‖pos x - pos z‖ ^ 2 ≤
          9 * S * (sliceRadius I S (K.time x) - S / 4)) := by
  obtain ⟨x, y, z, u, d, m, hm, hpos, -, -, hiff⟩ := C31_slice_criterion hl hg hK hfr h
  refine ⟨x, y, z, u, d, m, hm, ?_⟩
  have hf := hm.finite
  simp only [List.mem_cons, List.not_mem_nil, or_false, not_or] at hf
  obtain ⟨ix, iy, iz, -, -, -⟩ := hf
  have mem : ∀ v, v = x ∨ v = y ∨ v = z → v ∈ vertices K.cells := by
    intro v hv
    refine mem_vertices.2 ⟨{x, y, z, u}, hm.cells.present (by simp), ?_⟩
    rcases hv with rfl | rfl | rfl <;> simp
  obtain ⟨h1, h2⟩ := ht x (mem x (by simp)) (Ne.symm ix)
  have ex := hexact x (mem x (by simp)) (Ne.symm ix)
  have ey := hexact y (mem y (by simp)) (Ne.symm iy)
  have ez := hexact z (mem z (by simp)) (Ne.symm iz)
  rw [hm.slice.1] at ey
  rw [hm.slice.2] at ez
  have hsq := norm_centroid_sq (pos x) (pos y) (pos z)
  rw [← hpos, ex, ey, ez] at hsq
  rw [hiff h1]
  have hS := hg.spacing
  have hn := norm_nonneg (pos m)
  generalize sliceRadius I S (K.time x) = R at *
  rw [← sq_le_sq₀ (by linarith) hn, hsq]
  constructor <;> intro h <;> nlinarith

/-- The witness environment is geometric. -/
theorem geo_geometric : Geometric Geo.env (⊤ : Geo.GV) Geo.pos 1 1 where
  spacing := one_pos
  label v _ := Geo.label_eq v
  centroid x y z _ hn := by
    simp only [List.nodup_cons, List.mem_cons, List.not_mem_nil, or_false, not_or] at hn
    exact Geo.center_eq hn.1.1 hn.1.2 hn.2.1

/-- The hypotheses of the criteria are met by a concrete triangulation and move. -/
example : Geometric Geo.env Geo.k.inf Geo.pos 1 1 ∧ Sound Geo.env Geo.k ∧ FreshCentroids Geo.env Geo.k ∧
    ∃ K', MoveReturns Geo.env .twoSix Geo.k K' := by
  refine ⟨geo_geometric, Geo.sound, Geo.fresh, ?_⟩
  have h := Geo.moves
  rcases hr : doMove Geo.env .twoSix Geo.k 0 with ⟨e | K', g'⟩
  · rw [hr] at h; simp [Geo.view] at h
  · exact ⟨K', 0, g', .inl hr⟩

/-- Empty-circumsphere property of the witness: the two tetrahedra `abcu` and `abcd` are the
Delaunay triangulation of the five points (each has a circumscribed sphere with the fifth point
strictly outside). -/
theorem geo_delaunay :
    (∃ (o : Point) (ρ : ℝ), (∀ v ∈ [Geo.pa, Geo.pb, Geo.pc, Geo.pu], ‖Geo.pos v - o‖ ^ 2 = ρ) ∧
      ρ < ‖Geo.pos Geo.pd - o‖ ^ 2) ∧
    (∃ (o : Point) (ρ : ℝ), (∀ v ∈ [Geo.pa, Geo.pb, Geo.pc, Geo.pd], ‖Geo.pos v - o‖ ^ 2 = ρ) ∧
      ρ < ‖Geo.pos Geo.pu - o‖ ^ 2) := by
  constructor
  · refine ⟨!₂[5/6, 5/6, 5/6], 99/36, ?_, ?_⟩
    · intro v hv
      simp only [List.mem_cons, List.not_mem_nil, or_false] at hv
      rcases hv with rfl | rfl | rfl | rfl <;>
        simp [EuclideanSpace.norm_sq_eq, Fin.sum_univ_three, Geo.pos, Geo.pa, Geo.pb, Geo.pc, Geo.pu, Geo.pt,
          Geo.xyz] <;> norm_num
    · simp [EuclideanSpace.norm_sq_eq, Fin.sum_univ_three, Geo.pos, Geo.pd, Geo.pt, Geo.xyz]; norm_num
  · refine ⟨!₂[9/22, 9/22, 9/22], (2 - 9/22)^2 + 2 * (9/22)^2, ?_, ?_⟩
    · intro v hv
      simp only [List.mem_cons, List.not_mem_nil, or_false] at hv
      rcases hv with rfl | rfl | rfl | rfl <;>
        simp [EuclideanSpace.norm_sq_eq, Fin.sum_univ_three, Geo.pos, Geo.pa, Geo.pb, Geo.pc, Geo.pd, Geo.pt,
          Geo.xyz] <;> norm_num
    · simp [EuclideanSpace.norm_sq_eq, Fin.sum_univ_three, Geo.pos, Geo.pu, Geo.pt, Geo.xyz]; norm_num

/-- C31, the unconditional claim is false.  On a sound manifold (the Delaunay triangulation of
five points exactly on three spheres, `geo_delaunay`) `do_26_move` returns successfully a manifold
whose new vertex is not on the slice of the triangle and which violates causality; `check_move`
rejects it. -/
theorem C31_do_26_move_may_leave_slice :
    ∃ K', MoveReturns Geo.env .twoSix Geo.k K' ∧
      (∀ x y z u d m, Move26 Geo.k.inf Geo.k.time Geo.k.cells K'.cells x y z u d m →
        K'.time m ≠ Geo.k.time x) ∧
      ¬ Foliated K'.inf K'.time K'.cells ∧ ¬ Accepted Geo.env .twoSix Geo.k K' := by
  have h := Geo.moves
  rcases hr : doMove Geo.env .twoSix Geo.k 0 with ⟨e | K', g'⟩
  · rw [hr] at h; simp [Geo.view] at h
  · rw [hr] at h
    simp only [Geo.view, Option.some.injEq, decide_eq_false_iff_not] at h
    have hret : MoveReturns Geo.env .twoSix Geo.k K' := ⟨0, g', .inl hr⟩
    have iff := C24_two_six_preserves_iff Geo.lawful Geo.sound Geo.fresh hret
    have key : ∀ x y z u d m, Move26 Geo.k.inf Geo.k.time Geo.k.cells K'.cells x y z u d m →
        K'.time m ≠ Geo.k.time x :=
      fun x y z u d m hm heq => h (iff.2 ⟨x, y, z, u, d, m, hm, heq⟩).foliated.causal
    refine ⟨K', hret, key, fun hf => h hf.causal, fun ha => ?_⟩
    obtain ⟨x, y, z, u, d, m, hm, heq⟩ := C31_accepted_vertex_on_slice Geo.lawful Geo.sound Geo.fresh hret ha
    exact key x y z u d m hm heq

end CDT.Props

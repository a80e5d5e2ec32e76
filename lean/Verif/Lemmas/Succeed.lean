/-
When does the execution of a prepared move succeed?  Explicit results.
-/
import Verif.Lemmas.Sites
import Verif.Lemmas.Effect

namespace CDT
open Spec Cavity Moves

variable {V G : Type} [LinearOrder V] {env : Env V G}

theorem faces_iff {K : Finset (Finset V)} {s : Finset V} : s ∉ faces K ↔ ∀ d ∈ K, ¬ s ⊆ d := by
  rw [mem_faces]; push Not; rfl

theorem pair_free {K : Finset (Finset V)} {a b : V} : ({a, b} : Finset V) ∉ faces K ↔ ∀ d ∈ K, a ∈ d → b ∉ d := by
  rw [faces_iff]
  simp [Finset.insert_subset_iff]

/-! ### (3,2) -/

theorem flipEdge_of_site32 {K : Tri V} {a b x y z : V} (hn : [a, b, x, y, z].Nodup)
    (e : cellsAt K.cells {a, b} = {{a, b, x, y}, {a, b, x, z}, {a, b, y, z}})
    (hfree : ({x, y, z} : Finset V) ∉ faces K.cells) :
    K.flipEdge a b = some { K with cells :=
      (K.cells \ {({a, b, x, y} : Finset V), ({a, b, x, z} : Finset V), ({a, b, y, z} : Finset V)}) ∪
        {({a, x, y, z} : Finset V), ({b, x, y, z} : Finset V)} } := by
  simp only [List.nodup_cons, List.mem_cons, List.not_mem_nil, or_false, not_or, not_false_eq_true,
    List.nodup_nil, and_true] at hn
  obtain ⟨⟨ab, ax, ay, az⟩, ⟨bx, by', bz⟩, ⟨xy, xz⟩, yz⟩ := hn
  rw [cellsAt_pair] at e
  have hl := link_of_three ab ax ay az bx by' bz e
  have hc : (K.edgeCells a b).card = 3 := by
    rw [e]
    have n1 : ({a, b, x, y} : Finset V) ≠ {a, b, x, z} := by
      intro h
      have : y ∈ ({a, b, x, z} : Finset V) := h ▸ by simp
      simp [Ne.symm ay, Ne.symm by', Ne.symm xy, yz] at this
    have n2 : ({a, b, x, y} : Finset V) ≠ {a, b, y, z} := by
      intro h
      have : x ∈ ({a, b, y, z} : Finset V) := h ▸ by simp
      simp [Ne.symm ax, Ne.symm bx, xy, xz] at this
    have n3 : ({a, b, x, z} : Finset V) ≠ {a, b, y, z} := by
      intro h
      have : x ∈ ({a, b, y, z} : Finset V) := h ▸ by simp
      simp [Ne.symm ax, Ne.symm bx, xy, xz] at this
    rw [Finset.card_insert_of_notMem (by simp [n1, n2]), Finset.card_pair n3]
  unfold Tri.flipEdge
  simp only
  rw [if_neg (not_not.2 hc), hl, if_neg, e]
  rintro ⟨d, hd, hs⟩
  exact faces_iff.1 hfree d hd hs

/-- A (3,2) site executes exactly when the triangle to be created is new and CGAL's geometric
test accepts. -/
theorem executeThreeTwo_iff {K : Tri V} {a b x y z : V} (h : Site32 K.inf K.time K.cells a b x y z) :
    executeThreeTwo env K (a, b) =
      if ({x, y, z} : Finset V) ∉ faces K.cells ∧ env.geoEdge K a b = true then
        .ok { K with cells :=
          (K.cells \ {({a, b, x, y} : Finset V), ({a, b, x, z} : Finset V), ({a, b, y, z} : Finset V)}) ∪
            {({a, x, y, z} : Finset V), ({b, x, y, z} : Finset V)} }
      else .error .executionFailure := by
  have hn := h.distinct
  simp only [List.nodup_cons, List.mem_cons, List.not_mem_nil, or_false, not_or, not_false_eq_true,
    List.nodup_nil, and_true] at hn
  obtain ⟨⟨ab, ax, ay, az⟩, ⟨bx, by', bz⟩, ⟨xy, xz⟩, yz⟩ := hn
  have hf := h.finite
  simp only [List.mem_cons, List.not_mem_nil, or_false, not_or] at hf
  have e := h.degree
  rw [cellsAt_pair] at e
  have hl := link_of_three ab ax ay az bx by' bz e
  have hedge : K.isEdge a b = true := isEdge_of_mem ab (c := {a, b, x, y}) (by rw [e]; simp)
  have hno : ¬ ∃ c ∈ K.edgeCells a b, K.inf ∈ c := by
    rintro ⟨c, hc, hi⟩
    rw [e] at hc
    simp only [Finset.mem_insert, Finset.mem_singleton] at hc
    obtain ⟨f1, f2, f3, f4, f5⟩ := hf
    rcases hc with rfl | rfl | rfl <;> exact notMem_four (by assumption) (by assumption) (by assumption) (by assumption) hi
  unfold executeThreeTwo
  rw [if_neg (by simp [hedge])]
  unfold checkedFlipEdge
  rw [if_neg hno]
  by_cases hg : env.geoEdge K a b = true
  · simp only [hg, if_true, and_true]
    by_cases hfree : ({x, y, z} : Finset V) ∉ faces K.cells
    · rw [flipEdge_of_site32 h.distinct h.degree hfree, if_pos hfree]
    · rw [if_neg hfree]
      have : K.flipEdge a b = none := by
        unfold Tri.flipEdge
        simp only
        split_ifs with h1 h2
        · rfl
        · rfl
        · exfalso
          apply h2
          rw [hl]
          exact mem_faces.1 (not_not.1 hfree)
      rw [this]
  · simp [hg]

/-! ### (2,3) -/

theorem image_three {x y z : V} (f : V → Finset V) : ({x, y, z} : Finset V).image f = {f x, f y, f z} := by
  simp [Finset.image_insert]

theorem erase5 {p q x y z : V} (hn : [p, q, x, y, z].Nodup) :
    (insert q ({p, x, y, z} : Finset V)).erase x = {p, q, y, z} ∧
    (insert q ({p, x, y, z} : Finset V)).erase y = {p, q, x, z} ∧
    (insert q ({p, x, y, z} : Finset V)).erase z = {p, q, x, y} ∧
    ({p, x, y, z} : Finset V).erase p = {x, y, z} := by
  simp only [List.nodup_cons, List.mem_cons, List.not_mem_nil, or_false, not_or, not_false_eq_true,
    List.nodup_nil, and_true] at hn
  refine ⟨?_, ?_, ?_, ?_⟩ <;> ext v <;>
    simp only [Finset.mem_erase, Finset.mem_insert, Finset.mem_singleton] <;> grind

/-- A (2,3) site executes exactly when the edge to be created is new and CGAL's geometric test
accepts. -/
theorem executeTwoThree_iff {K : Tri V} (hK : Closed K.cells) {p q x y z : V}
    (h : Site23 K.inf K.time K.cells p q x y z) :
    executeTwoThree env K ({p, x, y, z}, p) =
      if ({p, q} : Finset V) ∉ faces K.cells ∧ env.geoFacet K {p, x, y, z} p = true then
        .ok { K with cells := (K.cells \ {({p, x, y, z} : Finset V), ({q, x, y, z} : Finset V)}) ∪
            {({p, q, x, y} : Finset V), ({p, q, x, z} : Finset V), ({p, q, y, z} : Finset V)} }
      else .error .executionFailure := by
  obtain ⟨e1, e2, e3, e4⟩ := erase5 h.distinct
  have hn := h.distinct
  simp only [List.nodup_cons, List.mem_cons, List.not_mem_nil, or_false, not_or, not_false_eq_true,
    List.nodup_nil, and_true] at hn
  obtain ⟨⟨pq, px, py, pz⟩, ⟨qx, qy, qz⟩, ⟨xy, xz⟩, yz⟩ := hn
  have hf := h.finite
  simp only [List.mem_cons, List.not_mem_nil, or_false, not_or] at hf
  have hpm : p ∈ ({p, x, y, z} : Finset V) := by simp
  have hq : q ∉ ({p, x, y, z} : Finset V) := notMem_four (Ne.symm pq) qx qy qz
  have hm : K.mirror {p, x, y, z} p = some q := by
    apply mirror_eq hK h.left hpm hq
    rw [e4]; exact h.right
  have hinf : K.inf ∉ ({p, x, y, z} : Finset V) := notMem_four hf.1 hf.2.2.1 hf.2.2.2.1 hf.2.2.2.2
  unfold executeTwoThree
  rw [if_neg (by simp [h.left])]
  unfold checkedFlipFacet
  simp only
  rw [if_neg hinf, hm]
  simp only
  rw [if_neg (Ne.symm hf.2.1)]
  by_cases hg : env.geoFacet K {p, x, y, z} p = true
  · simp only [hg, if_true, and_true]
    unfold Tri.flipFacet
    rw [hm]
    simp only
    by_cases hfree : ({p, q} : Finset V) ∉ faces K.cells
    · rw [if_neg, if_pos hfree]
      · simp only
        rw [e4, image_three, e1, e2, e3]
        congr 3
        ext c; simp only [Finset.mem_insert, Finset.mem_singleton]; tauto
      · rintro ⟨d, hd, hp, hq⟩
        exact pair_free.1 hfree d hd hp hq
    · rw [if_pos, if_neg hfree]
      rw [pair_free] at hfree
      push Not at hfree
      exact hfree
  · simp [hg]

/-! ### (4,4) -/

/-- Four-vertex subsets containing a pair. -/
theorem pair_mem_quad {a b r s x y : V} (xa : x ≠ a) (xb : x ≠ b) (ya : y ≠ a) (yb : y ≠ b) (xy : x ≠ y)
    (hx : x ∈ ({a, b, r, s} : Finset V)) (hy : y ∈ ({a, b, r, s} : Finset V)) :
    ({a, b, r, s} : Finset V) = {a, b, x, y} := by
  simp only [Finset.mem_insert, Finset.mem_singleton] at hx hy
  rcases hx with h | h | rfl | rfl
  · exact absurd h xa
  · exact absurd h xb
  · rcases hy with h | h | h | rfl
    · exact absurd h ya
    · exact absurd h yb
    · exact absurd h.symm xy
    · rfl
  · rcases hy with h | h | rfl | h
    · exact absurd h ya
    · exact absurd h yb
    · rw [Finset.pair_comm]
    · exact absurd h.symm xy

theorem two_flips_succeed {K : Tri V} {a b s o p q : V} (hK : Closed K.cells)
    (hnd : [a, b, s, o, p, q].Nodup)
    (e : ∀ d, d ∈ K.edgeCells a b ↔ d = {a, b, s, p} ∨ d = {a, b, o, p} ∨ d = {a, b, s, q} ∨ d = {a, b, o, q})
    (hfree : ({s, o} : Finset V) ∉ faces K.cells) :
    ∃ K1 K2, K.flipFacet (insert s {a, b, q}) s = some K1 ∧ K1.isEdge a b = true ∧
      K1.flipEdge a b = some K2 := by
  have hnd' := hnd
  simp only [List.nodup_cons, List.mem_cons, List.not_mem_nil, or_false, not_or, not_false_eq_true,
    List.nodup_nil, and_true] at hnd
  obtain ⟨⟨ab, as, ao, ap, aq⟩, ⟨bs, bo, bp, bq⟩, ⟨so, sp, sq⟩, ⟨op, oq⟩, pq⟩ := hnd
  have hsF : s ∉ ({a, b, q} : Finset V) := by simp [Ne.symm as, Ne.symm bs, sq]
  have r : ∀ u : V, (insert u {a, b, q} : Finset V) = {a, b, u, q} := by
    intro u; rw [Finset.insert_comm u a, Finset.insert_comm u b]
  have mS : (insert s {a, b, q} : Finset V) ∈ K.cells := by
    rw [r]; exact (mem_edgeCells.1 ((e _).2 (Or.inr (Or.inr (Or.inl rfl))))).1
  have mO : (insert o {a, b, q} : Finset V) ∈ K.cells := by
    rw [r]; exact (mem_edgeCells.1 ((e _).2 (Or.inr (Or.inr (Or.inr rfl))))).1
  have hm : K.mirror (insert s {a, b, q}) s = some o := by
    apply mirror_eq hK mS (by simp)
    · simp [Ne.symm so, Ne.symm ao, Ne.symm bo, oq]
    · rw [Finset.erase_insert hsF]; exact mO
  have hfree' := pair_free.1 hfree
  have h1 : K.flipFacet (insert s {a, b, q}) s = some { K with
      cells := (K.cells \ {(insert s {a, b, q}), (insert o {a, b, q})}) ∪
        {({b, q, s, o} : Finset V), ({a, q, s, o} : Finset V), ({a, b, s, o} : Finset V)} } := by
    unfold Tri.flipFacet
    rw [hm]
    simp only
    rw [if_neg (by rintro ⟨d, hd, h1, h2⟩; exact hfree' d hd h1 h2), Finset.erase_insert hsF]
    have i1 : (insert o (insert s ({a, b, q} : Finset V))).erase a = {b, q, s, o} := by
      ext u; simp only [Finset.mem_insert, Finset.mem_erase, Finset.mem_singleton]; grind
    have i2 : (insert o (insert s ({a, b, q} : Finset V))).erase b = {a, q, s, o} := by
      ext u; simp only [Finset.mem_insert, Finset.mem_erase, Finset.mem_singleton]; grind
    have i3 : (insert o (insert s ({a, b, q} : Finset V))).erase q = {a, b, s, o} := by
      ext u; simp only [Finset.mem_insert, Finset.mem_erase, Finset.mem_singleton]; grind
    simp only [Finset.image_insert, Finset.image_singleton, i1, i2, i3]
  set K1 : Tri V := { K with
      cells := (K.cells \ {(insert s {a, b, q}), (insert o {a, b, q})}) ∪
        {({b, q, s, o} : Finset V), ({a, q, s, o} : Finset V), ({a, b, s, o} : Finset V)} } with hK1
  have np : ∀ u v : V, p ≠ u → (({a, b, v, p} : Finset V) ≠ insert u {a, b, q}) := by
    intro u v hu h
    have : p ∈ (insert u {a, b, q} : Finset V) := h ▸ by simp
    simp [hu, Ne.symm ap, Ne.symm bp, pq] at this
  have he : K1.edgeCells a b = {{a, b, s, o}, {a, b, s, p}, {a, b, o, p}} := by
    ext d
    rw [mem_edgeCells, hK1]
    simp only [Finset.mem_union, Finset.mem_sdiff, Finset.mem_insert, Finset.mem_singleton, not_or]
    constructor
    · rintro ⟨⟨hd, n1, n2⟩ | rfl | rfl | rfl, ha, hb⟩
      · rcases (e d).1 (mem_edgeCells.2 ⟨hd, ha, hb⟩) with h | h | h | h
        · exact Or.inr (Or.inl h)
        · exact Or.inr (Or.inr h)
        · exact absurd (h.trans (r s).symm) n1
        · exact absurd (h.trans (r o).symm) n2
      · simp [ab, aq, as, ao] at ha
      · simp [Ne.symm ab, bq, bs, bo] at hb
      · exact Or.inl rfl
    · rintro (rfl | rfl | rfl)
      · exact ⟨Or.inr (Or.inr (Or.inr rfl)), by simp, by simp⟩
      · exact ⟨Or.inl ⟨(mem_edgeCells.1 ((e _).2 (Or.inl rfl))).1, np s s (Ne.symm sp), np o s (Ne.symm op)⟩,
          by simp, by simp⟩
      · exact ⟨Or.inl ⟨(mem_edgeCells.1 ((e _).2 (Or.inr (Or.inl rfl)))).1, np s o (Ne.symm sp),
          np o o (Ne.symm op)⟩, by simp, by simp⟩
  have hfree1 : ({s, o, p} : Finset V) ∉ faces K1.cells := by
    rw [faces_iff]
    intro d hd hsub
    have ms : s ∈ d := hsub (by simp)
    have mo : o ∈ d := hsub (by simp)
    have mp : p ∈ d := hsub (by simp)
    rw [hK1] at hd
    simp only [Finset.mem_union, Finset.mem_sdiff, Finset.mem_insert, Finset.mem_singleton, not_or] at hd
    rcases hd with ⟨hd, -⟩ | rfl | rfl | rfl
    · exact hfree' d hd ms mo
    · simp [Ne.symm bp, pq, Ne.symm sp, Ne.symm op] at mp
    · simp [Ne.symm ap, pq, Ne.symm sp, Ne.symm op] at mp
    · simp [Ne.symm ap, Ne.symm bp, Ne.symm sp, Ne.symm op] at mp
  have h2 := flipEdge_of_site32 (K := K1) (a := a) (b := b) (x := s) (y := o) (z := p)
    (by simp only [List.nodup_cons, List.mem_cons, List.not_mem_nil, or_false, not_or, not_false_eq_true,
          List.nodup_nil, and_true]
        exact ⟨⟨ab, as, ao, ap⟩, ⟨bs, bo, bp⟩, ⟨so, sp⟩, op⟩)
    (by rw [cellsAt_pair]; exact he) hfree1
  exact ⟨K1, _, h1, isEdge_of_mem ab (c := {a, b, s, o}) (by rw [he]; simp), h2⟩

/-- A (4,4) site executes exactly when the other diagonal is not already an edge. -/
theorem executeFourFour_iff {K : Tri V} (hK : Closed K.cells) {a b x y u d : V}
    (h : Site44 K.inf K.time K.cells a b x y u d) :
    (∃ K', executeFourFour (fun _ => true) K ⟨a, b, u, d⟩ = .ok K') ↔ ({x, y} : Finset V) ∉ faces K.cells := by
  have hnd := h.distinct
  have hnd' := h.distinct
  simp only [List.nodup_cons, List.mem_cons, List.not_mem_nil, or_false, not_or, not_false_eq_true,
    List.nodup_nil, and_true] at hnd
  obtain ⟨⟨ab, ax, ay, au, ad⟩, ⟨bx, bz, bu, bd⟩, ⟨xy, xu, xd⟩, ⟨yu, yd⟩, ud⟩ := hnd
  have hf := h.finite
  simp only [List.mem_cons, List.not_mem_nil, or_false, not_or] at hf
  obtain ⟨f1, f2, f3, f4, f5, f6⟩ := hf
  have e := h.degree
  rw [cellsAt_pair] at e
  have ex : ∀ c, c ∈ K.edgeCells a b ↔ c = {a, b, x, u} ∨ c = {a, b, y, u} ∨ c = {a, b, x, d} ∨ c = {a, b, y, d} := by
    intro c; rw [e]; simp only [Finset.mem_insert, Finset.mem_singleton]
  have ey : ∀ c, c ∈ K.edgeCells a b ↔ c = {a, b, y, u} ∨ c = {a, b, x, u} ∨ c = {a, b, y, d} ∨ c = {a, b, x, d} := by
    intro c; rw [ex]; tauto
  have hndy : [a, b, y, x, u, d].Nodup := by
    simp only [List.nodup_cons, List.mem_cons, List.not_mem_nil, or_false, not_or, not_false_eq_true,
      List.nodup_nil, and_true]
    exact ⟨⟨ab, ay, ax, au, ad⟩, ⟨bz, bx, bu, bd⟩, ⟨Ne.symm xy, yu, yd⟩, ⟨xu, xd⟩, ud⟩
  have r : ∀ w : V, (insert w {a, b, d} : Finset V) = {a, b, w, d} := by
    intro u; rw [Finset.insert_comm u a, Finset.insert_comm u b]
  have hlink : ∀ w, w ∉ ({a, b, d} : Finset V) ∧ insert w {a, b, d} ∈ K.cells ↔ w = x ∨ w = y := by
    intro w
    rw [r]
    constructor
    · rintro ⟨hw, hc⟩
      simp only [Finset.mem_insert, Finset.mem_singleton, not_or] at hw
      have hm : ({a, b, w, d} : Finset V) ∈ K.edgeCells a b := mem_edgeCells.2 ⟨hc, by simp, by simp⟩
      have key : ∀ v t : V, a ≠ v → b ≠ v → a ≠ t → b ≠ t → ({a, b, w, d} : Finset V) = {a, b, v, t} →
          (w = v ∧ d = t) ∨ (w = t ∧ d = v) := fun v t h1 h2 h3 h4 he =>
        pair_eq_cases hw.1 hw.2.1 (Ne.symm ad) (Ne.symm bd) hw.2.2 (Ne.symm h1) (Ne.symm h2) (Ne.symm h3)
          (Ne.symm h4) he
      rcases (ex _).1 hm with he | he | he | he
      · rcases key x u ax bx au bu he with ⟨h1, h2⟩ | ⟨h1, h2⟩
        · exact .inl h1
        · exact absurd h2.symm xd
      · rcases key y u ay bz au bu he with ⟨h1, h2⟩ | ⟨h1, h2⟩
        · exact .inr h1
        · exact absurd h2.symm yd
      · rcases key x d ax bx ad bd he with ⟨h1, h2⟩ | ⟨h1, h2⟩
        · exact .inl h1
        · exact absurd h2.symm xd
      · rcases key y d ay bz ad bd he with ⟨h1, h2⟩ | ⟨h1, h2⟩
        · exact .inr h1
        · exact absurd h2.symm yd
    · rintro (rfl | rfl)
      · exact ⟨by simp [Ne.symm ax, Ne.symm bx, xd], (mem_edgeCells.1 ((ex _).2 (.inr (.inr (.inl rfl))))).1⟩
      · exact ⟨by simp [Ne.symm ay, Ne.symm bz, yd], (mem_edgeCells.1 ((ex _).2 (.inr (.inr (.inr rfl))))).1⟩
  constructor
  · rintro ⟨K', hK'⟩
    obtain ⟨s, K1, K2, hs, hsc, h1, h2, -, -⟩ := executeFourFour_ok hK'
    rcases (hlink s).1 ⟨hs, hsc⟩ with rfl | rfl
    · exact pair_free.2 (two_flips hK hnd' ex h1 h2).1
    · rw [Finset.pair_comm]
      exact pair_free.2 (two_flips hK hndy ey h1 h2).1
  · intro hfree
    have hedge : K.isEdge a b = true := isEdge_of_mem ab (c := {a, b, x, u}) ((ex _).2 (.inl rfl))
    have hu : u ∈ K.finiteVerts := mem_finiteVerts.2 ⟨Ne.symm f5, _, (mem_edgeCells.1 ((ex _).2 (.inl rfl))).1, by simp⟩
    have hd : d ∈ K.finiteVerts :=
      mem_finiteVerts.2 ⟨Ne.symm f6, _, (mem_edgeCells.1 ((ex _).2 (.inr (.inr (.inl rfl))))).1, by simp⟩
    have hne : (K.verts.filter (fun w => w ∉ ({a, b, d} : Finset V) ∧ insert w {a, b, d} ∈ K.cells)).Nonempty :=
      ⟨x, Finset.mem_filter.2 ⟨mem_verts.2 ⟨_, (mem_edgeCells.1 ((ex _).2 (.inl rfl))).1, by simp⟩,
        (hlink x).2 (.inl rfl)⟩⟩
    obtain ⟨s, hs⟩ := Finset.min_of_nonempty hne
    have hsm := (hlink s).1 (Finset.mem_filter.1 (Finset.mem_of_min hs)).2
    have hflips : ∃ K1 K2, K.flipFacet (insert s {a, b, d}) s = some K1 ∧ K1.isEdge a b = true ∧
        K1.flipEdge a b = some K2 ∧ Closed K2.cells := by
      have inj : ∀ {s o : V}, [a, b, s, o, u, d].Nodup → Function.Injective ![a, b, s, o, u, d] := by
        intro s o hn
        simp only [List.nodup_cons, List.mem_cons, List.not_mem_nil, or_false, not_or, not_false_eq_true,
          List.nodup_nil, and_true] at hn
        obtain ⟨⟨a1, a2, a3, a4, a5⟩, ⟨b1, b2, b3, b4⟩, ⟨c1, c2, c3⟩, ⟨d1, d2⟩, e1⟩ := hn
        exact inj6 a1 a2 a3 a4 a5 b1 b2 b3 b4 c1 c2 c3 d1 d2 e1
      have hfin : ∀ c ∈ K.edgeCells a b, K.inf ∉ c := by
        intro c hc
        rcases (ex c).1 hc with rfl | rfl | rfl | rfl <;> apply notMem_four <;> assumption
      obtain ⟨s1, s2, s3⟩ := h.slice
      have t1 := h.above
      have t2 := h.below
      rcases hsm with rfl | rfl
      · obtain ⟨K1, K2, h1, h2, h3⟩ := two_flips_succeed hK hnd' ex hfree
        obtain ⟨hc, hcells, -⟩ := two_flips hK hnd' ex h1 h3
        refine ⟨K1, K2, h1, h2, h3, ?_⟩
        obtain ⟨hpl, hr⟩ := placed44 (inj hnd') e hc hfin ⟨s1, s2, s3, t1, by omega⟩
        rw [hcells, ← hr]
        exact closed_replace good44 hpl hK
      · obtain ⟨K1, K2, h1, h2, h3⟩ := two_flips_succeed hK hndy ey (by rwa [Finset.pair_comm])
        obtain ⟨hc, hcells, -⟩ := two_flips hK hndy ey h1 h3
        refine ⟨K1, K2, h1, h2, h3, ?_⟩
        have e' : K.edgeCells a b = {{a, b, s, u}, {a, b, x, u}, {a, b, s, d}, {a, b, x, d}} := by
          ext c; rw [ey]; simp only [Finset.mem_insert, Finset.mem_singleton]
        obtain ⟨hpl, hr⟩ := placed44 (inj hndy) e' hc hfin ⟨s1, s3, s2, t1, by omega⟩
        rw [hcells, ← hr]
        exact closed_replace good44 hpl hK
    obtain ⟨K1, K2, h1, h2, h3, h4⟩ := hflips
    refine ⟨relabel K2, ?_⟩
    unfold executeFourFour
    rw [if_neg (by simp [hedge, hu, hd])]
    simp only
    rw [hs]
    simp only
    rw [h1]
    simp only
    rw [if_neg (by simp [h2]), h3]
    simp only
    rw [if_neg (by simp [isValid_iff.2 h4])]

/-! ### (2,6) -/

theorem insertInFacet_of_site26 {K : Tri V} (hK : Closed K.cells) {x y z u d m : V}
    (h : Site26 K.inf K.time K.cells x y z u d) :
    K.insertInFacet {x, y, z, d} d m = some { K with cells :=
      (K.cells \ {({x, y, z, u} : Finset V), ({x, y, z, d} : Finset V)}) ∪ sixAround x y z u d m } := by
  have hn := h.distinct
  simp only [List.nodup_cons, List.mem_cons, List.not_mem_nil, or_false, not_or, not_false_eq_true,
    List.nodup_nil, and_true] at hn
  obtain ⟨⟨xy, xz, xu, xd⟩, ⟨yz, yu, yd⟩, ⟨zu, zd⟩, ud⟩ := hn
  have e4 := erase_last4 xd yd zd
  have e1 : insert u ({x, y, z} : Finset V) = {x, y, z, u} := by ext; simp; tauto
  have hm : K.mirror {x, y, z, d} d = some u := by
    apply mirror_eq hK h.lower (by simp)
    · exact notMem_four (Ne.symm xu) (Ne.symm yu) (Ne.symm zu) ud
    · rw [e4, e1]; exact h.upper
  unfold Tri.insertInFacet
  rw [hm]
  simp only
  rw [e4, e1, image_three, image_three]
  have k : ∀ {v : V}, x ≠ v → y ≠ v → z ≠ v →
      ({x, y, z, v} : Finset V).erase x = {y, z, v} ∧ ({x, y, z, v} : Finset V).erase y = {x, z, v} ∧
      ({x, y, z, v} : Finset V).erase z = {x, y, v} := by
    intro v xv yv zv
    refine ⟨?_, ?_, ?_⟩ <;> ext w <;>
      simp only [Finset.mem_erase, Finset.mem_insert, Finset.mem_singleton] <;> grind
  obtain ⟨a1, a2, a3⟩ := k xd yd zd
  obtain ⟨b1, b2, b3⟩ := k xu yu zu
  rw [a1, a2, a3, b1, b2, b3, sixAround, Finset.pair_comm ({x, y, z, d} : Finset V)]
  have rr : ∀ p q r : V, (insert m {p, q, r} : Finset V) = {p, q, m, r} := by
    intro p q r; rw [Finset.insert_comm m p, Finset.insert_comm m q]
  simp only [rr]
  congr 3
  ext c
  simp only [Finset.mem_union, Finset.mem_insert, Finset.mem_singleton]
  tauto

/-- A (2,6) site always executes when the centroid is a new point. -/
theorem executeTwoSix_succeeds {K : Tri V} (hK : Closed K.cells) {x y z u d : V}
    (h : Site26 K.inf K.time K.cells x y z u d) (hnew : env.centroid {x, y, z} ∉ vertices K.cells) :
    ∃ K', executeTwoSix env (fun _ => true) K ({x, y, z, d}, d) = .ok K' ∧ K'.inf = K.inf ∧ K'.info = K.info ∧
      K'.cells = (K.cells \ {({x, y, z, u} : Finset V), ({x, y, z, d} : Finset V)}) ∪
        sixAround x y z u d (env.centroid {x, y, z}) := by
  have hn := h.distinct
  simp only [List.nodup_cons, List.mem_cons, List.not_mem_nil, or_false, not_or, not_false_eq_true,
    List.nodup_nil, and_true] at hn
  obtain ⟨⟨xy, xz, xu, xd⟩, ⟨yz, yu, yd⟩, ⟨zu, zd⟩, ud⟩ := hn
  have e4 := erase_last4 xd yd zd
  have hnm : ∀ v ∈ ({x, y, z, u} : Finset V) ∪ {x, y, z, d}, v ≠ env.centroid {x, y, z} := by
    intro v hv he
    apply hnew
    rw [← he]
    rcases Finset.mem_union.1 hv with hv | hv
    · exact mem_vertices.2 ⟨_, h.upper, hv⟩
    · exact mem_vertices.2 ⟨_, h.lower, hv⟩
  set m := env.centroid {x, y, z} with hm
  have xm := hnm x (by simp); have ym := hnm y (by simp); have zm := hnm z (by simp)
  have um := hnm u (by simp); have dm := hnm d (by simp)
  have hnd : [x, y, z, u, d, m].Nodup := by
    simp only [List.nodup_cons, List.mem_cons, List.not_mem_nil, or_false, not_or, not_false_eq_true,
      List.nodup_nil, and_true]
    exact ⟨⟨xy, xz, xu, xd, xm⟩, ⟨yz, yu, yd, ym⟩, ⟨zu, zd, zm⟩, ⟨ud, um⟩, dm⟩
  obtain ⟨c3, c3', hdis, hsplit⟩ := sixAround_split hnd
  unfold executeTwoSix
  rw [if_neg (by simp [h.lower])]
  simp only
  rw [e4, ← hm, insertInFacet_of_site26 hK h]
  simp only
  rw [if_neg]
  · rw [if_neg (by simp)]
    exact ⟨_, rfl, rfl, rfl, rfl⟩
  · rw [not_not]
    have : ∀ K1 : Tri V, K1.cells = (K.cells \ {({x, y, z, u} : Finset V), ({x, y, z, d} : Finset V)}) ∪
        sixAround x y z u d m → K1.vertexCells m = sixAround x y z u d m := by
      intro K1 hK1
      ext c
      rw [mem_vertexCells, hK1]
      simp only [Finset.mem_union, Finset.mem_sdiff]
      constructor
      · rintro ⟨⟨h1, -⟩ | h1, h2⟩
        · exact absurd (mem_vertices.2 ⟨c, h1, h2⟩) hnew
        · exact h1
      · intro hc
        refine ⟨.inr hc, ?_⟩
        simp only [sixAround, Finset.mem_insert, Finset.mem_singleton] at hc
        rcases hc with rfl | rfl | rfl | rfl | rfl | rfl <;> simp
    rw [this _ rfl, hsplit, Finset.card_union_of_disjoint hdis, c3, c3']

/-! ### (6,2) -/

theorem canonicalPoints_singleton (w : V) : canonicalPoints ({w} : Finset V) = [w] := by
  have hp : (canonicalPoints ({w} : Finset V)).Perm [w] :=
    (List.perm_ext_iff_of_nodup (nodup_canonicalPoints _) (List.nodup_singleton w)).2
      (fun v => by rw [mem_canonicalPoints]; simp)
  exact List.perm_singleton.1 hp

theorem flipFirst_isSome {K : Tri V} {v w : V} : ∀ {edges : List (Finset V)}, ({v, w} : Finset V) ∈ edges →
    v ≠ w → K.time v ≠ K.time w → (∃ K1, K.flipEdge v w = some K1) → ∃ K1, flipFirst K v edges = some K1
  | e :: es, h, hvw, ht, hf => by
    rcases List.mem_cons.1 h with rfl | h
    · have : ({v, w} : Finset V).erase v = {w} := by
        ext u; simp only [Finset.mem_erase, Finset.mem_insert, Finset.mem_singleton]; grind
      obtain ⟨K1, hf⟩ := hf
      refine ⟨K1, ?_⟩
      rw [flipFirst, this, canonicalPoints_singleton]
      simp only [List.head?_cons]
      rw [if_pos ht, hf]
    · obtain ⟨K1, ih⟩ := flipFirst_isSome h hvw ht hf
      rw [flipFirst]
      split
      · exact ⟨K1, ih⟩
      · split_ifs
        · split
          · exact ⟨_, rfl⟩
          · exact ⟨K1, ih⟩
        · exact ⟨K1, ih⟩

/-- After flipping one apex edge the vertex has degree four and the complex is still closed. -/
theorem flip_apex {K K1 : Tri V} (hK : Closed K.cells) {v x y z a b : V} (hn : [v, x, y, z, a, b].Nodup)
    (hst : K.vertexCells v = {{v, a, x, y}, {v, a, x, z}, {v, a, y, z}, {v, b, x, y}, {v, b, x, z}, {v, b, y, z}})
    (ea : K.edgeCells v a = {{v, a, x, y}, {v, a, x, z}, {v, a, y, z}})
    (hfree : ({x, y, z} : Finset V) ∉ faces K.cells) (hinf : K.inf ∉ [v, x, y, z, a, b])
    (h : K.flipEdge v a = some K1) : K1.degree v = 4 ∧ Closed K1.cells := by
  have hn' := hn
  simp only [List.nodup_cons, List.mem_cons, List.not_mem_nil, or_false, not_or, not_false_eq_true,
    List.nodup_nil, and_true] at hn
  obtain ⟨⟨vx, vy, vz, va, vb⟩, ⟨xy, xz, xa, xb⟩, ⟨yz, ya, yb⟩, ⟨za, zb⟩, ab⟩ := hn
  simp only [List.mem_cons, List.not_mem_nil, or_false, not_or] at hinf
  have hnd5 : [v, a, x, y, z].Nodup := by
    simp only [List.nodup_cons, List.mem_cons, List.not_mem_nil, or_false, not_or, not_false_eq_true,
      List.nodup_nil, and_true]
    exact ⟨⟨va, vx, vy, vz⟩, ⟨Ne.symm xa, Ne.symm ya, Ne.symm za⟩, ⟨xy, xz⟩, yz⟩
  rw [flipEdge_of_site32 hnd5 (by rw [cellsAt_pair]; exact ea) hfree] at h
  injection h with h
  subst h
  constructor
  · unfold Tri.degree
    have hcells : Tri.vertexCells { K with cells :=
      (K.cells \ {({v, a, x, y} : Finset V), ({v, a, x, z} : Finset V), ({v, a, y, z} : Finset V)}) ∪
        {({v, x, y, z} : Finset V), ({a, x, y, z} : Finset V)} } v =
        {{v, b, x, y}, {v, b, x, z}, {v, b, y, z}, {v, x, y, z}} := by
      ext c
      rw [mem_vertexCells]
      simp only [Finset.mem_union, Finset.mem_sdiff, Finset.mem_insert, Finset.mem_singleton, not_or]
      constructor
      · rintro ⟨⟨h1, n1, n2, n3⟩ | rfl | rfl, h2⟩
        · have := mem_vertexCells.2 ⟨h1, h2⟩
          rw [hst] at this
          simp only [Finset.mem_insert, Finset.mem_singleton] at this
          rcases this with h | h | h | h | h | h
          · exact absurd h n1
          · exact absurd h n2
          · exact absurd h n3
          · exact .inl h
          · exact .inr (.inl h)
          · exact .inr (.inr (.inl h))
        · exact .inr (.inr (.inr rfl))
        · simp [va, vx, vy, vz] at h2
      · have nb : ∀ p q r s : V, b ≠ p → b ≠ q → b ≠ r → b ≠ s → ∀ c d : V, ({v, b, c, d} : Finset V) ≠ {p, q, r, s} := by
          intro p q r s h1 h2 h3 h4 c d he
          have : b ∈ ({p, q, r, s} : Finset V) := he ▸ by simp
          exact notMem_four h1 h2 h3 h4 this
        have bv := Ne.symm vb; have ba := Ne.symm ab; have bx := Ne.symm xb; have by' := Ne.symm yb
        have bz := Ne.symm zb
        have inK : ∀ c, c ∈ K.vertexCells v → c ∈ K.cells := fun c hc => (mem_vertexCells.1 hc).1
        rintro (rfl | rfl | rfl | rfl)
        · exact ⟨.inl ⟨inK _ (by rw [hst]; simp), nb _ _ _ _ bv ba bx by' _ _, nb _ _ _ _ bv ba bx bz _ _,
            nb _ _ _ _ bv ba by' bz _ _⟩, by simp⟩
        · exact ⟨.inl ⟨inK _ (by rw [hst]; simp), nb _ _ _ _ bv ba bx by' _ _, nb _ _ _ _ bv ba bx bz _ _,
            nb _ _ _ _ bv ba by' bz _ _⟩, by simp⟩
        · exact ⟨.inl ⟨inK _ (by rw [hst]; simp), nb _ _ _ _ bv ba bx by' _ _, nb _ _ _ _ bv ba bx bz _ _,
            nb _ _ _ _ bv ba by' bz _ _⟩, by simp⟩
        · exact ⟨.inr (.inl rfl), by simp⟩
    rw [hcells]
    have : (((({{v, b, x, y}, {v, b, x, z}, {v, b, y, z}, {v, x, y, z}} : Finset (Finset V)).biUnion id)).erase v) =
        {x, y, z, b} := by
      ext w
      simp only [Finset.mem_erase, Finset.mem_biUnion, Finset.mem_insert, Finset.mem_singleton, id]
      constructor
      · rintro ⟨hne, c, hc, hw⟩
        rcases hc with rfl | rfl | rfl | rfl <;>
          simp only [Finset.mem_insert, Finset.mem_singleton] at hw <;>
          rcases hw with rfl | rfl | rfl | rfl <;> first | exact absurd rfl hne | simp
      · rintro (rfl | rfl | rfl | rfl)
        · exact ⟨Ne.symm vx, {v, w, y, z}, by simp, by simp⟩
        · exact ⟨Ne.symm vy, {v, x, w, z}, by simp, by simp⟩
        · exact ⟨Ne.symm vz, {v, x, y, w}, by simp, by simp⟩
        · exact ⟨Ne.symm vb, {v, w, x, y}, by simp, by simp⟩
    rw [this, Finset.card_insert_of_notMem (by simp [xy, xz, xb]), Finset.card_insert_of_notMem (by simp [yz, yb]),
      Finset.card_pair zb]
  · -- the flip is a placement of the (3,2) pattern, whatever the times
    have inj : Function.Injective ![v, a, x, y, z] :=
      inj5 va vx vy vz (Ne.symm xa) (Ne.symm ya) (Ne.symm za) xy xz yz
    let p : Pattern 5 := { p23up with τ := fun i => K.time (emb5 v a x y z inj i) }
    have hg : p.rev.Good := by
      have := good23upR
      exact ⟨this.lost, this.gained, this.newCells, this.oldCells, this.deg⟩
    have hpl : Placed p.rev K.inf K.time K.cells (emb5 v a x y z inj) 0 := by
      have hO : place (emb5 v a x y z inj) p.rev.O = {{v, a, x, y}, {v, a, x, z}, {v, a, y, z}} :=
        (place23 (f := emb5 v a x y z inj) (.inl rfl)).2.1
      have hc1 : p.rev.coreO.map (emb5 v a x y z inj) = {v, a} :=
        (place23 (f := emb5 v a x y z inj) (p := p23up) (.inl rfl)).2.2.2
      have hc2 : p.rev.coreN.map (emb5 v a x y z inj) = {x, y, z} :=
        (place23 (f := emb5 v a x y z inj) (p := p23up) (.inl rfl)).2.2.1
      refine ⟨?_, ?_, ?_, ?_, ?_⟩
      · intro c hc
        have : c.map (emb5 v a x y z inj) ∈ place (emb5 v a x y z inj) p.rev.O := map_mem_place.2 hc
        rw [hO, ← ea] at this
        exact (mem_edgeCells.1 this).1
      · intro c hc hs
        rw [hO, ← ea]
        rw [hc1] at hs
        exact mem_edgeCells.2 ⟨hc, hs (by simp), hs (by simp)⟩
      · rw [hc2]; exact hfree
      · intro i
        obtain ⟨h1, h2, h3, h4, h5, h6⟩ := hinf
        fin_cases i
        · exact Ne.symm h1
        · exact Ne.symm h5
        · exact Ne.symm h2
        · exact Ne.symm h3
        · exact Ne.symm h4
      · intro i; show _ = 0 + K.time _; rw [zero_add]
    have hc := closed_replace hg hpl hK
    have hr : replace p.rev K.cells (emb5 v a x y z inj) =
        (K.cells \ {({v, a, x, y} : Finset V), ({v, a, x, z} : Finset V), ({v, a, y, z} : Finset V)}) ∪
        {({v, x, y, z} : Finset V), ({a, x, y, z} : Finset V)} := by
      unfold replace
      have hO : place (emb5 v a x y z inj) p.rev.O = {{v, a, x, y}, {v, a, x, z}, {v, a, y, z}} :=
        (place23 (f := emb5 v a x y z inj) (.inl rfl)).2.1
      have hN : place (emb5 v a x y z inj) p.rev.N = {{v, x, y, z}, {a, x, y, z}} :=
        (place23 (f := emb5 v a x y z inj) (.inl rfl)).1
      rw [hO, hN]
    rw [hr] at hc
    exact hc

theorem census_N3 {K : Tri V} (hK : ∀ c ∈ K.cells, c.card = 4) (time : V → ℤ) :
    (census K.inf time K.cells).N3 = K.finiteCells.card := by
  show count K.inf K.cells (fun s => s.card = 4) = _
  unfold count
  congr 2
  ext c
  simp only [Finset.mem_filter, mem_finiteCells]
  constructor
  · rintro ⟨⟨h1, h2⟩, h3⟩; exact ⟨(face_four hK h3).1 h1, h2⟩
  · rintro ⟨h1, h2⟩; exact ⟨⟨mem_faces.2 ⟨c, h1, subset_rfl⟩, h2⟩, hK c h1⟩

theorem census_N0 {K : Tri V} (time : V → ℤ) : (census K.inf time K.cells).N0 = K.finiteVerts.card :=
  count_vertices K.inf K.cells

theorem apex_edge {K : Tri V} {x y z u d m : V} (hn : [x, y, z, u, d, m].Nodup)
    (e : cellsAt K.cells {m} = sixAround x y z u d m) :
    K.edgeCells m u = {{m, u, x, y}, {m, u, x, z}, {m, u, y, z}} ∧
    K.edgeCells m d = {{m, d, x, y}, {m, d, x, z}, {m, d, y, z}} ∧
    K.vertexCells m = {{m, u, x, y}, {m, u, x, z}, {m, u, y, z}, {m, d, x, y}, {m, d, x, z}, {m, d, y, z}} := by
  simp only [List.nodup_cons, List.mem_cons, List.not_mem_nil, or_false, not_or, not_false_eq_true,
    List.nodup_nil, and_true] at hn
  obtain ⟨⟨xy, xz, xu, xd, xm⟩, ⟨yz, yu, yd, ym⟩, ⟨zu, zd, zm⟩, ⟨ud, um⟩, dm⟩ := hn
  rw [cellsAt_one, sixAround] at e
  have r : ∀ p q w : V, ({p, q, m, w} : Finset V) = {m, w, p, q} := by
    intro p q w; ext v; simp only [Finset.mem_insert, Finset.mem_singleton]; tauto
  simp only [r] at e
  have hmem : ∀ c w, c ∈ K.edgeCells m w ↔ c ∈ K.vertexCells m ∧ w ∈ c := by
    intro c w; rw [mem_edgeCells, mem_vertexCells, and_assoc]
  have no : ∀ {p q w w' : V}, w ≠ m → w ≠ w' → w ≠ p → w ≠ q → w ∉ ({m, w', p, q} : Finset V) :=
    fun h1 h2 h3 h4 => notMem_four h1 h2 h3 h4
  refine ⟨?_, ?_, e⟩
  · ext c
    rw [hmem, e]
    simp only [Finset.mem_insert, Finset.mem_singleton]
    constructor
    · rintro ⟨rfl | rfl | rfl | rfl | rfl | rfl, hw⟩
      · exact .inl rfl
      · exact .inr (.inl rfl)
      · exact .inr (.inr rfl)
      · exact absurd hw (no um ud (Ne.symm xu) (Ne.symm yu))
      · exact absurd hw (no um ud (Ne.symm xu) (Ne.symm zu))
      · exact absurd hw (no um ud (Ne.symm yu) (Ne.symm zu))
    · rintro (rfl | rfl | rfl) <;> simp
  · ext c
    rw [hmem, e]
    simp only [Finset.mem_insert, Finset.mem_singleton]
    constructor
    · rintro ⟨rfl | rfl | rfl | rfl | rfl | rfl, hw⟩
      · exact absurd hw (no dm (Ne.symm ud) (Ne.symm xd) (Ne.symm yd))
      · exact absurd hw (no dm (Ne.symm ud) (Ne.symm xd) (Ne.symm zd))
      · exact absurd hw (no dm (Ne.symm ud) (Ne.symm yd) (Ne.symm zd))
      · exact .inl rfl
      · exact .inr (.inl rfl)
      · exact .inr (.inr rfl)
    · rintro (rfl | rfl | rfl) <;> simp

/-- A (6,2) site executes, for every state of the generator, exactly when the slice triangle
under the vertex is not already a triangle of the complex. -/
theorem executeSixTwo_iff (hl : env.Lawful) {K : Tri V} (hK : Sound env K) {x y z u d m : V}
    (h : Site62 K.inf K.time K.cells x y z u d m) (g : G) :
    (∃ K', (executeSixTwo env (fun _ => true) K m g).1 = .ok K') ↔ ({x, y, z} : Finset V) ∉ faces K.cells := by
  have hnd := h.distinct
  have hfin := h.finite
  obtain ⟨eu, ed, hst⟩ := apex_edge h.distinct h.degree
  obtain ⟨s1, s2, s3⟩ := h.slice
  have tu := h.above
  have td := h.below
  have hnd' := hnd
  simp only [List.nodup_cons, List.mem_cons, List.not_mem_nil, or_false, not_or, not_false_eq_true,
    List.nodup_nil, and_true] at hnd'
  obtain ⟨⟨xy, xz, xu, xd, xm⟩, ⟨yz, yu, yd, ym⟩, ⟨zu, zd, zm⟩, ⟨ud, um⟩, dm⟩ := hnd'
  have hfin' := hfin
  simp only [List.mem_cons, List.not_mem_nil, or_false, not_or] at hfin'
  obtain ⟨f1, f2, f3, f4, f5, f6⟩ := hfin'
  -- any timelike edge at `m` goes to one of the apexes
  have hapex : ∀ {e : Finset V}, e ∈ (env.shuffle (canonicalize (env.iter K (incidentEdges K m))) g).1 →
      ∀ w ∈ e.erase m, K.time m ≠ K.time w → w = u ∨ w = d := by
    intro e hee w hw htw
    obtain ⟨hve, _, _, c, hc, hec⟩ := mem_edges_shuffle hl hee
    have hwc : c ∈ K.vertexCells m := mem_vertexCells.2 ⟨hc, hec hve⟩
    have hwm : w ∈ c := hec (Finset.mem_of_mem_erase hw)
    have hwu : w ≠ m := Finset.ne_of_mem_erase hw
    rw [hst] at hwc
    simp only [Finset.mem_insert, Finset.mem_singleton] at hwc
    have hall : w = x ∨ w = y ∨ w = z ∨ w = u ∨ w = d := by
      rcases hwc with rfl | rfl | rfl | rfl | rfl | rfl <;>
        simp only [Finset.mem_insert, Finset.mem_singleton] at hwm <;>
        rcases hwm with h | h | h | h <;>
        first | exact absurd h hwu | simp only [h, true_or, or_true]
    rcases hall with rfl | rfl | rfl | h | h
    · exact absurd s3 htw
    · exact absurd (s3.trans s1.symm) htw
    · exact absurd (s3.trans s2.symm) htw
    · exact .inl h
    · exact .inr h
  have nu : [m, x, y, z, u, d].Nodup := by
    simp only [List.nodup_cons, List.mem_cons, List.not_mem_nil, or_false, not_or, not_false_eq_true,
      List.nodup_nil, and_true]
    exact ⟨⟨Ne.symm xm, Ne.symm ym, Ne.symm zm, Ne.symm um, Ne.symm dm⟩, ⟨xy, xz, xu, xd⟩, ⟨yz, yu, yd⟩,
      ⟨zu, zd⟩, ud⟩
  have nd : [m, x, y, z, d, u].Nodup := by
    simp only [List.nodup_cons, List.mem_cons, List.not_mem_nil, or_false, not_or, not_false_eq_true,
      List.nodup_nil, and_true]
    exact ⟨⟨Ne.symm xm, Ne.symm ym, Ne.symm zm, Ne.symm dm, Ne.symm um⟩, ⟨xy, xz, xd, xu⟩, ⟨yz, yd, yu⟩,
      ⟨zd, zu⟩, Ne.symm ud⟩
  have lu := link_of_three (Ne.symm um) (Ne.symm xm) (Ne.symm ym) (Ne.symm zm) (Ne.symm xu) (Ne.symm yu)
    (Ne.symm zu) eu
  have ld := link_of_three (Ne.symm dm) (Ne.symm xm) (Ne.symm ym) (Ne.symm zm) (Ne.symm xd) (Ne.symm yd)
    (Ne.symm zd) ed
  constructor
  · rintro ⟨K', hK'⟩
    obtain ⟨K1, hf, -, -, -⟩ := executeSixTwo_ok (g' := (executeSixTwo env (fun _ => true) K m g).2)
      (by rw [← hK'])
    obtain ⟨e, hee, w, hw, htw, hflip⟩ := flipFirst_some hf
    obtain ⟨-, hno, -⟩ := flipEdge_some hflip
    rw [faces_iff]
    rcases hapex hee w hw htw with rfl | rfl
    · rw [lu] at hno; exact hno
    · rw [ld] at hno; exact hno
  · intro hfree
    have mK : ∀ c ∈ K.vertexCells m, c ∈ K.cells := fun c hc => (mem_vertexCells.1 hc).1
    have hcm : ({m, u, x, y} : Finset V) ∈ K.cells := mK _ (by rw [hst]; simp)
    have hmv : m ∈ K.finiteVerts := mem_finiteVerts.2 ⟨Ne.symm f6, _, hcm, by simp⟩
    -- the upper apex edge is among the candidates and can be flipped
    have hedge : ({m, u} : Finset V) ∈ (env.shuffle (canonicalize (env.iter K (incidentEdges K m))) g).1 := by
      rw [(hl.shuffle_perm _ g).mem_iff, mem_canonicalize, hl.mem_iter]
      refine Finset.mem_filter.2 ⟨mem_finiteEdges.2 ⟨mem_faces.2 ⟨_, hcm, ?_⟩, ?_, ?_⟩, by simp⟩
      · intro v hv
        simp only [Finset.mem_insert, Finset.mem_singleton] at hv
        rcases hv with rfl | rfl <;> simp
      · simp only [Finset.mem_insert, Finset.mem_singleton, not_or]; exact ⟨f6, f4⟩
      · exact Finset.card_pair (Ne.symm um)
    obtain ⟨K1, hf⟩ := flipFirst_isSome (K := K) hedge (Ne.symm um) (by omega)
      ⟨_, flipEdge_of_site32 (by
        simp only [List.nodup_cons, List.mem_cons, List.not_mem_nil, or_false, not_or, not_false_eq_true,
          List.nodup_nil, and_true]
        exact ⟨⟨Ne.symm um, Ne.symm xm, Ne.symm ym, Ne.symm zm⟩, ⟨Ne.symm xu, Ne.symm yu, Ne.symm zu⟩, ⟨xy, xz⟩, yz⟩)
        (by rw [cellsAt_pair]; exact eu) hfree⟩
    obtain ⟨e, hee, w, hw, htw, hflip⟩ := flipFirst_some hf
    have hstm : ∀ c, c ∈ K.vertexCells m ↔ c ∈ K.edgeCells m u ∨ c ∈ K.edgeCells m d := by
      intro c
      rw [hst, eu, ed]
      simp only [Finset.mem_insert, Finset.mem_singleton, or_assoc]
    have hdis : ∀ c, c ∈ K.edgeCells m u → c ∈ K.edgeCells m d → False := by
      intro c h1 h2
      rw [eu] at h1
      have := (mem_edgeCells.1 h2).2.2
      simp only [Finset.mem_insert, Finset.mem_singleton] at h1
      rcases h1 with rfl | rfl | rfl <;>
        simp [dm, Ne.symm ud, Ne.symm xd, Ne.symm yd, Ne.symm zd] at this
    have hres : K1.degree m = 4 ∧ Closed K1.cells ∧
        (K1.removeVertex m).cells = (K.cells \ K.vertexCells m) ∪ {{x, y, z, u}, {x, y, z, d}} ∧
        (K1.removeVertex m).inf = K.inf ∧ (K1.removeVertex m).time = K.time := by
      rcases hapex hee w hw htw with rfl | rfl
      · obtain ⟨a1, a2⟩ := flip_apex hK.closed nu hst eu hfree (by simp [f1, f2, f3, f4, f5, f6]) hflip
        obtain ⟨-, b1, b2, b3, -⟩ := remove_bipyramid (Ne.symm xm) (Ne.symm ym) (Ne.symm zm) (Ne.symm um) (Ne.symm dm)
          (Ne.symm xu) (Ne.symm yu) (Ne.symm zu) hstm eu ed (fun c h1 h2 => hdis c h2 h1) hflip
        exact ⟨a1, a2, b1, b2, b3⟩
      · have hst' : K.vertexCells m =
            {{m, w, x, y}, {m, w, x, z}, {m, w, y, z}, {m, u, x, y}, {m, u, x, z}, {m, u, y, z}} := by
          ext c
          rw [hstm, eu, ed]
          simp only [Finset.mem_insert, Finset.mem_singleton]
          constructor
          · rintro ((h | h | h) | (h | h | h)) <;> simp [h]
          · rintro (h | h | h | h | h | h) <;> simp [h]
        obtain ⟨a1, a2⟩ := flip_apex hK.closed nd hst' ed hfree (by simp [f1, f2, f3, f4, f5, f6]) hflip
        obtain ⟨-, b1, b2, b3, -⟩ := remove_bipyramid (Ne.symm xm) (Ne.symm ym) (Ne.symm zm) (Ne.symm dm) (Ne.symm um)
          (Ne.symm xd) (Ne.symm yd) (Ne.symm zd) (fun c => (hstm c).trans or_comm) ed eu hdis hflip
        rw [Finset.pair_comm ({x, y, z, w} : Finset V)] at b1
        exact ⟨a1, a2, b1, b2, b3⟩
    obtain ⟨hdeg, hcl1, hcells, hinf, htime⟩ := hres
    have inj : Function.Injective ![x, y, z, u, d, m] :=
      inj6 xy xz xu xd xm yz yu yd ym zu zd zm ud um dm
    have hst3 : K.vertexCells m =
        {{m, x, y, u}, {m, x, z, u}, {m, y, z, u}, {m, x, y, d}, {m, x, z, d}, {m, y, z, d}} := by
      rw [hst, rot4 m u x y, rot4 m u x z, rot4 m u y z, rot4 m d x y, rot4 m d x z, rot4 m d y z]
    have hfinc : ∀ c ∈ K.vertexCells m, K.inf ∉ c := by
      intro c hc
      rw [hst] at hc
      simp only [Finset.mem_insert, Finset.mem_singleton] at hc
      rcases hc with rfl | rfl | rfl | rfl | rfl | rfl <;> apply notMem_four <;> assumption
    obtain ⟨hpl, hr⟩ := placed62 inj hst3 (faces_iff.1 hfree) hfinc
      ⟨s3.symm, s1.trans s3.symm, s2.trans s3.symm, by omega, by omega⟩
    set K2 := K1.removeVertex m with hK2
    have hcl2 : Closed K2.cells := by rw [hcells, ← hr]; exact closed_replace good62 hpl hK.closed
    have hcen : census K2.inf K.time K2.cells = census K.inf K.time K.cells + (p26 0).rev.delta := by
      rw [hinf, hcells, ← hr]; exact census_replace good62 hpl
    rw [delta62] at hcen
    have c3 : K2.finiteCells.card + 4 = K.finiteCells.card := by
      have := congrArg Census.N3 hcen
      rw [census_N3 hcl2.1, Census.add_def, census_N3 hK.closed.1] at this
      dsimp only at this
      omega
    have c0 : K2.finiteVerts.card + 1 = K.finiteVerts.card := by
      have := congrArg Census.N0 hcen
      rw [census_N0, Census.add_def, census_N0] at this
      dsimp only at this
      omega
    have hcausal : Causal K2.inf K2.time K2.cells := by
      rw [hinf, htime, hcells, ← hr]
      exact causal_replace timed62 hpl hK.causal
    have hno : ¬ ∃ c ∈ K2.finiteCells, K2.expectedType c = .acausal ∨ K2.expectedType c = .unclassified := by
      rintro ⟨c, hc, hbad⟩
      obtain ⟨h1, h2⟩ := mem_finiteCells.1 hc
      have h4 := hcl2.1 c h1
      have : K2.expectedType c = .threeOne ∨ K2.expectedType c = .twoTwo ∨ K2.expectedType c = .oneThree := by
        rcases hcausal c h1 h2 with h | h | h
        · exact .inl ((expectedType_threeOne h4).2 h)
        · exact .inr (.inl ((expectedType_twoTwo h4).2 h))
        · exact .inr (.inr ((expectedType_oneThree h4).2 h))
      rcases this with h | h | h <;> rw [h] at hbad <;> rcases hbad with hbad | hbad <;> cases hbad
    refine ⟨relabel K2, ?_⟩
    unfold executeSixTwo
    rw [if_neg (not_not.2 hmv)]
    rcases hsh : env.shuffle (canonicalize (env.iter K (incidentEdges K m))) g with ⟨edges, g'⟩
    rw [hsh] at hf
    dsimp only at hf ⊢
    rw [hf]
    dsimp only
    rw [if_neg (by simp [hdeg, isValid_iff.2 hcl1]), ← hK2, if_neg (by simp [isValid_iff.2 hcl2, c3, c0]), if_neg hno]

end CDT

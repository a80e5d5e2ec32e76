/-
C33: what the search functions `do_*_move` find.  C34: the choice of a site does not depend on
the storage order of the triangulation.
-/
import Verif.Lemmas.SearchMore
import Verif.Props.Moves

namespace CDT.Props
open CDT Spec Cavity Moves

variable {V G S P T : Type}

/-! ### C33: the loop -/

/-- C33.  The search returns a value exactly when the sites split into a prefix on which every
attempt failed and a first site on which the attempt succeeded; the value is that attempt's. -/
theorem C33_first_success {prep : S → Except MoveFailure P} {exec : P → G → Except MoveFailure T × G}
    {l : List S} {e : MoveFailure} {g : G} {r : T} {g' : G} :
    searchSites prep exec l e g = (.ok r, g') ↔
      ∃ pre s post, l = pre ++ s :: post ∧ ∃ e1 g1, searchSites prep exec pre e g = (.error e1, g1) ∧
        ∃ p, prep s = .ok p ∧ exec p g1 = (.ok r, g') := by
  constructor
  · intro h
    obtain ⟨pre, s, post, h1, e1, g1, h2, h3⟩ := searchSites_split h
    exact ⟨pre, s, post, h1, e1, g1, h2, attempt_ok h3⟩
  · rintro ⟨pre, s, post, rfl, e1, g1, h2, p, h3, h4⟩
    rw [searchSites_append _ h2, searchSites_cons, attempt, h3]
    dsimp only
    rw [h4]

/-- C33.  Sites after the first success have no influence on the result. -/
theorem C33_suffix_irrelevant {prep : S → Except MoveFailure P} {exec : P → G → Except MoveFailure T × G}
    {pre post post' : List S} {s : S} {e e1 : MoveFailure} {g g1 g' : G} {p : P} {r : T}
    (h1 : searchSites prep exec pre e g = (.error e1, g1)) (h2 : prep s = .ok p) (h3 : exec p g1 = (.ok r, g')) :
    searchSites prep exec (pre ++ s :: post) e g = searchSites prep exec (pre ++ s :: post') e g := by
  rw [C33_first_success.2 ⟨pre, s, post, rfl, e1, g1, h1, p, h2, h3⟩,
    C33_first_success.2 ⟨pre, s, post', rfl, e1, g1, h1, p, h2, h3⟩]

/-- C33.  A failed search has attempted every site and reports the error of the last one (or the
initial error if there are no sites). -/
theorem C33_last_error {prep : S → Except MoveFailure P} {exec : P → G → Except MoveFailure T × G}
    {l : List S} {e e1 : MoveFailure} {g g1 : G} (h : searchSites prep exec l e g = (.error e1, g1)) :
    (∀ s ∈ l, (∃ e', prep s = .error e') ∨ ∃ p e' g' g'', prep s = .ok p ∧ exec p g' = (.error e', g'')) ∧
    (l = [] ∧ e1 = e ∨ ∃ pre s, l = pre ++ [s] ∧
      (prep s = .error e1 ∨ ∃ p g', prep s = .ok p ∧ exec p g' = (.error e1, g1))) := by
  obtain ⟨h1, h2⟩ := searchSites_error h
  have conv : ∀ {s : S} {e' : MoveFailure} {g' g'' : G}, attempt prep exec s g' = (.error e', g'') →
      prep s = .error e' ∨ ∃ p, prep s = .ok p ∧ exec p g' = (.error e', g'') := by
    intro s e' g' g'' ha
    unfold attempt at ha
    cases hp : prep s with
    | error e2 => rw [hp] at ha; simp only [Prod.mk.injEq, Except.error.injEq] at ha; exact .inl (by rw [ha.1])
    | ok p => rw [hp] at ha; exact .inr ⟨p, rfl, ha⟩
  refine ⟨?_, ?_⟩
  · intro s hs
    obtain ⟨e', g', g'', ha⟩ := h1 s hs
    rcases conv ha with hx | ⟨p, hx, hy⟩
    · exact .inl ⟨e', hx⟩
    · exact .inr ⟨p, e', g', g'', hx, hy⟩
  · rcases h2 with h2 | ⟨pre, s, h3, g', ha⟩
    · exact .inl h2
    · refine .inr ⟨pre, s, h3, ?_⟩
      rcases conv ha with hx | ⟨p, hx, hy⟩
      · exact .inl hx
      · exact .inr ⟨p, g', hx, hy⟩

variable [LinearOrder V] {env env' : Env V G}

/-- C33.  Every public search function, and every proposal function, reports `NO_CANDIDATE`
exactly when the triangulation has no raw site of the move's kind. -/
theorem C33_no_candidate_iff (hl : env.Lawful) (mv : MoveType) (K : Tri V) (g : G) :
    ((∃ g', doMove env mv K g = (.error .noCandidate, g')) ↔ rawSites env K mv = []) ∧
    ((∃ g', propose env mv K g = (.error .noCandidate, g')) ↔ rawSites env K mv = []) := by
  constructor
  · unfold doMove
    have hsh := hl.shuffle_perm (canonicalize (rawSites env K mv)) g
    rcases hr : env.shuffle (canonicalize (rawSites env K mv)) g with ⟨sites, g1⟩
    rw [hr] at hsh
    have hnil : sites = [] ↔ rawSites env K mv = [] := by
      rw [← List.length_eq_zero_iff, ← List.length_eq_zero_iff, hsh.length_eq, (canonicalize_perm _).length_eq]
    rw [← hnil]
    have att : ∀ {s g' g''}, attempt (prepare K mv) (execute env K) s g' ≠ (.error .noCandidate, g'') := by
      intro s g' g'' h
      unfold attempt at h
      cases hp : prepare K mv s with
      | error e2 =>
        rw [hp] at h; simp only [Prod.mk.injEq, Except.error.injEq] at h
        exact prepare_ne_noCandidate (h.1 ▸ hp)
      | ok p => rw [hp] at h; exact execute_ne_noCandidate h
    have k1 : (∃ g', searchSites (prepare K mv) (execute env K) sites .noCandidate g1 = (.error .noCandidate, g')) ↔
        sites = [] := by
      constructor
      · rintro ⟨g', h⟩
        rcases (searchSites_error h).2 with ⟨h, _⟩ | ⟨pre, s, _, g', h⟩
        · exact h
        · exact absurd h att
      · rintro rfl; exact ⟨g1, rfl⟩
    have k2 : (∃ g', searchSites26 (prepare K mv) (execute env K) sites .noCandidate g1 = (.error .noCandidate, g')) ↔
        sites = [] := by
      constructor
      · rintro ⟨g', h⟩
        rcases searchSites26_error h with ⟨h, _⟩ | ⟨pre, s, _, h, _⟩ | ⟨pre, s, post, p, _, _, _, h⟩
        · exact h
        · exact absurd h prepare_ne_noCandidate
        · exact absurd h execute_ne_noCandidate
      · rintro rfl; exact ⟨g1, rfl⟩
    have conv : ∀ r : Except MoveFailure (Tri V) × G,
        (∃ g', (r.1.map (makeManifold env), r.2) = (.error .noCandidate, g')) ↔ ∃ g', r = (.error .noCandidate, g') := by
      rintro ⟨e | K1, g2⟩ <;> simp [Except.map]
    dsimp only
    rw [conv]
    cases mv <;> first | exact k1 | exact k2
  · unfold propose
    constructor
    · rintro ⟨g', h⟩
      by_contra hne
      have h0 : ¬ (rawSites env K mv).isEmpty = true := by rw [List.isEmpty_iff]; exact hne
      have hc : canonicalRandomElement env (rawSites env K mv) g ≠ (none, (canonicalRandomElement env (rawSites env K mv) g).2) := by
        intro hc
        unfold canonicalRandomElement at hc
        rw [if_neg h0] at hc
        have hlt := hl.index_lt (rawSites env K mv).length g (List.length_pos_iff.2 hne)
        rcases hi : env.index (rawSites env K mv).length g with ⟨i, g1⟩
        rw [hi] at hc hlt
        dsimp only at hc hlt
        injection hc with hc _
        rw [List.getElem?_eq_none_iff,
          (hl.nth siteLe (rawSites env K mv) i siteLe_total (fun _ _ _ => siteLe_trans)).1.length_eq] at hc
        omega
      rcases hc' : canonicalRandomElement env (rawSites env K mv) g with ⟨_ | s, g1⟩
      · exact hc (by rw [hc'])
      · rw [hc'] at h
        dsimp only at h
        cases hp : prepare K mv s with
        | error e =>
          rw [hp] at h
          simp only [Prod.mk.injEq, Except.error.injEq] at h
          exact prepare_ne_noCandidate (h.1 ▸ hp)
        | ok p =>
          rw [hp] at h
          dsimp only at h
          rcases hx : execute env K p g1 with ⟨e | K1, g2⟩
          · rw [hx] at h
            simp only [Prod.mk.injEq, Except.error.injEq] at h
            exact execute_ne_noCandidate (by rw [hx, h.1])
          · rw [hx] at h; simp at h
    · intro h
      rw [h]
      simp [canonicalRandomElement]

/-! ### C33: when the five search functions succeed -/

theorem rawCell_finite (hl : env.Lawful) {K : Tri V} {ct : CellType} {s : Finset V}
    (h : s ∈ cellSites env K ct) : s ∈ K.finiteCells := by
  simp only [cellSites, List.mem_filter] at h
  exact (hl.mem_iter _ _ _).1 h.1

/-- C33.  `do_23_move` succeeds, whatever the generator state, exactly when the complex has a
(2,3) site that is the first one of its (2,2) tetrahedron, whose new edge does not exist yet, and
which passes CGAL's orientation test. -/
theorem C33_two_three_succeeds_iff (hl : env.Lawful) {K : Tri V} (hK : Sound env K) (g : G) :
    (∃ K' g', doMove env .twoThree K g = (.ok K', g')) ↔
      ∃ p q x y z, Site23 K.inf K.time K.cells p q x y z ∧ FirstSite23 K {p, x, y, z} p ∧
        ({p, q} : Finset V) ∉ faces K.cells ∧ env.geoFacet K {p, x, y, z} p = true := by
  constructor
  · rintro ⟨K', g', h⟩
    obtain ⟨s, hs, pr, K1, g1, g2, hp, he, -⟩ := doMove_ok hl h
    have hsf := rawCell_finite hl hs
    simp only [prepare, Except.map] at hp
    cases hq : prepareTwoThree K s with
    | error e => rw [hq] at hp; simp at hp
    | ok mm =>
      rw [hq] at hp
      obtain ⟨c, i⟩ := mm
      injection hp with hp
      subst hp
      obtain ⟨rfl, ⟨q, x, y, z, hs0, e0⟩, hleast⟩ := (prepareTwoThree_iff hK hsf).1 hq
      simp only [execute, Prod.mk.injEq] at he
      replace he := he.1
      rw [e0, executeTwoThree_iff hK.closed hs0] at he
      rcases ite_eq_iff.1 he with ⟨⟨hf, hgeo⟩, -⟩ | ⟨-, he⟩
      · exact ⟨i, q, x, y, z, hs0, e0 ▸ hleast, hf, hgeo⟩
      · simp at he
  · rintro ⟨p, q, x, y, z, hs, hfirst, hf, hgeo⟩
    have hfi := hs.finite
    simp only [List.mem_cons, List.not_mem_nil, or_false, not_or] at hfi
    have hfin : ({p, x, y, z} : Finset V) ∈ K.finiteCells :=
      mem_finiteCells.2 ⟨hs.left, notMem_four hfi.1 hfi.2.2.1 hfi.2.2.2.1 hfi.2.2.2.2⟩
    refine doMove_of_site hl (by decide) ((cell_rawSite hl hK hfin).1 hs.mixed)
      (p := .twoThree ({p, x, y, z}, p)) ?_ ?_ g
    · simp only [prepare]
      rw [(prepareTwoThree_iff hK hfin).2 ⟨rfl, ⟨q, x, y, z, hs, rfl⟩, hfirst⟩]
      rfl
    · intro g
      simp only [execute]
      rw [executeTwoThree_iff hK.closed hs, if_pos ⟨hf, hgeo⟩]
      exact ⟨_, rfl⟩

/-- The two points of an edge site, in order. -/
theorem canonicalPoints_two {s : Finset V} {a b : V} (h : canonicalPoints s = [a, b]) :
    a < b ∧ s = {a, b} := by
  have hs : ({a, b} : Finset V) = s := by
    ext v; rw [← mem_canonicalPoints (s := s), h]; simp
  have hn := nodup_canonicalPoints s
  have hp := pairwise_canonicalPoints s
  rw [h] at hn hp
  simp at hn hp
  exact ⟨lt_of_le_of_ne hp hn, hs.symm⟩

theorem canonicalPoints_of_lt {a b : V} (h : a < b) : canonicalPoints ({a, b} : Finset V) = [a, b] := by
  rcases canonicalPoints_pair h.ne with h' | h'
  · exact h'
  · have := (canonicalPoints_two h').1
    exact absurd h this.asymm

/-- C33.  `do_32_move` succeeds exactly when the complex has a (3,2) site whose new triangle does
not exist yet and which passes CGAL's orientation test. -/
theorem C33_three_two_succeeds_iff (hl : env.Lawful) {K : Tri V} (hK : Sound env K) (g : G) :
    (∃ K' g', doMove env .threeTwo K g = (.ok K', g')) ↔
      ∃ a b x y z, a < b ∧ Site32 K.inf K.time K.cells a b x y z ∧
        ({x, y, z} : Finset V) ∉ faces K.cells ∧ env.geoEdge K a b = true := by
  constructor
  · rintro ⟨K', g', h⟩
    obtain ⟨s, hs, pr, K1, g1, g2, hp, he, -⟩ := doMove_ok hl h
    simp only [prepare] at hp
    rcases hcp : canonicalPoints s with _ | ⟨a, _ | ⟨b, _ | ⟨c, l⟩⟩⟩ <;> rw [hcp] at hp <;>
      try (simp at hp; done)
    simp only [Except.map] at hp
    cases hq : prepareThreeTwo K a b with
    | error e => rw [hq] at hp; simp at hp
    | ok mm =>
      rw [hq] at hp
      injection hp with hp
      subst hp
      obtain ⟨rfl, x, y, z, hs0⟩ := (prepareThreeTwo_iff hK).1 hq
      simp only [execute, Prod.mk.injEq] at he
      replace he := he.1
      rw [executeThreeTwo_iff hs0] at he
      rcases ite_eq_iff.1 he with ⟨⟨hf, hgeo⟩, -⟩ | ⟨-, he⟩
      · exact ⟨a, b, x, y, z, (canonicalPoints_two hcp).1, hs0, hf, hgeo⟩
      · simp at he
  · rintro ⟨a, b, x, y, z, hlt, hs, hf, hgeo⟩
    have hfi := hs.finite
    simp only [List.mem_cons, List.not_mem_nil, or_false, not_or] at hfi
    have ht : K.time a ≠ K.time b := by
      rcases time_of_site32 hs with ⟨t, _, _, _, h | h⟩ | ⟨t, _, _, _, h | h⟩ <;> omega
    have hface : ({a, b} : Finset V) ∈ faces K.cells := by
      have : ({a, b, x, y} : Finset V) ∈ cellsAt K.cells {a, b} := by rw [hs.degree]; simp
      simp only [cellsAt, Finset.mem_filter] at this
      exact mem_faces.2 ⟨_, this.1, this.2⟩
    refine doMove_of_site hl (by decide) ((edge_rawSite hl hlt.ne hface hfi.1 hfi.2.1).1 ht)
      (p := .threeTwo (a, b)) ?_ ?_ g
    · simp only [prepare, canonicalPoints_of_lt hlt]
      rw [(prepareThreeTwo_iff hK).2 ⟨rfl, x, y, z, hs⟩]
      rfl
    · intro g
      simp only [execute]
      rw [executeThreeTwo_iff hs, if_pos ⟨hf, hgeo⟩]
      exact ⟨_, rfl⟩

/-- C33.  `do_44_move` succeeds exactly when the complex has a (4,4) site whose new diagonal does
not exist yet. -/
theorem C33_four_four_succeeds_iff (hl : env.Lawful) {K : Tri V} (hK : Sound env K) (g : G) :
    (∃ K' g', doMove env .fourFour K g = (.ok K', g')) ↔
      ∃ a b x y u d, Site44 K.inf K.time K.cells a b x y u d ∧ ({x, y} : Finset V) ∉ faces K.cells := by
  constructor
  · rintro ⟨K', g', h⟩
    obtain ⟨s, hs, pr, K1, g1, g2, hp, he, -⟩ := doMove_ok hl h
    simp only [prepare] at hp
    rcases hcp : canonicalPoints s with _ | ⟨a, _ | ⟨b, _ | ⟨c, l⟩⟩⟩ <;> rw [hcp] at hp <;>
      try (simp at hp; done)
    simp only [Except.map] at hp
    cases hq : prepareFourFour K a b with
    | error e => rw [hq] at hp; simp at hp
    | ok mm =>
      rw [hq] at hp
      injection hp with hp
      subst hp
      obtain ⟨x, y, u, d, rfl, hs0⟩ := (prepareFourFour_iff hK).1 hq
      simp only [execute, Prod.mk.injEq] at he
      exact ⟨a, b, x, y, u, d, hs0, (executeFourFour_iff hK.closed hs0).1 ⟨K1, he.1⟩⟩
  · rintro ⟨a0, b0, x, y, u, d, hs0, hf⟩
    have hne : a0 ≠ b0 := by
      have := hs0.distinct
      simp only [List.nodup_cons, List.mem_cons, not_or] at this
      exact this.1.1
    have main : ∀ a b, a < b → Site44 K.inf K.time K.cells a b x y u d →
        ∃ K' g', doMove env .fourFour K g = (.ok K', g') := by
      intro a b hlt hs
      have hfi := hs.finite
      simp only [List.mem_cons, List.not_mem_nil, or_false, not_or] at hfi
      have hface : ({a, b} : Finset V) ∈ faces K.cells := by
        have : ({a, b, x, u} : Finset V) ∈ cellsAt K.cells {a, b} := by rw [hs.degree]; simp
        simp only [cellsAt, Finset.mem_filter] at this
        exact mem_faces.2 ⟨_, this.1, this.2⟩
      refine doMove_of_site hl (by decide) ((edge_rawSite hl hlt.ne hface hfi.1 hfi.2.1).2 hs.slice.1.symm)
        (p := .fourFour ⟨a, b, u, d⟩) ?_ ?_ g
      · simp only [prepare, canonicalPoints_of_lt hlt]
        rw [prepare_of_site44 hK hs]
        rfl
      · intro g
        exact (executeFourFour_iff hK.closed hs).2 hf
    rcases lt_or_gt_of_ne hne with hlt | hlt
    · exact main a0 b0 hlt hs0
    · exact main b0 a0 hlt (site44_swap hs0)

/-- C33.  `do_62_move` succeeds exactly when the complex has a (6,2) site whose triangle does not
exist yet. -/
theorem C33_six_two_succeeds_iff (hl : env.Lawful) {K : Tri V} (hK : Sound env K) (g : G) :
    (∃ K' g', doMove env .sixTwo K g = (.ok K', g')) ↔
      ∃ x y z u d m, Site62 K.inf K.time K.cells x y z u d m ∧ ({x, y, z} : Finset V) ∉ faces K.cells := by
  constructor
  · rintro ⟨K', g', h⟩
    obtain ⟨s, hs, pr, K1, g1, g2, hp, he, -⟩ := doMove_ok hl h
    simp only [prepare] at hp
    rcases hcp : canonicalPoints s with _ | ⟨a, _ | ⟨b, l⟩⟩ <;> rw [hcp] at hp <;>
      try (simp at hp; done)
    simp only [Except.map] at hp
    cases hq : prepareSixTwo K a with
    | error e => rw [hq] at hp; simp at hp
    | ok mm =>
      rw [hq] at hp
      injection hp with hp
      subst hp
      obtain ⟨rfl, x, y, z, u, d, hs0⟩ := (prepareSixTwo_iff hK).1 hq
      simp only [execute] at he
      exact ⟨x, y, z, u, d, mm, hs0, (executeSixTwo_iff hl hK hs0 g1).1 ⟨K1, by rw [he]⟩⟩
  · rintro ⟨x, y, z, u, d, m, hs, hf⟩
    have hfi := hs.finite
    simp only [List.mem_cons, List.not_mem_nil, or_false, not_or] at hfi
    have hmv : m ∈ K.finiteVerts := by
      refine Finset.mem_erase.2 ⟨Ne.symm hfi.2.2.2.2.2, ?_⟩
      have : ({x, y, m, u} : Finset V) ∈ cellsAt K.cells {m} := by rw [hs.degree]; simp [sixAround]
      simp only [cellsAt, Finset.mem_filter] at this
      exact mem_vertices.2 ⟨_, this.1, by simp⟩
    refine doMove_of_site hl (by decide) (vertex_rawSite hl hmv) (p := .sixTwo m) ?_ ?_ g
    · simp only [prepare, canonicalPoints_singleton]
      rw [(prepareSixTwo_iff hK).2 ⟨rfl, x, y, z, u, d, hs⟩]
      rfl
    · intro g
      exact (executeSixTwo_iff hl hK hs g).2 hf

/-- C33.  If no triangle's centroid is already a vertex, `do_26_move` succeeds exactly when the
complex has a (2,6) site. -/
theorem C33_two_six_succeeds_iff (hl : env.Lawful) {K : Tri V} (hK : Sound env K) (hfr : FreshCentroids env K)
    (g : G) :
    (∃ K' g', doMove env .twoSix K g = (.ok K', g')) ↔
      ∃ x y z u d, Site26 K.inf K.time K.cells x y z u d := by
  constructor
  · rintro ⟨K', g', h⟩
    obtain ⟨s, hs, pr, K1, g1, g2, hp, he, -⟩ := doMove_ok hl h
    have hsf := rawCell_finite hl hs
    simp only [prepare, Except.map] at hp
    cases hq : prepareTwoSix K s with
    | error e => rw [hq] at hp; simp at hp
    | ok mm =>
      obtain ⟨c, i⟩ := mm
      obtain ⟨-, x, y, z, u, h0, -⟩ := (prepareTwoSix_iff hK hsf).1 hq
      exact ⟨x, y, z, u, i, h0⟩
  · rintro ⟨x, y, z, u, d, hs⟩
    have hfi := hs.finite
    simp only [List.mem_cons, List.not_mem_nil, or_false, not_or] at hfi
    have hfin : ({x, y, z, d} : Finset V) ∈ K.finiteCells :=
      mem_finiteCells.2 ⟨hs.lower, notMem_four hfi.1 hfi.2.1 hfi.2.2.1 hfi.2.2.2.2⟩
    have hraw := (cell_rawSite (env := env) hl hK hfin).2 (site26_types hs).2
    unfold doMove
    have hsh := hl.shuffle_perm (canonicalize (rawSites env K .twoSix)) g
    rcases hr : env.shuffle (canonicalize (rawSites env K .twoSix)) g with ⟨sites, g1⟩
    rw [hr] at hsh
    dsimp only
    have hm : ({x, y, z, d} : Finset V) ∈ sites := hsh.mem_iff.2 (mem_canonicalize.2 hraw)
    rcases hq : searchSites26 (prepare K .twoSix) (execute env K) sites .noCandidate g1 with ⟨e | K1, g2⟩
    · exfalso
      have hprep : prepare K .twoSix {x, y, z, d} = .ok (.twoSix ({x, y, z, d}, d)) := by
        simp only [prepare]; rw [prepare_of_site26 hK hs]; rfl
      have bad : ∀ {s : Finset V} {e' : MoveFailure}, s = {x, y, z, d} → prepare K .twoSix s ≠ .error e' := by
        rintro s e' rfl h; rw [hprep] at h; simp at h
      rcases searchSites26_error hq with ⟨rfl, _⟩ | ⟨pre, s, rfl, h1, h2⟩ | ⟨pre, s, post, p, rfl, h1, h2, h3⟩
      · simp at hm
      · rcases List.mem_append.1 hm with hm | hm
        · obtain ⟨e', h2⟩ := h2 _ hm; exact bad rfl h2
        · exact bad (List.mem_singleton.1 hm).symm h1
      · have hsf : s ∈ K.finiteCells := rawCell_finite hl
          (mem_canonicalize.1 (hsh.mem_iff.1 (by simp)) : s ∈ rawSites env K .twoSix)
        simp only [prepare, Except.map] at h2
        cases hq2 : prepareTwoSix K s with
        | error e => rw [hq2] at h2; simp at h2
        | ok mm =>
          rw [hq2] at h2
          obtain ⟨c, i⟩ := mm
          injection h2 with h2
          subst h2
          obtain ⟨rfl, x', y', z', u', h0, e0⟩ := (prepareTwoSix_iff hK hsf).1 hq2
          have hn0 := h0.distinct
          simp only [List.nodup_cons, List.mem_cons, List.not_mem_nil, or_false, not_or, not_false_eq_true,
            List.nodup_nil, and_true] at hn0
          have hf0 := h0.finite
          simp only [List.mem_cons, List.not_mem_nil, or_false, not_or] at hf0
          have hfresh := (hfr {x', y', z'} (mem_faces.2 ⟨_, h0.upper, by
            intro v; simp only [Finset.mem_insert, Finset.mem_singleton]; tauto⟩)
            (Finset.card_eq_three.2 ⟨x', y', z', hn0.1.1, hn0.1.2.1, hn0.2.1.1, rfl⟩)
            (by simp [hf0.1, hf0.2.1, hf0.2.2.1])).1
          obtain ⟨K2, hK2, -⟩ := executeTwoSix_succeeds (env := env) hK.closed h0 hfresh
          simp only [execute, Prod.mk.injEq] at h3
          rw [e0, hK2] at h3
          simp at h3
    · exact ⟨_, _, rfl⟩

/-! ### C34 -/

/-- Two environments that agree on geometry, labels and random draws, but whose containers
iterate in different orders and whose `nth_element` rearranges differently. -/
structure SameUpToStorage (env env' : Env V G) : Prop where
  geoFacet : env'.geoFacet = env.geoFacet
  geoEdge : env'.geoEdge = env.geoEdge
  centroid : env'.centroid = env.centroid
  label : env'.label = env.label
  index : env'.index = env.index
  shuffle : ∀ {α : Type} (l : List α) g, env'.shuffle l g = env.shuffle l g

/-- C34.  The chosen element depends only on the set of sites and the drawn index: reordering the
list, or replacing `nth_element` by any other conforming implementation, changes nothing. -/
theorem C34_choice_order_independent (hl : env.Lawful) (hl' : env'.Lawful) (h : env'.index = env.index)
    {l l' : List (Finset V)} (hp : l'.Perm l) (g : G) :
    canonicalRandomElement env' l' g = canonicalRandomElement env l g := by
  unfold canonicalRandomElement
  have hlen := hp.length_eq
  by_cases h0 : l.isEmpty
  · rw [List.isEmpty_iff] at h0; subst h0
    rw [List.perm_nil.1 hp]; rfl
  · have h0' : ¬ l'.isEmpty = true := by
      rw [List.isEmpty_iff] at h0 ⊢; rintro rfl; exact h0 (List.nil_perm.1 hp)
    rw [if_neg h0, if_neg h0', h, hlen]
    rcases env.index l.length g with ⟨i, g1⟩
    dsimp only
    rw [nth_eq_sorted (hl.nth siteLe _ _ siteLe_total (fun _ _ _ => siteLe_trans)),
      nth_eq_sorted (hl'.nth siteLe _ _ siteLe_total (fun _ _ _ => siteLe_trans)), canonicalize_congr hp]

/-- C34.  The choice is a bijection between the indices the generator can draw and the sites of a
duplicate-free list: every site is chosen by exactly one index, so a uniform index gives a uniform
site. -/
theorem C34_index_bijection (hl : env.Lawful) {l : List (Finset V)} (hn : l.Nodup) :
    ∃ f : Fin l.length ≃ {s // s ∈ l}, ∀ g (h : (env.index l.length g).1 < l.length),
      (canonicalRandomElement env l g).1 = some (f ⟨(env.index l.length g).1, h⟩).1 := by
  have hlen : (canonicalize l).length = l.length := (canonicalize_perm l).length_eq
  have hnd : (canonicalize l).Nodup := (canonicalize_perm l).nodup_iff.2 hn
  let f : Fin l.length → {s // s ∈ l} := fun i =>
    ⟨(canonicalize l)[i.1]'(by rw [hlen]; exact i.2), mem_canonicalize.1 (List.getElem_mem _)⟩
  have hf : Function.Bijective f := by
    constructor
    · intro i j hij
      have := congrArg Subtype.val hij
      exact Fin.ext ((hnd.getElem_inj_iff).1 this)
    · rintro ⟨s, hs⟩
      obtain ⟨i, hi, he⟩ := List.mem_iff_getElem.1 (mem_canonicalize.2 hs)
      exact ⟨⟨i, by rw [← hlen]; exact hi⟩, Subtype.ext he⟩
  refine ⟨Equiv.ofBijective f hf, ?_⟩
  intro g h
  unfold canonicalRandomElement
  have hne : ¬ l.isEmpty = true := by
    rw [List.isEmpty_iff]; rintro rfl; simp at h
  rw [if_neg hne]
  show (env.nth siteLe l (env.index l.length g).1)[(env.index l.length g).1]? = _
  rw [nth_eq_sorted (hl.nth siteLe _ _ siteLe_total (fun _ _ _ => siteLe_trans))]
  exact List.getElem?_eq_getElem _

theorem rawSites_perm (hl : env.Lawful) (hl' : env'.Lawful) (K : Tri V) (mv : MoveType) :
    (rawSites env' K mv).Perm (rawSites env K mv) := by
  have it : ∀ S, (env'.iter K S).Perm (env.iter K S) := fun S =>
    (List.perm_ext_iff_of_nodup (hl'.iter_nodup _ _) (hl.iter_nodup _ _)).2
      (fun s => by rw [hl'.mem_iter, hl.mem_iter])
  cases mv <;> simp only [rawSites, cellSites, edgeSites, vertexSites] <;>
    first | exact (it _).filter _ | exact it _

theorem rawSites_nodup (hl : env.Lawful) (K : Tri V) (mv : MoveType) : (rawSites env K mv).Nodup := by
  cases mv <;> simp only [rawSites, cellSites, edgeSites, vertexSites] <;>
    first | exact (hl.iter_nodup _ _).filter _ | exact hl.iter_nodup _ _

theorem execute_storage (hl : env.Lawful) (hl' : env'.Lawful) (h : SameUpToStorage env env') (K : Tri V)
    (p : Prepared V) (g : G) : execute env' K p g = execute env K p g := by
  cases p with
  | twoThree m => simp only [execute, executeTwoThree, checkedFlipFacet, h.geoFacet]
  | threeTwo m => simp only [execute, executeThreeTwo, checkedFlipEdge, h.geoEdge]
  | twoSix m => simp only [execute, executeTwoSix, h.centroid]
  | sixTwo v =>
    have it : (env'.iter K (incidentEdges K v)).Perm (env.iter K (incidentEdges K v)) :=
      (List.perm_ext_iff_of_nodup (hl'.iter_nodup _ _) (hl.iter_nodup _ _)).2
        (fun s => by rw [hl'.mem_iter, hl.mem_iter])
    simp only [execute, executeSixTwo, canonicalize_congr it, h.shuffle]
  | fourFour m => simp only [execute]

/-- C34.  The results of all ten public move functions, and the generator state they leave, do not
depend on the storage order of the triangulation or on the implementation of `nth_element`. -/
theorem C34_moves_order_independent (hl : env.Lawful) (hl' : env'.Lawful) (h : SameUpToStorage env env')
    (mv : MoveType) (K : Tri V) (g : G) :
    doMove env' mv K g = doMove env mv K g ∧ propose env' mv K g = propose env mv K g := by
  have hx : execute env' K = execute env K := by
    funext p g; exact execute_storage hl hl' h K p g
  have hm : makeManifold env' = makeManifold env := by
    funext K; simp only [makeManifold, h.label]
  constructor
  · unfold doMove
    rw [canonicalize_congr (rawSites_perm hl hl' K mv), h.shuffle, hx, hm]
  · unfold propose
    rw [C34_choice_order_independent hl hl' h.index (rawSites_perm hl hl' K mv), hx, hm]

/-- C34, for proposals: one raw site, chosen bijectively from the drawn index. -/
theorem C34_proposal_site_bijection (hl : env.Lawful) (K : Tri V) (mv : MoveType) :
    ∃ f : Fin (rawSites env K mv).length ≃ {s // s ∈ rawSites env K mv},
      ∀ g (h : (env.index (rawSites env K mv).length g).1 < (rawSites env K mv).length),
      (canonicalRandomElement env (rawSites env K mv) g).1 =
        some (f ⟨(env.index (rawSites env K mv).length g).1, h⟩).1 :=
  C34_index_bijection hl (rawSites_nodup hl K mv)

/-! ### The hypotheses are met -/

/-- An environment that stores everything in reverse order. -/
def Fixture.envReversed : Env ℕ ℕ :=
  { Fixture.env with iter := fun _ S => (canonSites S).reverse }

theorem Fixture.lawfulReversed : Fixture.envReversed.Lawful :=
  { Fixture.lawful with
    iter_nodup := fun _ S => List.nodup_reverse.2 (nodup_canonSites S)
    mem_iter := fun _ _ _ => by simp [Fixture.envReversed, mem_canonSites] }

example : SameUpToStorage Fixture.env Fixture.envReversed ∧
    rawSites Fixture.envReversed Fixture.k32 .threeTwo ≠ rawSites Fixture.env Fixture.k32 .threeTwo :=
  ⟨⟨rfl, rfl, rfl, rfl, rfl, fun _ _ => rfl⟩, by decide +kernel⟩

example : ∃ K' g', doMove Fixture.env .threeTwo Fixture.k32 0 = (.ok K', g') := by
  have hs : (Fixture.cellsOf (doMove Fixture.env .threeTwo Fixture.k32 0)).isSome := by decide +kernel
  rcases hr : doMove Fixture.env .threeTwo Fixture.k32 0 with ⟨e | K', g'⟩
  · rw [hr] at hs; simp [Fixture.cellsOf] at hs
  · exact ⟨K', g', rfl⟩

/-- No (6,2) site exists in the (2,3) example, so `do_62_move` fails there with an error other than
`NO_CANDIDATE`. -/
example : rawSites Fixture.env Fixture.k23 .sixTwo ≠ [] ∧
    (Fixture.cellsOf (doMove Fixture.env .sixTwo Fixture.k23 0)) = none := by decide +kernel

end CDT.Props

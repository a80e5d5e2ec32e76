/-
C25: moves can be undone.
-/
import Verif.Lemmas.Undo
import Verif.Props.Moves

namespace CDT.Props
open CDT Spec Cavity Moves

variable {V G : Type} [LinearOrder V] {env : Env V G}

/-- C25.  After every successful (2,3) move some draw of the (3,2) proposal returns exactly the
manifold before the move, provided CGAL's orientation test accepts the edge just created. -/
theorem C25_two_three_undone (hl : env.Lawful) (ho : Onto env) {K K' : Tri V} (hK : Sound env K)
    (h : MoveReturns env .twoThree K K')
    (hgeo : ∀ a b, ({a, b} : Finset V) ∈ faces K'.cells → ({a, b} : Finset V) ∉ faces K.cells →
      env.geoEdge K' a b = true) :
    ∃ K'', MoveReturns env .threeTwo K' K'' ∧ SameManifold K K'' := by
  have he := effect_of_move hl (by decide) hK h
  obtain ⟨hi, ⟨p, q, x, y, z, hm⟩, -, ht⟩ := C19_two_three_effect hl hK h
  obtain ⟨K'', h1, h2, h3⟩ := undo23 hl ho he.sound hi ht hm (by
    intro a b e
    apply hgeo a b
    · rw [e]; exact gained_kept hm.simplices (by simp)
    · rw [e]; exact hm.simplices.absent _ (by simp))
  exact ⟨K'', h1, same_of_cells hK (effect_of_move hl (by decide) he.sound h1).sound h3 h2⟩

/-- C25.  After every successful (4,4) move some draw of the (4,4) proposal returns exactly the
manifold before the move. -/
theorem C25_four_four_undone (hl : env.Lawful) (ho : Onto env) {K K' : Tri V} (hK : Sound env K)
    (h : MoveReturns env .fourFour K K') :
    ∃ K'', MoveReturns env .fourFour K' K'' ∧ SameManifold K K'' := by
  have he := effect_of_move hl (by decide) hK h
  obtain ⟨hi, ⟨a, b, x, y, u, d, hm⟩, -, ht⟩ := C23_four_four_effect hl hK h
  obtain ⟨K'', h1, h2, h3⟩ := undo44 hl ho he.sound hi ht hm
  exact ⟨K'', h1, same_of_cells hK (effect_of_move hl (by decide) he.sound h1).sound h3 h2⟩

/-- C25.  After every (2,6) move whose result `check_move` accepts, some draw of the (6,2)
proposal returns exactly the manifold before the move. -/
theorem C25_two_six_undone (hl : env.Lawful) (ho : Onto env) {K K' : Tri V} (hK : Sound env K)
    (hfr : FreshCentroids env K) (h : MoveReturns env .twoSix K K') {cs cs' : Caches V}
    (hb : buildCaches env K = .ok cs) (hb' : buildCaches env K' = .ok cs') (r s : BitVec 64)
    (hcheck : checkMove (viewOf r s K cs) (viewOf r s K' cs') .twoSix = true) :
    ∃ K'', MoveReturns env .sixTwo K' K'' ∧ SameManifold K K'' := by
  obtain ⟨x, y, z, u, d, m, hm, htm⟩ := (C21_check_move_iff_slice hl hK hfr h hb hb' r s).1 hcheck
  obtain ⟨hi, _, _, old⟩ := C21_two_six_subdivision hl hK hfr h
  have he := effect26 hl hK hfr h (by rw [hi]; exact causal_of_move26 hK.causal hm old htm)
  obtain ⟨K'', h1, h2, h3⟩ := undo26 hl ho he.sound hi old hm htm
  exact ⟨K'', h1, same_of_cells hK (effect_of_move hl (by decide) he.sound h1).sound h3 h2⟩

/-- C25.  After every successful (6,2) move at `m` some draw of the (2,6) proposal re-inserts the
vertex: the result is the original complex with `m` moved to the centroid of its triangle
(provided that point is not occupied). -/
theorem C25_six_two_undone (hl : env.Lawful) (ho : Onto env) {K K' : Tri V} (hK : Sound env K)
    (h : MoveReturns env .sixTwo K K') :
    ∃ x y z u d m, Move62 K.inf K.time K.cells K'.cells x y z u d m ∧
      (env.centroid {x, y, z} ∉ vertices K'.cells →
        ∃ K'', MoveReturns env .twoSix K' K'' ∧ K''.inf = K.inf ∧
          K''.cells = K.cells.image (fun c => c.image (fun v => if v = m then env.centroid {x, y, z} else v))) := by
  have he := effect_of_move hl (by decide) hK h
  obtain ⟨hi, ⟨x, y, z, u, d, m, hm⟩, -, ht⟩ := C22_six_two_effect hl hK h
  exact ⟨x, y, z, u, d, m, hm, undo62 hl ho he.sound hi ht hm⟩

/-- C25.  A (3,2) move can be undone by the (2,3) move exactly when the created triangle is the
first one, in point order of the opposite vertex, at which the created (2,2) tetrahedron `pxyz`
admits a (2,3) move, and CGAL's orientation test accepts it.  Otherwise no draw of either public
(2,3) function returns the original manifold (finding 1 in DESIGN.md). -/
theorem C25_three_two_undone_iff (hl : env.Lawful) (ho : Onto env) {K K' : Tri V} (hK : Sound env K)
    (h : MoveReturns env .threeTwo K K') :
    ∃ p q x y z, Move32 K.inf K.time K.cells K'.cells p q x y z ∧
      ((∃ K'', MoveReturns env .twoThree K' K'' ∧ SameManifold K K'') ↔
        env.geoFacet K' {p, x, y, z} p = true ∧ FirstSite23 K' {p, x, y, z} p) := by
  have he := effect_of_move hl (by decide) hK h
  obtain ⟨hi, ⟨p, q, x, y, z, hm⟩, -, ht⟩ := C20_three_two_effect hl hK h
  refine ⟨p, q, x, y, z, hm, ?_⟩
  rw [← undo32 hl ho he.sound hi ht hm]
  constructor
  · rintro ⟨K'', h1, h2⟩; exact ⟨K'', h1, h2.cells, h2.inf⟩
  · rintro ⟨K'', h1, h2, h3⟩
    exact ⟨K'', h1, same_of_cells hK (effect_of_move hl (by decide) he.sound h1).sound h3 h2⟩

/-! ### The hypotheses are met -/

theorem Fixture.onto : Onto Fixture.env := fun _ i h => ⟨i, Nat.mod_eq_of_lt h⟩

example : ∃ K' K'', MoveReturns Fixture.env .twoThree Fixture.k23 K' ∧
    MoveReturns Fixture.env .threeTwo K' K'' ∧ SameManifold Fixture.k23 K'' := by
  obtain ⟨K', h⟩ := Fixture.returns23
  obtain ⟨K'', h'⟩ := C25_two_three_undone Fixture.lawful Fixture.onto Fixture.sound23 h (fun _ _ _ _ => rfl)
  exact ⟨K', K'', h, h'⟩

example : ∃ K' K'', MoveReturns Fixture.env .fourFour Fixture.k44 K' ∧
    MoveReturns Fixture.env .fourFour K' K'' ∧ SameManifold Fixture.k44 K'' := by
  obtain ⟨K', h⟩ := Fixture.returns44
  obtain ⟨K'', h'⟩ := C25_four_four_undone Fixture.lawful Fixture.onto Fixture.sound44 h
  exact ⟨K', K'', h, h'⟩

example : ∃ K' K'', MoveReturns Fixture.env .twoSix Fixture.k26 K' ∧
    MoveReturns Fixture.env .sixTwo K' K'' ∧ SameManifold Fixture.k26 K'' := by
  have key : ((doMove Fixture.env .twoSix Fixture.k26 0).1.toOption.bind fun K' =>
      (buildCaches Fixture.env Fixture.k26).toOption.bind fun cs =>
      (buildCaches Fixture.env K').toOption.map fun cs' =>
        checkMove (viewOf 0 0 Fixture.k26 cs) (viewOf 0 0 K' cs') .twoSix) = some true := by decide +kernel
  rcases hr : doMove Fixture.env .twoSix Fixture.k26 0 with ⟨e | K', g⟩
  · rw [hr] at key; simp [Except.toOption] at key
  · rw [hr] at key
    cases hb : buildCaches Fixture.env Fixture.k26 with
    | error e => rw [hb] at key; simp [Except.toOption] at key
    | ok cs =>
      cases hb' : buildCaches Fixture.env K' with
      | error e => simp [Except.toOption, hb, hb'] at key
      | ok cs' =>
        simp only [Except.toOption, hb, hb', Option.bind_some, Option.map_some, Option.some.injEq] at key
        obtain ⟨K'', h'⟩ := C25_two_six_undone Fixture.lawful Fixture.onto Fixture.sound26 Fixture.fresh26
          ⟨0, g, .inl hr⟩ hb hb' 0 0 key
        exact ⟨K', K'', ⟨0, g, .inl hr⟩, h'⟩

example : ∃ K', MoveReturns Fixture.env .sixTwo Fixture.k62 K' ∧ Sound Fixture.env Fixture.k62 :=
  Fixture.returns62.imp (fun _ h => ⟨h, Fixture.sound62⟩)

/-- A ball in which the (3,2) move at the edge {52, 61} creates the (2,2) tetrahedron
{12, 31, 41, 52}, which already had a neighbour {21, 31, 41, 52} of type (3,1) across the
facet opposite its first vertex 12. -/
def Fixture.kOneWay : Tri ℕ :=
  Fixture.ball {{52, 61, 12, 31}, {52, 61, 12, 41}, {52, 61, 31, 41}, {21, 31, 41, 52}}

theorem Fixture.soundOneWay : Sound Fixture.env Fixture.kOneWay :=
  Fixture.sound_of (by decide +kernel) (by decide +kernel) (by decide +kernel) (by decide +kernel)

/-- The state after the (3,2) move. -/
def Fixture.kOneWay' : Tri ℕ :=
  match propose Fixture.env .threeTwo Fixture.kOneWay 6 with
  | (.ok K, _) => K
  | _ => Fixture.kOneWay

theorem Fixture.returnsOneWay : MoveReturns Fixture.env .threeTwo Fixture.kOneWay Fixture.kOneWay' := by
  have hs : (Fixture.cellsOf (propose Fixture.env .threeTwo Fixture.kOneWay 6)).isSome := by decide +kernel
  unfold Fixture.kOneWay'
  rcases hr : propose Fixture.env .threeTwo Fixture.kOneWay 6 with ⟨e | K, g⟩
  · rw [hr] at hs; simp [Fixture.cellsOf] at hs
  · exact ⟨6, g, .inr hr⟩

/-- C25, finding 1.  There is a sound manifold with a successful (3,2) move that no draw of
`do_23_move` or `propose_23_move` can undo, although CGAL accepts every flip and the created
triangle is a legal (2,3) site. -/
theorem C25_three_two_may_be_irreversible :
    Sound Fixture.env Fixture.kOneWay ∧
    MoveReturns Fixture.env .threeTwo Fixture.kOneWay Fixture.kOneWay' ∧
    (∃ p q x y z, Move32 0 Fixture.kOneWay.time Fixture.kOneWay.cells Fixture.kOneWay'.cells p q x y z ∧
      Site23 0 Fixture.kOneWay'.time Fixture.kOneWay'.cells p q x y z) ∧
    ¬ ∃ K'', MoveReturns Fixture.env .twoThree Fixture.kOneWay' K'' ∧ K''.cells = Fixture.kOneWay.cells := by
  refine ⟨Fixture.soundOneWay, Fixture.returnsOneWay, ?_, ?_⟩
  · obtain ⟨hi, ⟨p, q, x, y, z, hm⟩, -, ht⟩ :=
      C20_three_two_effect Fixture.lawful Fixture.soundOneWay Fixture.returnsOneWay
    refine ⟨p, q, x, y, z, hm, ?_⟩
    have := site23_of_move32 hi ht hm
    rw [hi] at this
    exact this
  · rintro ⟨K'', hm, hc⟩
    obtain ⟨s, hs, pr, K1, g1, g2, hp, he, rfl⟩ := moveReturns_ok Fixture.lawful hm
    have key : ∀ s ∈ rawSites Fixture.env Fixture.kOneWay' .twoThree,
        ∀ m ∈ (prepareTwoThree Fixture.kOneWay' s).toOption, ∀ c ∈
          ((executeTwoThree Fixture.env Fixture.kOneWay' m).map (·.cells)).toOption,
          c ≠ Fixture.kOneWay.cells := by decide +kernel
    simp only [prepare, Except.map] at hp
    cases hq : prepareTwoThree Fixture.kOneWay' s with
    | error e => rw [hq] at hp; simp at hp
    | ok m =>
      rw [hq] at hp
      injection hp with hp
      subst hp
      simp only [execute, Prod.mk.injEq] at he
      refine key s hs m (by rw [hq]; rfl) K1.cells (by rw [he.1]; rfl) ?_
      exact hc

end CDT.Props

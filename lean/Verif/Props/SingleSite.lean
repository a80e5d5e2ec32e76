import Verif.Model.SingleSite
import Verif.Lemmas.MoveResult
import Verif.Lemmas.Succeed
import Verif.Lemmas.Sites
import Verif.Spec.Reverse
import Verif.Fixture.Complexes
/-
C116: trying one move at one given site.
-/
namespace CDT.Props
open CDT Spec Moves Cavity
variable {V G : Type} [LinearOrder V] {env : Env V G}

/-- C116. `try_23_move` either returns false and leaves the triangulation exactly as it was, or returns true and has
replaced the given tetrahedron and one neighbour by three tetrahedra around a new timelike edge, a (2,3) move; vertices,
times and labels of other tetrahedra are kept.  No assumption on labels. -/
theorem C116_try_23_effect {K : Tri V} (hK : Closed K.cells) (c : Finset V) :
    let r := tryTwoThree env K c
    (r.1 = false → r.2 = K) ∧
    (r.1 = true → (∃ p q x y z, c = {p, x, y, z} ∧ Move23 K.inf K.time K.cells r.2.cells p q x y z) ∧
      r.2.inf = K.inf ∧ r.2.time = K.time ∧ r.2.info = K.info) := by
  cases hp : prepareTwoThree K c with
  | error e =>
    have e1 : tryTwoThree env K c = (false, K) := by unfold tryTwoThree; rw [hp]
    simp [e1]
  | ok m =>
    cases he : executeTwoThree env K m with
    | error e =>
      have e1 : tryTwoThree env K c = (false, K) := by unfold tryTwoThree; rw [hp]; dsimp only; rw [he]
      simp [e1]
    | ok K' =>
      have e1 : tryTwoThree env K c = (true, K') := by unfold tryTwoThree; rw [hp]; dsimp only; rw [he]
      dsimp only
      rw [e1]
      refine ⟨fun h => absurd h (by simp), fun _ => ?_⟩
      obtain ⟨p, f, t, hpp, hpl, hc, hi, ht, hinfo, e, _⟩ := site23 hK hp he
      exact ⟨⟨f 0, f 1, f 2, f 3, f 4, e, hc ▸ move23_of_placed hpp hpl⟩, hi, ht, hinfo⟩

/-- C116. On a sound triangulation `try_23_move` at a finite tetrahedron returns true exactly if that tetrahedron has a
(2,3) site, the edge to be created at the first of its sites is new, and CGAL's geometric test accepts it. -/
theorem C116_try_23_iff {K : Tri V} (hK : Sound env K) {c : Finset V} (hc : c ∈ finitePart K.inf K.cells) :
    (tryTwoThree env K c).1 = true ↔
      ∃ p q x y z, Site23 K.inf K.time K.cells p q x y z ∧ c = {p, x, y, z} ∧ FirstSite23 K c p ∧
        ({p, q} : Finset V) ∉ faces K.cells ∧ env.geoFacet K c p = true := by
  constructor
  · unfold tryTwoThree
    cases hp : prepareTwoThree K c with
    | error e => simp
    | ok m =>
      obtain ⟨c', i⟩ := m
      obtain ⟨rfl, ⟨q, x, y, z, hs, e⟩, hfirst⟩ := (prepareTwoThree_iff hK hc).1 hp
      have he := executeTwoThree_iff (env := env) hK.closed hs
      rw [← e] at he
      simp only [he]
      split
      · rename_i hcond
        split at hcond
        · simp
        · rename_i hh
          simp
      · rename_i K' hcond
        split at hcond
        · rename_i hh
          exact fun _ => ⟨i, q, x, y, z, hs, e, hfirst, hh.1, hh.2⟩
        · simp at hcond
  · rintro ⟨p, q, x, y, z, hs, e, hfirst, hnew, hgeo⟩
    unfold tryTwoThree
    rw [(prepareTwoThree_iff hK hc).2 ⟨rfl, ⟨q, x, y, z, hs, e⟩, hfirst⟩]
    have he := executeTwoThree_iff (env := env) hK.closed hs
    rw [← e, if_pos ⟨hnew, hgeo⟩] at he
    simp only [he]

/-- C116. `try_32_move` either returns false and leaves the triangulation exactly as it was, or returns true and has
replaced the three tetrahedra at the given edge by two, a (3,2) move. -/
theorem C116_try_32_effect {K : Tri V} (hK : Closed K.cells) (a b : V) :
    let r := tryThreeTwo env K a b
    (r.1 = false → r.2 = K) ∧
    (r.1 = true → (∃ p q x y z, ({p, q} : Finset V) = {a, b} ∧ Move32 K.inf K.time K.cells r.2.cells p q x y z) ∧
      r.2.inf = K.inf ∧ r.2.time = K.time ∧ r.2.info = K.info) := by
  cases hp : prepareThreeTwo K a b with
  | error e =>
    have e1 : tryThreeTwo env K a b = (false, K) := by unfold tryThreeTwo; rw [hp]
    simp [e1]
  | ok m =>
    cases he : executeThreeTwo env K m with
    | error e =>
      have e1 : tryThreeTwo env K a b = (false, K) := by unfold tryThreeTwo; rw [hp]; dsimp only; rw [he]
      simp [e1]
    | ok K' =>
      have e1 : tryThreeTwo env K a b = (true, K') := by unfold tryThreeTwo; rw [hp]; dsimp only; rw [he]
      dsimp only
      rw [e1]
      refine ⟨fun h => absurd h (by simp), fun _ => ?_⟩
      obtain ⟨p, f, t, hpp, hpl, hc, hi, ht, hinfo, e⟩ := site32 hK hp he
      exact ⟨⟨f 0, f 1, f 2, f 3, f 4, e, hc ▸ move32_of_placed hpp hpl⟩, hi, ht, hinfo⟩

/-- C116. On a sound triangulation `try_32_move` returns true exactly if the edge is a (3,2) site, the triangle to be
created is new, and CGAL's geometric test accepts it. -/
theorem C116_try_32_iff {K : Tri V} (hK : Sound env K) (a b : V) :
    (tryThreeTwo env K a b).1 = true ↔
      ∃ x y z, Site32 K.inf K.time K.cells a b x y z ∧ ({x, y, z} : Finset V) ∉ faces K.cells ∧
        env.geoEdge K a b = true := by
  constructor
  · unfold tryThreeTwo
    cases hp : prepareThreeTwo K a b with
    | error e => simp
    | ok m =>
      obtain ⟨rfl, x, y, z, hs⟩ := (prepareThreeTwo_iff hK).1 hp
      have he := executeThreeTwo_iff (env := env) hs
      simp only [he]
      split
      · simp
      · rename_i K' hcond
        split at hcond
        · rename_i hh
          exact fun _ => ⟨x, y, z, hs, hh.1, hh.2⟩
        · simp at hcond
  · rintro ⟨x, y, z, hs, hnew, hgeo⟩
    unfold tryThreeTwo
    rw [(prepareThreeTwo_iff hK).2 ⟨rfl, x, y, z, hs⟩]
    have he := executeThreeTwo_iff (env := env) hs
    rw [if_pos ⟨hnew, hgeo⟩] at he
    simp only [he]

/-- C116. A triangulation returned by `try_62_move`, with any validator, is the given one after the (6,2) move that
removes the given vertex. -/
theorem C116_try_62_effect (hl : env.Lawful) {validator : Tri V → Bool} {K K' : Tri V} (hK : Closed K.cells) (v : V)
    {g g' : G} (h : trySixTwoImpl env validator K v g = (some K', g')) :
    (∃ x y z u d, Move62 K.inf K.time K.cells K'.cells x y z u d v) ∧ K'.inf = K.inf ∧ K'.time = K.time := by
  unfold trySixTwoImpl at h
  cases hp : prepareSixTwo K v with
  | error e => rw [hp] at h; simp at h
  | ok m =>
    rw [hp] at h
    dsimp only at h
    cases he : executeSixTwo env validator K m g with
    | mk r g1 =>
      cases r with
      | error e => rw [he] at h; simp at h
      | ok K1 =>
        rw [he] at h
        simp only [Prod.mk.injEq, Option.some.injEq] at h
        obtain ⟨rfl, rfl⟩ := h
        obtain ⟨f, t, hpl, hc, hi, ht, _, e5, _⟩ := site62 hl hK hp he
        have hm := move62_of_placed hpl
        rw [← hc, e5] at hm
        exact ⟨⟨f 0, f 1, f 2, f 3, f 4, hm⟩, hi, ht⟩

/-- C116. A triangulation returned with a post-mutation validator has passed it: the validator was true of a
triangulation with the same tetrahedra, vertex at infinity and times. -/
theorem C116_try_62_validated {validator : Tri V → Bool} {K K' : Tri V} {v : V} {g g' : G}
    (h : trySixTwoImpl env validator K v g = (some K', g')) :
    ∃ L, L.cells = K'.cells ∧ L.inf = K'.inf ∧ L.time = K'.time ∧ validator L = true := by
  unfold trySixTwoImpl at h
  cases hp : prepareSixTwo K v with
  | error e => rw [hp] at h; simp at h
  | ok m =>
    rw [hp] at h
    dsimp only at h
    cases he : executeSixTwo env validator K m g with
    | mk r g1 =>
      cases r with
      | error e => rw [he] at h; simp at h
      | ok K1 =>
        rw [he] at h
        simp only [Prod.mk.injEq, Option.some.injEq] at h
        obtain ⟨rfl, rfl⟩ := h
        unfold executeSixTwo at he
        split at he
        · simp at he
        · simp only [Prod.mk.injEq] at he
          replace he := he.1
          split at he
          · simp at he
          · rename_i L1 _
            split at he
            · simp at he
            · split at he
              · simp at he
              · rename_i hv
                split at he
                · simp at he
                · simp only [Except.ok.injEq] at he
                  refine ⟨L1.removeVertex m, by rw [← he]; rfl, by rw [← he]; rfl, by rw [← he]; rfl, ?_⟩
                  simp only [Bool.or_eq_true, not_or, Bool.not_eq_true'] at hv
                  simpa using hv.1.1.1

/-- C116. If the vertex is no (6,2) candidate, no random number is drawn. -/
theorem C116_try_62_no_draw {validator : Tri V → Bool} {K : Tri V} (hK : Sound env K) {v : V} (g : G)
    (h : ¬ ∃ x y z u d, Site62 K.inf K.time K.cells x y z u d v) :
    trySixTwoImpl env validator K v g = (none, g) := by
  unfold trySixTwoImpl
  cases hp : prepareSixTwo K v with
  | error e => rfl
  | ok m => exact absurd ((prepareSixTwo_iff hK).1 hp).2 h

/-- C116. On a sound triangulation, whatever the random numbers, `try_62_move` returns a triangulation exactly if the star
of the vertex is a (6,2) site and the slice triangle under it is new. -/
theorem C116_try_62_iff (hl : env.Lawful) {K : Tri V} (hK : Sound env K) (v : V) (g : G) :
    (∃ K', (trySixTwo env K v g).1 = some K') ↔
      ∃ x y z u d, Site62 K.inf K.time K.cells x y z u d v ∧ ({x, y, z} : Finset V) ∉ faces K.cells := by
  have key : ∀ x y z u d, Site62 K.inf K.time K.cells x y z u d v →
      ((∃ K', (trySixTwo env K v g).1 = some K') ↔ ({x, y, z} : Finset V) ∉ faces K.cells) := by
    intro x y z u d hs
    rw [← executeSixTwo_iff hl hK hs g]
    unfold trySixTwo trySixTwoImpl
    rw [(prepareSixTwo_iff hK).2 ⟨rfl, x, y, z, u, d, hs⟩]
    dsimp only
    cases executeSixTwo env (fun _ => true) K v g with
    | mk r g1 => cases r <;> simp
  constructor
  · intro h
    have hs : ∃ x y z u d, Site62 K.inf K.time K.cells x y z u d v := by
      obtain ⟨K', h⟩ := h
      unfold trySixTwo trySixTwoImpl at h
      cases hp : prepareSixTwo K v with
      | error e => rw [hp] at h; simp at h
      | ok m => exact ((prepareSixTwo_iff hK).1 hp).2
    obtain ⟨x, y, z, u, d, hs⟩ := hs
    exact ⟨x, y, z, u, d, hs, (key x y z u d hs).1 h⟩
  · rintro ⟨x, y, z, u, d, hs, hn⟩
    exact (key x y z u d hs).2 hn

/-- Non-vacuity: sound triangulations on which each helper is tried below. -/
example : Sound Fixture.env Fixture.k23 ∧ Sound Fixture.env Fixture.k32 ∧ Sound Fixture.env Fixture.k62 ∧
    Fixture.env.Lawful := ⟨Fixture.sound23, Fixture.sound32, Fixture.sound62, Fixture.lawful⟩

/-- Non-vacuity: each helper succeeds on one fixture and refuses on another. -/
example :
    (tryTwoThree Fixture.env Fixture.k23 {12, 31, 41, 52}).1 = true ∧
    (tryTwoThree Fixture.env Fixture.k23 {21, 31, 41, 52}).1 = false ∧
    (tryThreeTwo Fixture.env Fixture.k32 12 21).1 = true ∧ (tryThreeTwo Fixture.env Fixture.k32 12 31).1 = false ∧
    ((trySixTwo Fixture.env Fixture.k62 62 0).1.map fun K => K.cells) = some Fixture.k26.cells ∧
    (trySixTwo Fixture.env Fixture.k62 12 0).1.isNone = true ∧
    (trySixTwoImpl Fixture.env (fun _ => false) Fixture.k62 62 0).1.isNone = true := by decide +kernel

end CDT.Props

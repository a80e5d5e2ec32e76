/-
Small concrete triangulations and a lawful concrete environment, used only to show that the
hypotheses of the general theorems are met.  Not part of the model of the repository.
Vertices are natural numbers, the vertex at infinity is 0, and the slice of a vertex is its
last decimal digit.
-/
import Verif.Lemmas.Canonical
import Verif.Spec.Sound
import Verif.Lemmas.Mirror

namespace CDT.Fixture
open Spec Moves

/-- A concrete environment: sorted iteration, stable sorting as `nth_element`, identity shuffle,
a counter as generator, and a centroid placed on the triangle's slice. -/
def env : Env ℕ ℕ where
  geoFacet _ _ _ := true
  geoEdge _ _ _ := true
  centroid F := 10 * F.sum id + (F.sum (· % 10)) / 3
  label v := (v % 10 : ℕ)
  iter _ S := canonSites S
  nth le l _ := l.insertionSort (fun a b => le a b = true)
  index n g := (g % n, g / n)
  shuffle l g := (l, g)

theorem lawful : env.Lawful where
  iter_nodup _ S := nodup_canonSites S
  mem_iter _ _ _ := mem_canonSites
  index_lt n g h := Nat.mod_lt g h
  shuffle_perm l _ := List.Perm.refl l
  nth := by
    intro α le l i tot trans
    haveI : Std.Total (fun a b : α => le a b = true) := ⟨tot⟩
    haveI : IsTrans α (fun a b : α => le a b = true) := ⟨trans⟩
    have hs := List.pairwise_insertionSort (fun a b : α => le a b = true) l
    refine ⟨List.perm_insertionSort _ l, fun x hx => ⟨fun j y hj hy => ?_, fun j y hj hy => ?_⟩⟩
    · obtain ⟨h1, rfl⟩ := List.getElem?_eq_some_iff.1 hx
      obtain ⟨h2, rfl⟩ := List.getElem?_eq_some_iff.1 hy
      exact List.pairwise_iff_getElem.1 hs j i h2 h1 hj
    · obtain ⟨h1, rfl⟩ := List.getElem?_eq_some_iff.1 hx
      obtain ⟨h2, rfl⟩ := List.getElem?_eq_some_iff.1 hy
      exact List.pairwise_iff_getElem.1 hs i j h1 h2 hj

/-- The ball with the given tetrahedra, closed by the cells at infinity over its boundary. -/
def ball (cs : Finset (Finset ℕ)) : Tri ℕ :=
  makeManifold env
    { inf := 0
      cells := cs ∪ (((cs.biUnion (Finset.powersetCard 3)).filter
        (fun s => (cs.filter (s ⊆ ·)).card = 1)).image (insert 0))
      time := fun _ => 0
      info := fun _ => 0 }

/-- A (2,2) tetrahedron and a (3,1) tetrahedron sharing a triangle. -/
def k23 : Tri ℕ := ball {{12, 31, 41, 52}, {21, 31, 41, 52}}

/-- Three tetrahedra around a timelike edge. -/
def k32 : Tri ℕ := ball {{12, 21, 31, 41}, {12, 21, 31, 52}, {12, 21, 41, 52}}

/-- A (3,1) above a (1,3) tetrahedron. -/
def k26 : Tri ℕ := ball {{12, 22, 32, 43}, {12, 22, 32, 51}}

/-- Six tetrahedra around a vertex. -/
def k62 : Tri ℕ := ball {{12, 22, 62, 43}, {12, 32, 62, 43}, {22, 32, 62, 43},
  {12, 22, 62, 51}, {12, 32, 62, 51}, {22, 32, 62, 51}}

/-- Four tetrahedra around a spacelike edge. -/
def k44 : Tri ℕ := ball {{12, 22, 32, 53}, {12, 22, 42, 53}, {12, 22, 32, 61}, {12, 22, 42, 61}}

instance {K : Tri ℕ} : Decidable (QuietInfinity K) := by unfold QuietInfinity; infer_instance

/-- Decidable form of soundness. -/
theorem sound_of {K : Tri ℕ} (h1 : K.isValid = true)
    (h2 : ∀ c ∈ K.cells, K.inf ∉ c →
    (K.info c = 31 ∧ HasType K.time 3 1 c) ∨ (K.info c = 22 ∧ HasType K.time 2 2 c) ∨
    (K.info c = 13 ∧ HasType K.time 1 3 c))
    (h3 : ∀ v ∈ vertices K.cells, v ≠ K.inf → K.time v = env.label v) (h4 : QuietInfinity K) :
    Sound env K := ⟨isValid_iff.1 h1, h2, h3, h4⟩

theorem sound23 : Sound env k23 :=
  sound_of (by decide +kernel) (by decide +kernel) (by decide +kernel) (by decide +kernel)
theorem sound32 : Sound env k32 :=
  sound_of (by decide +kernel) (by decide +kernel) (by decide +kernel) (by decide +kernel)
theorem sound26 : Sound env k26 :=
  sound_of (by decide +kernel) (by decide +kernel) (by decide +kernel) (by decide +kernel)
theorem sound62 : Sound env k62 :=
  sound_of (by decide +kernel) (by decide +kernel) (by decide +kernel) (by decide +kernel)
theorem sound44 : Sound env k44 :=
  sound_of (by decide +kernel) (by decide +kernel) (by decide +kernel) (by decide +kernel)

theorem fresh26 : FreshCentroids env k26 := by
  unfold FreshCentroids; decide +kernel

/-- Evaluate a public move function to the set of cells it returns. -/
def cellsOf (r : Except MoveFailure (Tri ℕ) × ℕ) : Option (Finset (Finset ℕ)) :=
  match r with
  | (.ok K, _) => some K.cells
  | _ => none

theorem returns_do {mv : MoveType} {K : Tri ℕ} {g : ℕ} (h : (cellsOf (doMove env mv K g)).isSome) :
    ∃ K', MoveReturns env mv K K' := by
  rcases hr : doMove env mv K g with ⟨e | K', g'⟩
  · rw [hr] at h; simp [cellsOf] at h
  · exact ⟨K', g, g', .inl hr⟩

theorem returns_propose {mv : MoveType} {K : Tri ℕ} {g : ℕ} (h : (cellsOf (propose env mv K g)).isSome) :
    ∃ K', MoveReturns env mv K K' := by
  rcases hr : propose env mv K g with ⟨e | K', g'⟩
  · rw [hr] at h; simp [cellsOf] at h
  · exact ⟨K', g, g', .inr hr⟩

theorem returns23 : ∃ K', MoveReturns env .twoThree k23 K' := returns_do (g := 0) (by decide +kernel)
theorem returns32 : ∃ K', MoveReturns env .threeTwo k32 K' := returns_do (g := 0) (by decide +kernel)
theorem returns26 : ∃ K', MoveReturns env .twoSix k26 K' := returns_do (g := 0) (by decide +kernel)
theorem returns62 : ∃ K', MoveReturns env .sixTwo k62 K' := returns_do (g := 0) (by decide +kernel)
theorem returns44 : ∃ K', MoveReturns env .fourFour k44 K' := returns_do (g := 0) (by decide +kernel)
theorem proposes23 : ∃ K', MoveReturns env .twoThree k23 K' := returns_propose (g := 0) (by decide +kernel)

end CDT.Fixture

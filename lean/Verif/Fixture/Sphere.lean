/-
A small universe whose spatial slices are closed surfaces, used only to show that the hypotheses of
the topological theorems are met.  Not part of the model of the repository.
-/
import Verif.Fixture.Complexes
import Verif.Lemmas.MoveResult

import Verif.Spec.Pachner

namespace CDT.Fixture
open Spec Moves Cavity

/-- The tetrahedra of the universe below, and the four at infinity. -/
def onionCells : Finset (Finset ℕ) :=
  {{51, 12, 22, 32}, {51, 12, 22, 42}, {51, 12, 32, 42}, {51, 22, 32, 42},
  {12, 22, 32, 33}, {12, 22, 23, 33}, {12, 13, 23, 33},
  {12, 22, 42, 43}, {12, 22, 23, 43}, {12, 13, 23, 43},
  {12, 32, 42, 43}, {12, 32, 33, 43}, {12, 13, 33, 43},
  {22, 32, 42, 43}, {22, 32, 33, 43}, {22, 23, 33, 43},
  {0, 13, 23, 33}, {0, 13, 23, 43}, {0, 13, 33, 43}, {0, 23, 33, 43}}

/-- One vertex at time 1, inside the boundary of a tetrahedron at time 2, inside the boundary of a
tetrahedron at time 3. -/
def onion : Tri ℕ := makeManifold env { inf := 0, cells := onionCells, time := fun _ => 0, info := fun _ => 0 }

theorem onion_vertices : vertices onionCells = {0, 12, 13, 22, 23, 32, 33, 42, 43, 51} := by decide +kernel

theorem soundOnion : Sound env onion :=
  sound_of (by decide +kernel) (by decide +kernel) (fun v _ hv => makeManifold_time hv) (by decide +kernel)

theorem freshOnion : FreshCentroids env onion := by
  intro F hF h3 hi
  obtain ⟨c, hc, hFc⟩ := mem_faces.1 hF
  have hv : ∀ v ∈ F, v ∈ vertices onionCells := fun v h => mem_vertices.2 ⟨c, hc, hFc h⟩
  obtain ⟨v, hvF⟩ : F.Nonempty := Finset.card_pos.1 (by omega)
  have hv0 : v ≠ 0 := fun e => hi (show (0 : ℕ) ∈ F from e ▸ hvF)
  have h12 : 12 ≤ v := by
    have := hv v hvF
    rw [onion_vertices] at this
    simp only [Finset.mem_insert, Finset.mem_singleton] at this
    omega
  have hs : v ≤ F.sum id := Finset.single_le_sum (f := id) (fun _ _ => Nat.zero_le _) hvF
  have hbig : 120 ≤ env.centroid F := by
    have : env.centroid F = 10 * F.sum id + (F.sum (· % 10)) / 3 := rfl
    omega
  refine ⟨fun k => ?_, fun e => ?_⟩
  · have k : env.centroid F ∈ vertices onionCells := k
    rw [onion_vertices] at k
    simp only [Finset.mem_insert, Finset.mem_singleton] at k
    omega
  · have e : env.centroid F = 0 := e
    omega

instance (d : ℕ) (S : Finset (Finset ℕ)) : Decidable (ClosedOfDim d S) := by unfold ClosedOfDim; infer_instance

/-- The slice at time 2 is a closed surface with the Euler characteristic of the sphere. -/
theorem onion_slice : ClosedOfDim 2 (sliceAt onion.inf onion.time onion.cells 2) ∧
    eulerOf (sliceAt onion.inf onion.time onion.cells 2) = 2 := by
  refine ⟨by decide +kernel, by decide +kernel⟩

theorem returnsOnion : ∃ K', MoveReturns env .twoSix onion K' := returns_do (g := 0) (by decide +kernel)

end CDT.Fixture

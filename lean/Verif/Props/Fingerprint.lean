import Verif.Lemmas.Fingerprint
/-
C58: persisted fingerprints do not depend on storage order.
-/
namespace CDT.Props
open CDT Spec

/-- Two tetrahedra on five vertices; the last two vertices have the same coordinates, so the
topology fingerprint takes the incidence branch. -/
def coincidentPair : Stored where
  nv := 5
  nc := 2
  key := ![ascii "0,0,0", ascii "1,0,0", ascii "0,1,0", ascii "0,0,1", ascii "0,0,1"]
  vinfo := ![1, 2, 1, 2, 2]
  corner := ![![0, 1, 2, 3], ![4, 1, 2, 0]]
  cinfo := ![22, 22]

/-- The same two tetrahedra stored in another order. -/
def coincidentPairReordered : Stored where
  nv := 5
  nc := 2
  key := ![ascii "0,0,1", ascii "0,0,0", ascii "0,0,1", ascii "0,1,0", ascii "1,0,0"]
  vinfo := ![2, 1, 2, 1, 2]
  corner := ![![4, 3, 1, 0], ![2, 4, 3, 1]]
  cinfo := ![22, 22]

/-- Vertex renumbering between the two. -/
def pairVertices : Fin 5 ≃ Fin 5 := ⟨![4, 0, 3, 2, 1], ![1, 4, 3, 2, 0], by decide, by decide⟩
/-- Cell renumbering between the two. -/
def pairCells : Fin 2 ≃ Fin 2 := ⟨![1, 0], ![1, 0], by decide, by decide⟩
/-- Corner orders. -/
def pairCorners : Fin 2 → Equiv.Perm (Fin 4) :=
  ![⟨![1, 2, 3, 0], ![3, 0, 1, 2], by decide, by decide⟩,
    ⟨![3, 1, 2, 0], ![3, 1, 2, 0], by decide, by decide⟩]

/-- The two store the same labelled triangulation. -/
def coincidentPair_reordering : Reordering coincidentPair coincidentPairReordered where
  vertex := pairVertices
  cell := pairCells
  within := pairCorners
  key_eq := fun (v : Fin 5) => match v with
    | 0 => rfl | 1 => rfl | 2 => rfl | 3 => rfl | 4 => rfl
  vinfo_eq := fun (v : Fin 5) => match v with
    | 0 => rfl | 1 => rfl | 2 => rfl | 3 => rfl | 4 => rfl
  cinfo_eq := fun (v : Fin 2) => match v with
    | 0 => rfl | 1 => rfl
  corner_eq := by intro v; revert v; change ∀ v : Fin 2, _; decide +kernel

/-- **C58** (placement): storing the same labelled vertices in any other order gives the same
placement fingerprint. -/
theorem C58_placement_order_independent {t t' : Stored} (r : Reordering t t') :
    placementFingerprint t' = placementFingerprint t := placement_congr r

/-- **C58** (topology): storing the same labelled triangulation with its vertices, its cells and the
corners of each cell in any other order gives the same topology fingerprint, and the computation
throws for one order exactly when it throws for the other. -/
theorem C58_topology_order_independent {t t' : Stored} (r : Reordering t t') :
    topologyFingerprint t' = topologyFingerprint t := topology_congr r

example : coincidentPair.hasCoincidentVertices = true := by decide +kernel
example : topologyFingerprint coincidentPairReordered = topologyFingerprint coincidentPair :=
  C58_topology_order_independent coincidentPair_reordering
example : placementFingerprint coincidentPairReordered = placementFingerprint coincidentPair :=
  C58_placement_order_independent coincidentPair_reordering

/-- The search never leaves its vectors: the only exception of the incidence search is the budget
one. -/
theorem incidenceTopologyRecords_error {t : Stored} {e : Exc}
    (h : incidenceTopologyRecords t = .error e) : e = .runtimeError := by
  unfold incidenceTopologyRecords at h
  split_ifs at h
  obtain ⟨cost, r, hc, _⟩ := costs_search t.bases t.adjacency canonicalIncidenceWorkBudget
    (canonicalColors t.bases)
  have := hc canonicalIncidenceWorkBudget (Nat.le_refl _)
  dsimp only at this
  rw [this] at h
  split_ifs at h
  · simp [Except.map] at h
  · simp only [Except.map, Except.error.injEq] at h
    exact h.symm

/-- **C58** (failure): without two vertices at the same coordinates the topology fingerprint always
exists. -/
theorem C58_defined_without_coincidence {t : Stored} (h : Function.Injective t.key) :
    ∃ d, topologyFingerprint t = .ok d := by
  have : t.hasCoincidentVertices = false := by
    simp only [Stored.hasCoincidentVertices, Bool.not_eq_false', decide_eq_true_eq]
    exact List.nodup_ofFn.mpr h
  exact ⟨_, by simp only [topologyFingerprint, this]; rfl⟩

/-- **C58** (failure): with coincident vertices the only possible exception is that of the exhausted
search budget; no vector is ever indexed out of range. -/
theorem C58_fails_only_on_budget {t : Stored} {e : Exc} (h : topologyFingerprint t = .error e) :
    e = .runtimeError := by
  unfold topologyFingerprint at h
  split_ifs at h with hc
  cases hr : incidenceTopologyRecords t with
  | ok r => simp [hr, Except.map] at h
  | error e' =>
    simp only [hr, Except.map, Except.error.injEq] at h
    rw [← h]
    exact incidenceTopologyRecords_error hr

example : (topologyFingerprint coincidentPair).isOk = true := by decide +kernel

end CDT.Props

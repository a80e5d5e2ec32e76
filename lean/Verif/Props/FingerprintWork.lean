import Verif.Lemmas.FingerprintWork
import Verif.Props.Fingerprint
/-
C58: when the topology fingerprint of a triangulation with coincident vertices exists.
-/
namespace CDT.Props
open CDT Spec

/-- **C58** (progress): the topology fingerprint exists for every triangulation whose labels leave so
few nodes to tell apart that the search fits in its budget of 100,000 units.  The nodes are the
vertices and the cells; the label of a vertex is its coordinates and timevalue, that of a cell its
type. -/
theorem C58_defined_within_budget {t : Stored}
    (h : searchWork (t.nv + t.nc) (t.nv + t.nc - (Finset.univ.image t.bases).card) ≤ 100000) :
    ∃ d, topologyFingerprint t = .ok d := by
  unfold topologyFingerprint
  split_ifs with hc
  · unfold incidenceTopologyRecords
    split_ifs with h0
    · exact ⟨_, rfl⟩
    · have hnum : (Finset.univ.image t.bases).card ≤ numColors (canonicalColors t.bases) :=
        image_card_mono fun _ _ => canonicalColors_inj _
      have hspare := le_searchWork (t.nv + t.nc)
        (t.nv + t.nc - (Finset.univ.image t.bases).card)
      obtain ⟨r, b', hr, _⟩ := search_ok t.bases t.adjacency _ (canonicalIncidenceWorkBudget + 1)
        (canonicalColors t.bases) canonicalIncidenceWorkBudget (by omega)
        (by unfold canonicalIncidenceWorkBudget; omega) h
      rw [hr]
      exact ⟨_, rfl⟩
  · exact ⟨_, rfl⟩

/-- **C58** (small triangulations): with at most seven vertices and cells together the topology
fingerprint always exists, whatever the coordinates. -/
theorem C58_defined_small {t : Stored} (h : t.nv + t.nc ≤ 7) :
    ∃ d, topologyFingerprint t = .ok d := by
  apply C58_defined_within_budget
  by_cases h0 : t.nv + t.nc = 0
  · simp [h0, searchWork]
  · have hne : 0 < (Finset.univ.image t.bases).card :=
      Finset.card_pos.mpr ⟨_, Finset.mem_image.mpr ⟨⟨0, by omega⟩, Finset.mem_univ _, rfl⟩⟩
    refine (searchWork_mono (t.nv + t.nc)
      (show _ ≤ 6 by omega)).trans ?_
    generalize t.nv + t.nc = n at h ⊢
    have : ∀ n ≤ 7, searchWork n 6 ≤ 100000 := by decide
    exact this n h

/-- A triangulation of more than seven nodes that the bound covers: nine vertices at nine places but
one, and two cells. -/
def nearlyDistinct : Stored where
  nv := 9
  nc := 2
  key := ![ascii "0", ascii "1", ascii "2", ascii "3", ascii "4", ascii "5", ascii "6", ascii "7",
    ascii "7"]
  vinfo := ![1, 1, 1, 1, 1, 2, 2, 2, 2]
  corner := ![![0, 1, 2, 7], ![0, 1, 2, 8]]
  cinfo := ![31, 31]

example : ∃ d, topologyFingerprint coincidentPair = .ok d := C58_defined_small (by decide)
example : nearlyDistinct.hasCoincidentVertices = true := by decide +kernel
example : ∃ d, topologyFingerprint nearlyDistinct = .ok d :=
  C58_defined_within_budget (by decide +kernel)

end CDT.Props

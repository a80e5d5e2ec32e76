import Verif.Model.Listing
/-
The index of spacelike facets by time slice on facets as CGAL gives them, a cell and the index of the opposite
vertex (include/Foliated_triangulation.hpp:1016-1096).  `collectSpacelikeFacets` in Model/Manifold is the same on facets
as sets of three vertices; `C115_refines` relates the two.
-/
namespace CDT
variable {V : Type} [LinearOrder V]

/-- `Facet`: a cell and the index of the vertex opposite to the facet. -/
abbrev FacetHandle (V : Type) := Finset V × Fin 4

/-- The set `facet_timevalues` after its loop (include/Foliated_triangulation.hpp:1048-1062), as a list without
repetition. -/
def facetTimevalues (S : CellStore V) (K : Tri V) (f : FacetHandle V) : List ℤ :=
  (((List.finRange (3 + 1)).filter fun i => i ≠ f.2).map fun i => K.time (S.vertex f.1 i)).dedup

/-- The loop of `collect_spacelike_facets` (include/Foliated_triangulation.hpp:1040-1074). -/
def spacelikeEntries (S : CellStore V) (K : Tri V) : List (FacetHandle V) → List (ℤ × FacetHandle V)
  | [] => []
  | f :: rest =>
    match facetTimevalues S K f with
    | [t] => (t, f) :: spacelikeEntries S K rest
    | _ => spacelikeEntries S K rest

/-- `collect_spacelike_facets` (include/Foliated_triangulation.hpp:1027-1080): the loop, then a stable sort by time. -/
def collectFacets (S : CellStore V) (K : Tri V) (facets : List (FacetHandle V)) : List (ℤ × FacetHandle V) :=
  (spacelikeEntries S K facets).insertionSort fun a b => a.1 ≤ b.1

/-- Insertion into a `std::multimap`: after the entries whose key is not greater. -/
def multimapInsert {α : Type} (m : List (ℤ × α)) (e : ℤ × α) : List (ℤ × α) :=
  m.takeWhile (fun x => x.1 ≤ e.1) ++ e :: m.dropWhile (fun x => x.1 ≤ e.1)

/-- `volume_per_timeslice` (include/Foliated_triangulation.hpp:1089-1096): the multimap, in order of iteration. -/
def volumePerTimeslice (S : CellStore V) (K : Tri V) (facets : List (FacetHandle V)) : List (ℤ × FacetHandle V) :=
  (collectFacets S K facets).foldl multimapInsert []

end CDT

/-
Two builds of the program that differ in the order in which simplices are enumerated and in the
implementation of `std::nth_element`.
-/
import Verif.Spec.Representation

namespace CDT
open Spec

variable {V G : Type} [LinearOrder V]

/-- The same geometry and the same random draws; the order in which simplices are enumerated and
`nth_element` may differ. -/
structure SameDraws (env env' : Env V G) : Prop where
  geoFacet : env'.geoFacet = env.geoFacet
  geoEdge : env'.geoEdge = env.geoEdge
  centroid : env'.centroid = env.centroid
  label : env'.label = env.label
  index : env'.index = env.index
  shuffle : ∀ {α : Type} (l : List α) (g : G), env'.shuffle l g = env.shuffle l g

/-- Two `MoveCommand` objects that differ in the storage of the manifold only. -/
structure SameCommand (c d : Command (Mfld V)) : Prop where
  manifold : SameObject c.manifold d.manifold
  queue : d.queue = c.queue
  results : d.results = c.results

end CDT

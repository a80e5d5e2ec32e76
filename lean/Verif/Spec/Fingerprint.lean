import Verif.Model.Fingerprint
/-
What it means that two stored triangulations are the same up to storage order.
-/
namespace CDT.Spec

/-- `t'` stores the same labelled triangulation as `t` in another order: vertices renumbered by
`vertex`, cells renumbered by `cell`, and the four corners of each cell listed in another order.
Coordinates, vertex labels, cell labels and incidences are the same. -/
structure Reordering (t t' : Stored) where
  /-- position in `t` of each vertex of `t'` -/
  vertex : Fin t'.nv ≃ Fin t.nv
  /-- position in `t` of each cell of `t'` -/
  cell : Fin t'.nc ≃ Fin t.nc
  /-- corner order within each cell of `t'` -/
  within : Fin t'.nc → Equiv.Perm (Fin 4)
  key_eq : ∀ v, t'.key v = t.key (vertex v)
  vinfo_eq : ∀ v, t'.vinfo v = t.vinfo (vertex v)
  cinfo_eq : ∀ c, t'.cinfo c = t.cinfo (cell c)
  corner_eq : ∀ c i, vertex (t'.corner c i) = t.corner (cell c) (within c i)

end CDT.Spec

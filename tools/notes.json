{
 "C01": {
  "note": "Identities proved for every call history without exceptions escaping a transition; inequalities proved without that assumption; C01_exception_breaks_identities shows the assumption is needed (finding)."
 },
 "C37": {
  "note": "Includes C37_fix_cells_reports_without_change: fix_cells keeps returning true on acausal cells although it changes nothing (finding)."
 },
 "C39": {
  "status": "partial",
  "note": "The construction loop runs at most 50 passes. Proved: characterisation of when the result is foliated, and that it always is when the input has at most 50 removable points (C39_small_partial). The unrestricted claim is false: C39_pass_limit_leaves_acausal gives an input on which the limit is reached and an acausal cell remains."
 },
 "C10": {
  "status": "partial",
  "note": "The unrestricted claim is false of the code: C10_detailed_balance_fails exhibits two sound manifolds with positive flow one way and zero proposal probability back (finding 1: the (2,3) proposal only ever uses the first qualifying facet of a cell). Proved: flows between any two manifolds joined by a move balance if and only if the reverse proposal can return the original (C10_balanced_iff_partial), and therefore always for (4,4), for checked (2,6), and for (2,3) when CGAL accepts the reverse flip. States are manifolds with coordinates; (6,2) re-inserts at the centroid (C25_six_two_undone)."
 },
 "C69": {
  "note": "Includes C69_stale_image_accepted: success does not imply the image was made by this run when saveSnapshot silently does nothing (finding)."
 },
 "C70": {
  "note": "Includes C70_size_may_underflow (finding). Completeness needs the frame buffer, rounded up, to be practical; soundness gives it rounded down, since long double rounding is arbitrary but lawful."
 },
 "C94": {
  "note": "Includes C94_quit_announces_nothing (finding): with an external quit the announcement is false."
 },
 "C58": {
  "note": "Order independence of both fingerprints; with coincident vertices the only failure is the exhausted search budget, and the search makes progress: it succeeds whenever an explicit bound on its work fits in the budget (always with at most seven vertices and cells)."
 },
 "C114": {
  "note": "The text of a point and the order of the vertices in a cell are arbitrary; the contract of CGAL's cell storage (CellStore.Lawful) is assumed. C114_slices_end removes the simplification of C92 about the slice counter."
 },
 "C115": {
  "note": "Facets are pairs of a cell and the index of the opposite vertex; C115_refines shows that the set-based model used elsewhere (C36) computes the same. std::multimap is modelled by insertion after equal keys, as the standard requires."
 },
 "C116": {
  "note": "The flips follow the CGAL contract of C01: a refused flip changes nothing. Exact conditions are stated with the site predicates of Spec/Sites."
 }
}
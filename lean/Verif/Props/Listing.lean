import Verif.Model.Listing
import Verif.Spec.Listing
import Verif.Props.Portrait
/-
C114: the listings of vertices, tetrahedra, neighbours and edges are true.
-/
namespace CDT.Props
open CDT Spec Moves Cavity
variable {V G : Type} [LinearOrder V] {env : Env V G}

omit [LinearOrder V] in
theorem cellLines_flatten (point : V → Bytes) (S : CellStore V) (K : Tri V) (c : Finset V) :
    (cellLines point S K c).flatten = cellText point K.time (K.info c) (S.vertex c) := by
  have corner : ∀ j : Fin 4, format "Vertex({}) Point: ({}) Timevalue: {}\n"
      [decimalInt (j.val : ℤ), point (S.vertex c j), decimalInt (K.time (S.vertex c j))] =
      cornerText point K.time j.val (S.vertex c j) := by
    intro j
    rw [format_eq _ ["Vertex(", ") Point: (", ") Timevalue: ", "\n"] _ (by decide +kernel) rfl, decimalInt_natCast]
    rfl
  have e : List.finRange (3 + 1) = [(0 : Fin 4), 1, 2, 3] := by decide
  unfold cellLines cellText
  rw [format_eq _ ["Cell info => ", "\n"] _ (by decide +kernel) rfl, e]
  simp only [List.map_cons, List.map_nil, corner, List.cons_append, List.nil_append, List.flatten_cons,
    List.flatten_nil, List.append_nil, List.append_assoc]
  have d : format "---\n" [] = ascii "---\n" := by decide +kernel
  rw [d]
  rfl

theorem corners_injective {S : CellStore V} {K : Tri V} (hS : S.Lawful K) {c : Finset V} (hc : c ∈ K.cells)
    (h4 : c.card = 4) : Function.Injective (S.vertex c) := by
  have h := hS.vertices c hc
  have : (Finset.univ.image (S.vertex c)).card = (Finset.univ : Finset (Fin 4)).card := by
    rw [h, h4]; rfl
  exact fun a b hab => (Finset.card_image_iff.1 this) (Finset.mem_coe.2 (Finset.mem_univ a))
    (Finset.mem_coe.2 (Finset.mem_univ b)) hab

theorem corner_mem {S : CellStore V} {K : Tri V} (hS : S.Lawful K) {c : Finset V} (hc : c ∈ K.cells) (j : Fin 4) :
    S.vertex c j ∈ c := by
  have h : S.vertex c j ∈ Finset.univ.image (S.vertex c) := Finset.mem_image_of_mem _ (Finset.mem_univ j)
  rwa [hS.vertices c hc] at h

/-- C114. `print_cells` of a structurally correct manifold prints every finite tetrahedron exactly once, with
its four different corners, the time label of each, and the type that these labels give it. -/
theorem C114_cells (hl : env.Lawful) {K K' : Tri V} {cs : Caches V} (h : construct env K = .ok (K', cs))
    (hc : isStructurallyCorrect K' cs = true) {S : CellStore V} (hS : S.Lawful K') (point : V → Bytes) :
    ∃ shown : List (ℤ × (Fin 4 → V)),
      (allCellLines point S K' cs).flatten =
        (shown.map fun b => cellText point K'.time b.1 b.2).flatten ∧
      (shown.map fun b => Finset.univ.image b.2).Nodup ∧
      (∀ c, c ∈ shown.map (fun b => Finset.univ.image b.2) ↔ c ∈ finitePart K'.inf K'.cells) ∧
      ∀ b ∈ shown, Function.Injective b.2 ∧ TypeTold K'.time b.1 (Finset.univ.image b.2) := by
  obtain ⟨_, hbc⟩ := construct_ok h
  obtain ⟨hcl, hok⟩ := isStructurallyCorrect_data hc
  obtain ⟨_, _, hcs, _⟩ := buildCaches_ok hbc
  have mc : ∀ c, c ∈ cs.cells ↔ c ∈ K'.finiteCells := by
    intro c; rw [hcs, hl.mem_iter]
  have img : (cs.cells.map fun c => (K'.info c, S.vertex c)).map (fun b => Finset.univ.image b.2) = cs.cells := by
    rw [List.map_map]
    conv_rhs => rw [← List.map_id cs.cells]
    apply List.map_congr_left
    intro c hm
    exact hS.vertices c (mem_finiteCells.1 ((mc c).1 hm)).1
  refine ⟨cs.cells.map fun c => (K'.info c, S.vertex c), ?_, ?_, ?_, ?_⟩
  · unfold allCellLines
    rw [List.map_map]
    induction cs.cells with
    | nil => rfl
    | cons c rest ih =>
      rw [List.flatMap_cons, List.flatten_append, ih, cellLines_flatten]
      rfl
  · rw [img, hcs]; exact hl.iter_nodup _ _
  · intro c; rw [img, mc]; rfl
  · intro b hb
    obtain ⟨c, hm, rfl⟩ := List.mem_map.1 hb
    have hf := mem_finiteCells.1 ((mc c).1 hm)
    refine ⟨corners_injective hS hf.1 (hcl.1 c hf.1), ?_⟩
    show TypeTold K'.time (K'.info c) _
    rw [hS.vertices c hf.1]
    exact (typeCorrect_iff (hcl.1 c hf.1)).1 (hok c ((mc c).1 hm))

/-- C114. `print_vertices` prints every finite vertex exactly once, with its time label; in a triangulation as
the constructor leaves it this is the one that its radius implies. -/
theorem C114_vertices (hl : env.Lawful) {K K' : Tri V} {cs : Caches V} (h : construct env K = .ok (K', cs))
    (point : V → Bytes) :
    ∃ shown : List V, shown.Nodup ∧ (∀ v, v ∈ shown ↔ v ∈ (vertices K'.cells).erase K'.inf) ∧
      (vertexLines point env.label K' cs).flatten =
        (shown.map (vertexText point K'.time env.label)).flatten ∧
      ∀ v ∈ shown, K'.time v = env.label v := by
  obtain ⟨hK, hbc⟩ := construct_ok h
  obtain ⟨_, hvs, _⟩ := buildCaches_ok hbc
  have mv : ∀ s, s ∈ cs.vertices ↔ ∃ v ∈ K'.finiteVerts, {v} = s := by
    intro s; rw [hvs]; unfold vertexSites; rw [hl.mem_iter, Finset.mem_image]
  have hn : cs.vertices.Nodup := by rw [hvs]; exact hl.iter_nodup _ _
  have single : ∀ v : V, canonicalPoints ({v} : Finset V) = [v] := fun v => rfl
  have mem : ∀ v, v ∈ cs.vertices.flatMap canonicalPoints ↔ v ∈ (vertices K'.cells).erase K'.inf := by
    intro v
    rw [List.mem_flatMap]
    constructor
    · rintro ⟨s, hs, hv⟩
      obtain ⟨u, hu, rfl⟩ := (mv s).1 hs
      rw [single, List.mem_singleton] at hv
      subst hv
      exact hu
    · intro hv
      exact ⟨{v}, (mv _).2 ⟨v, hv, rfl⟩, by rw [single]; exact List.mem_singleton_self v⟩
  refine ⟨cs.vertices.flatMap canonicalPoints, ?_, mem, ?_, ?_⟩
  · rw [List.nodup_flatMap]
    refine ⟨fun s hs => ?_, ?_⟩
    · obtain ⟨u, _, rfl⟩ := (mv s).1 hs
      rw [single]; exact List.nodup_singleton u
    · refine List.Pairwise.imp_of_mem ?_ hn
      intro s t hs ht hne
      obtain ⟨u, _, rfl⟩ := (mv s).1 hs
      obtain ⟨w, _, rfl⟩ := (mv t).1 ht
      intro x hx hy
      rw [single, List.mem_singleton] at hx hy
      exact hne (by rw [← hx, ← hy])
  · unfold vertexLines
    rw [List.map_flatMap]
    refine congrArg List.flatten (congrArg (fun f => List.flatMap f cs.vertices) (funext fun s => ?_))
    apply List.map_congr_left
    intro v _
    exact format_eq _ ["Vertex Point: (", ") Timevalue: ", " Expected Timevalue: ", "\n"] _ (by decide +kernel) rfl
  · intro v hv
    have hne : v ≠ K'.inf := (Finset.mem_erase.1 ((mem v).1 hv)).1
    rw [hK] at hne ⊢
    exact if_neg hne

/-- C114. `print_neighboring_cells` prints, for each of the four corners of a tetrahedron, the one other
tetrahedron that has the remaining three corners. -/
theorem C114_neighbors {K : Tri V} (hk : Closed K.cells) {S : CellStore V} (hS : S.Lawful K) (point : V → Bytes)
    {c : Finset V} (hc : c ∈ K.cells) :
    ∃ other : Fin 4 → Finset V,
      (neighborLines point S K c).flatten =
        ((List.finRange 4).map fun j => sentence ["Neighboring cell ", ":"] [decimal j.val] ++
          cellText point K.time (K.info (other j)) (S.vertex (other j))).flatten ∧
      (∀ j, Finset.univ.image (S.vertex (other j)) = other j) ∧
      ∀ j d, (d ∈ K.cells ∧ d ≠ c ∧ c.erase (S.vertex c j) ⊆ d) ↔ d = other j := by
  refine ⟨S.neighbor c, ?_, fun j => hS.vertices _ (hS.neighbor_mem c hc j), ?_⟩
  · unfold neighborLines
    show (List.flatMap _ (List.finRange 4)).flatten = _
    induction List.finRange 4 with
    | nil => rfl
    | cons j rest ih =>
      rw [List.flatMap_cons, List.flatten_append, ih, List.flatten_cons, cellLines_flatten,
        format_eq _ ["Neighboring cell ", ":"] _ (by decide +kernel) rfl, decimalInt_natCast, List.map_cons,
        List.flatten_cons]
  · intro j d
    constructor
    · rintro ⟨hd, hne, hs⟩
      have hv : S.vertex c j ∈ c := corner_mem hS hc j
      have hf : c.erase (S.vertex c j) ∈ faces K.cells :=
        Finset.mem_biUnion.2 ⟨c, hc, Finset.mem_powerset.2 (Finset.erase_subset _ _)⟩
      have h3 : (c.erase (S.vertex c j)).card = 3 := by rw [Finset.card_erase_of_mem hv, hk.1 c hc]
      have h2 := hk.2 _ hf h3
      by_contra hno
      have hsub : ({c, d, S.neighbor c j} : Finset (Finset V)) ⊆ cellsAt K.cells (c.erase (S.vertex c j)) := by
        intro x hx
        simp only [Finset.mem_insert, Finset.mem_singleton] at hx
        rcases hx with rfl | rfl | rfl
        · exact Finset.mem_filter.2 ⟨hc, Finset.erase_subset _ _⟩
        · exact Finset.mem_filter.2 ⟨hd, hs⟩
        · exact Finset.mem_filter.2 ⟨hS.neighbor_mem c hc j, hS.neighbor_shares c hc j⟩
      have := Finset.card_le_card hsub
      rw [h2, Finset.card_eq_three.2 ⟨c, d, S.neighbor c j, hne.symm, (hS.neighbor_ne c hc j).symm, hno, rfl⟩] at this
      omega
    · rintro rfl
      exact ⟨hS.neighbor_mem c hc j, hS.neighbor_ne c hc j, hS.neighbor_shares c hc j⟩

/-- C114. `print_edge` of the edge between the corners `i` and `j` of a tetrahedron names its two different
ends, each with its own time label. -/
theorem C114_edge {K : Tri V} (h4 : ∀ c ∈ K.cells, c.card = 4) {S : CellStore V} (hS : S.Lawful K)
    (point : V → Bytes) {c : Finset V} (hc : c ∈ K.cells) {i j : Fin 4} (hij : i ≠ j) :
    ∃ u v, u ≠ v ∧ u ∈ c ∧ v ∈ c ∧ u = S.vertex c i ∧ v = S.vertex c j ∧
      edgeLine point S K c i j = edgeText point K.time i.val u j.val v := by
  refine ⟨_, _, fun e => hij (corners_injective hS hc (h4 c hc) e), corner_mem hS hc i, corner_mem hS hc j,
    rfl, rfl, ?_⟩
  unfold edgeLine
  rw [format_eq _ ["Edge: Vertex(", ") Point(", ") Timevalue: ", " -> Vertex(", ") Point(", ") Timevalue: ", "\n"] _
    (by decide +kernel) rfl, decimalInt_natCast, decimalInt_natCast]
  rfl

omit [LinearOrder V] in
theorem volumeRun_eq (cs : Caches V) (hmax : cs.maxTime ≤ 2147483647) :
    ∀ (n fuel : ℕ) (j : ℤ), j + n = cs.maxTime + 1 → j ≤ 2147483647 → n < fuel →
      volumeRun cs fuel j = (volumeLoop cs n j, decide (cs.maxTime < 2147483647) || decide (n = 0))
  | 0, fuel + 1, j, h, _, _ => by
    unfold volumeRun volumeLoop
    rw [if_neg (by push_cast at h; omega)]
    simp
  | n + 1, fuel + 1, j, h, hj, hf => by
    have hle : j ≤ cs.maxTime := by push_cast at h; omega
    simp only [volumeRun, volumeLoop, if_pos hle]
    by_cases he : j = 2147483647
    · have hn : n = 0 := by push_cast at h; omega
      have hm : ¬ cs.maxTime < 2147483647 := by push_cast at h; omega
      subst hn
      simp [he, hm, volumeLoop]
    · have ih := volumeRun_eq cs hmax n fuel (j + 1) (by push_cast at h; omega) (by omega) (by omega)
      simp only [if_neg he, ih]
      by_cases hm : cs.maxTime < 2147483647
      · simp [hm]
      · have : n ≠ 0 := by rintro rfl; push_cast at h; omega
        simp [hm, this]

/-- C114. With time labels of 32 bits, `print_volume_per_timeslice` prints exactly one line per slice, and then
ends without overflow of its counter if and only if no vertex has the label `INT_MAX`. -/
theorem C114_slices_end (hl : env.Lawful) {K K' : Tri V} {cs : Caches V} (h : construct env K = .ok (K', cs))
    (h32 : ∀ v ∈ (vertices K'.cells).erase K'.inf, K'.time v ≤ 2147483647) {fuel : ℕ}
    (hf : (cs.maxTime - cs.minTime + 2).toNat ≤ fuel) :
    (volumeRun cs fuel cs.minTime).1 = volumeLines cs ∧
    ((volumeRun cs fuel cs.minTime).2 = true ↔
      ∀ v ∈ (vertices K'.cells).erase K'.inf, K'.time v ≠ 2147483647) := by
  obtain ⟨_, hcs⟩ := construct_ok h
  obtain ⟨⟨u, hu, eu⟩, hmax⟩ := maxTime_spec hl hcs
  obtain ⟨⟨w, hw, ew⟩, hmin⟩ := minTime_spec hl hcs
  have hle : cs.minTime ≤ cs.maxTime := by have := hmax w hw; omega
  have hM : cs.maxTime ≤ 2147483647 := by have := h32 u hu; omega
  rw [volumeRun_eq cs hM (cs.maxTime - cs.minTime + 1).toNat fuel cs.minTime (by omega) (by omega) (by omega)]
  refine ⟨rfl, ?_⟩
  have hn : (cs.maxTime - cs.minTime + 1).toNat ≠ 0 := by omega
  simp only [hn, decide_false, Bool.or_false, decide_eq_true_eq]
  constructor
  · intro hlt v hv e
    have := hmax v hv
    omega
  · intro hall
    have := hall u hu
    omega

/-- Vertices in increasing order; the neighbour found by search. -/
def sortedStore (K : Tri ℕ) : CellStore ℕ where
  vertex c j := (canonicalPoints c).getD j.val 0
  neighbor c j := (canonSites (K.cells.filter fun d =>
    d ≠ c ∧ c.erase ((canonicalPoints c).getD j.val 0) ⊆ d)).headD ∅

/-- Non-vacuity: a store that meets the contract of CGAL on a constructed, structurally correct
triangulation, with its listing of two tetrahedra. -/
example : (sortedStore Fixture.k26).Lawful Fixture.k26 ∧ Closed Fixture.k26.cells ∧
    (let r := construct Fixture.env Fixture.k26;
      (match r with
        | .ok (K, cs) => isStructurallyCorrect K cs && decide (K.cells = Fixture.k26.cells) &&
            decide ((allCellLines (fun v => decimal v) (sortedStore K) K cs).flatten =
            ascii ("Cell info => 31\nVertex(0) Point: (12) Timevalue: 2\nVertex(1) Point: (22) Timevalue: 2\n" ++
              "Vertex(2) Point: (32) Timevalue: 2\nVertex(3) Point: (43) Timevalue: 3\n---\n" ++
              "Cell info => 13\nVertex(0) Point: (12) Timevalue: 2\nVertex(1) Point: (22) Timevalue: 2\n" ++
              "Vertex(2) Point: (32) Timevalue: 2\nVertex(3) Point: (51) Timevalue: 1\n---\n"))
        | .error _ => false) = true) :=
  ⟨⟨by decide +kernel, by decide +kernel, by decide +kernel, by decide +kernel⟩, by decide +kernel,
    by decide +kernel⟩

/-- The same triangulation far out: its upper vertex has the greatest 32-bit label, and the loop overflows
after its last line. -/
example :
    (let r := construct { Fixture.env with label := fun v => (v % 10 : ℕ) + 2147483644 } Fixture.k26;
      (match r with
        | .ok (K, cs) => isStructurallyCorrect K cs && decide (cs.maxTime = 2147483647) &&
            decide (∀ v ∈ (vertices K.cells).erase K.inf, K.time v ≤ 2147483647) &&
            decide (volumeRun cs 4 cs.minTime = (volumeLines cs, false)) && decide ((volumeLines cs).length = 3)
        | .error _ => false) = true) := by decide +kernel

end CDT.Props

/-
C08: the Hastings ratio of every successful candidate is well defined.
-/
import Verif.Props.Acceptance
import Verif.Props.Moves
import Verif.Lemmas.Undo

namespace CDT.Props
open CDT Spec Cavity Moves

variable {V G : Type} [LinearOrder V] {env : Env V G}

/-- C08, C09.  The number of raw sites from which a move is proposed is the count that enters the
documented proposal probability. -/
theorem C09_site_count (hl : env.Lawful) {K : Tri V} {cs : Caches V} (hb : buildCaches env K = .ok cs)
    (mv : MoveType) : proposalSiteCount (geometryOf K cs) mv = (rawSites env K mv).length := by
  obtain ⟨-, hv, hc, h31, h22, h13, -, -, he, htl, hsl, -, -⟩ := buildCaches_ok hb
  cases mv with
  | twoThree =>
    show ((cs.twoTwo.length : ℕ) : ℤ) = ((env.iter K K.finiteCells).filter (fun c => decide (K.info c = 22))).length
    rw [h22, hc]
  | threeTwo => simp [proposalSiteCount, geometryOf, rawSites, edgeSites, htl, he]
  | twoSix =>
    show ((cs.oneThree.length : ℕ) : ℤ) = ((env.iter K K.finiteCells).filter (fun c => decide (K.info c = 13))).length
    rw [h13, hc]
  | sixTwo =>
    simp only [proposalSiteCount, geometryOf, rawSites, vertexSites]
    rw [length_iter hl, Finset.card_image_of_injective _ Finset.singleton_injective]
  | fourFour => simp [proposalSiteCount, geometryOf, rawSites, edgeSites, hsl, he]

/-- C08.  Whatever move succeeds on a sound manifold, through either public function, both the
forward and the reverse site count are positive. -/
theorem C08_site_counts_positive (hl : env.Lawful) {mv : MoveType} {K K' : Tri V} (hK : Sound env K)
    (hfr : mv = .twoSix → FreshCentroids env K) (h : MoveReturns env mv K K') {cs cs' : Caches V}
    (hb : buildCaches env K = .ok cs) (hb' : buildCaches env K' = .ok cs') :
    0 < proposalSiteCount (geometryOf K cs) mv ∧ 0 < proposalSiteCount (geometryOf K' cs') mv.reverse := by
  have pos : ∀ {K : Tri V} {mv : MoveType} {s}, s ∈ rawSites env K mv → 0 < ((rawSites env K mv).length : ℤ) :=
    fun hs => by exact_mod_cast List.length_pos_of_mem hs
  rw [C09_site_count hl hb, C09_site_count hl hb']
  obtain ⟨s, hs, -⟩ := moveReturns_ok hl h
  refine ⟨pos hs, ?_⟩
  cases mv with
  | twoThree =>
    have he := effect_of_move hl (by decide) hK h
    obtain ⟨hi, ⟨p, q, x, y, z, hm⟩, -, ht⟩ := C19_two_three_effect hl hK h
    have hs := site32_of_move23 hi ht hm
    have hd := hs.distinct
    have hf := hs.finite
    simp only [List.nodup_cons, List.mem_cons, List.not_mem_nil, or_false, not_or] at hd hf
    have hfc : ({p, q} : Finset V) ∈ faces K'.cells := gained_kept hm.simplices (by simp)
    refine pos ((edge_rawSite hl hd.1.1 hfc hf.1 hf.2.1).1 ?_)
    intro e
    refine hm.edge ?_
    have hv : ∀ v ∈ ({p, q} : Finset V), v ∈ vertices K'.cells := by
      intro v hv
      obtain ⟨c, hc, hsub⟩ := Finset.mem_biUnion.1 hfc
      exact mem_vertices.2 ⟨c, hc, Finset.mem_powerset.1 hsub hv⟩
    have e1 := ht p (hv p (by simp)) (by rw [← hi]; exact fun h => hf.1 h.symm)
    have e2 := ht q (hv q (by simp)) (by rw [← hi]; exact fun h => hf.2.1 h.symm)
    intro u hu v hv
    simp only [Finset.mem_insert, Finset.mem_singleton] at hu hv
    rcases hu with rfl | rfl <;> rcases hv with rfl | rfl <;> omega
  | threeTwo =>
    have he := effect_of_move hl (by decide) hK h
    obtain ⟨hi, ⟨p, q, x, y, z, hm⟩, -, ht⟩ := C20_three_two_effect hl hK h
    have hs := site23_of_move32 hi ht hm
    have hf := hs.finite
    simp only [List.mem_cons, List.not_mem_nil, or_false, not_or] at hf
    exact pos ((cell_rawSite hl he.sound (mem_finiteCells.2 ⟨hs.left,
      notMem_four hf.1 hf.2.2.1 hf.2.2.2.1 hf.2.2.2.2⟩)).1 hs.mixed)
  | twoSix =>
    obtain ⟨hi, ⟨x, y, z, u, d, m, hm, -, -⟩, -, -⟩ := C21_two_six_subdivision hl hK (hfr rfl) h
    have hf := hm.finite
    simp only [List.mem_cons, List.not_mem_nil, or_false, not_or] at hf
    refine pos (vertex_rawSite hl (v := m) (mem_finiteVerts.2 ⟨?_, ?_⟩)) 
    · rw [hi]; exact fun h => hf.2.2.2.2.2 h.symm
    · exact ⟨{x, y, m, u}, by rw [hm.cells.result]; simp [sixAround], by simp⟩
  | sixTwo =>
    have he := effect_of_move hl (by decide) hK h
    obtain ⟨hi, ⟨x, y, z, u, d, m, hm⟩, -, ht⟩ := C22_six_two_effect hl hK h
    have hs := site26_of_move62 hi ht hm
    have hf := hs.finite
    simp only [List.mem_cons, List.not_mem_nil, or_false, not_or] at hf
    exact pos ((cell_rawSite hl he.sound (mem_finiteCells.2 ⟨hs.lower,
      notMem_four hf.1 hf.2.1 hf.2.2.1 hf.2.2.2.2⟩)).2 (site26_types hs).2)
  | fourFour =>
    have he := effect_of_move hl (by decide) hK h
    obtain ⟨hi, ⟨a, b, x, y, u, d, hm⟩, -, ht⟩ := C23_four_four_effect hl hK h
    have hs := site44_of_move44 hi ht hm
    have hd := hs.distinct
    have hf := hs.finite
    simp only [List.nodup_cons, List.mem_cons, List.not_mem_nil, or_false, not_or] at hd hf
    exact pos ((edge_rawSite hl hd.1.1 (gained_kept hm.simplices (by simp)) hf.1 hf.2.1).2 hs.slice.1.symm)

/-- C08.  Therefore the acceptance probability of every successful candidate is computed without an
exception and lies in [0, 1], in every lawful arithmetic. -/
theorem C08_acceptance_defined (hl : env.Lawful) {mv : MoveType} {K K' : Tri V} (hK : Sound env K)
    (hfr : mv = .twoSix → FreshCentroids env K) (h : MoveReturns env mv K K') {cs cs' : Caches V}
    (hb : buildCaches env K = .ok cs) (hb' : buildCaches env K' = .ok cs')
    (hg : Counts32 (geometryOf K cs)) (hg' : Counts32 (geometryOf K' cs'))
    {R : Rounding} (hR : R.Lawful) {α κ Λ : ℚ} (hα : 1 / 2 < α)
    (ha : InLongDouble α) (hk : InLongDouble κ) (hL : InLongDouble Λ) :
    ∃ A : ℝ, acceptanceProbability R ⟨.fin α, .fin κ, .fin Λ⟩ (geometryOf K cs) (geometryOf K' cs') mv =
      .ok (.fin A) ∧ 0 ≤ A ∧ A ≤ 1 := by
  obtain ⟨h1, h2⟩ := C08_site_counts_positive hl hK hfr h hb hb'
  exact C07_unit_interval hR hα ha hk hL hg hg' h1 h2

/-- Positivity needs the move to have succeeded: a single (3,1) tetrahedron has no (2,3) sites. -/
example : (rawSites Fixture.env (Fixture.ball {{12, 22, 32, 43}}) .twoThree).length = 0 ∧
    Sound Fixture.env (Fixture.ball {{12, 22, 32, 43}}) :=
  ⟨by decide +kernel, Fixture.sound_of (by decide +kernel) (by decide +kernel) (by decide +kernel) (by decide +kernel)⟩

example : ∃ K', MoveReturns Fixture.env .twoSix Fixture.k26 K' ∧ Sound Fixture.env Fixture.k26 ∧
    FreshCentroids Fixture.env Fixture.k26 :=
  Fixture.returns26.imp fun _ h => ⟨h, Fixture.sound26, Fixture.fresh26⟩

end CDT.Props

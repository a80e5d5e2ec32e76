/-
C24: moves preserve causality and the manifold property, for single moves and whole histories.
-/
import Verif.Props.Moves

namespace CDT.Props
open Spec Cavity Moves

variable {V G : Type} [LinearOrder V] {env : Env V G}

/-- What C24 promises about a complex `K'` reached from `K`. -/
structure Preserved (K K' : Tri V) : Prop where
  foliated : Foliated K'.inf K'.time K'.cells
  boundary : boundary K'.inf K'.cells = Spec.boundary K.inf K.cells
  euler : euler K'.inf K'.cells = Spec.euler K.inf K.cells
  slices : slices K'.inf K'.time K'.cells = Spec.slices K.inf K.time K.cells

theorem preserved_of_effect {K K' : Tri V} {mv : MoveType}
    (h : Effect env K K' (deltaCensus (publishedDelta mv))) : Preserved K K' :=
  ⟨⟨h.sound.closed, h.sound.causal⟩, h.boundary, effect_euler h, h.slices⟩

/-- C24, one (2,3), (3,2), (6,2) or (4,4) move: unconditionally preserved. -/
theorem C24_move_preserves (hl : env.Lawful) {mv : MoveType} (hmv : mv ≠ .twoSix) {K K' : Tri V}
    (hK : Sound env K) (h : MoveReturns env mv K K') : Preserved K K' :=
  preserved_of_effect (effect_of_move hl hmv hK h)

/-- C24, one (2,6) move: the pseudo-manifold property, the boundary and the Euler characteristic
are always preserved, even when the new vertex gets a wrong time value. -/
theorem C24_two_six_topology (hl : env.Lawful) {K K' : Tri V} (hK : Sound env K)
    (hfr : FreshCentroids env K) (h : MoveReturns env .twoSix K K') :
    Closed K'.cells ∧ boundary K'.inf K'.cells = boundary K.inf K.cells ∧
      euler K'.inf K'.cells = euler K.inf K.cells := by
  obtain ⟨_, _, hcount, _⟩ := C21_two_six_subdivision hl hK hfr h
  obtain ⟨f, t, d, hpl, hcells, -, -, hi, -⟩ := result26 hl hK hfr h
  refine ⟨hcells ▸ closed_replace (good26 d) hpl hK.closed, ?_, ?_⟩
  · rw [hi, hcells, boundary_replace hpl]
  · rw [euler_census K'.inf K'.time, euler_census K.inf K.time]
    dsimp only at hcount
    omega

/-- C24, one (2,6) move: everything is preserved exactly when the complex stays causal. -/
theorem C24_two_six_preserves_iff (hl : env.Lawful) {K K' : Tri V} (hK : Sound env K)
    (hfr : FreshCentroids env K) (h : MoveReturns env .twoSix K K') :
    Preserved K K' ↔
      ∃ x y z u d m, Move26 K.inf K.time K.cells K'.cells x y z u d m ∧ K'.time m = K.time x := by
  constructor
  · intro hp
    have he := effect26 hl hK hfr h hp.foliated.causal
    have hne : K'.finiteVerts ≠ ∅ := by
      obtain ⟨hi, ⟨x, y, z, u, d, m, hm, -, -⟩, -, -⟩ := C21_two_six_subdivision hl hK hfr h
      refine Finset.nonempty_iff_ne_empty.1 ⟨x, Finset.mem_erase.2 ⟨?_, ?_⟩⟩
      · rw [hi]; rintro rfl
        exact hm.finite (by simp)
      · refine mem_vertices.2 ⟨{x, y, m, u}, ?_, by simp⟩
        rw [hm.cells.result]; simp [sixAround]
    obtain ⟨cs', hb'⟩ := buildCaches_total hl hne
    exact (C21_two_six_effect hl hK hfr h
      ((isStructurallyCorrect_iff hl hb').2 ⟨he.sound.closed, he.sound.correct⟩)).1
  · rintro ⟨x, y, z, u, d, m, hm, htm⟩
    obtain ⟨hi, _, _, old⟩ := C21_two_six_subdivision hl hK hfr h
    have he := effect26 hl hK hfr h (by rw [hi]; exact causal_of_move26 hK.causal hm old htm)
    rw [delta26] at he
    exact preserved_of_effect (mv := .twoSix) he

/-- The new manifold passes the library's own postcondition check. -/
def Accepted (env : Env V G) (mv : MoveType) (K K' : Tri V) : Prop :=
  ∃ cs cs', buildCaches env K = .ok cs ∧ buildCaches env K' = .ok cs' ∧
    ∀ r s, checkMove (viewOf r s K cs) (viewOf r s K' cs') mv = true

/-- One move that the library performs and its postcondition check accepts. -/
inductive Step (env : Env V G) : Tri V → Tri V → Prop
  | other {mv K K'} : mv ≠ .twoSix → MoveReturns env mv K K' → Step env K K'
  | twoSix {K K'} : FreshCentroids env K → MoveReturns env .twoSix K K' →
      Accepted env .twoSix K K' → Step env K K'

theorem effect_of_step (hl : env.Lawful) {K K' : Tri V} (hK : Sound env K) (h : Step env K K') :
    ∃ mv, Effect env K K' (deltaCensus (publishedDelta mv)) := by
  cases h with
  | other hmv h => exact ⟨_, effect_of_move hl hmv hK h⟩
  | twoSix hfr h hacc =>
    obtain ⟨cs, cs', hb, hb', hc⟩ := hacc
    have hcon := (C32_check_move_iff_contract _ _ _).1 (hc 0 0)
    obtain ⟨hd, hcor⟩ := isStructurallyCorrect_data hcon.correct
    have he := effect26 hl hK hfr h (causal_of_correct hd.1 hcor)
    rw [delta26] at he
    exact ⟨.twoSix, he⟩

/-- C24.  Every finite history of successful moves, in any order and with any random choices, the
(2,6) candidates among them having passed `check_move`, leads to a foliated complex with the same
boundary, Euler characteristic and slices, and again to a sound manifold. -/
theorem C24_history_preserves (hl : env.Lawful) {K K' : Tri V} (hK : Sound env K)
    (h : Relation.ReflTransGen (Step env) K K') : Sound env K' ∧ Preserved K K' := by
  induction h with
  | refl => exact ⟨hK, ⟨hK.closed, hK.causal⟩, rfl, rfl, rfl⟩
  | tail _ hs ih =>
    obtain ⟨hB, hP⟩ := ih
    obtain ⟨mv, he⟩ := effect_of_step hl hB hs
    have hQ := preserved_of_effect he
    exact ⟨he.sound, hQ.foliated, hQ.boundary.trans hP.boundary, hQ.euler.trans hP.euler,
      hQ.slices.trans hP.slices⟩

/-- C24, triangles: along every such history every triangle lies in at most two finite
tetrahedra, and in exactly two unless it is a boundary triangle. -/
theorem C24_triangle_degree (hl : env.Lawful) {K K' : Tri V} (hK : Sound env K)
    (h : Relation.ReflTransGen (Step env) K K') (F : Finset V) (hF : F ∈ faces K'.cells)
    (h3 : F.card = 3) (hinf : K'.inf ∉ F) :
    (F ∈ boundary K.inf K.cells → (cellsAt (finitePart K'.inf K'.cells) F).card = 1) ∧
    (F ∉ boundary K.inf K.cells → (cellsAt (finitePart K'.inf K'.cells) F).card = 2) := by
  obtain ⟨_, hP⟩ := C24_history_preserves hl hK h
  rw [← hP.boundary]
  have hc := hP.foliated.closed.2 F hF h3
  have e1 : cellsAt (finitePart K'.inf K'.cells) F = (cellsAt K'.cells F).filter (K'.inf ∉ ·) := by
    ext c; simp only [cellsAt, finitePart, Finset.mem_filter]; tauto
  have e2 := Finset.card_filter_add_card_filter_not (s := cellsAt K'.cells F) (fun c => K'.inf ∈ c)
  have e3 : F ∈ boundary K'.inf K'.cells ↔ insert K'.inf F ∈ K'.cells := by
    simp only [Spec.boundary, Finset.mem_image, Finset.mem_filter]
    constructor
    · rintro ⟨c, ⟨hc, hi⟩, rfl⟩
      rwa [Finset.insert_erase hi]
    · intro hm
      exact ⟨_, ⟨hm, Finset.mem_insert_self _ _⟩, Finset.erase_insert hinf⟩
  have e4 : (cellsAt K'.cells F).filter (fun c => K'.inf ∈ c) =
      if insert K'.inf F ∈ K'.cells then {insert K'.inf F} else ∅ := by
    ext c
    simp only [Finset.mem_filter, cellsAt]
    constructor
    · rintro ⟨⟨hc, hs⟩, hi⟩
      have : insert K'.inf F = c := by
        refine Finset.eq_of_subset_of_card_le (Finset.insert_subset hi hs) ?_
        rw [hP.foliated.closed.1 c hc, Finset.card_insert_of_notMem hinf, h3]
      rw [this, if_pos hc]; simp
    · split
      · intro h
        rw [Finset.mem_singleton.1 h]
        exact ⟨⟨by assumption, Finset.subset_insert _ _⟩, Finset.mem_insert_self _ _⟩
      · simp
  rw [e1, e3]
  rw [e4] at e2
  constructor
  · intro hb
    rw [if_pos hb, Finset.card_singleton] at e2
    omega
  · intro hb
    rw [if_neg hb, Finset.card_empty] at e2
    omega

/-- The history theorem applies to a concrete two-step history. -/
example : ∃ K', Relation.ReflTransGen (Step Fixture.env) Fixture.k23 K' ∧ K'.cells ≠ Fixture.k23.cells ∧
    Sound Fixture.env Fixture.k23 := by
  obtain ⟨K', h⟩ := Fixture.returns23
  refine ⟨K', .single (.other (by decide) h), ?_, Fixture.sound23⟩
  obtain ⟨-, ⟨p, q, x, y, z, hm⟩, -, -⟩ := C19_two_three_effect Fixture.lawful Fixture.sound23 h
  intro he
  have := hm.cells.absent {p, q, x, y} (by simp)
  rw [← he, hm.cells.result] at this
  simp at this

end CDT.Props

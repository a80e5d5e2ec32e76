/-
Lemmas about the diagonal exchange without slice conditions.
-/
import Verif.Model.Bistellar
import Verif.Spec.Bistellar
import Verif.Lemmas.Succeed
import Verif.Lemmas.MoveResult

namespace CDT
open Spec Moves Cavity
variable {V : Type} [LinearOrder V]

/-- A time function under which the six vertices form a spatial quadrilateral with two apices. -/
def fakeTime (u d : V) : V → ℤ := fun v => if v = u then 1 else if v = d then -1 else 0

theorem nodup6 {a b x y u d : V} : [a, b, x, y, u, d].Nodup ↔
    (a ≠ b ∧ a ≠ x ∧ a ≠ y ∧ a ≠ u ∧ a ≠ d) ∧ (b ≠ x ∧ b ≠ y ∧ b ≠ u ∧ b ≠ d) ∧
    (x ≠ y ∧ x ≠ u ∧ x ≠ d) ∧ (y ≠ u ∧ y ≠ d) ∧ u ≠ d := by
  simp only [List.nodup_cons, List.mem_cons, List.not_mem_nil, or_false, not_or, not_false_eq_true,
    List.nodup_nil, and_true]

theorem inj_of_nodup {a b x y u d : V} (h : [a, b, x, y, u, d].Nodup) :
    Function.Injective ![a, b, x, y, u, d] := by
  obtain ⟨⟨a1, a2, a3, a4, a5⟩, ⟨b1, b2, b3, b4⟩, ⟨c1, c2, c3⟩, ⟨d1, d2⟩, e1⟩ := nodup6.1 h
  exact inj6 a1 a2 a3 a4 a5 b1 b2 b3 b4 c1 c2 c3 d1 d2 e1

namespace Spec.Diamond
variable {inf : V} {K : Finset (Finset V)} {a b x y u d : V}

theorem swapXY (h : Diamond inf K a b x y u d) : Diamond inf K a b y x u d where
  distinct := by
    have := nodup6.1 h.distinct
    exact nodup6.2 (by grind)
  finite := by have := h.finite; simp only [List.mem_cons, List.not_mem_nil, or_false, not_or] at *; tauto
  around := by
    rw [h.around]; ext c; simp only [Finset.mem_insert, Finset.mem_singleton]; tauto

theorem swapUD (h : Diamond inf K a b x y u d) : Diamond inf K a b x y d u where
  distinct := by
    have := nodup6.1 h.distinct
    exact nodup6.2 (by grind)
  finite := by have := h.finite; simp only [List.mem_cons, List.not_mem_nil, or_false, not_or] at *; tauto
  around := by
    rw [h.around]; ext c; simp only [Finset.mem_insert, Finset.mem_singleton]; tauto

/-- Turn the ring by a quarter. -/
theorem turn (h : Diamond inf K a b x y u d) : Diamond inf K a b u d x y where
  distinct := by
    have := nodup6.1 h.distinct
    exact nodup6.2 (by grind)
  finite := by have := h.finite; simp only [List.mem_cons, List.not_mem_nil, or_false, not_or] at *; tauto
  around := by
    rw [h.around]; ext c; simp only [Finset.mem_insert, Finset.mem_singleton]
    rw [Finset.pair_comm u x, Finset.pair_comm d x, Finset.pair_comm u y, Finset.pair_comm d y]; tauto

theorem mem_cells (h : Diamond inf K a b x y u d) :
    {a, b, x, u} ∈ K ∧ {a, b, y, u} ∈ K ∧ {a, b, x, d} ∈ K ∧ {a, b, y, d} ∈ K := by
  have e := h.around
  refine ⟨?_, ?_, ?_, ?_⟩ <;>
    exact (Finset.mem_filter.1 (show _ ∈ cellsAt K {a, b} by rw [e]; simp)).1

/-- The pattern lemma for a diamond. -/
theorem placed (h : Diamond inf K a b x y u d) (hfree : ({x, y} : Finset V) ∉ faces K) :
    ∃ f : Fin 6 ↪ V, Placed p44 inf (fakeTime u d) K f 0 ∧ replace p44 K f = exchanged K a b x y u d ∧
      f 0 = a ∧ f 1 = b ∧ f 2 = x ∧ f 3 = y ∧ f 4 = u ∧ f 5 = d := by
  obtain ⟨⟨ab, ax, ay, au, ad⟩, ⟨bx, bz, bu, bd⟩, ⟨xy, xu, xd⟩, ⟨yu, yd⟩, ud⟩ := nodup6.1 h.distinct
  have hf := h.finite
  simp only [List.mem_cons, List.not_mem_nil, or_false, not_or] at hf
  obtain ⟨f1, f2, f3, f4, f5, f6⟩ := hf
  let L : Tri V := ⟨inf, K, fakeTime u d, fun _ => 0⟩
  have e : L.edgeCells a b = {{a, b, x, u}, {a, b, y, u}, {a, b, x, d}, {a, b, y, d}} := by
    rw [← cellsAt_pair]; exact h.around
  have hfin : ∀ c ∈ L.edgeCells a b, L.inf ∉ c := by
    intro c hc
    rw [e] at hc
    simp only [Finset.mem_insert, Finset.mem_singleton] at hc
    rcases hc with rfl | rfl | rfl | rfl <;> apply notMem_four <;> assumption
  have z : ∀ v, v ≠ u → v ≠ d → fakeTime u d v = 0 := fun v h1 h2 => by simp [fakeTime, h1, h2]
  have tu : fakeTime u d u = 1 := by simp [fakeTime]
  have td : fakeTime u d d = -1 := by simp [fakeTime, Ne.symm ud]
  obtain ⟨hpl, hr⟩ := placed44 (K := L) (inj_of_nodup h.distinct) e (pair_free.1 hfree) hfin
    ⟨(z b bu bd).trans (z a au ad).symm, (z x xu xd).trans (z a au ad).symm, (z y yu yd).trans (z a au ad).symm,
      by show fakeTime u d u = fakeTime u d a + 1; rw [tu, z a au ad]; rfl,
      by show fakeTime u d d = fakeTime u d a + -1; rw [td, z a au ad]; rfl⟩
  have e0 : L.time a = 0 := z a au ad
  rw [e0] at hpl
  refine ⟨_, hpl, ?_, rfl, rfl, rfl, rfl, rfl, rfl⟩
  rw [hr, ← cellsAt_pair]; rfl

theorem closed (h : Diamond inf K a b x y u d) (hfree : ({x, y} : Finset V) ∉ faces K) (hK : Closed K) :
    Closed (exchanged K a b x y u d) := by
  obtain ⟨f, hp, hr, -⟩ := h.placed hfree
  rw [← hr]; exact closed_replace good44 hp hK

end Spec.Diamond

open Spec

theorem exchanged_swapXY (K : Finset (Finset V)) (a b x y u d : V) :
    exchanged K a b y x u d = exchanged K a b x y u d := by
  have c : ∀ r : Finset V, (insert y (insert x r) : Finset V) = insert x (insert y r) :=
    fun r => Finset.insert_comm _ _ _
  unfold exchanged
  rw [c {a, u}, c {b, u}, c {a, d}, c {b, d}]

theorem exchanged_swapUD (K : Finset (Finset V)) (a b x y u d : V) :
    exchanged K a b x y d u = exchanged K a b x y u d := by
  unfold exchanged
  ext c; simp only [Finset.mem_union, Finset.mem_insert, Finset.mem_singleton]; tauto

/-- The vertices completing the triangle below the edge to a tetrahedron. -/
theorem diamond_link {K : Tri V} {a b x y u d : V} (h : Diamond K.inf K.cells a b x y u d) (w : V) :
    w ∉ ({a, b, d} : Finset V) ∧ insert w {a, b, d} ∈ K.cells ↔ w = x ∨ w = y := by
  obtain ⟨⟨ab, ax, ay, au, ad⟩, ⟨bx, bz, bu, bd⟩, ⟨xy, xu, xd⟩, ⟨yu, yd⟩, ud⟩ := nodup6.1 h.distinct
  have e := h.around
  rw [cellsAt_pair] at e
  have ex : ∀ c, c ∈ K.edgeCells a b ↔ c = {a, b, x, u} ∨ c = {a, b, y, u} ∨ c = {a, b, x, d} ∨ c = {a, b, y, d} := by
    intro c; rw [e]; simp only [Finset.mem_insert, Finset.mem_singleton]
  have r : (insert w {a, b, d} : Finset V) = {a, b, w, d} := by
    rw [Finset.insert_comm w a, Finset.insert_comm w b]
  rw [r]
  constructor
  · rintro ⟨hw, hc⟩
    simp only [Finset.mem_insert, Finset.mem_singleton, not_or] at hw
    have hm : ({a, b, w, d} : Finset V) ∈ K.edgeCells a b := mem_edgeCells.2 ⟨hc, by simp, by simp⟩
    have key : ∀ v t : V, a ≠ v → b ≠ v → a ≠ t → b ≠ t → ({a, b, w, d} : Finset V) = {a, b, v, t} →
        (w = v ∧ d = t) ∨ (w = t ∧ d = v) := fun v t h1 h2 h3 h4 he =>
      pair_eq_cases hw.1 hw.2.1 (Ne.symm ad) (Ne.symm bd) hw.2.2 (Ne.symm h1) (Ne.symm h2) (Ne.symm h3)
        (Ne.symm h4) he
    rcases (ex _).1 hm with he | he | he | he
    · rcases key x u ax bx au bu he with ⟨h1, h2⟩ | ⟨h1, h2⟩
      · exact .inl h1
      · exact absurd h2.symm xd
    · rcases key y u ay bz au bu he with ⟨h1, h2⟩ | ⟨h1, h2⟩
      · exact .inr h1
      · exact absurd h2.symm yd
    · rcases key x d ax bx ad bd he with ⟨h1, h2⟩ | ⟨h1, h2⟩
      · exact .inl h1
      · exact absurd h2.symm xd
    · rcases key y d ay bz ad bd he with ⟨h1, h2⟩ | ⟨h1, h2⟩
      · exact .inr h1
      · exact absurd h2.symm yd
  · rintro (rfl | rfl)
    · exact ⟨by simp [Ne.symm ax, Ne.symm bx, xd], (mem_edgeCells.1 ((ex _).2 (.inr (.inr (.inl rfl))))).1⟩
    · exact ⟨by simp [Ne.symm ay, Ne.symm bz, yd], (mem_edgeCells.1 ((ex _).2 (.inr (.inr (.inr rfl))))).1⟩

/-- Execution at a diamond. -/
theorem exec_diamond {validator : Tri V → Bool} {K K' : Tri V} (hK : Closed K.cells) {a b x y u d top : V}
    (h : Diamond K.inf K.cells a b x y u d) (ht : top ∈ K.finiteVerts) :
    executeFourFour validator K ⟨a, b, top, d⟩ = .ok K' ↔
      ({x, y} : Finset V) ∉ faces K.cells ∧ validator { K with cells := exchanged K.cells a b x y u d } = true ∧
      K' = relabel { K with cells := exchanged K.cells a b x y u d } := by
  have e := h.around
  rw [cellsAt_pair] at e
  have ex : ∀ c, c ∈ K.edgeCells a b ↔ c = {a, b, x, u} ∨ c = {a, b, y, u} ∨ c = {a, b, x, d} ∨ c = {a, b, y, d} := by
    intro c; rw [e]; simp only [Finset.mem_insert, Finset.mem_singleton]
  have ey : ∀ c, c ∈ K.edgeCells a b ↔ c = {a, b, y, u} ∨ c = {a, b, x, u} ∨ c = {a, b, y, d} ∨ c = {a, b, x, d} := by
    intro c; rw [ex]; tauto
  -- what the two flips return, whichever end of the new edge they start from
  have hres : ∀ {s : V} {K1 K2 : Tri V}, s = x ∨ s = y → K.flipFacet (insert s {a, b, d}) s = some K1 →
      K1.flipEdge a b = some K2 → ({x, y} : Finset V) ∉ faces K.cells ∧
        K2 = { K with cells := exchanged K.cells a b x y u d } := by
    intro s K1 K2 hs h1 h2
    rcases hs with rfl | rfl
    · obtain ⟨h3, h4, h5, h6, h7⟩ := two_flips hK h.distinct ex h1 h2
      refine ⟨pair_free.2 h3, ?_⟩
      cases K2; simp only at h4 h5 h6 h7; subst h5 h6 h7
      rw [h4, ← cellsAt_pair]; rfl
    · obtain ⟨h3, h4, h5, h6, h7⟩ := two_flips hK h.swapXY.distinct ey h1 h2
      refine ⟨by rw [Finset.pair_comm]; exact pair_free.2 h3, ?_⟩
      cases K2; simp only at h4 h5 h6 h7; subst h5 h6 h7
      rw [h4, ← cellsAt_pair, ← exchanged_swapXY]; rfl
  constructor
  · intro hx
    have hx' := hx
    unfold executeFourFour at hx
    split at hx
    · simp at hx
    · simp only at hx
      split at hx
      · simp at hx
      · rename_i s hs
        have hsm := (diamond_link h s).1 (Finset.mem_filter.1 (Finset.mem_of_min hs)).2
        split at hx
        · simp at hx
        · rename_i K1 h1
          split at hx
          · simp at hx
          · split at hx
            · simp at hx
            · rename_i K2 h2
              obtain ⟨g1, rfl⟩ := hres hsm h1 h2
              split at hx
              · simp at hx
              · rename_i hv
                simp only [Bool.or_eq_true, Bool.not_eq_true', not_or, Bool.not_eq_false] at hv
                exact ⟨g1, hv.1, (Except.ok.inj hx).symm⟩
  · rintro ⟨hfree, hv, rfl⟩
    obtain ⟨m1, m2, m3, m4⟩ := h.mem_cells
    have hn := nodup6.1 h.distinct
    have hf := h.finite
    simp only [List.mem_cons, List.not_mem_nil, or_false, not_or] at hf
    have hedge : K.isEdge a b = true := isEdge_of_mem hn.1.1 (c := {a, b, x, u}) ((ex _).2 (.inl rfl))
    have hd : d ∈ K.finiteVerts := mem_finiteVerts.2 ⟨Ne.symm hf.2.2.2.2.2, _, m3, by simp⟩
    have hne : (K.verts.filter (fun w => w ∉ ({a, b, d} : Finset V) ∧ insert w {a, b, d} ∈ K.cells)).Nonempty :=
      ⟨x, Finset.mem_filter.2 ⟨mem_verts.2 ⟨_, m1, by simp⟩, (diamond_link h x).2 (.inl rfl)⟩⟩
    obtain ⟨s, hs⟩ := Finset.min_of_nonempty hne
    have hsm := (diamond_link h s).1 (Finset.mem_filter.1 (Finset.mem_of_min hs)).2
    have hflips : ∃ K1 K2, K.flipFacet (insert s {a, b, d}) s = some K1 ∧ K1.isEdge a b = true ∧
        K1.flipEdge a b = some K2 := by
      rcases hsm with rfl | rfl
      · exact two_flips_succeed hK h.distinct ex hfree
      · exact two_flips_succeed hK h.swapXY.distinct ey (by rwa [Finset.pair_comm])
    obtain ⟨K1, K2, h1, h2, h3⟩ := hflips
    obtain ⟨-, rfl⟩ := hres hsm h1 h3
    unfold executeFourFour
    rw [if_neg (by simp [hedge, ht, hd])]
    simp only
    rw [hs]
    simp only
    rw [h1]
    simp only
    rw [if_neg (by simp [h2]), h3]
    simp only
    rw [if_neg (by
      simp only [hv, Bool.not_true, Bool.false_or, Bool.not_eq_true', Bool.not_eq_false]
      exact isValid_iff.2 (h.closed hfree hK))]

/-! ### Preparation -/

theorem diamond_count {K : Tri V} {a b x y u d : V} (h : Diamond K.inf K.cells a b x y u d) :
    ((K.edgeCells a b).filter (u ∈ ·)).card = 2 := by
  obtain ⟨⟨ab, ax, ay, au, ad⟩, ⟨bx, bz, bu, bd⟩, ⟨xy, xu, xd⟩, ⟨yu, yd⟩, ud⟩ := nodup6.1 h.distinct
  have e := h.around
  rw [cellsAt_pair] at e
  have : (K.edgeCells a b).filter (u ∈ ·) = {{a, b, x, u}, {a, b, y, u}} := by
    rw [e]
    ext c
    simp only [Finset.mem_filter, Finset.mem_insert, Finset.mem_singleton]
    constructor
    · rintro ⟨rfl | rfl | rfl | rfl, hu⟩
      · exact .inl rfl
      · exact .inr rfl
      · simp [Ne.symm au, Ne.symm bu, Ne.symm xu, ud] at hu
      · simp [Ne.symm au, Ne.symm bu, Ne.symm yu, ud] at hu
    · rintro (rfl | rfl)
      · exact ⟨.inl rfl, by simp⟩
      · exact ⟨.inr (.inl rfl), by simp⟩
  rw [this]
  apply Finset.card_pair
  intro hc
  have : x ∈ ({a, b, y, u} : Finset V) := hc ▸ by simp
  simp [Ne.symm ax, Ne.symm bx, xy, xu] at this

theorem diamond_card {K : Tri V} {a b x y u d : V} (h : Diamond K.inf K.cells a b x y u d) :
    (K.edgeCells a b).card = 4 := by
  have h1 := diamond_count h
  have h2 := diamond_count h.swapUD
  have hn := nodup6.1 h.distinct
  have e := h.around
  rw [cellsAt_pair] at e
  have : (K.edgeCells a b).filter (¬ u ∈ ·) = (K.edgeCells a b).filter (d ∈ ·) := by
    apply Finset.filter_congr
    intro c hc
    rw [e] at hc
    simp only [Finset.mem_insert, Finset.mem_singleton] at hc
    rcases hc with rfl | rfl | rfl | rfl <;> simp <;> grind
  rw [← Finset.card_filter_add_card_filter_not (u ∈ ·), h1, this, h2]

theorem diamond_incident {K : Tri V} {a b x y u d : V} (h : Diamond K.inf K.cells a b x y u d) :
    finiteIncidentCells K a b = some (K.edgeCells a b) ∧ K.isEdge a b = true := by
  have e := h.around
  rw [cellsAt_pair] at e
  have hf := h.finite
  simp only [List.mem_cons, List.not_mem_nil, or_false, not_or] at hf
  obtain ⟨f1, f2, f3, f4, f5, f6⟩ := hf
  have hedge : K.isEdge a b = true :=
    isEdge_of_mem (nodup6.1 h.distinct).1.1 (c := {a, b, x, u}) (by rw [e]; simp)
  refine ⟨?_, hedge⟩
  unfold finiteIncidentCells
  rw [if_neg (by simp [hedge]), if_neg]
  rintro ⟨c, hc, hi⟩
  rw [e] at hc
  simp only [Finset.mem_insert, Finset.mem_singleton] at hc
  rcases hc with rfl | rfl | rfl | rfl
  · exact notMem_four f1 f2 f3 f5 hi
  · exact notMem_four f1 f2 f4 f5 hi
  · exact notMem_four f1 f2 f3 f6 hi
  · exact notMem_four f1 f2 f4 f6 hi

/-- An edge with exactly four finite cells is the axis of a diamond. -/
theorem diamond_of_incident {K : Tri V} (hK : Closed K.cells) {a b : V} {cs : Finset (Finset V)}
    (h : finiteIncidentCells K a b = some cs) (h4 : cs.card = 4) :
    cs = K.edgeCells a b ∧ ∃ x y u d, Diamond K.inf K.cells a b x y u d := by
  unfold finiteIncidentCells at h
  split at h
  · simp at h
  · rename_i hedge
    split at h
    · simp at h
    · rename_i hinf
      cases h
      refine ⟨rfl, ?_⟩
      simp only [Bool.not_eq_true', Bool.not_eq_false, Tri.isEdge, decide_eq_true_eq] at hedge
      obtain ⟨x, y, z, u, hn, e⟩ := link4 hK hedge.1 h4
      have hn' := nodup6.1 hn
      refine ⟨x, z, y, u, nodup6.2 (by grind), ?_, ?_⟩
      · push Not at hinf
        have k1 := hinf {a, b, x, y} (by rw [e]; simp)
        have k2 := hinf {a, b, z, u} (by rw [e]; simp)
        simp only [Finset.mem_insert, Finset.mem_singleton, not_or] at k1 k2
        simp only [List.mem_cons, List.not_mem_nil, or_false, not_or]
        tauto
      · rw [cellsAt_pair, e]
        ext c
        simp only [Finset.mem_insert, Finset.mem_singleton]
        rw [Finset.pair_comm z y, Finset.pair_comm x u]
        tauto

theorem prepareBistellar_iff {K : Tri V} (hK : Closed K.cells) {a b top bottom : V} {m : FourFour V} :
    prepareBistellarFlip K a b top bottom = .ok m ↔ m = ⟨a, b, top, bottom⟩ ∧
      ∃ x y u, Diamond K.inf K.cells a b x y u bottom ∧ (top = x ∨ top = y ∨ top = u) := by
  constructor
  · intro h
    unfold prepareBistellarFlip at h
    split at h
    · simp at h
    · split at h
      · simp at h
      · rename_i cs hcs
        split at h
        · simp at h
        · rename_i hne
          split at h
          · simp at h
          · rename_i hcnt
            simp only [not_or, not_not] at hne hcnt
            obtain ⟨h4, tb, ta, tb', ba, bb⟩ := hne
            refine ⟨(Except.ok.inj h).symm, ?_⟩
            obtain ⟨rfl, x, y, u, d, hD⟩ := diamond_of_incident hK hcs h4
            have e := hD.around
            rw [cellsAt_pair] at e
            have key : ∀ v, v ≠ a → v ≠ b → ((K.edgeCells a b).filter (v ∈ ·)).card = 2 →
                v = x ∨ v = y ∨ v = u ∨ v = d := by
              intro v va vb hc
              obtain ⟨c, hc⟩ := Finset.card_pos.1 (show 0 < ((K.edgeCells a b).filter (v ∈ ·)).card by omega)
              rw [e] at hc
              simp only [Finset.mem_filter, Finset.mem_insert, Finset.mem_singleton] at hc
              obtain ⟨rfl | rfl | rfl | rfl, hv⟩ := hc <;>
                (simp only [Finset.mem_insert, Finset.mem_singleton, va, vb, false_or] at hv; tauto)
            have kt := key top ta tb' hcnt.1
            rcases key bottom ba bb hcnt.2 with rfl | rfl | rfl | rfl
            · exact ⟨u, d, y, hD.turn.swapUD, by tauto⟩
            · exact ⟨u, d, x, hD.turn, by tauto⟩
            · exact ⟨x, y, d, hD.swapUD, by tauto⟩
            · exact ⟨x, y, u, hD, by tauto⟩
  · rintro ⟨rfl, x, y, u, hD, ht⟩
    obtain ⟨hi, hedge⟩ := diamond_incident hD
    obtain ⟨⟨ab, ax, ay, au, ad⟩, ⟨bx, bz, bu, bd⟩, ⟨xy, xu, xd⟩, ⟨yu, yd⟩, ud⟩ := nodup6.1 hD.distinct
    obtain ⟨m1, m2, m3, m4⟩ := hD.mem_cells
    have hf := hD.finite
    simp only [List.mem_cons, List.not_mem_nil, or_false, not_or] at hf
    obtain ⟨f1, f2, f3, f4, f5, f6⟩ := hf
    have hb : bottom ∈ K.finiteVerts := mem_finiteVerts.2 ⟨Ne.symm f6, _, m3, by simp⟩
    have htv : top ∈ K.finiteVerts := by
      rcases ht with rfl | rfl | rfl
      · exact mem_finiteVerts.2 ⟨Ne.symm f3, _, m1, by simp⟩
      · exact mem_finiteVerts.2 ⟨Ne.symm f4, _, m2, by simp⟩
      · exact mem_finiteVerts.2 ⟨Ne.symm f5, _, m1, by simp⟩
    have hct : ((K.edgeCells a b).filter (top ∈ ·)).card = 2 := by
      rcases ht with rfl | rfl | rfl
      · exact diamond_count hD.turn
      · exact diamond_count hD.turn.swapUD
      · exact diamond_count hD
    have hcb := diamond_count hD.swapUD
    unfold prepareBistellarFlip
    rw [if_neg (by simp [hedge, hb, htv]), hi]
    simp only
    rw [if_neg (by simp only [diamond_card hD]; grind), if_neg (by simp [hct, hcb])]

end CDT

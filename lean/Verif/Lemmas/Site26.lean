/-
(2,6): accepted sites are placed subdivision patterns.
-/
import Verif.Lemmas.Site32

namespace CDT
open Spec Cavity Moves
variable {V G : Type} [LinearOrder V]

theorem place26 {f : Fin 6 ↪ V} {d : ℤ} :
    place f (p26 d).O = {{f 0, f 1, f 2, f 3}, {f 0, f 1, f 2, f 4}} ∧
    place f (p26 d).N = {{f 0, f 1, f 5, f 3}, {f 0, f 2, f 5, f 3}, {f 1, f 2, f 5, f 3},
      {f 0, f 1, f 5, f 4}, {f 0, f 2, f 5, f 4}, {f 1, f 2, f 5, f 4}} ∧
    (p26 d).coreO.map f = {f 0, f 1, f 2} ∧ (p26 d).coreN.map f = {f 5} := by
  simp [place, p26]

theorem mem_verts {K : Tri V} {v : V} : v ∈ K.verts ↔ ∃ c ∈ K.cells, v ∈ c := by
  simp [Tri.verts]

/-- The labels of a (1,3) cell's partner across a facet. -/
theorem times_13_31 {i w x y z : ℤ} (h : Quad 3 i x y z) (h' : Quad 1 w x y z) :
    ∃ t, x = t ∧ y = t ∧ z = t ∧ w = t + 1 ∧ i = t + -1 := by
  obtain ⟨t, g1, g2, g3, g4, g5⟩ := h
  obtain ⟨s, k1, k2, k3, k4, k5⟩ := h'
  exact ⟨s, by omega⟩

/-- The accepted partner: what `find_adjacent_31_cell` returns. -/
theorem findAdjacent31_some {K : Tri V} (hK : Closed K.cells) {c : Finset V} (hc : c ∈ K.cells)
    {i : V} (h : findAdjacent31 K c = some i) :
    i ∈ c ∧ HasType K.time 1 3 c ∧ K.typeCorrect c = true ∧ ∃ w, K.mirror c i = some w ∧ w ∉ c ∧
      insert w (c.erase i) ∈ K.cells ∧ K.typeCorrect (insert w (c.erase i)) = true ∧
      HasType K.time 3 1 (insert w (c.erase i)) := by
  unfold findAdjacent31 at h
  split at h
  · simp at h
  · rename_i ht
    simp only [Bool.or_eq_true, Bool.not_eq_true', bne_iff_ne, not_or, Bool.not_eq_false, not_not] at ht
    have hm := List.mem_of_mem_head? (Option.mem_def.2 h)
    have hm' := (List.perm_insertionSort _ _).mem_iff.1 hm
    obtain ⟨hic, hpart⟩ := List.mem_filter.1 hm'
    have hic := mem_canonicalPoints.1 hic
    obtain ⟨w, hw, hwc, hwK, _⟩ := exists_mirror hK hc hic
    unfold partner31 at hpart
    rw [hw] at hpart
    simp only [Bool.and_eq_true, beq_iff_eq] at hpart
    exact ⟨hic, (expectedType_oneThree (hK.1 c hc)).1 ht.2, ht.1, w, hw, hwc, hwK, hpart.1,
      (expectedType_threeOne (hK.1 _ hwK)).1 hpart.2⟩

theorem prepareTwoSix_ok {K : Tri V} (hK : Closed K.cells) {c : Finset V} {m : Finset V × V}
    (h : prepareTwoSix K c = .ok m) : c ∈ K.cells ∧ m.1 = c ∧ findAdjacent31 K c = some m.2 := by
  unfold prepareTwoSix at h
  split at h
  · simp at h
  · rename_i hc
    split at h
    · simp at h
    · rename_i i hi
      split at h
      · simp at h
      · simp only [Except.ok.injEq] at h
        subst h
        exact ⟨by simpa using hc, rfl, hi⟩

theorem executeTwoSix_ok {env : Env V G} {validator : Tri V → Bool} {K K' : Tri V} {m : Finset V × V}
    {w : V} (hm : K.mirror m.1 m.2 = some w) (h : executeTwoSix env validator K m = .ok K') :
    K'.inf = K.inf ∧ K'.info = K.info ∧
    K'.cells = (K.cells \ {m.1, insert w (m.1.erase m.2)}) ∪
        ((m.1.erase m.2).image (fun x => insert (env.centroid (m.1.erase m.2)) (m.1.erase x)) ∪
         (m.1.erase m.2).image (fun x => insert (env.centroid (m.1.erase m.2))
            ((insert w (m.1.erase m.2)).erase x))) ∧
    K'.time = fun x => if x = env.centroid (m.1.erase m.2) then
        (match (canonicalPoints (m.1.erase m.2)).head? with
          | some v1 => K.time v1
          | none => K.time x) else K.time x := by
  unfold executeTwoSix at h
  split at h
  · simp at h
  · simp only [Tri.insertInFacet, hm] at h
    rcases ite_eq_iff.1 h with ⟨_, h⟩ | ⟨_, h⟩
    · simp at h
    · rcases ite_eq_iff.1 h with ⟨_, h⟩ | ⟨_, h⟩
      · simp at h
      · simp only [Except.ok.injEq] at h
        subst h
        exact ⟨rfl, rfl, rfl, rfl⟩

/-- Placement of the subdivision pattern. -/
theorem placed26 {K : Finset (Finset V)} (hK : Closed K) {inf : V} {time : V → ℤ} {t d : ℤ}
    {x y z w i m : V} (inj : Function.Injective ![x, y, z, w, i, m])
    (h1 : {x, y, z, w} ∈ K) (h2 : {x, y, z, i} ∈ K) (hm : ∀ c ∈ K, m ∉ c)
    (hi1 : inf ∉ ({x, y, z, w} : Finset V)) (hi2 : inf ≠ i) (him : m ≠ inf)
    (ht : time x = t ∧ time y = t ∧ time z = t ∧ time w = t + 1 ∧ time i = t + -1 ∧ time m = t + d) :
    Placed (p26 d) inf time K (emb6 x y z w i m inj) t := by
  obtain ⟨eO, eN, cO, cN⟩ := place26 (f := emb6 x y z w i m inj) (d := d)
  have nwi : w ≠ i := fun h => by
    have : (3 : Fin 6) = 4 := inj h
    simp at this
  refine ⟨?_, ?_, ?_, ?_, ?_⟩
  · intro c hc
    have : c.map (emb6 x y z w i m inj) ∈ place (emb6 x y z w i m inj) (p26 d).O := map_mem_place.2 hc
    rw [eO] at this
    simp only [Finset.mem_insert, Finset.mem_singleton] at this
    rcases this with h | h <;> rw [h] <;> assumption
  · intro c hc hs
    rw [cO] at hs
    rw [eO]
    change ({x, y, z} : Finset V) ⊆ c at hs
    show c ∈ ({{x, y, z, w}, {x, y, z, i}} : Finset (Finset V))
    have hw : w ∉ ({x, y, z} : Finset V) := by
      simp only [Finset.mem_insert, Finset.mem_singleton, not_or]
      exact ⟨fun h => by have : (3 : Fin 6) = 0 := inj h; simp at this,
        fun h => by have : (3 : Fin 6) = 1 := inj h; simp at this,
        fun h => by have : (3 : Fin 6) = 2 := inj h; simp at this⟩
    have hii : i ∉ ({x, y, z} : Finset V) := by
      simp only [Finset.mem_insert, Finset.mem_singleton, not_or]
      exact ⟨fun h => by have : (4 : Fin 6) = 0 := inj h; simp at this,
        fun h => by have : (4 : Fin 6) = 1 := inj h; simp at this,
        fun h => by have : (4 : Fin 6) = 2 := inj h; simp at this⟩
    have e1 : ({x, y, z, w} : Finset V) = insert w {x, y, z} := by ext; simp; tauto
    have e2 : ({x, y, z, i} : Finset V) = insert i {x, y, z} := by ext; simp; tauto
    obtain ⟨u, hu, huK, hall⟩ := hK.across h1 (v := w) (by simp)
    rw [e1, Finset.erase_insert hw] at hall
    rw [e1, e2]
    simp only [Finset.mem_insert, Finset.mem_singleton]
    have h3 : ({x, y, z, i} : Finset V) = insert u {x, y, z} := by
      rcases hall _ h2 (by intro a ha; simp at ha ⊢; tauto) with h' | h'
      · have : i ∈ insert w ({x, y, z} : Finset V) := by rw [← h']; simp
        rcases Finset.mem_insert.1 this with h | h
        · exact absurd h.symm nwi
        · exact absurd h hii
      · exact h'
    rw [← e2, h3]
    exact hall c hc hs
  · rw [cN]
    intro hf
    obtain ⟨c, hc, hs⟩ := mem_faces.1 hf
    exact hm c hc (hs (by show m ∈ ({m} : Finset V); simp))
  · intro j
    simp only [Finset.mem_insert, Finset.mem_singleton, not_or] at hi1
    have : ∀ j, ![x, y, z, w, i, m] j ≠ inf := by
      intro j; fin_cases j <;> simp <;> grind
    exact this j
  · intro j
    have : ∀ j, time (![x, y, z, w, i, m] j) = t + (p26 d).τ j := by
      intro j; fin_cases j <;> simp [p26, ht]
    exact this j

/-- The labels of infinite cells never claim to be (3,1) (assumption on CGAL's
uninitialised `info()`; include/Ergodic_moves_3.hpp:898-906 lacks an `is_infinite` test). -/
def InfiniteUnlabelled (K : Tri V) : Prop := ∀ c ∈ K.cells, K.inf ∈ c → K.info c ≠ 31

theorem not_inf_of_correct31 {K : Tri V} (h : InfiniteUnlabelled K) {c : Finset V} (hc : c ∈ K.cells)
    (h4 : c.card = 4) (hcorr : K.typeCorrect c = true) (ht : HasType K.time 3 1 c) : K.inf ∉ c := by
  intro hi
  apply h c hc hi
  have e := (expectedType_threeOne h4).2 ht
  unfold Tri.typeCorrect isCellTypeCorrect at hcorr
  unfold Tri.expectedType at e
  rw [e] at hcorr
  simp [CellType.code] at hcorr
  exact hcorr.symm

/-- What an accepted (2,6) site is: two cells on both sides of a spacelike triangle. -/
theorem site26_shape {K : Tri V} (hK : Closed K.cells) (hu : InfiniteUnlabelled K) {c : Finset V}
    (hinf : K.inf ∉ c) {m : Finset V × V} (hp : prepareTwoSix K c = .ok m) :
    ∃ x y z w t, x ≠ y ∧ x ≠ z ∧ y ≠ z ∧ w ≠ x ∧ w ≠ y ∧ w ≠ z ∧ m.2 ≠ x ∧ m.2 ≠ y ∧ m.2 ≠ z ∧
      m.2 ≠ w ∧ m.1 = c ∧ c ∈ K.cells ∧ c = {m.2, x, y, z} ∧ c.erase m.2 = {x, y, z} ∧
      K.mirror c m.2 = some w ∧ {x, y, z, w} ∈ K.cells ∧ K.inf ∉ ({x, y, z, w} : Finset V) ∧
      K.time x = t ∧ K.time y = t ∧ K.time z = t ∧ K.time w = t + 1 ∧ K.time m.2 = t + -1 := by
  obtain ⟨hc, h1, hf⟩ := prepareTwoSix_ok hK hp
  obtain ⟨hi, t13, _, w, hw, hwc, hwK, hcorr, t31⟩ := findAdjacent31_some hK hc hf
  have hninf := not_inf_of_correct31 hu hwK (hK.1 _ hwK) hcorr t31
  obtain ⟨x, y, z, d2, d3, d4, d8, d9, d10, e, ee⟩ := exists_four (hK.1 _ hc) hi
  have d1 : m.2 ≠ w := fun h => hwc (h ▸ hi)
  have d5 : w ≠ x := fun h => hwc (by rw [e, h]; simp)
  have d6 : w ≠ y := fun h => hwc (by rw [e, h]; simp)
  have d7 : w ≠ z := fun h => hwc (by rw [e, h]; simp)
  rw [ee] at hwK t31 hninf
  have q1 := (hasType_quad K.time (by omega) (by omega) d2 d3 d4 d8 d9 d10).1 (e ▸ t13)
  have q2 := (hasType_quad K.time (by omega) (by omega) d5 d6 d7 d8 d9 d10).1 t31
  obtain ⟨t, hx, hy, hz, hw', hi'⟩ := times_13_31 q1 q2
  have e1 : ({x, y, z, w} : Finset V) = insert w {x, y, z} := by ext; simp; tauto
  exact ⟨x, y, z, w, t, d8, d9, d10, d5, d6, d7, d2, d3, d4, d1, h1, hc, e, ee, hw, e1 ▸ hwK, e1 ▸ hninf,
    hx, hy, hz, hw', hi'⟩

theorem insert_erase_three {x y z i ce : V} (d1 : x ≠ y) (d2 : x ≠ z) (d3 : y ≠ z) (d4 : i ≠ x)
    (d5 : i ≠ y) (d6 : i ≠ z) :
    insert ce (({i, x, y, z} : Finset V).erase x) = {y, z, ce, i} ∧
    insert ce (({i, x, y, z} : Finset V).erase y) = {x, z, ce, i} ∧
    insert ce (({i, x, y, z} : Finset V).erase z) = {x, y, ce, i} := by
  refine ⟨?_, ?_, ?_⟩ <;> ext u <;>
    simp only [Finset.mem_insert, Finset.mem_erase, Finset.mem_singleton] <;> grind

/-- A successful (2,6) mutation subdivides a spacelike triangle. -/
theorem site26 {env : Env V G} {validator : Tri V → Bool} {K K' : Tri V} (hK : Closed K.cells)
    (hu : InfiniteUnlabelled K) {c : Finset V} (hinf : K.inf ∉ c) {m : Finset V × V}
    (hp : prepareTwoSix K c = .ok m) (he : executeTwoSix env validator K m = .ok K')
    (hnew : env.centroid (c.erase m.2) ∉ K.verts) (hne : env.centroid (c.erase m.2) ≠ K.inf) :
    ∃ f : Fin 6 ↪ V, ∃ t, f 5 = env.centroid (c.erase m.2) ∧
      (∀ (time : V → ℤ) (d : ℤ), (∀ v ∈ K.verts, time v = K.time v) → time (f 5) = t + d →
        Placed (p26 d) K.inf time K.cells f t) ∧
      K'.cells = replace (p26 0) K.cells f ∧ K'.inf = K.inf ∧ K'.info = K.info ∧
      K'.time (f 5) = t ∧ (∀ v ∈ K.verts, K'.time v = K.time v) ∧
      ({f 0, f 1, f 2} : Finset V) = c.erase m.2 := by
  obtain ⟨x, y, z, w, t, d8, d9, d10, d5, d6, d7, d2, d3, d4, d1, h1, hc, e, ee, hw, hwK, hninf,
    hx, hy, hz, hw', hi'⟩ := site26_shape hK hu hinf hp
  obtain ⟨c', i⟩ := m
  dsimp only at h1
  subst h1
  dsimp only at *
  obtain ⟨k1, k2, k3, k4⟩ := executeTwoSix_ok (m := (c', i)) hw he
  dsimp only at k3 k4
  have hmv : ∀ d ∈ K.cells, env.centroid (c'.erase i) ∉ d := fun d hd h => hnew (mem_verts.2 ⟨d, hd, h⟩)
  generalize hce : env.centroid (c'.erase i) = ce at *
  have n1 := hmv _ hc
  have n2 := hmv _ hwK
  rw [e] at n1
  simp only [Finset.mem_insert, Finset.mem_singleton, not_or] at n1 n2
  have inj : Function.Injective ![x, y, z, w, i, ce] := by
    apply inj6 <;> grind
  have e2 : ({x, y, z, i} : Finset V) = {i, x, y, z} := by ext; simp; tauto
  have tm : ∀ v ∈ K.verts, K'.time v = K.time v := by
    intro v hv
    rw [k4]
    have : v ≠ ce := fun h => hnew (h ▸ hv)
    simp [this]
  refine ⟨emb6 x y z w i ce inj, t, rfl, ?_, ?_, k1, k2, ?_, tm, ?_⟩
  · intro time d ht htd
    have v : ∀ u, u ∈ ({i, x, y, z} : Finset V) → time u = K.time u := fun u hu =>
      ht u (mem_verts.2 ⟨_, e ▸ hc, hu⟩)
    have hi2 : K.inf ≠ i := fun h => hinf (by rw [e, h]; simp)
    apply placed26 hK inj hwK (e2 ▸ e ▸ hc) hmv hninf hi2 hne
    refine ⟨?_, ?_, ?_, ?_, ?_, htd⟩
    · rw [v x (by simp), hx]
    · rw [v y (by simp), hy]
    · rw [v z (by simp), hz]
    · rw [ht w (mem_verts.2 ⟨_, hwK, by simp⟩), hw']
    · rw [v i (by simp), hi']
  · obtain ⟨eO, eN, _, _⟩ := place26 (f := emb6 x y z w i ce inj) (d := 0)
    rw [k3]
    unfold replace
    rw [eO, eN]
    show _ = (K.cells \ {{x, y, z, w}, {x, y, z, i}}) ∪ {{x, y, ce, w}, {x, z, ce, w}, {y, z, ce, w},
      {x, y, ce, i}, {x, z, ce, i}, {y, z, ce, i}}
    rw [ee, e]
    obtain ⟨a1, a2, a3⟩ := insert_erase_three (ce := ce) d8 d9 d10 d2 d3 d4
    obtain ⟨b1, b2, b3⟩ := insert_erase_three (ce := ce) d8 d9 d10 d5 d6 d7
    have a0 : ({w, x, y, z} : Finset V) = {x, y, z, w} := by ext; simp; tauto
    simp only [Finset.image_insert, Finset.image_singleton]
    rw [a1, a2, a3, b1, b2, b3, e2, a0]
    rw [Finset.pair_comm]
    congr 1
    ext s
    simp only [Finset.mem_union, Finset.mem_insert, Finset.mem_singleton, or_assoc]
    constructor <;> (rintro (h | h | h | h | h | h) <;> simp only [h, true_or, or_true])
  · show K'.time ce = t
    rw [k4]
    simp only [↓reduceIte]
    have hl : (canonicalPoints (c'.erase i)).length = 3 := by
      rw [length_canonicalPoints, Finset.card_erase_of_mem (by rw [e]; simp), hK.1 _ hc]
    split
    · rename_i v1 hv1
      have := mem_canonicalPoints.1 (List.mem_of_mem_head? (Option.mem_def.2 hv1))
      rw [ee] at this
      simp only [Finset.mem_insert, Finset.mem_singleton] at this
      rcases this with rfl | rfl | rfl <;> assumption
    · rename_i hv1
      rw [List.head?_eq_none_iff] at hv1
      rw [hv1] at hl
      simp at hl
  · rw [ee]; rfl

end CDT

/-
Cavity replacement: replacing a set of tetrahedra placed as a fixed finite pattern by
another set with the same boundary.  All five ergodic moves are instances.
-/
import Verif.Spec.Complex
import Mathlib.Data.Fintype.Powerset
import Mathlib.Tactic.Linarith

namespace CDT.Cavity
open CDT.Spec

variable {V : Type*} [DecidableEq V] {n : ℕ}

theorem mem_faces {K : Finset (Finset V)} {s : Finset V} : s ∈ faces K ↔ ∃ c ∈ K, s ⊆ c := by
  simp [faces]

theorem mem_cellsAt {K : Finset (Finset V)} {s c : Finset V} : c ∈ cellsAt K s ↔ c ∈ K ∧ s ⊆ c := by
  simp [cellsAt]

theorem mem_vertices {K : Finset (Finset V)} {v : V} : v ∈ vertices K ↔ ∃ c ∈ K, v ∈ c := by
  simp [vertices]

theorem face_subset {K : Finset (Finset V)} {s r : Finset V} (h : s ∈ faces K) (hr : r ⊆ s) :
    r ∈ faces K := by
  obtain ⟨c, hc, hs⟩ := mem_faces.1 h
  exact mem_faces.2 ⟨c, hc, hr.trans hs⟩

omit [DecidableEq V] in
theorem exists_map_of_subset {f : Fin n ↪ V} {d : Finset (Fin n)} {s : Finset V}
    (h : s ⊆ d.map f) : ∃ r, r ⊆ d ∧ r.map f = s := by
  classical
  refine ⟨d.filter (fun i => f i ∈ s), Finset.filter_subset _ _, ?_⟩
  ext v
  simp only [Finset.mem_map, Finset.mem_filter]
  constructor
  · rintro ⟨i, ⟨_, hi⟩, rfl⟩; exact hi
  · intro hv
    obtain ⟨i, hi, rfl⟩ := Finset.mem_map.1 (h hv)
    exact ⟨i, ⟨hi, hv⟩, rfl⟩

/-- Image of a pattern complex. -/
def place (f : Fin n ↪ V) (O : Finset (Finset (Fin n))) : Finset (Finset V) :=
  O.image (Finset.map f)

theorem mem_place {f : Fin n ↪ V} {O : Finset (Finset (Fin n))} {c : Finset V} :
    c ∈ place f O ↔ ∃ d ∈ O, d.map f = c := by simp [place]

theorem map_mem_place {f : Fin n ↪ V} {O : Finset (Finset (Fin n))} {d : Finset (Fin n)} :
    d.map f ∈ place f O ↔ d ∈ O := by
  simp [place]

theorem faces_place (f : Fin n ↪ V) (O : Finset (Finset (Fin n))) :
    faces (place f O) = place f (faces O) := by
  ext s
  simp only [mem_faces, mem_place]
  constructor
  · rintro ⟨c, ⟨d, hd, rfl⟩, hs⟩
    obtain ⟨r, hr, rfl⟩ := exists_map_of_subset hs
    exact ⟨r, ⟨d, hd, hr⟩, rfl⟩
  · rintro ⟨r, ⟨d, hd, hr⟩, rfl⟩
    exact ⟨d.map f, ⟨d, hd, rfl⟩, Finset.map_subset_map.2 hr⟩

theorem place_sdiff (f : Fin n ↪ V) (O N : Finset (Finset (Fin n))) :
    place f (O \ N) = place f O \ place f N := by
  unfold place
  exact Finset.image_sdiff _ _ (Finset.map_injective f)

theorem cellsAt_place (f : Fin n ↪ V) (O : Finset (Finset (Fin n))) (s : Finset (Fin n)) :
    cellsAt (place f O) (s.map f) = place f (cellsAt O s) := by
  ext c
  simp only [mem_cellsAt, mem_place]
  constructor
  · rintro ⟨⟨d, hd, rfl⟩, h⟩
    exact ⟨d, ⟨hd, Finset.map_subset_map.1 h⟩, rfl⟩
  · rintro ⟨d, ⟨hd, h⟩, rfl⟩
    exact ⟨⟨d, hd, rfl⟩, Finset.map_subset_map.2 h⟩

theorem card_place (f : Fin n ↪ V) (O : Finset (Finset (Fin n))) :
    (place f O).card = O.card :=
  Finset.card_image_of_injective _ (Finset.map_injective f)

theorem cellsAt_place_empty (f : Fin n ↪ V) (O : Finset (Finset (Fin n))) {s : Finset V}
    (h : ¬ ∃ r : Finset (Fin n), r.map f = s) : cellsAt (place f O) s = ∅ := by
  ext c
  simp only [mem_cellsAt, mem_place, Finset.notMem_empty, iff_false, not_and]
  rintro ⟨d, _, rfl⟩ hs
  obtain ⟨r, _, rfl⟩ := exists_map_of_subset hs
  exact h ⟨r, rfl⟩

/-- A cavity pattern: old and new tetrahedra on `n` vertices, the simplex every lost face
contains, the simplex every gained face contains, and relative times. -/
structure Pattern (n : ℕ) where
  O : Finset (Finset (Fin n))
  N : Finset (Finset (Fin n))
  coreO : Finset (Fin n)
  coreN : Finset (Fin n)
  τ : Fin n → ℤ

/-- Finite conditions on a pattern. -/
structure Pattern.Good (p : Pattern n) : Prop where
  lost : ∀ s ∈ faces p.O, s ∉ faces p.N → p.coreO ⊆ s
  gained : ∀ s ∈ faces p.N, s ∉ faces p.O → p.coreN ⊆ s
  newCells : ∀ c ∈ p.N, c.card = 4 ∧ p.coreN ⊆ c
  oldCells : ∀ c ∈ p.O, c.card = 4 ∧ p.coreO ⊆ c
  deg : ∀ s : Finset (Fin n), s.card = 3 →
    (cellsAt p.O s).card = (cellsAt p.N s).card ∨
    ((cellsAt p.O s).card = 2 ∧ (cellsAt p.N s).card = 0) ∨
    ((cellsAt p.O s).card = 0 ∧ (cellsAt p.N s).card = 2 ∧ p.coreN ⊆ s)

/-- Conditions on the relative times of a pattern. -/
structure Pattern.Timed (p : Pattern n) : Prop where
  causal : ∀ c ∈ p.N, HasType p.τ 3 1 c ∨ HasType p.τ 2 2 c ∨ HasType p.τ 1 3 c
  timeO : ∀ i ∈ vertices p.O, ∃ j ∈ vertices p.N, p.τ j = p.τ i
  timeN : ∀ i ∈ vertices p.N, ∃ j ∈ vertices p.O, p.τ j = p.τ i

/-- How a pattern sits in a complex. -/
structure Placed (p : Pattern n) (inf : V) (time : V → ℤ) (K : Finset (Finset V))
    (f : Fin n ↪ V) (t : ℤ) : Prop where
  old : ∀ c ∈ p.O, c.map f ∈ K
  starOld : ∀ c ∈ K, p.coreO.map f ⊆ c → c ∈ place f p.O
  fresh : p.coreN.map f ∉ faces K
  fin : ∀ i, f i ≠ inf
  times : ∀ i, time (f i) = t + p.τ i

/-- The complex after the replacement. -/
def replace (p : Pattern n) (K : Finset (Finset V)) (f : Fin n ↪ V) : Finset (Finset V) :=
  (K \ place f p.O) ∪ place f p.N

variable {p : Pattern n} {inf : V} {time : V → ℤ} {K : Finset (Finset V)} {f : Fin n ↪ V} {t : ℤ}

theorem mem_replace {c : Finset V} :
    c ∈ replace p K f ↔ (c ∈ K ∧ c ∉ place f p.O) ∨ c ∈ place f p.N := by
  simp [replace]

theorem Placed.sub (h : Placed p inf time K f t) : place f p.O ⊆ K := by
  intro c hc
  obtain ⟨d, hd, rfl⟩ := mem_place.1 hc
  exact h.old d hd

theorem Placed.lost (g : p.Good) (h : Placed p inf time K f t) {s : Finset V}
    (hs : s ∈ faces (place f p.O)) (hn : s ∉ faces (place f p.N)) {c : Finset V} (hc : c ∈ K)
    (hsc : s ⊆ c) : c ∈ place f p.O := by
  rw [faces_place] at hs hn
  obtain ⟨r, hr, rfl⟩ := mem_place.1 hs
  rw [map_mem_place] at hn
  exact h.starOld c hc ((Finset.map_subset_map.2 (g.lost r hr hn)).trans hsc)

theorem Placed.gained (g : p.Good) (h : Placed p inf time K f t) {s : Finset V}
    (hs : s ∈ faces (place f p.N)) (hn : s ∉ faces (place f p.O)) : s ∉ faces K := by
  rw [faces_place] at hs hn
  obtain ⟨r, hr, rfl⟩ := mem_place.1 hs
  rw [map_mem_place] at hn
  intro hk
  exact h.fresh (face_subset hk (Finset.map_subset_map.2 (g.gained r hr hn)))

theorem faces_replace (g : p.Good) (h : Placed p inf time K f t) :
    faces (replace p K f)
      = (faces K \ place f (faces p.O \ faces p.N)) ∪ place f (faces p.N \ faces p.O) := by
  ext s
  rw [place_sdiff, place_sdiff, ← faces_place, ← faces_place]
  simp only [Finset.mem_union, Finset.mem_sdiff]
  constructor
  · intro hs
    obtain ⟨c, hc, hsc⟩ := mem_faces.1 hs
    rcases mem_replace.1 hc with ⟨hcK, hcO⟩ | hcN
    · left
      refine ⟨mem_faces.2 ⟨c, hcK, hsc⟩, fun hx => hcO (h.lost g hx.1 hx.2 hcK hsc)⟩
    · have hN : s ∈ faces (place f p.N) := mem_faces.2 ⟨c, hcN, hsc⟩
      by_cases hO : s ∈ faces (place f p.O)
      · left
        refine ⟨?_, fun hx => hx.2 hN⟩
        obtain ⟨d, hd, hsd⟩ := mem_faces.1 hO
        exact mem_faces.2 ⟨d, h.sub hd, hsd⟩
      · right; exact ⟨hN, hO⟩
  · rintro (⟨hK, hx⟩ | ⟨hN, _⟩)
    · obtain ⟨c, hc, hsc⟩ := mem_faces.1 hK
      by_cases hcO : c ∈ place f p.O
      · have hO : s ∈ faces (place f p.O) := mem_faces.2 ⟨c, hcO, hsc⟩
        by_cases hN : s ∈ faces (place f p.N)
        · obtain ⟨d, hd, hsd⟩ := mem_faces.1 hN
          exact mem_faces.2 ⟨d, mem_replace.2 (Or.inr hd), hsd⟩
        · exact absurd ⟨hO, hN⟩ hx
      · exact mem_faces.2 ⟨c, mem_replace.2 (Or.inl ⟨hc, hcO⟩), hsc⟩
    · obtain ⟨d, hd, hsd⟩ := mem_faces.1 hN
      exact mem_faces.2 ⟨d, mem_replace.2 (Or.inr hd), hsd⟩

theorem lost_sub (h : Placed p inf time K f t) :
    place f (faces p.O \ faces p.N) ⊆ faces K := by
  intro s hs
  obtain ⟨r, hr, rfl⟩ := mem_place.1 hs
  obtain ⟨d, hd, hrd⟩ := mem_faces.1 (Finset.mem_sdiff.1 hr).1
  exact mem_faces.2 ⟨d.map f, h.old d hd, Finset.map_subset_map.2 hrd⟩

theorem gained_disj (g : p.Good) (h : Placed p inf time K f t) :
    Disjoint (faces K) (place f (faces p.N \ faces p.O)) := by
  rw [Finset.disjoint_right]
  intro s hs
  rw [place_sdiff, ← faces_place, ← faces_place] at hs
  obtain ⟨h1, h2⟩ := Finset.mem_sdiff.1 hs
  exact h.gained g h1 h2

theorem not_mem_map (h : Placed p inf time K f t) (r : Finset (Fin n)) : inf ∉ r.map f := by
  simp only [Finset.mem_map, not_exists, not_and]
  intro i _
  exact h.fin i

theorem filter_place_card (h : Placed p inf time K f t) (q : Finset V → Prop) [DecidablePred q]
    (q0 : Finset (Fin n) → Prop) [DecidablePred q0] (hq : ∀ r, q (r.map f) ↔ q0 r)
    (S : Finset (Finset (Fin n))) :
    (((place f S).filter (inf ∉ ·)).filter q).card = (S.filter q0).card := by
  rw [← card_place f (S.filter q0)]
  congr 1
  ext s
  simp only [Finset.mem_filter, mem_place]
  constructor
  · rintro ⟨⟨⟨r, hr, rfl⟩, _⟩, hs⟩
    exact ⟨r, ⟨hr, (hq r).1 hs⟩, rfl⟩
  · rintro ⟨r, ⟨hr, hr0⟩, rfl⟩
    exact ⟨⟨⟨r, hr, rfl⟩, not_mem_map h r⟩, (hq r).2 hr0⟩

/-- Effect of a replacement on any count of finite faces. -/
theorem count_replace (g : p.Good) (h : Placed p inf time K f t) (q : Finset V → Prop)
    [DecidablePred q] (q0 : Finset (Fin n) → Prop) [DecidablePred q0]
    (hq : ∀ r, q (r.map f) ↔ q0 r) :
    count inf (replace p K f) q = count inf K q
      + (((faces p.N \ faces p.O).filter q0).card - ((faces p.O \ faces p.N).filter q0).card : ℤ) := by
  unfold count
  rw [faces_replace g h]
  set L := place f (faces p.O \ faces p.N) with hL
  set G := place f (faces p.N \ faces p.O) with hG
  have hLs : L ⊆ faces K := lost_sub h
  have hd : Disjoint (faces K \ L) G :=
    (gained_disj g h).mono_left Finset.sdiff_subset
  have e1 : (((faces K \ L ∪ G).filter (inf ∉ ·)).filter q).card
      = (((faces K \ L).filter (inf ∉ ·)).filter q).card + ((G.filter (inf ∉ ·)).filter q).card := by
    rw [Finset.filter_union, Finset.filter_union, Finset.card_union_of_disjoint]
    exact (Finset.disjoint_filter_filter (Finset.disjoint_filter_filter hd))
  have e2 : (((faces K).filter (inf ∉ ·)).filter q).card
      = (((faces K \ L).filter (inf ∉ ·)).filter q).card + ((L.filter (inf ∉ ·)).filter q).card := by
    rw [← Finset.card_union_of_disjoint, ← Finset.filter_union, ← Finset.filter_union,
      Finset.sdiff_union_of_subset hLs]
    exact Finset.disjoint_filter_filter (Finset.disjoint_filter_filter Finset.sdiff_disjoint)
  rw [filter_place_card h q q0 hq] at e1 e2
  omega

/-! ### Types and edges under placement -/

omit [DecidableEq V] in
theorem hasType_map (h : ∀ i, time (f i) = t + p.τ i) (i j : ℕ) (r : Finset (Fin n)) :
    HasType time i j (r.map f) ↔ HasType p.τ i j r := by
  unfold HasType
  have e : ∀ (v : Fin n) (k : ℤ), ((r.map f).filter (fun u => time u = time (f v) + k)).card
      = (r.filter (fun u => p.τ u = p.τ v + k)).card := by
    intro v k
    rw [Finset.filter_map, Finset.card_map]
    congr 1
    apply Finset.filter_congr
    intro u _
    simp only [Function.comp, h]
    constructor <;> intro h <;> linarith
  have e0 : ∀ v : Fin n, ((r.map f).filter (fun u => time u = time (f v))).card
      = (r.filter (fun u => p.τ u = p.τ v)).card := by
    intro v; simpa using e v 0
  rw [Finset.card_map]
  constructor
  · rintro ⟨hc, v, hv, h1, h2⟩
    obtain ⟨w, hw, rfl⟩ := Finset.mem_map.1 hv
    exact ⟨hc, w, hw, by rw [← e0]; exact h1, by rw [← e]; exact h2⟩
  · rintro ⟨hc, w, hw, h1, h2⟩
    exact ⟨hc, f w, Finset.mem_map_of_mem f hw, by rw [e0]; exact h1, by rw [e]; exact h2⟩

omit [DecidableEq V] in
theorem spacelike_map (h : ∀ i, time (f i) = t + p.τ i) (r : Finset (Fin n)) :
    Spacelike time (r.map f) ↔ Spacelike p.τ r := by
  unfold Spacelike
  constructor
  · intro hs u hu v hv
    have := hs (f u) (Finset.mem_map_of_mem f hu) (f v) (Finset.mem_map_of_mem f hv)
    rw [h, h] at this; linarith
  · intro hs u hu v hv
    obtain ⟨a, ha, rfl⟩ := Finset.mem_map.1 hu
    obtain ⟨b, hb, rfl⟩ := Finset.mem_map.1 hv
    rw [h, h, hs a ha b hb]

/-- The census change prescribed by a pattern. -/
def Pattern.delta (p : Pattern n) : Census :=
  let d (q : Finset (Fin n) → Prop) [DecidablePred q] : ℤ :=
    ((faces p.N \ faces p.O).filter q).card - ((faces p.O \ faces p.N).filter q).card
  { N0 := d (fun s => s.card = 1)
    N1SL := d (fun s => s.card = 2 ∧ Spacelike p.τ s)
    N1TL := d (fun s => s.card = 2 ∧ ¬ Spacelike p.τ s)
    N2 := d (fun s => s.card = 3)
    N31 := d (fun s => s.card = 4 ∧ HasType p.τ 3 1 s)
    N22 := d (fun s => s.card = 4 ∧ HasType p.τ 2 2 s)
    N13 := d (fun s => s.card = 4 ∧ HasType p.τ 1 3 s)
    N3 := d (fun s => s.card = 4) }

theorem census_replace (g : p.Good) (h : Placed p inf time K f t) :
    census inf time (replace p K f) = census inf time K + p.delta := by
  have hc : ∀ (k : ℕ) (r : Finset (Fin n)), (r.map f).card = k ↔ r.card = k := by
    intro k r; rw [Finset.card_map]
  have hs := fun r => spacelike_map (p := p) h.times r
  have ht := fun i j r => hasType_map (p := p) h.times i j r
  show Census.mk _ _ _ _ _ _ _ _ = Census.mk _ _ _ _ _ _ _ _
  congr 1
  · exact count_replace g h _ _ (hc 1)
  · exact count_replace g h _ _ (fun r => and_congr (hc 2 r) (hs r))
  · exact count_replace g h _ _ (fun r => and_congr (hc 2 r) (not_congr (hs r)))
  · exact count_replace g h _ _ (hc 3)
  · exact count_replace g h _ _ (fun r => and_congr (hc 4 r) (ht 3 1 r))
  · exact count_replace g h _ _ (fun r => and_congr (hc 4 r) (ht 2 2 r))
  · exact count_replace g h _ _ (fun r => and_congr (hc 4 r) (ht 1 3 r))
  · exact count_replace g h _ _ (hc 4)

/-! ### Invariants -/

theorem new_not_old (g : p.Good) (h : Placed p inf time K f t) {c : Finset V}
    (hc : c ∈ place f p.N) : c ∉ K := by
  obtain ⟨d, hd, rfl⟩ := mem_place.1 hc
  intro hk
  exact h.fresh (mem_faces.2 ⟨_, hk, Finset.map_subset_map.2 (g.newCells d hd).2⟩)

theorem cellsAt_replace_card (g : p.Good) (h : Placed p inf time K f t) (s : Finset V) :
    (cellsAt (replace p K f) s).card + (cellsAt (place f p.O) s).card
      = (cellsAt K s).card + (cellsAt (place f p.N) s).card := by
  have e1 : cellsAt (replace p K f) s = (cellsAt K s \ cellsAt (place f p.O) s) ∪ cellsAt (place f p.N) s := by
    ext c
    simp only [mem_cellsAt, mem_replace, Finset.mem_union, Finset.mem_sdiff]
    tauto
  have hd : Disjoint (cellsAt K s \ cellsAt (place f p.O) s) (cellsAt (place f p.N) s) := by
    rw [Finset.disjoint_right]
    intro c hc hk
    exact new_not_old g h (mem_cellsAt.1 hc).1 (mem_cellsAt.1 (Finset.mem_sdiff.1 hk).1).1
  have hs : cellsAt (place f p.O) s ⊆ cellsAt K s := by
    intro c hc
    exact mem_cellsAt.2 ⟨h.sub (mem_cellsAt.1 hc).1, (mem_cellsAt.1 hc).2⟩
  rw [e1, Finset.card_union_of_disjoint hd, Finset.card_sdiff_of_subset hs]
  have := Finset.card_le_card hs
  omega

theorem closed_replace (g : p.Good) (h : Placed p inf time K f t) (hK : Closed K) :
    Closed (replace p K f) := by
  constructor
  · intro c hc
    rcases mem_replace.1 hc with ⟨hk, _⟩ | hn
    · exact hK.1 c hk
    · obtain ⟨d, hd, rfl⟩ := mem_place.1 hn
      rw [Finset.card_map]; exact (g.newCells d hd).1
  · intro s hs hs3
    have hcard := cellsAt_replace_card g h s
    have hpos : 0 < (cellsAt (replace p K f) s).card := by
      obtain ⟨c, hc, hsc⟩ := mem_faces.1 hs
      exact Finset.card_pos.2 ⟨c, mem_cellsAt.2 ⟨hc, hsc⟩⟩
    have hKs : (cellsAt K s).card = 0 ∨ (cellsAt K s).card = 2 := by
      by_cases hf : s ∈ faces K
      · right; exact hK.2 s hf hs3
      · left
        rw [Finset.card_eq_zero]
        ext c
        simp only [mem_cellsAt, Finset.notMem_empty, iff_false, not_and]
        intro hc hsc
        exact hf (mem_faces.2 ⟨c, hc, hsc⟩)
    by_cases hr : ∃ r : Finset (Fin n), r.map f = s
    · obtain ⟨r, rfl⟩ := hr
      rw [cellsAt_place, cellsAt_place, card_place, card_place] at hcard
      rw [Finset.card_map] at hs3
      rcases g.deg r hs3 with hd | ⟨h1, h2⟩ | ⟨h1, h2, h3⟩
      · omega
      · omega
      · have : (cellsAt K (r.map f)).card = 0 := by
          rw [Finset.card_eq_zero]
          ext c
          simp only [mem_cellsAt, Finset.notMem_empty, iff_false, not_and]
          intro hc hsc
          exact h.fresh (mem_faces.2 ⟨c, hc, (Finset.map_subset_map.2 h3).trans hsc⟩)
        omega
    · rw [cellsAt_place_empty f _ hr, cellsAt_place_empty f _ hr] at hcard
      simp only [Finset.card_empty] at hcard
      omega

theorem causal_replace (g : p.Timed) (h : Placed p inf time K f t) (hK : Causal inf time K) :
    Causal inf time (replace p K f) := by
  intro c hc hinf
  rcases mem_replace.1 hc with ⟨hk, _⟩ | hn
  · exact hK c hk hinf
  · obtain ⟨d, hd, rfl⟩ := mem_place.1 hn
    simp only [hasType_map (p := p) h.times]
    exact g.causal d hd

theorem boundary_replace (h : Placed p inf time K f t) :
    boundary inf (replace p K f) = boundary inf K := by
  unfold boundary
  congr 1
  ext c
  simp only [Finset.mem_filter, mem_replace]
  constructor
  · rintro ⟨⟨hk, _⟩ | hn, hi⟩
    · exact ⟨hk, hi⟩
    · obtain ⟨d, _, rfl⟩ := mem_place.1 hn
      exact absurd hi (not_mem_map h d)
  · rintro ⟨hk, hi⟩
    refine ⟨Or.inl ⟨hk, fun ho => ?_⟩, hi⟩
    obtain ⟨d, _, rfl⟩ := mem_place.1 ho
    exact absurd hi (not_mem_map h d)

theorem slices_replace (g : p.Timed) (h : Placed p inf time K f t) :
    slices inf time (replace p K f) = slices inf time K := by
  ext x
  simp only [slices, Finset.mem_image, Finset.mem_erase, mem_vertices]
  have key : ∀ (i : Fin n), (∃ c ∈ p.O, i ∈ c) → ∃ j, (∃ c ∈ p.N, j ∈ c) ∧ p.τ j = p.τ i := by
    intro i hi
    obtain ⟨j, hj, ht⟩ := g.timeO i (mem_vertices.2 hi)
    exact ⟨j, mem_vertices.1 hj, ht⟩
  have key' : ∀ (i : Fin n), (∃ c ∈ p.N, i ∈ c) → ∃ j, (∃ c ∈ p.O, j ∈ c) ∧ p.τ j = p.τ i := by
    intro i hi
    obtain ⟨j, hj, ht⟩ := g.timeN i (mem_vertices.2 hi)
    exact ⟨j, mem_vertices.1 hj, ht⟩
  constructor
  · rintro ⟨v, ⟨hv, c, hc, hvc⟩, rfl⟩
    rcases mem_replace.1 hc with ⟨hk, _⟩ | hn
    · exact ⟨v, ⟨hv, c, hk, hvc⟩, rfl⟩
    · obtain ⟨d, hd, rfl⟩ := mem_place.1 hn
      obtain ⟨i, hi, rfl⟩ := Finset.mem_map.1 hvc
      obtain ⟨j, ⟨e, he, hje⟩, ht⟩ := key' i ⟨d, hd, hi⟩
      exact ⟨f j, ⟨h.fin j, e.map f, h.old e he, Finset.mem_map_of_mem f hje⟩, by
        rw [h.times, h.times, ht]⟩
  · rintro ⟨v, ⟨hv, c, hc, hvc⟩, rfl⟩
    by_cases ho : c ∈ place f p.O
    · obtain ⟨d, hd, rfl⟩ := mem_place.1 ho
      obtain ⟨i, hi, rfl⟩ := Finset.mem_map.1 hvc
      obtain ⟨j, ⟨e, he, hje⟩, ht⟩ := key i ⟨d, hd, hi⟩
      exact ⟨f j, ⟨h.fin j, e.map f, mem_replace.2 (Or.inr (map_mem_place.2 he)),
        Finset.mem_map_of_mem f hje⟩, by rw [h.times, h.times, ht]⟩
    · exact ⟨v, ⟨hv, c, mem_replace.2 (Or.inl ⟨hc, ho⟩), hvc⟩, rfl⟩

/-- Simplices outside the cavity are untouched. -/
theorem outside_replace (g : p.Good) (h : Placed p inf time K f t) {s : Finset V}
    (hs : ¬ s ⊆ Finset.univ.map f) : s ∈ faces (replace p K f) ↔ s ∈ faces K := by
  have hp : ∀ S : Finset (Finset (Fin n)), s ∉ place f S := by
    intro S hS
    obtain ⟨r, _, rfl⟩ := mem_place.1 hS
    exact hs (Finset.map_subset_map.2 (Finset.subset_univ r))
  rw [faces_replace g h]
  simp [hp]

/-- The reversed pattern. -/
def Pattern.rev (p : Pattern n) : Pattern n :=
  { O := p.N, N := p.O, coreO := p.coreN, coreN := p.coreO, τ := p.τ }

/-- After a replacement the reversed pattern is in place. -/
theorem placed_rev (h : Placed p inf time K f t) (hcore : p.coreO ∉ faces p.N) :
    Placed p.rev inf time (replace p K f) f t where
  old := fun _ hc => mem_replace.2 (Or.inr (map_mem_place.2 hc))
  starOld := by
    intro c hc hs
    rcases mem_replace.1 hc with ⟨hk, _⟩ | hn
    · exact absurd (mem_faces.2 ⟨c, hk, hs⟩) h.fresh
    · exact hn
  fresh := by
    show p.coreO.map f ∉ _
    intro hf
    obtain ⟨c, hc, hs⟩ := mem_faces.1 hf
    rcases mem_replace.1 hc with ⟨hk, ho⟩ | hn
    · exact ho (h.starOld c hk hs)
    · have := faces_place f p.N ▸ mem_faces.2 ⟨c, hn, hs⟩
      exact hcore (map_mem_place.1 this)
  fin := h.fin
  times := h.times

/-- Reversing restores the complex. -/
theorem replace_rev (g : p.Good) (h : Placed p inf time K f t) :
    replace p.rev (replace p K f) f = K := by
  ext c
  simp only [mem_replace, Pattern.rev]
  constructor
  · rintro (⟨(⟨hk, _⟩ | hn), hx⟩ | ho)
    · exact hk
    · exact absurd hn hx
    · exact h.sub ho
  · intro hk
    by_cases ho : c ∈ place f p.O
    · exact Or.inr ho
    · exact Or.inl ⟨Or.inl ⟨hk, ho⟩, fun hn => new_not_old g h hn hk⟩

end CDT.Cavity

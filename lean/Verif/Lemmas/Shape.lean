/-
From placed cavity patterns to the explicit move specifications.
-/
import Verif.Spec.Moves
import Verif.Lemmas.Patterns
import Verif.Lemmas.Types
import Verif.Lemmas.Mirror
import Verif.Lemmas.Site23
import Verif.Lemmas.Site26
import Verif.Lemmas.Exec44

namespace CDT
open Spec Cavity

variable {V : Type} [LinearOrder V]

theorem exchange_of_placed {n : ℕ} {p : Pattern n} (g : p.Good) {inf : V} {time : V → ℤ}
    {K : Finset (Finset V)} {f : Fin n ↪ V} {t : ℤ} (h : Placed p inf time K f t) :
    Exchange (place f p.O) (place f p.N) K (replace p K f) where
  present := h.sub
  absent := fun _ hc => new_not_old g h hc
  result := rfl

theorem faceChange_of_placed {n : ℕ} {p : Pattern n} (g : p.Good) {inf : V} {time : V → ℤ}
    {K : Finset (Finset V)} {f : Fin n ↪ V} {t : ℤ} (h : Placed p inf time K f t) :
    FaceChange (place f (faces p.O \ faces p.N)) (place f (faces p.N \ faces p.O)) K (replace p K f) where
  present := lost_sub h
  absent := fun _ hs hk => Finset.disjoint_right.1 (gained_disj g h) hs hk
  result := faces_replace g h

theorem place_insert {n : ℕ} (f : Fin n ↪ V) (c : Finset (Fin n)) (S : Finset (Finset (Fin n))) :
    place f (insert c S) = insert (c.map f) (place f S) := by
  simp [place, Finset.image_insert]

theorem place_singleton {n : ℕ} (f : Fin n ↪ V) (c : Finset (Fin n)) :
    place f {c} = {c.map f} := by simp [place]

theorem nodup_of_emb5 (f : Fin 5 ↪ V) : [f 0, f 1, f 2, f 3, f 4].Nodup := by
  have : [f 0, f 1, f 2, f 3, f 4] = ([0, 1, 2, 3, 4] : List (Fin 5)).map f := rfl
  rw [this]
  exact List.Nodup.map f.injective (by decide)

theorem nodup_of_emb6 (f : Fin 6 ↪ V) : [f 0, f 1, f 2, f 3, f 4, f 5].Nodup := by
  have : [f 0, f 1, f 2, f 3, f 4, f 5] = ([0, 1, 2, 3, 4, 5] : List (Fin 6)).map f := rfl
  rw [this]
  exact List.Nodup.map f.injective (by decide)

theorem facesO23 {p : Pattern 5} (hp : p = p23up ∨ p = p23down) :
    faces p.O \ faces p.N = {{2,3,4},{0,2,3,4},{1,2,3,4}} ∧
    faces p.N \ faces p.O = {{0,1},{0,1,2},{0,1,3},{0,1,4},{0,1,2,3},{0,1,2,4},{0,1,3,4}} := by
  rcases hp with rfl | rfl <;> constructor <;> decide +kernel

theorem type23 {p : Pattern 5} (hp : p = p23up ∨ p = p23down) :
    HasType p.τ 2 2 {0,2,3,4} ∧ ¬ Spacelike p.τ {2,3,4} ∧ ¬ Spacelike p.τ {0,1} ∧
    ((HasType p.τ 3 1 {1,2,3,4} ∧ HasType p.τ 2 2 {0,1,2,4} ∧ HasType p.τ 2 2 {0,1,3,4} ∧
      HasType p.τ 3 1 {0,1,2,3}) ∨
     (HasType p.τ 1 3 {1,2,3,4} ∧ HasType p.τ 2 2 {0,1,2,4} ∧ HasType p.τ 2 2 {0,1,3,4} ∧
      HasType p.τ 1 3 {0,1,2,3})) := by
  rcases hp with rfl | rfl <;> decide +kernel

theorem move23_of_placed {p : Pattern 5} (hp : p = p23up ∨ p = p23down) {inf : V} {time : V → ℤ}
    {K : Finset (Finset V)} {f : Fin 5 ↪ V} {t : ℤ} (h : Placed p inf time K f t) :
    Move23 inf time K (replace p K f) (f 0) (f 1) (f 2) (f 3) (f 4) := by
  have g : p.Good := by rcases hp with rfl | rfl; exacts [good23up, good23down]
  have ex := exchange_of_placed g h
  have fc := faceChange_of_placed g h
  obtain ⟨eO, eN, _, _⟩ := place23 (f := f) hp
  rw [eO, eN] at ex
  rw [(facesO23 hp).1, (facesO23 hp).2] at fc
  simp only [place_insert, place_singleton, Finset.map_insert, Finset.map_singleton] at fc
  obtain ⟨t1, t2, t3, t4⟩ := type23 hp
  simp only [← hasType_map (p := p) (f := f) (time := time) h.times,
    ← spacelike_map (p := p) (f := f) (time := time) h.times,
    Finset.map_insert, Finset.map_singleton] at t1 t2 t3 t4
  refine ⟨nodup_of_emb5 f, ?_, ex, fc, t1, t2, t3, t4⟩
  have := h.fin
  simp [Ne.symm (this 0), Ne.symm (this 1), Ne.symm (this 2), Ne.symm (this 3), Ne.symm (this 4)]

theorem fin5 {p : Pattern 5} {inf : V} {time : V → ℤ} {K : Finset (Finset V)} {f : Fin 5 ↪ V}
    {t : ℤ} (h : Placed p inf time K f t) : inf ∉ [f 0, f 1, f 2, f 3, f 4] := by
  have := h.fin
  simp [Ne.symm (this 0), Ne.symm (this 1), Ne.symm (this 2), Ne.symm (this 3), Ne.symm (this 4)]

theorem fin6 {p : Pattern 6} {inf : V} {time : V → ℤ} {K : Finset (Finset V)} {f : Fin 6 ↪ V}
    {t : ℤ} (h : Placed p inf time K f t) : inf ∉ [f 0, f 1, f 2, f 3, f 4, f 5] := by
  have := h.fin
  simp [Ne.symm (this 0), Ne.symm (this 1), Ne.symm (this 2), Ne.symm (this 3), Ne.symm (this 4),
    Ne.symm (this 5)]

theorem cellsAt_core {n : ℕ} {p : Pattern n} (g : p.Good) {inf : V} {time : V → ℤ}
    {K : Finset (Finset V)} {f : Fin n ↪ V} {t : ℤ} (h : Placed p inf time K f t) :
    cellsAt K (p.coreO.map f) = place f p.O := by
  ext c
  rw [mem_cellsAt]
  constructor
  · rintro ⟨hc, hs⟩; exact h.starOld c hc hs
  · intro hc
    obtain ⟨d, hd, rfl⟩ := mem_place.1 hc
    exact ⟨h.old d hd, Finset.map_subset_map.2 (g.oldCells d hd).2⟩

theorem move32_of_placed {p : Pattern 5} (hp : p = p23up ∨ p = p23down) {inf : V} {time : V → ℤ}
    {K : Finset (Finset V)} {f : Fin 5 ↪ V} {t : ℤ} (h : Placed p.rev inf time K f t) :
    Move32 inf time K (replace p.rev K f) (f 0) (f 1) (f 2) (f 3) (f 4) := by
  have g : p.rev.Good := by rcases hp with rfl | rfl; exacts [good23upR, good23downR]
  have ex := exchange_of_placed g h
  have fc := faceChange_of_placed g h
  have dg := cellsAt_core g h
  obtain ⟨eO, eN, _, eC⟩ := place23 (f := f) hp
  simp only [Pattern.rev] at ex fc dg
  rw [eC, eN] at dg
  rw [eO, eN] at ex
  rw [(facesO23 hp).1, (facesO23 hp).2] at fc
  simp only [place_insert, place_singleton, Finset.map_insert, Finset.map_singleton] at fc
  obtain ⟨t1, t2, t3, t4⟩ := type23 hp
  have ht : ∀ i, time (f i) = t + p.τ i := h.times
  simp only [← hasType_map (p := p) (f := f) (time := time) ht,
    ← spacelike_map (p := p) (f := f) (time := time) ht,
    Finset.map_insert, Finset.map_singleton] at t1 t2 t3 t4
  exact ⟨nodup_of_emb5 f, fin5 h, dg, ex, fc, t3, t2, t1, t4⟩

theorem facesO26 (d : ℤ) :
    faces (p26 d).O \ faces (p26 d).N = {{0,1,2},{0,1,2,3},{0,1,2,4}} ∧
    faces (p26 d).N \ faces (p26 d).O =
      {{5},{0,5},{1,5},{2,5},{5,3},{5,4},{0,1,5},{0,2,5},{1,2,5},{0,5,3},{1,5,3},{2,5,3},
        {0,5,4},{1,5,4},{2,5,4}} ∪
      {{0,1,5,3},{0,2,5,3},{1,2,5,3},{0,1,5,4},{0,2,5,4},{1,2,5,4}} := by
  constructor <;> (simp only [p26]; decide +kernel)

theorem place_union {n : ℕ} (f : Fin n ↪ V) (S T : Finset (Finset (Fin n))) :
    place f (S ∪ T) = place f S ∪ place f T := by
  simp [place, Finset.image_union]

theorem move26_of_placed {d : ℤ} {inf : V} {time : V → ℤ}
    {K : Finset (Finset V)} {f : Fin 6 ↪ V} {t : ℤ} (h : Placed (p26 d) inf time K f t) :
    Move26 inf time K (replace (p26 0) K f) (f 0) (f 1) (f 2) (f 3) (f 4) (f 5) := by
  have er : replace (p26 0) K f = replace (p26 d) K f := rfl
  rw [er]
  have ex := exchange_of_placed (good26 d) h
  have fc := faceChange_of_placed (good26 d) h
  obtain ⟨eO, eN, _, eC⟩ := place26 (f := f) (d := d)
  rw [eO, eN] at ex
  rw [(facesO26 d).1, (facesO26 d).2, place_union] at fc
  simp only [place_insert, place_singleton, Finset.map_insert, Finset.map_singleton] at fc
  refine ⟨nodup_of_emb6 f, fin6 h, ?_, ex, fc, ?_, ?_, ?_⟩
  · intro hv
    have := h.fresh
    rw [eC] at this
    obtain ⟨c, hc, hvc⟩ := mem_vertices.1 hv
    exact this (mem_faces.2 ⟨c, hc, by simpa using hvc⟩)
  · have h0 := h.times 0; have h1 := h.times 1; have h2 := h.times 2
    simp [p26] at h0 h1 h2
    omega
  · have h0 := h.times 0; have h1 := h.times 3
    simp [p26] at h0 h1
    omega
  · have h0 := h.times 0; have h1 := h.times 4
    simp [p26] at h0 h1
    omega

theorem move62_of_placed {inf : V} {time : V → ℤ}
    {K : Finset (Finset V)} {f : Fin 6 ↪ V} {t : ℤ} (h : Placed (p26 0).rev inf time K f t) :
    Move62 inf time K (replace (p26 0).rev K f) (f 0) (f 1) (f 2) (f 3) (f 4) (f 5) := by
  have ex := exchange_of_placed good62 h
  have fc := faceChange_of_placed good62 h
  have dg := cellsAt_core good62 h
  obtain ⟨eO, eN, _, eC⟩ := place26 (f := f) (d := 0)
  have hr : Placed (p26 0) inf time (replace (p26 0).rev K f) f t :=
    placed_rev h (by decide +kernel)
  have ht := h.times
  simp only [Pattern.rev] at ex fc dg ht
  rw [eC, eN] at dg
  rw [eO, eN] at ex
  rw [(facesO26 0).1, (facesO26 0).2, place_union] at fc
  simp only [place_insert, place_singleton, Finset.map_insert, Finset.map_singleton] at fc
  refine ⟨nodup_of_emb6 f, fin6 h, dg, (move26_of_placed hr).fresh, ex, fc, ?_, ?_, ?_⟩
  · have h0 := ht 0; have h1 := ht 1; have h2 := ht 2; have h3 := ht 5
    simp [p26] at h0 h1 h2 h3
    omega
  · have h0 := ht 0; have h1 := ht 3
    simp [p26] at h0 h1
    omega
  · have h0 := ht 0; have h1 := ht 4
    simp [p26] at h0 h1
    omega

theorem facesO44 :
    faces p44.O \ faces p44.N = {{0,1},{0,1,2},{0,1,3},{0,1,4},{0,1,5},
      {0,1,2,4},{0,1,3,4},{0,1,2,5},{0,1,3,5}} ∧
    faces p44.N \ faces p44.O = {{2,3},{2,3,0},{2,3,1},{2,3,4},{2,3,5},
      {2,3,0,4},{2,3,1,4},{2,3,0,5},{2,3,1,5}} := by
  constructor <;> decide +kernel

theorem move44_of_placed {inf : V} {time : V → ℤ}
    {K : Finset (Finset V)} {f : Fin 6 ↪ V} {t : ℤ} (h : Placed p44 inf time K f t) :
    Move44 inf time K (replace p44 K f) (f 0) (f 1) (f 2) (f 3) (f 4) (f 5) := by
  have ex := exchange_of_placed good44 h
  have fc := faceChange_of_placed good44 h
  have dg := cellsAt_core good44 h
  obtain ⟨eO, eN, eC, _⟩ := place44 (f := f)
  rw [eC, eO] at dg
  rw [eO, eN] at ex
  rw [facesO44.1, facesO44.2] at fc
  simp only [place_insert, place_singleton, Finset.map_insert, Finset.map_singleton] at fc
  refine ⟨nodup_of_emb6 f, fin6 h, dg, ex, fc, ?_, ?_, ?_⟩
  · have h0 := h.times 0; have h1 := h.times 1; have h2 := h.times 2; have h3 := h.times 3
    simp [p44] at h0 h1 h2 h3
    omega
  · have h0 := h.times 0; have h1 := h.times 4
    simp [p44] at h0 h1
    omega
  · have h0 := h.times 0; have h1 := h.times 5
    simp [p44] at h0 h1
    omega

end CDT

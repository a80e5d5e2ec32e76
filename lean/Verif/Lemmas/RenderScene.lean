import Verif.Spec.RenderScene
import Mathlib.Tactic.Ring
import Mathlib.Tactic.Linarith
import Mathlib.Tactic.FinCases

namespace CDT
open Spec

namespace Mesh
variable (t : Mesh)

/-- Order of vertices by key. -/
abbrev keyLe (v w : Fin t.nv) : Prop := t.vertexKey v ≤ t.vertexKey w

theorem facetVertices_perm (f : Fin t.nc × Fin 4) : (t.facetVertices f).Perm (t.facetCorners f) :=
  List.perm_insertionSort _ _

theorem facetKeys_eq (f : Fin t.nc × Fin 4) : (t.facetVertices f).map t.vertexKey =
    ((t.facetCorners f).map t.vertexKey).insertionSort (· ≤ ·) := by
  apply List.Perm.eq_of_pairwise (le := (· ≤ ·))
  · intro a b _ _ h1 h2; exact le_antisymm h1 h2
  · rw [List.pairwise_map]
    haveI : Std.Total (t.keyLe) := ⟨fun a b => le_total _ _⟩
    haveI : IsTrans _ (t.keyLe) := ⟨fun a b c h1 h2 => le_trans h1 h2⟩
    exact List.pairwise_insertionSort (t.keyLe) _
  · exact List.pairwise_insertionSort _ _
  · exact ((t.facetVertices_perm f).map _).trans (List.perm_insertionSort _ _).symm

/-- The hash from the keys. -/
def keysHash (keys : List (List ℕ)) : BitVec 64 :=
  mixHash (keys.foldl (fun h key => key.foldl (fun h value => appendHash h (BitVec.ofNat 64 value)) h) fnvOffset)

theorem facetHash_eq (l : List (Fin t.nv)) : t.facetHash l = keysHash (l.map t.vertexKey) := by
  unfold facetHash keysHash
  rw [List.foldl_map]

theorem facetHash_corners (f : Fin t.nc × Fin 4) : t.facetHash (t.facetVertices f) =
    keysHash (((t.facetCorners f).map t.vertexKey).insertionSort (· ≤ ·)) := by
  rw [facetHash_eq, facetKeys_eq]

theorem insertionSort_congr {l l' : List (List ℕ)} (h : l.Perm l') :
    l.insertionSort (· ≤ ·) = l'.insertionSort (· ≤ ·) := by
  apply List.Perm.eq_of_pairwise (le := (· ≤ ·))
  · intro a b _ _ h1 h2; exact le_antisymm h1 h2
  · exact List.pairwise_insertionSort _ _
  · exact List.pairwise_insertionSort _ _
  · exact ((List.perm_insertionSort _ _).trans h).trans (List.perm_insertionSort _ _).symm

theorem isInfinite_iff (c : Fin t.nc) : t.isInfinite c = true ↔ ∃ i, t.corner c i = none := by
  simp [isInfinite, List.any_eq_true]

theorem onHull_iff (f : Fin t.nc × Fin 4) : t.onHull f = true ↔ Outer t f := by
  simp [onHull, Outer, isInfinite_iff]

theorem mem_facetCorners (f : Fin t.nc × Fin 4) (v : Fin t.nv) : v ∈ t.facetCorners f ↔ CornerOf t v f := by
  obtain ⟨c, i⟩ := f
  unfold facetCorners CornerOf
  simp only [List.mem_filterMap, List.mem_cons, List.not_mem_nil, or_false, id_eq, exists_eq_right]
  constructor
  · rintro (h | h | h)
    · exact ⟨_, by show _ ≠ i; clear h; revert i; decide, h.symm⟩
    · exact ⟨_, by show _ ≠ i; clear h; revert i; decide, h.symm⟩
    · exact ⟨_, by show _ ≠ i; clear h; revert i; decide, h.symm⟩
  · rintro ⟨j, hj, h⟩
    rw [← h]
    have : j = i + 1 ∨ j = i + 2 ∨ j = i + 3 := by
      clear h
      revert i j; decide
    rcases this with rfl | rfl | rfl
    · exact .inl rfl
    · exact .inr (.inl rfl)
    · exact .inr (.inr rfl)

theorem facetCorners_length {f : Fin t.nc × Fin 4} (h : ∀ i, i ≠ f.2 → t.corner f.1 i ≠ none) :
    (t.facetCorners f).length = 3 := by
  obtain ⟨c, i⟩ := f
  unfold facetCorners
  obtain ⟨a, ha⟩ := Option.ne_none_iff_exists'.1 (h (i + 1) (by show i + 1 ≠ i; clear h; revert i; decide))
  obtain ⟨b, hb⟩ := Option.ne_none_iff_exists'.1 (h (i + 2) (by show i + 2 ≠ i; clear h ha; revert i; decide))
  obtain ⟨d, hd⟩ := Option.ne_none_iff_exists'.1 (h (i + 3) (by show i + 3 ≠ i; clear h ha hb; revert i; decide))
  simp only [ha, hb, hd]
  rfl

theorem hull_fold (l : List (Fin t.nc × Fin 4)) : ∀ (acc : List (List ℕ)) (k : List ℕ),
    k ∈ l.foldl (fun result f => if !t.onHull f then result else result ++ (t.facetVertices f).map t.vertexKey) acc ↔
      k ∈ acc ∨ ∃ f ∈ l, t.onHull f = true ∧ ∃ v ∈ t.facetCorners f, t.vertexKey v = k := by
  induction l with
  | nil => intro acc k; simp
  | cons f l ih =>
    intro acc k
    rw [List.foldl_cons, ih]
    have e : ∀ k, k ∈ (t.facetVertices f).map t.vertexKey ↔ ∃ v ∈ t.facetCorners f, t.vertexKey v = k := by
      intro k
      rw [List.mem_map]
      simp only [(t.facetVertices_perm f).mem_iff]
    cases hf : t.onHull f with
    | false => simp [hf]
    | true => simp only [Bool.not_true, Bool.false_eq_true, if_false, List.mem_append, e, List.mem_cons,
        exists_eq_or_imp, hf, true_and, or_assoc]

theorem mem_hull (k : List ℕ) : k ∈ t.convexHullVertices ↔ ∃ v, OnHull t v ∧ t.vertexKey v = k := by
  unfold convexHullVertices
  rw [hull_fold]
  simp only [List.not_mem_nil, false_or, onHull_iff, mem_facetCorners, OnHull]
  constructor
  · rintro ⟨f, hf, h1, v, h2, h3⟩; exact ⟨v, ⟨f, hf, h1, h2⟩, h3⟩
  · rintro ⟨v, ⟨f, hf, h1, h2⟩, h3⟩; exact ⟨f, hf, h1, v, h2, h3⟩

theorem orientOutward_perm (l : List (Fin t.nv)) : (t.orientOutward l).Perm l := by
  unfold orientOutward
  split
  · split
    · exact (List.Perm.swap _ _ _).cons _
    · exact .refl _
  · exact .refl _

end Mesh

theorem radialAlignment_swap (a b c : ℚ × ℚ × ℚ) : radialAlignment a c b = - radialAlignment a b c := by
  unfold radialAlignment subQ
  ring

theorem radialAlignment_eq (a b c : ℚ × ℚ × ℚ) : radialAlignment a b c = 3 * det3 a b c := by
  unfold radialAlignment subQ det3
  ring

/-- The coordinates a key stands for. -/
def keyPoint (value : BitVec 64 → ℚ) (k : List ℕ) : ℚ × ℚ × ℚ :=
  (value (.ofNat 64 (k.getD 0 0)), value (.ofNat 64 (k.getD 1 0)), value (.ofNat 64 (k.getD 2 0)))

theorem keyPoint_vertexKey {value : BitVec 64 → ℚ} {t : Mesh} (h : Encodes value t) (v : Fin t.nv) :
    keyPoint value (t.vertexKey v) = t.coord v := by
  rw [h v]
  simp [keyPoint, Mesh.vertexKey]

/-- `orient_outward` from points. -/
def orientPoints : List (ℚ × ℚ × ℚ) → List (ℚ × ℚ × ℚ)
  | [a, b, c] => if radialAlignment a b c < 0 then [a, c, b] else [a, b, c]
  | l => l

theorem orientOutward_points (t : Mesh) (l : List (Fin t.nv)) :
    (t.orientOutward l).map t.coord = orientPoints (l.map t.coord) := by
  rcases l with _ | ⟨a, _ | ⟨b, _ | ⟨c, _ | ⟨d, l⟩⟩⟩⟩ <;> try rfl
  simp only [Mesh.orientOutward, orientPoints, List.map_cons, List.map_nil]
  split <;> rfl

/-- What a face shows, from the keys of its corners. -/
theorem drawn_eq {value : BitVec 64 → ℚ} {t : Mesh} (h : Encodes value t) (f : Fin t.nc × Fin 4) :
    (t.orientOutward (t.facetVertices f)).map t.coord =
      orientPoints ((((t.facetCorners f).map t.vertexKey).insertionSort (· ≤ ·)).map (keyPoint value)) := by
  rw [orientOutward_points, ← Mesh.facetKeys_eq, List.map_map]
  congr 1
  exact List.map_congr_left fun v _ => (keyPoint_vertexKey h v).symm

theorem perm_map_mono {α α' β γ : Type} {a : α → β} {a' : α' → β} {b : α → γ} {b' : α' → γ} {l : List α} {l' : List α'}
    (h : (l.map a).Perm (l'.map a')) (hb : ∀ x ∈ l, ∀ y ∈ l', a x = a' y → b x = b' y) :
    (l.map b).Perm (l'.map b') := by
  have h1 : Multiset.map a (l : Multiset α) = Multiset.map a' (l' : Multiset α') := by
    simpa using Multiset.coe_eq_coe.2 h
  rw [← Multiset.rel_eq, Multiset.rel_map] at h1
  have h2 := h1.mono (p := fun x y => b x = b' y) fun x hx y hy => hb x (by simpa using hx) y (by simpa using hy)
  rw [← Multiset.rel_map (p := (· = ·)), Multiset.rel_eq] at h2
  simpa using h2

theorem mapM_total {α β : Type} {f : α → Except Exc β} {g : α → β} (h : ∀ a, f a = .ok (g a)) (l : List α) :
    l.mapM f = .ok (l.map g) := by
  induction l with
  | nil => rfl
  | cons a l ih => rw [List.mapM_cons, h a, ih]; rfl

/-- The vertices the scene shows. -/
def shownVertices (t : Mesh) (r : RenderConfig) : List (Fin t.nv) :=
  (List.finRange t.nv).filter fun v => decide (r.vertexScope = ascii "all") ||
    decide (t.vertexKey v ∈ if r.vertexScope = ascii "convex_hull" then t.convexHullVertices else [])

/-- The colour of a facet. -/
def facetColor (t : Mesh) (r : RenderConfig) (hp : 0 < r.facePalette.length) (f : Fin t.nc × Fin 4) :
    Fin 256 × Fin 256 × Fin 256 :=
  r.facePalette[(t.facetHash (t.facetVertices f)).toNat % r.facePalette.length]'(Nat.mod_lt _ hp)

theorem makeScene_ok (t : Mesh) (r : RenderConfig) (hp : 0 < r.facePalette.length) :
    makeScene t r = .ok {
      vertices := if r.drawVertices then (shownVertices t r).map fun v => (t.coord v, r.pointColor) else []
      edges := if r.drawsSceneEdges then t.edges.map fun e => (t.coord e.1, t.coord e.2, r.edgeColor) else []
      faces := if r.drawFaces then
        t.facets.map fun f => (facetColor t r hp f, (t.orientOutward (t.facetVertices f)).map t.coord)
        else [] } := by
  unfold makeScene
  dsimp only
  cases r.drawFaces with
  | false => rfl
  | true =>
    simp only [if_true]
    rw [mapM_total (g := fun f => (facetColor t r hp f, (t.orientOutward (t.facetVertices f)).map t.coord))]
    · rfl
    · intro f
      rw [List.getElem?_eq_getElem (Nat.mod_lt _ hp)]
      rfl

end CDT

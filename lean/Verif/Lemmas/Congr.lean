/-
Causal notions depend only on the times of the vertices present.
-/
import Verif.Lemmas.Cavity

namespace CDT
open Spec Cavity

variable {V : Type*} [DecidableEq V]

theorem hasType_congr {t t' : V → ℤ} {s : Finset V} (h : ∀ v ∈ s, t v = t' v) (i j : ℕ) :
    HasType t i j s ↔ HasType t' i j s := by
  unfold HasType
  have e : ∀ (k : ℤ), (s.filter (fun u => t u = k)) = s.filter (fun u => t' u = k) := by
    intro k
    apply Finset.filter_congr
    intro u hu
    rw [h u hu]
  constructor
  · rintro ⟨h0, v, hv, h1, h2⟩
    exact ⟨h0, v, hv, by rw [← e, ← h v hv]; exact h1, by rw [← e, ← h v hv]; exact h2⟩
  · rintro ⟨h0, v, hv, h1, h2⟩
    exact ⟨h0, v, hv, by rw [e, h v hv]; exact h1, by rw [e, h v hv]; exact h2⟩

omit [DecidableEq V] in
theorem spacelike_congr {t t' : V → ℤ} {s : Finset V} (h : ∀ v ∈ s, t v = t' v) :
    Spacelike t s ↔ Spacelike t' s := by
  unfold Spacelike
  constructor
  · intro hs u hu v hv; rw [← h u hu, ← h v hv]; exact hs u hu v hv
  · intro hs u hu v hv; rw [h u hu, h v hv]; exact hs u hu v hv

variable {inf : V} {t t' : V → ℤ} {K : Finset (Finset V)}

theorem face_congr (h : ∀ v ∈ vertices K, v ≠ inf → t v = t' v) {s : Finset V} (hs : s ∈ faces K)
    (hi : inf ∉ s) : ∀ v ∈ s, t v = t' v := by
  intro v hv
  obtain ⟨c, hc, hsc⟩ := mem_faces.1 hs
  exact h v (mem_vertices.2 ⟨c, hc, hsc hv⟩) (fun e => hi (e ▸ hv))

theorem count_congr {p q : Finset V → Prop} [DecidablePred p] [DecidablePred q]
    (h : ∀ s ∈ faces K, inf ∉ s → (p s ↔ q s)) : count inf K p = count inf K q := by
  unfold count
  congr 2
  apply Finset.filter_congr
  intro s hs
  obtain ⟨h1, h2⟩ := Finset.mem_filter.1 hs
  exact h s h1 h2

theorem census_congr (h : ∀ v ∈ vertices K, v ≠ inf → t v = t' v) :
    census inf t K = census inf t' K := by
  have hs : ∀ s ∈ faces K, inf ∉ s → (Spacelike t s ↔ Spacelike t' s) :=
    fun s h1 h2 => spacelike_congr (face_congr h h1 h2)
  have ht : ∀ i j, ∀ s ∈ faces K, inf ∉ s → (HasType t i j s ↔ HasType t' i j s) :=
    fun i j s h1 h2 => hasType_congr (face_congr h h1 h2) i j
  show Census.mk _ _ _ _ _ _ _ _ = Census.mk _ _ _ _ _ _ _ _
  congr 1
  · exact count_congr (fun s h1 h2 => by rw [hs s h1 h2])
  · exact count_congr (fun s h1 h2 => by rw [hs s h1 h2])
  · exact count_congr (fun s h1 h2 => by rw [ht 3 1 s h1 h2])
  · exact count_congr (fun s h1 h2 => by rw [ht 2 2 s h1 h2])
  · exact count_congr (fun s h1 h2 => by rw [ht 1 3 s h1 h2])

theorem causal_congr (h : ∀ v ∈ vertices K, v ≠ inf → t v = t' v) :
    Causal inf t K ↔ Causal inf t' K := by
  unfold Causal
  refine forall₃_congr (fun c hc hi => ?_)
  have := face_congr h (mem_faces.2 ⟨c, hc, subset_rfl⟩) hi
  rw [hasType_congr this, hasType_congr this, hasType_congr this]

theorem slices_congr (h : ∀ v ∈ vertices K, v ≠ inf → t v = t' v) :
    slices inf t K = slices inf t' K := by
  unfold slices
  apply Finset.image_congr
  intro v hv
  have hv : v ∈ (vertices K).erase inf := hv
  obtain ⟨h1, h2⟩ := Finset.mem_erase.1 hv
  exact h v h2 h1

end CDT

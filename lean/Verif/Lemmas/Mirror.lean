/-
Neighbours across facets in closed complexes, and explicit four-element cells.
-/
import Verif.Lemmas.Cavity
import Verif.Lemmas.Types
import Verif.Model.Moves
import Mathlib.Tactic.FinCases
import Mathlib.Data.Fin.VecNotation

namespace CDT
open Spec Cavity

theorem exists_four {V : Type*} [DecidableEq V] {c : Finset V} {v : V} (h : c.card = 4) (hv : v ∈ c) :
    ∃ x y z, v ≠ x ∧ v ≠ y ∧ v ≠ z ∧ x ≠ y ∧ x ≠ z ∧ y ≠ z ∧ c = {v, x, y, z} ∧ c.erase v = {x, y, z} := by
  have h3 : (c.erase v).card = 3 := by rw [Finset.card_erase_of_mem hv, h]
  obtain ⟨x, y, z, hxy, hxz, hyz, e⟩ := Finset.card_eq_three.1 h3
  have hx : x ∈ c.erase v := by rw [e]; simp
  have hy : y ∈ c.erase v := by rw [e]; simp
  have hz : z ∈ c.erase v := by rw [e]; simp
  refine ⟨x, y, z, (Finset.ne_of_mem_erase hx).symm, (Finset.ne_of_mem_erase hy).symm,
    (Finset.ne_of_mem_erase hz).symm, hxy, hxz, hyz, ?_, e⟩
  rw [← e, Finset.insert_erase hv]

theorem exists_insert_of_subset {V : Type*} [DecidableEq V] {s d : Finset V} {n : ℕ} (hs : s.card = n)
    (hd : d.card = n + 1) (h : s ⊆ d) : ∃ w, w ∉ s ∧ d = insert w s := by
  have : (d \ s).card = 1 := by
    rw [Finset.card_sdiff_of_subset h]; omega
  obtain ⟨w, hw⟩ := Finset.card_eq_one.1 this
  have hw' : w ∈ d \ s := by rw [hw]; simp
  refine ⟨w, (Finset.mem_sdiff.1 hw').2, ?_⟩
  ext x
  constructor
  · intro hx
    by_cases hxs : x ∈ s
    · simp [hxs]
    · have : x ∈ d \ s := Finset.mem_sdiff.2 ⟨hx, hxs⟩
      rw [hw] at this
      simp at this
      simp [this]
  · intro hx
    rcases Finset.mem_insert.1 hx with rfl | hx
    · exact (Finset.mem_sdiff.1 hw').1
    · exact h hx

/-- In a closed complex every triangle of a cell has exactly one other cell. -/
theorem Spec.Closed.across {V : Type*} [DecidableEq V] {K : Finset (Finset V)} (hK : Closed K)
    {c : Finset V} (hc : c ∈ K) {v : V} (hv : v ∈ c) :
    ∃ w, w ∉ c ∧ insert w (c.erase v) ∈ K ∧
      ∀ d ∈ K, c.erase v ⊆ d → d = c ∨ d = insert w (c.erase v) := by
  have h4 := hK.1 c hc
  have h3 : (c.erase v).card = 3 := by rw [Finset.card_erase_of_mem hv, h4]
  have hf : c.erase v ∈ faces K := mem_faces.2 ⟨c, hc, Finset.erase_subset _ _⟩
  obtain ⟨p, q, hpq, e⟩ := Finset.card_eq_two.1 (hK.2 _ hf h3)
  have hcc : c ∈ cellsAt K (c.erase v) := mem_cellsAt.2 ⟨hc, Finset.erase_subset _ _⟩
  have : ∃ d, d ≠ c ∧ cellsAt K (c.erase v) = {c, d} := by
    rw [e] at hcc
    rcases Finset.mem_insert.1 hcc with rfl | h
    · exact ⟨q, hpq.symm, e⟩
    · rw [Finset.mem_singleton] at h; subst h
      exact ⟨p, hpq, by rw [e, Finset.pair_comm]⟩
  obtain ⟨d, hdc, e⟩ := this
  have hd : d ∈ cellsAt K (c.erase v) := by rw [e]; simp
  obtain ⟨hdK, hsd⟩ := mem_cellsAt.1 hd
  obtain ⟨w, hw, rfl⟩ := exists_insert_of_subset h3 (hK.1 d hdK) hsd
  refine ⟨w, ?_, hdK, ?_⟩
  · intro hwc
    apply hdc
    have : w = v := by
      by_contra hne
      exact hw (Finset.mem_erase.2 ⟨hne, hwc⟩)
    rw [this, Finset.insert_erase hv]
  · intro d' hd' hs'
    have : d' ∈ cellsAt K (c.erase v) := mem_cellsAt.2 ⟨hd', hs'⟩
    rw [e] at this
    simpa using this

variable {V : Type} [LinearOrder V]

theorem mirror_eq {K : Tri V} (hK : Closed K.cells) {c : Finset V} (hc : c ∈ K.cells) {v w : V}
    (hv : v ∈ c) (hw : w ∉ c) (hwK : insert w (c.erase v) ∈ K.cells) : K.mirror c v = some w := by
  obtain ⟨w', hw', hwK', hall⟩ := hK.across hc hv
  have key : ∀ u, u ∉ c → insert u (c.erase v) ∈ K.cells → u = w' := by
    intro u hu huK
    rcases hall _ huK (Finset.subset_insert _ _) with h | h
    · exact absurd (h ▸ Finset.mem_insert_self u _) hu
    · have : u ∈ insert w' (c.erase v) := h ▸ Finset.mem_insert_self u _
      rcases Finset.mem_insert.1 this with h | h
      · exact h
      · exact absurd (Finset.mem_of_mem_erase h) hu
  have e : K.verts.filter (fun w => w ∉ c ∧ insert w (c.erase v) ∈ K.cells) = {w} := by
    ext u
    simp only [Finset.mem_filter, Finset.mem_singleton]
    constructor
    · rintro ⟨_, h1, h2⟩
      rw [key u h1 h2, key w hw hwK]
    · rintro rfl
      refine ⟨?_, hw, hwK⟩
      unfold Tri.verts
      exact Finset.mem_biUnion.2 ⟨_, hwK, Finset.mem_insert_self _ _⟩
  unfold Tri.mirror
  rw [e]
  rfl

theorem exists_mirror {K : Tri V} (hK : Closed K.cells) {c : Finset V} (hc : c ∈ K.cells) {v : V}
    (hv : v ∈ c) : ∃ w, K.mirror c v = some w ∧ w ∉ c ∧ insert w (c.erase v) ∈ K.cells ∧
      ∀ d ∈ K.cells, c.erase v ⊆ d → d = c ∨ d = insert w (c.erase v) := by
  obtain ⟨w, h1, h2, h3⟩ := hK.across hc hv
  exact ⟨w, mirror_eq hK hc hv h1 h2, h1, h2, h3⟩

theorem isValid_iff {K : Tri V} : K.isValid = true ↔ Closed K.cells := by
  unfold Tri.isValid Closed
  rw [decide_eq_true_iff]
  apply and_congr Iff.rfl
  constructor
  · intro h s hs h3
    obtain ⟨c, hc, hsc⟩ := mem_faces.1 hs
    exact h s (Finset.mem_biUnion.2 ⟨c, hc, Finset.mem_powersetCard.2 ⟨hsc, h3⟩⟩)
  · intro h s hs
    obtain ⟨c, hc, hsc⟩ := Finset.mem_biUnion.1 hs
    obtain ⟨h1, h2⟩ := Finset.mem_powersetCard.1 hsc
    exact h s (mem_faces.2 ⟨c, hc, h1⟩) h2

/-- Five distinct vertices as an embedding. -/
def emb5 (a b x y z : V) (h : Function.Injective ![a, b, x, y, z]) : Fin 5 ↪ V := ⟨![a, b, x, y, z], h⟩

theorem inj5 {a b x y z : V} (h1 : a ≠ b) (h2 : a ≠ x) (h3 : a ≠ y) (h4 : a ≠ z) (h5 : b ≠ x)
    (h6 : b ≠ y) (h7 : b ≠ z) (h8 : x ≠ y) (h9 : x ≠ z) (h10 : y ≠ z) :
    Function.Injective ![a, b, x, y, z] := by
  intro i j; fin_cases i <;> fin_cases j <;> simp_all <;> grind

/-- Six distinct vertices as an embedding. -/
def emb6 (a b c d e g : V) (h : Function.Injective ![a, b, c, d, e, g]) : Fin 6 ↪ V :=
  ⟨![a, b, c, d, e, g], h⟩

theorem inj6 {a b c d e g : V} (h1 : a ≠ b) (h2 : a ≠ c) (h3 : a ≠ d) (h4 : a ≠ e) (h5 : a ≠ g)
    (h6 : b ≠ c) (h7 : b ≠ d) (h8 : b ≠ e) (h9 : b ≠ g) (h10 : c ≠ d) (h11 : c ≠ e) (h12 : c ≠ g)
    (h13 : d ≠ e) (h14 : d ≠ g) (h15 : e ≠ g) : Function.Injective ![a, b, c, d, e, g] := by
  intro i j; fin_cases i <;> fin_cases j <;> simp_all <;> grind

end CDT

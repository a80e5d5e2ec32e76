/-
Causal types of tetrahedra as linear arithmetic over vertex times.
-/
import Verif.Lemmas.Cells
import Verif.Model.Tds
import Mathlib.Algebra.BigOperators.Ring.Finset
import Mathlib.Algebra.Order.BigOperators.Group.Finset

namespace CDT
open Spec

theorem hasType_iff_sum {V : Type*} [DecidableEq V] (time : V → ℤ) {i j : ℕ} (hi : 1 ≤ i)
    (s : Finset V) (hs : s.card = i + j) :
    HasType time i j s ↔ ∃ t, (∀ u ∈ s, time u = t ∨ time u = t + 1) ∧
      ∑ u ∈ s, time u = (i + j : ℕ) * t + j := by
  have split : ∀ t, (∀ u ∈ s, time u = t ∨ time u = t + 1) →
      (∑ u ∈ s, time u = s.card * t + (s.filter (fun u => time u = t + 1)).card ∧
        (s.filter (fun u => time u = t)).card + (s.filter (fun u => time u = t + 1)).card = s.card) := by
    intro t ht
    have e : s.filter (fun u => ¬ time u = t) = s.filter (fun u => time u = t + 1) := by
      apply Finset.filter_congr
      intro u hu
      have := ht u hu
      omega
    constructor
    · have : ∀ u ∈ s, time u = t + (if time u = t + 1 then 1 else 0) := by
        intro u hu
        rcases ht u hu with h | h <;> simp [h]
      rw [Finset.sum_congr rfl this, Finset.sum_add_distrib, Finset.sum_const, Finset.sum_boole]
      simp
    · rw [← Finset.card_filter_add_card_filter_not (s := s) (fun u => time u = t), e]
  constructor
  · rintro ⟨_, v, hv, h1, h2⟩
    have hall : ∀ u ∈ s, time u = time v ∨ time u = time v + 1 := by
      have hd : Disjoint (s.filter (fun u => time u = time v))
          (s.filter (fun u => time u = time v + 1)) := by
        rw [Finset.disjoint_left]
        intro u hu hu'
        have a := (Finset.mem_filter.1 hu).2
        have b := (Finset.mem_filter.1 hu').2
        omega
      have hu : (s.filter (fun u => time u = time v)) ∪ (s.filter (fun u => time u = time v + 1)) = s := by
        apply Finset.eq_of_subset_of_card_le
        · exact Finset.union_subset (Finset.filter_subset _ _) (Finset.filter_subset _ _)
        · rw [Finset.card_union_of_disjoint hd]; omega
      intro u hus
      rw [← hu] at hus
      rcases Finset.mem_union.1 hus with h | h
      · left; exact (Finset.mem_filter.1 h).2
      · right; exact (Finset.mem_filter.1 h).2
    refine ⟨time v, hall, ?_⟩
    rw [(split _ hall).1, h2, hs]
  · rintro ⟨t, hall, hsum⟩
    obtain ⟨e1, e2⟩ := split t hall
    rw [e1, hs] at hsum
    have hj : (s.filter (fun u => time u = t + 1)).card = j := by
      have : ((s.filter (fun u => time u = t + 1)).card : ℤ) = j := by linarith
      exact_mod_cast this
    have hii : (s.filter (fun u => time u = t)).card = i := by omega
    obtain ⟨v, hv⟩ := Finset.card_pos.1 (show 0 < (s.filter (fun u => time u = t)).card by omega)
    obtain ⟨hvs, hvt⟩ := Finset.mem_filter.1 hv
    refine ⟨hs, v, hvs, ?_, ?_⟩
    · rw [hvt]; exact hii
    · rw [hvt]; exact hj

/-- Arithmetic form for an explicit tetrahedron; `j` is the number of upper vertices. -/
def Quad (j : ℤ) (a b c d : ℤ) : Prop :=
  ∃ t, (a = t ∨ a = t + 1) ∧ (b = t ∨ b = t + 1) ∧ (c = t ∨ c = t + 1) ∧ (d = t ∨ d = t + 1) ∧
    a + b + c + d = 4 * t + j

theorem hasType_quad {V : Type*} [DecidableEq V] (time : V → ℤ) {i j : ℕ} (hi : 1 ≤ i)
    (hij : i + j = 4) {a b c d : V} (hab : a ≠ b) (hac : a ≠ c) (had : a ≠ d) (hbc : b ≠ c)
    (hbd : b ≠ d) (hcd : c ≠ d) :
    HasType time i j {a, b, c, d} ↔ Quad j (time a) (time b) (time c) (time d) := by
  have hc : ({a, b, c, d} : Finset V).card = i + j := by
    rw [Finset.card_insert_of_notMem (by simp [hab, hac, had]),
      Finset.card_insert_of_notMem (by simp [hbc, hbd]), Finset.card_insert_of_notMem (by simp [hcd]),
      Finset.card_singleton, hij]
  rw [hasType_iff_sum time hi _ hc, hij]
  unfold Quad
  apply exists_congr
  intro t
  rw [Finset.sum_insert (by simp [hab, hac, had]), Finset.sum_insert (by simp [hbc, hbd]),
    Finset.sum_insert (by simp [hcd]), Finset.sum_singleton]
  simp only [Finset.mem_insert, Finset.mem_singleton, forall_eq_or_imp, forall_eq]
  push_cast
  constructor
  · rintro ⟨⟨h1, h2, h3, h4⟩, h5⟩; exact ⟨h1, h2, h3, h4, by linarith⟩
  · rintro ⟨h1, h2, h3, h4, h5⟩; exact ⟨⟨h1, h2, h3, h4⟩, by linarith⟩

variable {V : Type} [LinearOrder V]

theorem count_cellTimes (K : Tri V) (c : Finset V) (t : ℤ) :
    (K.cellTimes c).count t = (c.filter (fun u => K.time u = t)).card := by
  have h : ((K.cellTimes c : Multiset ℤ)).count t = (c.filter (fun u => K.time u = t)).card := by
    unfold Tri.cellTimes
    rw [← Multiset.map_coe, canonicalPoints_perm, Multiset.count_map]
    rw [Finset.card_def, Finset.filter_val]
    congr 1
    apply Multiset.filter_congr
    intro x _
    exact eq_comm
  rw [← h, Multiset.coe_count]

theorem length_cellTimes (K : Tri V) (c : Finset V) : (K.cellTimes c).length = c.card := by
  simp [Tri.cellTimes, length_canonicalPoints]

theorem occupies_cellTimes (K : Tri V) (c : Finset V) {i j : ℕ} (hi : 1 ≤ i) :
    Occupies (K.cellTimes c) i j ↔ HasType K.time i j c := by
  unfold Occupies HasType
  rw [length_cellTimes]
  simp only [count_cellTimes]
  constructor
  · rintro ⟨h, t, h1, h2⟩
    obtain ⟨v, hv⟩ := Finset.card_pos.1 (show 0 < (c.filter (fun u => K.time u = t)).card by omega)
    obtain ⟨hvc, hvt⟩ := Finset.mem_filter.1 hv
    exact ⟨h, v, hvc, by rw [hvt]; exact h1, by rw [hvt]; exact h2⟩
  · rintro ⟨h, v, _, h1, h2⟩
    exact ⟨h, _, h1, h2⟩

theorem expectedType_cases (K : Tri V) {c : Finset V} (h4 : c.card = 4) :
    (K.expectedType c = .threeOne ∧ HasType K.time 3 1 c) ∨
    (K.expectedType c = .twoTwo ∧ HasType K.time 2 2 c) ∨
    (K.expectedType c = .oneThree ∧ HasType K.time 1 3 c) ∨
    (K.expectedType c = .acausal ∧ ∀ i j, 1 ≤ i → 1 ≤ j → ¬ HasType K.time i j c) := by
  rcases expected_cases (ts := K.cellTimes c) (by rw [length_cellTimes, h4]) with h | h | h | h
  · left; exact ⟨h.1, (occupies_cellTimes K c (by omega)).1 h.2⟩
  · right; left; exact ⟨h.1, (occupies_cellTimes K c (by omega)).1 h.2⟩
  · right; right; left; exact ⟨h.1, (occupies_cellTimes K c (by omega)).1 h.2⟩
  · right; right; right
    exact ⟨h.1, fun i j hi hj hx => h.2 i j hi hj ((occupies_cellTimes K c hi).2 hx)⟩

theorem hasType_unique {K : Tri V} {c : Finset V} {i j i' j' : ℕ} (hi : 1 ≤ i) (hj : 1 ≤ j)
    (hi' : 1 ≤ i') (hj' : 1 ≤ j') (h : HasType K.time i j c) (h' : HasType K.time i' j' c) :
    i = i' ∧ j = j' :=
  occupies_unique hi hj hi' hj' ((occupies_cellTimes K c hi).2 h) ((occupies_cellTimes K c hi').2 h')

theorem expectedType_threeOne {K : Tri V} {c : Finset V} (h4 : c.card = 4) :
    K.expectedType c = .threeOne ↔ HasType K.time 3 1 c := by
  rcases expectedType_cases K h4 with h | h | h | h
  · simp [h]
  · simp only [h.1]
    exact ⟨fun x => by simp at x, fun x => by
      have := hasType_unique (K := K) (by omega) (by omega) (by omega) (by omega) x h.2; omega⟩
  · simp only [h.1]
    exact ⟨fun x => by simp at x, fun x => by
      have := hasType_unique (K := K) (by omega) (by omega) (by omega) (by omega) x h.2; omega⟩
  · simp only [h.1]
    exact ⟨fun x => by simp at x, fun x => absurd x (h.2 _ _ (by omega) (by omega))⟩

theorem expectedType_twoTwo {K : Tri V} {c : Finset V} (h4 : c.card = 4) :
    K.expectedType c = .twoTwo ↔ HasType K.time 2 2 c := by
  rcases expectedType_cases K h4 with h | h | h | h
  · simp only [h.1]
    exact ⟨fun x => by simp at x, fun x => by
      have := hasType_unique (K := K) (by omega) (by omega) (by omega) (by omega) x h.2; omega⟩
  · simp [h]
  · simp only [h.1]
    exact ⟨fun x => by simp at x, fun x => by
      have := hasType_unique (K := K) (by omega) (by omega) (by omega) (by omega) x h.2; omega⟩
  · simp only [h.1]
    exact ⟨fun x => by simp at x, fun x => absurd x (h.2 _ _ (by omega) (by omega))⟩

theorem expectedType_oneThree {K : Tri V} {c : Finset V} (h4 : c.card = 4) :
    K.expectedType c = .oneThree ↔ HasType K.time 1 3 c := by
  rcases expectedType_cases K h4 with h | h | h | h
  · simp only [h.1]
    exact ⟨fun x => by simp at x, fun x => by
      have := hasType_unique (K := K) (by omega) (by omega) (by omega) (by omega) x h.2; omega⟩
  · simp only [h.1]
    exact ⟨fun x => by simp at x, fun x => by
      have := hasType_unique (K := K) (by omega) (by omega) (by omega) (by omega) x h.2; omega⟩
  · simp [h]
  · simp only [h.1]
    exact ⟨fun x => by simp at x, fun x => absurd x (h.2 _ _ (by omega) (by omega))⟩

end CDT

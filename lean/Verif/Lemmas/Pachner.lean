/-
Bistellar moves: symmetry, invariants, and how to find them in the exchange of simplices.
-/
import Verif.Spec.Pachner
import Verif.Spec.Moves
import Verif.Lemmas.Cavity
import Mathlib.Data.Nat.Choose.Sum
import Mathlib.Tactic.Ring
import Mathlib.Tactic.Linarith

namespace CDT.Spec
open CDT.Cavity

variable {V : Type*} [DecidableEq V]

theorem mem_joinBoundary {A B s : Finset V} : s ∈ joinBoundary A B ↔ ∃ C, C ⊂ B ∧ A ∪ C = s := by
  simp [joinBoundary]

theorem sub_of_joinBoundary {A B s : Finset V} (h : s ∈ joinBoundary A B) : A ⊆ s := by
  obtain ⟨C, -, rfl⟩ := mem_joinBoundary.1 h
  exact Finset.subset_union_left

/-- The simplices of the join that contain `A`: those subsets of `A ∪ B` that contain `A` but not `B`. -/
theorem mem_joinBoundary' {A B s : Finset V} (hd : Disjoint A B) :
    s ∈ joinBoundary A B ↔ A ⊆ s ∧ s ⊆ A ∪ B ∧ ¬ B ⊆ s := by
  rw [mem_joinBoundary]
  constructor
  · rintro ⟨C, hC, rfl⟩
    refine ⟨Finset.subset_union_left, Finset.union_subset_union subset_rfl hC.1, ?_⟩
    intro h
    refine hC.2 ?_
    intro b hb
    rcases Finset.mem_union.1 (h hb) with k | k
    · exact absurd hb (Finset.disjoint_left.1 hd k)
    · exact k
  · rintro ⟨h1, h2, h3⟩
    refine ⟨s \ A, ⟨?_, ?_⟩, by rw [Finset.union_sdiff_of_subset h1]⟩
    · intro v hv
      obtain ⟨k1, k2⟩ := Finset.mem_sdiff.1 hv
      rcases Finset.mem_union.1 (h2 k1) with k | k
      · exact absurd k k2
      · exact k
    · intro h
      exact h3 (h.trans Finset.sdiff_subset)

theorem Bistellar.mem {d : ℕ} {A B : Finset V} {S S' : Finset (Finset V)} (h : Bistellar d A B S S') {s : Finset V} :
    s ∈ S' ↔ (s ∈ S ∧ ¬ A ⊆ s) ∨ s ∈ joinBoundary B A := by
  rw [h.result, Finset.mem_union, Finset.mem_sdiff, ← h.star, Finset.mem_filter]
  tauto

/-- A bistellar move of a complex gives a complex. -/
theorem Bistellar.complex {d : ℕ} {A B : Finset V} {S S' : Finset (Finset V)} (h : Bistellar d A B S S')
    (hS : IsComplex S) : IsComplex S' := by
  have key : ∀ r, r ⊆ A ∪ B → ¬ A ⊆ r → ¬ B ⊆ r → r ∈ S := by
    intro r h1 h2 h3
    have : A ∪ r ∈ S := by
      have : A ∪ r ∈ joinBoundary A B := by
        rw [mem_joinBoundary' h.disjoint]
        refine ⟨Finset.subset_union_left, Finset.union_subset Finset.subset_union_left h1, ?_⟩
        intro k
        refine h3 fun b hb => ?_
        rcases Finset.mem_union.1 (k hb) with j | j
        · exact absurd hb (Finset.disjoint_left.1 h.disjoint j)
        · exact j
      rw [← h.star] at this
      exact (Finset.mem_filter.1 this).1
    exact hS _ this _ Finset.subset_union_right
  intro s hs r hr
  rw [h.mem] at hs ⊢
  rcases hs with ⟨h1, h2⟩ | h1
  · exact .inl ⟨hS s h1 r hr, fun k => h2 (k.trans hr)⟩
  · obtain ⟨k1, k2, k3⟩ := (mem_joinBoundary' h.disjoint.symm).1 h1
    have n3 : ¬ A ⊆ r := fun k => k3 (k.trans hr)
    by_cases hb : B ⊆ r
    · exact .inr ((mem_joinBoundary' h.disjoint.symm).2 ⟨hb, hr.trans k2, n3⟩)
    · exact .inl ⟨key r (by rw [Finset.union_comm]; exact hr.trans k2) n3 hb, n3⟩

/-- The inverse of a bistellar move is a bistellar move. -/
theorem Bistellar.symm {d : ℕ} {A B : Finset V} {S S' : Finset (Finset V)} (h : Bistellar d A B S S')
    (hS : IsComplex S) : Bistellar d B A S' S := by
  have notB : ∀ s ∈ S, ¬ B ⊆ s := fun s hs k => h.absent (hS s hs B k)
  have notA : ∀ s ∈ joinBoundary B A, ¬ A ⊆ s := fun s hs => ((mem_joinBoundary' h.disjoint.symm).1 hs).2.2
  refine ⟨⟨h.nonempty.2, h.nonempty.1⟩, h.disjoint.symm, by rw [add_comm]; exact h.dimension, ?_, ?_, ?_⟩
  · ext s
    rw [Finset.mem_filter, h.mem]
    constructor
    · rintro ⟨⟨h1, -⟩ | h1, h2⟩
      · exact absurd h2 (notB s h1)
      · exact h1
    · intro h1; exact ⟨.inr h1, sub_of_joinBoundary h1⟩
  · intro k
    rw [h.mem] at k
    rcases k with ⟨-, k⟩ | k
    · exact k subset_rfl
    · exact notA A k subset_rfl
  · ext s
    rw [Finset.mem_union, Finset.mem_sdiff, h.mem]
    constructor
    · intro hs
      by_cases ha : A ⊆ s
      · right; rw [← h.star]; exact Finset.mem_filter.2 ⟨hs, ha⟩
      · exact .inl ⟨.inl ⟨hs, ha⟩, fun k => notB s hs (sub_of_joinBoundary k)⟩
    · rintro (⟨⟨k, -⟩ | k, k'⟩ | k)
      · exact k
      · exact absurd k k'
      · rw [← h.star] at k; exact (Finset.mem_filter.1 k).1

/-! ### Euler characteristic -/

theorem sum_joinBoundary {A B : Finset V} (hd : Disjoint A B) (hB : B.Nonempty) :
    ∑ s ∈ joinBoundary A B, (-1 : ℤ) ^ s.card = - (-1) ^ (A.card + B.card) := by
  unfold joinBoundary
  rw [Finset.sum_image]
  · have e : ∀ C ∈ B.ssubsets, (-1 : ℤ) ^ (A ∪ C).card = (-1) ^ A.card * (-1) ^ C.card := by
      intro C hC
      rw [Finset.card_union_of_disjoint (hd.mono_right (Finset.mem_ssubsets.1 hC).1), pow_add]
    rw [Finset.sum_congr rfl e, ← Finset.mul_sum]
    have hp : ∑ C ∈ B.powerset, (-1 : ℤ) ^ C.card = 0 := Finset.sum_powerset_neg_one_pow_card_of_nonempty hB
    have : ∑ C ∈ B.ssubsets, (-1 : ℤ) ^ C.card + (-1) ^ B.card = 0 := by
      rw [← hp]
      unfold Finset.ssubsets
      exact Finset.sum_erase_add _ _ (Finset.mem_powerset_self B)
    rw [pow_add]
    have e2 : ∑ C ∈ B.ssubsets, (-1 : ℤ) ^ C.card = - (-1) ^ B.card := by linarith
    rw [e2]; ring
  · intro C hC D hD e
    have hC' := (Finset.mem_ssubsets.1 hC).1
    have hD' := (Finset.mem_ssubsets.1 hD).1
    have e' : A ∪ C = A ∪ D := e
    ext v
    constructor
    · intro hv
      have : v ∈ A ∪ D := e' ▸ Finset.mem_union_right _ hv
      rcases Finset.mem_union.1 this with k | k
      · exact absurd (hC' hv) (Finset.disjoint_left.1 hd k)
      · exact k
    · intro hv
      have : v ∈ A ∪ C := e'.symm ▸ Finset.mem_union_right _ hv
      rcases Finset.mem_union.1 this with k | k
      · exact absurd (hD' hv) (Finset.disjoint_left.1 hd k)
      · exact k

omit [DecidableEq V] in
theorem eulerOf_eq (S : Finset (Finset V)) : eulerOf S = - ∑ s ∈ S.filter (·.Nonempty), (-1 : ℤ) ^ s.card := by
  unfold eulerOf
  rw [← Finset.sum_neg_distrib]
  refine Finset.sum_congr rfl ?_
  intro s hs
  have hs := Finset.card_pos.2 (Finset.mem_filter.1 hs).2
  obtain ⟨n, hn⟩ : ∃ n, s.card = n + 1 := ⟨s.card - 1, by omega⟩
  rw [hn]
  simp [pow_succ]

/-- A bistellar move keeps the Euler characteristic. -/
theorem Bistellar.euler {d : ℕ} {A B : Finset V} {S S' : Finset (Finset V)} (h : Bistellar d A B S S')
    (hS : IsComplex S) : eulerOf S' = eulerOf S := by
  rw [eulerOf_eq, eulerOf_eq]
  have hsub : joinBoundary A B ⊆ S := by rw [← h.star]; exact Finset.filter_subset _ _
  have hdis : Disjoint (S \ joinBoundary A B) (joinBoundary B A) := by
    rw [Finset.disjoint_left]
    intro s hs k
    exact h.absent (hS s (Finset.mem_sdiff.1 hs).1 B (sub_of_joinBoundary k))
  have ne : ∀ {A B : Finset V}, A.Nonempty → (joinBoundary A B).filter (·.Nonempty) = joinBoundary A B := by
    intro A B hA
    refine Finset.filter_true_of_mem fun s hs => ?_
    exact hA.mono (sub_of_joinBoundary hs)
  have e1 : ∑ s ∈ S'.filter (·.Nonempty), (-1 : ℤ) ^ s.card =
      ∑ s ∈ (S \ joinBoundary A B).filter (·.Nonempty), (-1 : ℤ) ^ s.card + ∑ s ∈ joinBoundary B A, (-1 : ℤ) ^ s.card := by
    rw [h.result, Finset.filter_union, ne h.nonempty.2]
    exact Finset.sum_union (hdis.mono_left (Finset.filter_subset _ _))
  have e2 : ∑ s ∈ S.filter (·.Nonempty), (-1 : ℤ) ^ s.card =
      ∑ s ∈ (S \ joinBoundary A B).filter (·.Nonempty), (-1 : ℤ) ^ s.card + ∑ s ∈ joinBoundary A B, (-1 : ℤ) ^ s.card := by
    have : S = (S \ joinBoundary A B) ∪ joinBoundary A B := (Finset.sdiff_union_of_subset hsub).symm
    conv_lhs => rw [this, Finset.filter_union, ne h.nonempty.1]
    exact Finset.sum_union (Finset.sdiff_disjoint.mono_left (Finset.filter_subset _ _))
  rw [e1, e2, sum_joinBoundary h.disjoint h.nonempty.2, sum_joinBoundary h.disjoint.symm h.nonempty.1,
    add_comm B.card]

/-! ### Closedness -/

theorem erase_of_card {d : ℕ} {W r s : Finset V} (hW : W.card = d + 2) (hs : s.card = d + 1) (hsW : s ⊆ W)
    (hr : r ⊆ s) : ∃ p ∈ W, p ∉ r ∧ s = W.erase p := by
  have h1 : (W \ s).card = 1 := by rw [Finset.card_sdiff_of_subset hsW]; omega
  obtain ⟨p, hp⟩ := Finset.card_eq_one.1 h1
  have hpm : p ∈ W \ s := by rw [hp]; simp
  obtain ⟨k1, k2⟩ := Finset.mem_sdiff.1 hpm
  refine ⟨p, k1, fun k => k2 (hr k), ?_⟩
  rw [Finset.erase_eq, ← hp, Finset.sdiff_sdiff_eq_self hsW]

/-- A bistellar move of a closed complex gives a closed complex. -/
theorem Bistellar.closed {d : ℕ} {A B : Finset V} {S S' : Finset (Finset V)} (h : Bistellar d A B S S')
    (hS : IsComplex S) (hc : ClosedOfDim d S) : ClosedOfDim d S' := by
  have hW : (A ∪ B).card = d + 2 := by rw [Finset.card_union_of_disjoint h.disjoint]; exact h.dimension
  have notB : ∀ s ∈ S, ¬ B ⊆ s := fun s hs k => h.absent (hS s hs B k)
  have jbA := fun s => mem_joinBoundary' (s := s) h.disjoint
  have jbB : ∀ s, s ∈ joinBoundary B A ↔ B ⊆ s ∧ s ⊆ A ∪ B ∧ ¬ A ⊆ s := by
    intro s; rw [mem_joinBoundary' h.disjoint.symm, Finset.union_comm B A]
  have inS : ∀ s, s ∈ joinBoundary A B → s ∈ S := by
    intro s hs; rw [← h.star] at hs; exact (Finset.mem_filter.1 hs).1
  have subE : ∀ {p : V} {X : Finset V}, p ∉ X → X ⊆ A ∪ B → X ⊆ (A ∪ B).erase p := by
    intro p X h1 h2 v hv
    exact Finset.mem_erase.2 ⟨fun e => h1 (e ▸ hv), h2 hv⟩
  have dis := Finset.disjoint_left.1 h.disjoint
  intro r hr hrc
  rcases h.mem.1 hr with ⟨hrS, hrA⟩ | hrB
  · by_cases hrW : r ⊆ A ∪ B
    · have hrB := notB r hrS
      obtain ⟨a, ha, har⟩ := Finset.not_subset.1 hrA
      obtain ⟨b, hb, hbr⟩ := Finset.not_subset.1 hrB
      have hab : a ≠ b := fun e => dis ha (e ▸ hb)
      have hrest : (A ∪ B) \ r = {a, b} := by
        refine (Finset.eq_of_subset_of_card_le ?_ ?_).symm
        · intro v hv
          simp only [Finset.mem_insert, Finset.mem_singleton] at hv
          rcases hv with rfl | rfl
          · exact Finset.mem_sdiff.2 ⟨Finset.mem_union_left _ ha, har⟩
          · exact Finset.mem_sdiff.2 ⟨Finset.mem_union_right _ hb, hbr⟩
        · rw [Finset.card_sdiff_of_subset hrW, Finset.card_pair hab]; omega
      have hcardE : ∀ p ∈ A ∪ B, ((A ∪ B).erase p).card = d + 1 := by
        intro p hp; rw [Finset.card_erase_of_mem hp]; omega
      have eb : (A ∪ B).erase b ∈ joinBoundary A B := by
        rw [jbA]
        refine ⟨subE (fun k => dis k hb) Finset.subset_union_left, Finset.erase_subset _ _, fun k => ?_⟩
        exact (Finset.mem_erase.1 (k hb)).1 rfl
      have ea : (A ∪ B).erase a ∈ joinBoundary B A := by
        rw [jbB]
        refine ⟨subE (fun k => dis ha k) Finset.subset_union_right, Finset.erase_subset _ _, fun k => ?_⟩
        exact (Finset.mem_erase.1 (k ha)).1 rfl
      have eaS : (A ∪ B).erase a ∉ S := fun k => notB _ k ((jbB _).1 ea).1
      have eF : (S'.filter fun s => s.card = d + 1 ∧ r ⊆ s) =
          insert ((A ∪ B).erase a) ((S.filter fun s => s.card = d + 1 ∧ r ⊆ s).erase ((A ∪ B).erase b)) := by
        ext s
        rw [Finset.mem_filter, h.mem, Finset.mem_insert, Finset.mem_erase, Finset.mem_filter]
        constructor
        · rintro ⟨⟨h1, h2⟩ | h1, h3, h4⟩
          · refine .inr ⟨?_, h1, h3, h4⟩
            rintro rfl
            exact h2 ((jbA _).1 eb).1
          · obtain ⟨k1, k2, k3⟩ := (jbB s).1 h1
            obtain ⟨p, hp, hpr, rfl⟩ := erase_of_card hW h3 k2 h4
            have : p ∈ (A ∪ B) \ r := Finset.mem_sdiff.2 ⟨hp, hpr⟩
            rw [hrest] at this
            simp only [Finset.mem_insert, Finset.mem_singleton] at this
            rcases this with rfl | rfl
            · exact .inl rfl
            · exact absurd ((jbA _).1 eb).1 k3
        · rintro (rfl | ⟨h1, h2, h3, h4⟩)
          · exact ⟨.inr ea, hcardE a (Finset.mem_union_left _ ha), subE har hrW⟩
          · refine ⟨.inl ⟨h2, fun k => h1 ?_⟩, h3, h4⟩
            have hs : s ∈ joinBoundary A B := by rw [← h.star]; exact Finset.mem_filter.2 ⟨h2, k⟩
            obtain ⟨p, hp, hpr, rfl⟩ := erase_of_card hW h3 ((jbA s).1 hs).2.1 h4
            have : p ∈ (A ∪ B) \ r := Finset.mem_sdiff.2 ⟨hp, hpr⟩
            rw [hrest] at this
            simp only [Finset.mem_insert, Finset.mem_singleton] at this
            rcases this with rfl | rfl
            · exact absurd ((jbB _).1 ea).1 (notB _ h2)
            · rfl
      have mb : (A ∪ B).erase b ∈ S.filter fun s => s.card = d + 1 ∧ r ⊆ s :=
        Finset.mem_filter.2 ⟨inS _ eb, hcardE b (Finset.mem_union_right _ hb), subE hbr hrW⟩
      rw [eF, Finset.card_insert_of_notMem, Finset.card_erase_of_mem mb, hc r hrS hrc]
      intro k
      exact eaS (Finset.mem_filter.1 (Finset.mem_erase.1 k).2).1
    · have eF : (S'.filter fun s => s.card = d + 1 ∧ r ⊆ s) = (S.filter fun s => s.card = d + 1 ∧ r ⊆ s) := by
        ext s
        rw [Finset.mem_filter, Finset.mem_filter, h.mem]
        constructor
        · rintro ⟨⟨h1, -⟩ | h1, h2⟩
          · exact ⟨h1, h2⟩
          · exact absurd (h2.2.trans ((jbB s).1 h1).2.1) hrW
        · rintro ⟨h1, h2⟩
          refine ⟨.inl ⟨h1, fun k => hrW ?_⟩, h2⟩
          have hs : s ∈ joinBoundary A B := by rw [← h.star]; exact Finset.mem_filter.2 ⟨h1, k⟩
          exact h2.2.trans ((jbA s).1 hs).2.1
      rw [eF]
      exact hc r hrS hrc
  · obtain ⟨k1, k2, k3⟩ := (jbB r).1 hrB
    have h2 : ((A ∪ B) \ r).card = 2 := by rw [Finset.card_sdiff_of_subset k2]; omega
    obtain ⟨p, q, hpq, he⟩ := Finset.card_eq_two.1 h2
    have inA : ∀ x ∈ (A ∪ B) \ r, x ∈ A ∧ x ∉ r := by
      intro x hx
      obtain ⟨j1, j2⟩ := Finset.mem_sdiff.1 hx
      rcases Finset.mem_union.1 j1 with j | j
      · exact ⟨j, j2⟩
      · exact absurd (k1 j) j2
    have hp := inA p (by rw [he]; simp)
    have hq := inA q (by rw [he]; simp)
    have eF : (S'.filter fun s => s.card = d + 1 ∧ r ⊆ s) = {(A ∪ B).erase p, (A ∪ B).erase q} := by
      have gen : ∀ x ∈ A, x ∉ r → (A ∪ B).erase x ∈ S'.filter fun s => s.card = d + 1 ∧ r ⊆ s := by
        intro x hx hxr
        refine Finset.mem_filter.2 ⟨h.mem.2 (.inr ((jbB _).2 ⟨subE (fun k => dis hx k) Finset.subset_union_right,
          Finset.erase_subset _ _, fun k => (Finset.mem_erase.1 (k hx)).1 rfl⟩)), ?_, subE hxr k2⟩
        rw [Finset.card_erase_of_mem (Finset.mem_union_left _ hx)]; omega
      ext s
      simp only [Finset.mem_insert, Finset.mem_singleton]
      constructor
      · intro hs
        obtain ⟨j1, j2, j3⟩ := Finset.mem_filter.1 hs
        rcases h.mem.1 j1 with ⟨i1, -⟩ | i1
        · exact absurd (k1.trans j3) (notB s i1)
        · obtain ⟨x, hx, hxr, rfl⟩ := erase_of_card hW j2 ((jbB s).1 i1).2.1 j3
          have : x ∈ (A ∪ B) \ r := Finset.mem_sdiff.2 ⟨hx, hxr⟩
          rw [he] at this
          simp only [Finset.mem_insert, Finset.mem_singleton] at this
          rcases this with rfl | rfl
          · exact .inl rfl
          · exact .inr rfl
      · rintro (rfl | rfl)
        · exact gen p hp.1 hp.2
        · exact gen q hq.1 hq.2
    rw [eF, Finset.card_pair]
    intro e
    have : q ∈ (A ∪ B).erase p := Finset.mem_erase.2 ⟨hpq.symm, Finset.mem_union_left _ hq.1⟩
    rw [e] at this
    exact (Finset.mem_erase.1 this).1 rfl

/-! ### Finding bistellar moves -/

theorem isComplex_faces (K : Finset (Finset V)) : IsComplex (faces K) := by
  intro s hs r hr
  obtain ⟨c, hc, h⟩ := mem_faces.1 hs
  exact mem_faces.2 ⟨c, hc, hr.trans h⟩

/-- Simplices over labels, placed on vertices. -/
def placed {n : ℕ} (f : Fin n → V) (X : Finset (Finset (Fin n))) : Finset (Finset V) := X.image (Finset.image f)

theorem mem_placed {n : ℕ} {f : Fin n → V} (hf : Function.Injective f) {X : Finset (Finset (Fin n))}
    {s : Finset (Fin n)} : s.image f ∈ placed f X ↔ s ∈ X := by
  unfold placed
  rw [Finset.mem_image]
  constructor
  · rintro ⟨t, ht, e⟩
    rw [← Finset.image_injective hf e]; exact ht
  · intro h; exact ⟨s, h, rfl⟩

theorem placed_joinBoundary {n : ℕ} {f : Fin n → V} (hf : Function.Injective f) (A B : Finset (Fin n)) :
    joinBoundary (A.image f) (B.image f) = placed f (joinBoundary A B) := by
  ext s
  unfold placed
  rw [mem_joinBoundary, Finset.mem_image]
  constructor
  · rintro ⟨C, hC, rfl⟩
    obtain ⟨C', hC', rfl⟩ := Finset.subset_image_iff.1 hC.1
    refine ⟨A ∪ C', mem_joinBoundary.2 ⟨C', ⟨by exact_mod_cast hC', ?_⟩, rfl⟩, Finset.image_union _ _⟩
    intro k
    exact hC.2 (Finset.image_subset_image k)
  · rintro ⟨t, ht, rfl⟩
    obtain ⟨C, hC, rfl⟩ := mem_joinBoundary.1 ht
    refine ⟨C.image f, ⟨Finset.image_subset_image hC.1, ?_⟩, (Finset.image_union _ _).symm⟩
    intro k
    exact hC.2 ((Finset.image_subset_image_iff hf).1 k)

/-- Everything that contains a lost simplex is lost. -/
theorem FaceChange.lost {L G K K' : Finset (Finset V)} (h : FaceChange L G K K') {A s : Finset V} (hA : A ∈ L)
    (hs : s ∈ faces K) (hAs : A ⊆ s) : s ∈ L := by
  by_contra hn
  have h1 : s ∈ faces K' := by rw [h.result]; exact Finset.mem_union_left _ (Finset.mem_sdiff.2 ⟨hs, hn⟩)
  have h2 := isComplex_faces K' s h1 A hAs
  rw [h.result] at h2
  rcases Finset.mem_union.1 h2 with k | k
  · exact (Finset.mem_sdiff.1 k).2 hA
  · exact h.absent A k (h.present hA)

/-- The labels `A`, `B` describe a bistellar move of dimension `d`. -/
def Labels (d : ℕ) {n : ℕ} (A B : Finset (Fin n)) : Prop :=
  A.Nonempty ∧ B.Nonempty ∧ A ∩ B = ∅ ∧ A.card + B.card = d + 2

instance (d : ℕ) {n : ℕ} (A B : Finset (Fin n)) : Decidable (Labels d A B) := by unfold Labels; infer_instance

theorem labels_placed {d n : ℕ} {f : Fin n → V} (hf : Function.Injective f) {A B : Finset (Fin n)}
    (h : Labels d A B) : ((A.image f).Nonempty ∧ (B.image f).Nonempty) ∧ Disjoint (A.image f) (B.image f) ∧
      (A.image f).card + (B.image f).card = d + 2 := by
  obtain ⟨h1, h2, h3, h4⟩ := h
  refine ⟨⟨h1.image f, h2.image f⟩, ?_, ?_⟩
  · rw [Finset.disjoint_iff_inter_eq_empty, ← Finset.image_inter _ _ hf, h3, Finset.image_empty]
  · rw [Finset.card_image_of_injective _ hf, Finset.card_image_of_injective _ hf]; exact h4

/-- An exchange of simplices that is one bistellar move. -/
theorem flip_one {d n : ℕ} {f : Fin n → V} (hf : Function.Injective f) {A B : Finset (Fin n)} (hl : Labels d A B)
    {K K' : Finset (Finset V)} (h : FaceChange (placed f (joinBoundary A B)) (placed f (joinBoundary B A)) K K') :
    Bistellar d (A.image f) (B.image f) (faces K) (faces K') := by
  obtain ⟨h1, h2, h3⟩ := labels_placed hf hl
  have self : ∀ {A B : Finset (Fin n)}, B.Nonempty → A ∈ joinBoundary A B := by
    intro A B hB
    exact mem_joinBoundary.2 ⟨∅, Finset.empty_ssubset.2 hB, Finset.union_empty A⟩
  refine ⟨h1, h2, h3, ?_, ?_, ?_⟩
  · rw [placed_joinBoundary hf]
    ext s
    rw [Finset.mem_filter]
    constructor
    · rintro ⟨k1, k2⟩
      exact h.lost ((mem_placed hf).2 (self hl.2.1)) k1 k2
    · intro k
      refine ⟨h.present k, ?_⟩
      rw [← placed_joinBoundary hf] at k
      exact sub_of_joinBoundary k
  · exact h.absent _ ((mem_placed hf).2 (self hl.1))
  · rw [placed_joinBoundary hf, placed_joinBoundary hf]
    exact h.result

/-- The exchange `L` for `G` is the bistellar move at `A`, `B` followed by the one at `C`, `D`. -/
def TwoFlips (d : ℕ) {n : ℕ} (L G : Finset (Finset (Fin n))) (A B C D : Finset (Fin n)) : Prop :=
  Labels d A B ∧ Labels d C D ∧ A ∈ L ∧ B ∈ G ∧ C ∈ L ∧ D ∈ G ∧
  L.filter (A ⊆ ·) = joinBoundary A B ∧
  ((L \ joinBoundary A B) ∪ joinBoundary B A).filter (C ⊆ ·) = joinBoundary C D ∧
  L = joinBoundary A B ∪ (joinBoundary C D \ joinBoundary B A) ∧
  G = (joinBoundary B A \ joinBoundary C D) ∪ joinBoundary D C ∧ D ∉ joinBoundary B A

instance (d : ℕ) {n : ℕ} (L G : Finset (Finset (Fin n))) (A B C D : Finset (Fin n)) :
    Decidable (TwoFlips d L G A B C D) := by unfold TwoFlips; infer_instance

theorem flip_two {d n : ℕ} {f : Fin n → V} (hf : Function.Injective f) {L G : Finset (Finset (Fin n))}
    {A B C D : Finset (Fin n)} (ht : TwoFlips d L G A B C D) {K K' : Finset (Finset V)}
    (h : FaceChange (placed f L) (placed f G) K K') :
    ∃ S, Bistellar d (A.image f) (B.image f) (faces K) S ∧ Bistellar d (C.image f) (D.image f) S (faces K') := by
  obtain ⟨l1, l2, hA, hB, hC, hD, sA, sC, eL, eG, hDn⟩ := ht
  obtain ⟨a1, a2, a3⟩ := labels_placed hf l1
  obtain ⟨b1, b2, b3⟩ := labels_placed hf l2
  have hf' := Finset.image_injective hf
  have un : ∀ X Y : Finset (Finset (Fin n)), placed f (X ∪ Y) = placed f X ∪ placed f Y := fun X Y => Finset.image_union _ _
  have sd : ∀ X Y : Finset (Finset (Fin n)), placed f (X \ Y) = placed f X \ placed f Y := fun X Y => Finset.image_sdiff _ _ hf'
  have fl : ∀ (X : Finset (Finset (Fin n))) (A : Finset (Fin n)),
      (placed f X).filter (A.image f ⊆ ·) = placed f (X.filter (A ⊆ ·)) := by
    intro X A
    ext s
    simp only [placed, Finset.mem_filter, Finset.mem_image]
    constructor
    · rintro ⟨⟨t, ht, rfl⟩, k⟩
      exact ⟨t, ⟨ht, (Finset.image_subset_image_iff hf).1 k⟩, rfl⟩
    · rintro ⟨t, ⟨ht, k⟩, rfl⟩
      exact ⟨⟨t, ht, rfl⟩, Finset.image_subset_image k⟩
  have star : ∀ X : Finset (Fin n), X ∈ L → (faces K).filter (X.image f ⊆ ·) = placed f (L.filter (X ⊆ ·)) := by
    intro X hX
    rw [← fl]
    ext s
    rw [Finset.mem_filter, Finset.mem_filter]
    constructor
    · rintro ⟨k1, k2⟩; exact ⟨h.lost ((mem_placed hf).2 hX) k1 k2, k2⟩
    · rintro ⟨k1, k2⟩; exact ⟨h.present k1, k2⟩
  have absB : B.image f ∉ faces K := h.absent _ ((mem_placed hf).2 hB)
  have absD : D.image f ∉ faces K := h.absent _ ((mem_placed hf).2 hD)
  have newB : ∀ s ∈ placed f (joinBoundary B A), s ∉ faces K := by
    intro s hs k
    rw [← placed_joinBoundary hf] at hs
    exact absB (isComplex_faces K s k _ (sub_of_joinBoundary hs))
  refine ⟨(faces K \ joinBoundary (A.image f) (B.image f)) ∪ joinBoundary (B.image f) (A.image f), ?_, ?_⟩
  · refine ⟨a1, a2, a3, ?_, absB, rfl⟩
    rw [star A hA, sA, placed_joinBoundary hf]
  · refine ⟨b1, b2, b3, ?_, ?_, ?_⟩
    · rw [placed_joinBoundary hf, placed_joinBoundary hf, placed_joinBoundary hf, ← sC, ← fl, un, sd]
      ext s
      have hstar := Finset.ext_iff.1 (star C hC) s
      rw [← fl, Finset.mem_filter, Finset.mem_filter] at hstar
      simp only [Finset.mem_filter, Finset.mem_union, Finset.mem_sdiff]
      generalize (s ∈ faces K) = P1 at *
      generalize (C.image f ⊆ s) = P2 at *
      generalize (s ∈ placed f L) = P3 at *
      generalize (s ∈ placed f (joinBoundary A B)) = P4 at *
      generalize (s ∈ placed f (joinBoundary B A)) = P5 at *
      clear * - hstar
      tauto
    · rw [placed_joinBoundary hf, placed_joinBoundary hf, Finset.mem_union, not_or]
      exact ⟨fun k => absD (Finset.mem_sdiff.1 k).1, fun k => hDn ((mem_placed hf).1 k)⟩
    · rw [h.result, placed_joinBoundary hf, placed_joinBoundary hf, placed_joinBoundary hf, placed_joinBoundary hf,
        eL, eG, un, un, sd, sd]
      ext s
      have := newB s
      simp only [Finset.mem_union, Finset.mem_sdiff]
      generalize (s ∈ faces K) = P1 at *
      generalize (s ∈ placed f (joinBoundary C D)) = P2 at *
      generalize (s ∈ placed f (joinBoundary D C)) = P3 at *
      generalize (s ∈ placed f (joinBoundary A B)) = P4 at *
      generalize (s ∈ placed f (joinBoundary B A)) = P5 at *
      clear * - this
      by_cases P5 <;> simp_all <;> tauto

end CDT.Spec

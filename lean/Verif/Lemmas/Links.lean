/-
Bistellar moves change the links of vertices by bistellar moves.
-/
import Verif.Spec.Links
import Verif.Lemmas.Pachner

namespace CDT.Spec

variable {V : Type*} [DecidableEq V] {d : ℕ} {A B : Finset V} {S S' : Finset (Finset V)} {v : V}

theorem mem_link {s : Finset V} : s ∈ link v S ↔ v ∉ s ∧ insert v s ∈ S := by
  simp only [link, Finset.mem_image, Finset.mem_filter]
  constructor
  · rintro ⟨r, ⟨h1, h2⟩, rfl⟩
    exact ⟨Finset.notMem_erase v r, by rwa [Finset.insert_erase h2]⟩
  · rintro ⟨h1, h2⟩
    exact ⟨insert v s, ⟨h2, Finset.mem_insert_self v s⟩, Finset.erase_insert h1⟩

/-- A vertex away from the move keeps its link. -/
theorem Bistellar.link_other (h : Bistellar d A B S S') (hv : v ∉ A ∪ B) : link v S' = link v S := by
  have h1 : v ∉ A := fun k => hv (Finset.mem_union_left _ k)
  have hn : ∀ s : Finset V, insert v s ∉ joinBoundary B A := fun s k =>
    hv (by rw [Finset.union_comm]; exact ((mem_joinBoundary' h.disjoint.symm).1 k).2.1 (Finset.mem_insert_self v s))
  have hn' : ∀ s : Finset V, insert v s ∈ S → ¬ A ⊆ insert v s := fun s k j => by
    have : insert v s ∈ joinBoundary A B := by rw [← h.star]; exact Finset.mem_filter.2 ⟨k, j⟩
    exact hv (((mem_joinBoundary' h.disjoint).1 this).2.1 (Finset.mem_insert_self v s))
  ext s
  rw [mem_link, mem_link, h.mem]
  constructor
  · rintro ⟨k, ⟨k1, -⟩ | k1⟩
    · exact ⟨k, k1⟩
    · exact absurd k1 (hn s)
  · rintro ⟨k, k1⟩
    exact ⟨k, .inl ⟨k1, hn' s k1⟩⟩

theorem subset_insert_erase {X s : Finset V} : X ⊆ insert v s ↔ X.erase v ⊆ s := by
  rw [Finset.subset_insert_iff]

theorem subset_insert_notMem {X s : Finset V} (hv : v ∉ X) : X ⊆ insert v s ↔ X ⊆ s := by
  rw [Finset.subset_insert_iff_of_notMem hv]

/-- The simplices of a join at one of the vertices of its first part. -/
theorem insert_joinBoundary_left (hd : Disjoint A B) (hv : v ∈ A) {s : Finset V} (hs : v ∉ s) :
    insert v s ∈ joinBoundary A B ↔ s ∈ joinBoundary (A.erase v) B := by
  have hB : v ∉ B := Finset.disjoint_left.1 hd hv
  rw [mem_joinBoundary' hd, mem_joinBoundary' (hd.mono_left (Finset.erase_subset v A)),
    subset_insert_erase, subset_insert_notMem hB]
  have : insert v s ⊆ A ∪ B ↔ s ⊆ A.erase v ∪ B := by
    constructor
    · intro k x hx
      have hxv : x ≠ v := fun e => hs (e ▸ hx)
      rcases Finset.mem_union.1 (k (Finset.mem_insert_of_mem hx)) with j | j
      · exact Finset.mem_union_left _ (Finset.mem_erase.2 ⟨hxv, j⟩)
      · exact Finset.mem_union_right _ j
    · intro k x hx
      rcases Finset.mem_insert.1 hx with rfl | hx
      · exact Finset.mem_union_left _ hv
      · rcases Finset.mem_union.1 (k hx) with j | j
        · exact Finset.mem_union_left _ (Finset.mem_of_mem_erase j)
        · exact Finset.mem_union_right _ j
  rw [this]

/-- The simplices of a join at one of the vertices of its second part. -/
theorem insert_joinBoundary_right (hd : Disjoint A B) (hv : v ∈ B) {s : Finset V} (hs : v ∉ s) :
    insert v s ∈ joinBoundary A B ↔ s ∈ joinBoundary A (B.erase v) := by
  have hA : v ∉ A := fun k => Finset.disjoint_left.1 hd k hv
  rw [mem_joinBoundary' hd, mem_joinBoundary' (hd.mono_right (Finset.erase_subset v B)),
    subset_insert_notMem hA, subset_insert_erase]
  have : insert v s ⊆ A ∪ B ↔ s ⊆ A ∪ B.erase v := by
    constructor
    · intro k x hx
      have hxv : x ≠ v := fun e => hs (e ▸ hx)
      rcases Finset.mem_union.1 (k (Finset.mem_insert_of_mem hx)) with j | j
      · exact Finset.mem_union_left _ j
      · exact Finset.mem_union_right _ (Finset.mem_erase.2 ⟨hxv, j⟩)
    · intro k x hx
      rcases Finset.mem_insert.1 hx with rfl | hx
      · exact Finset.mem_union_right _ hv
      · rcases Finset.mem_union.1 (k hx) with j | j
        · exact Finset.mem_union_left _ j
        · exact Finset.mem_union_right _ (Finset.mem_of_mem_erase j)
  rw [this]

/-- A vertex of the removed simplex that stays: its link makes a bistellar move. -/
theorem Bistellar.link_left (h : Bistellar (d + 1) A B S S') (hS : IsComplex S) (hv : v ∈ A) (hA : A ≠ {v}) :
    Bistellar d (A.erase v) B (link v S) (link v S') := by
  have hB : v ∉ B := Finset.disjoint_left.1 h.disjoint hv
  have hdim := h.dimension
  have hc := Finset.card_erase_add_one hv
  have hstar : ∀ s, s ∈ S ∧ A ⊆ s ↔ s ∈ joinBoundary A B := fun s => by rw [← h.star, Finset.mem_filter]
  refine ⟨⟨?_, h.nonempty.2⟩, h.disjoint.mono_left (Finset.erase_subset v A), by omega, ?_, ?_, ?_⟩
  · by_contra k
    rw [Finset.not_nonempty_iff_eq_empty, Finset.erase_eq_empty_iff] at k
    rcases k with rfl | k
    · simp at hv
    · exact hA k
  · ext s
    rw [Finset.mem_filter, mem_link]
    by_cases hs : v ∈ s
    · simp only [hs, not_true_eq_false, false_and, false_iff]
      intro k
      have := ((mem_joinBoundary' (h.disjoint.mono_left (Finset.erase_subset v A))).1 k).2.1 hs
      rcases Finset.mem_union.1 this with j | j
      · exact Finset.notMem_erase v A j
      · exact hB j
    · rw [← insert_joinBoundary_left h.disjoint hv hs, ← hstar, subset_insert_erase]
      tauto
  · intro k
    exact h.absent (hS _ (mem_link.1 k).2 _ (Finset.subset_insert v B))
  · ext s
    rw [mem_link, Finset.mem_union, Finset.mem_sdiff, mem_link, h.mem]
    by_cases hs : v ∈ s
    · simp only [hs, not_true_eq_false, false_and, false_or, false_iff]
      intro k
      have := ((mem_joinBoundary' (h.disjoint.mono_left (Finset.erase_subset v A)).symm).1 k).2.1 hs
      rcases Finset.mem_union.1 this with j | j
      · exact hB j
      · exact Finset.notMem_erase v A j
    · rw [insert_joinBoundary_right h.disjoint.symm hv hs, ← insert_joinBoundary_left h.disjoint hv hs, ← hstar]
      tauto

/-- A vertex of the inserted simplex that was there before: its link makes a bistellar move. -/
theorem Bistellar.link_right (h : Bistellar (d + 1) A B S S') (hS : IsComplex S) (hv : v ∈ B) (hB : B ≠ {v}) :
    Bistellar d A (B.erase v) (link v S) (link v S') := by
  have := ((h.symm hS).link_left (h.complex hS) hv hB).symm ?_
  · exact this
  · intro s hs r hr
    rw [mem_link] at hs ⊢
    exact ⟨fun k => hs.1 (hr k), h.complex hS _ hs.2 _ (Finset.insert_subset_insert v hr)⟩

/-- A new vertex: its link is the boundary of the simplex it replaces. -/
theorem Bistellar.link_new (h : Bistellar d A {v} S S') (hS : IsComplex S) : link v S' = A.ssubsets := by
  have hA : v ∉ A := fun k => Finset.disjoint_left.1 h.disjoint k (Finset.mem_singleton_self v)
  have hv : ∀ s : Finset V, insert v s ∉ S := fun s k =>
    h.absent (hS _ k _ (by simp))
  ext s
  rw [mem_link, h.mem, Finset.mem_ssubsets]
  constructor
  · rintro ⟨k, ⟨k1, -⟩ | k1⟩
    · exact absurd k1 (hv s)
    · rw [mem_joinBoundary] at k1
      obtain ⟨C, hC, e⟩ := k1
      have : C = s := by
        have hvC : v ∉ C := fun j => hA (hC.1 j)
        have := congrArg (·.erase v) e
        rw [Finset.erase_insert k] at this
        rw [← this, ← Finset.insert_eq, Finset.erase_insert hvC]
      exact this ▸ hC
  · intro k
    exact ⟨fun j => hA (k.1 j), .inr (mem_joinBoundary.2 ⟨s, k, by rw [Finset.insert_eq]⟩)⟩

theorem IsSphere.move {L L' : Finset (Finset V)} (h : IsSphere d L) (hb : Bistellar d A B L L') : IsSphere d L' := by
  obtain ⟨T, h1, h2⟩ := h
  exact ⟨T, h1, h2.tail ⟨A, B, hb⟩⟩

/-- A bistellar move of a manifold gives a manifold. -/
theorem Bistellar.manifold (h : Bistellar (d + 1) A B S S') (hS : IsComplex S) (hm : IsManifold d S) :
    IsManifold d S' := by
  intro v hv
  by_cases hvA : v ∈ A
  · by_cases hA : A = {v}
    · exfalso
      rw [h.mem] at hv
      rcases hv with ⟨-, k⟩ | k
      · exact k (by rw [hA])
      · exact ((mem_joinBoundary' h.disjoint.symm).1 k).2.2 (by rw [hA])
    · have hmem : ({v} : Finset V) ∈ S := by
        rw [h.mem] at hv
        rcases hv with ⟨k, -⟩ | k
        · exact k
        · have : v ∈ B ∨ False := by
            obtain ⟨b, hb⟩ := h.nonempty.2
            have := ((mem_joinBoundary' h.disjoint.symm).1 k).1 hb
            rw [Finset.mem_singleton] at this
            exact .inl (this ▸ hb)
          rcases this with j | j
          · exact absurd j (Finset.disjoint_left.1 h.disjoint hvA)
          · exact j.elim
      exact (hm v hmem).move (h.link_left hS hvA hA)
  · by_cases hvB : v ∈ B
    · by_cases hB : B = {v}
      · subst hB
        rw [h.link_new hS]
        have := h.dimension
        rw [Finset.card_singleton] at this
        exact ⟨A, by omega, .refl⟩
      · have hmem : ({v} : Finset V) ∈ S := by
          have : A ∪ {v} ∈ joinBoundary A B := by
            rw [mem_joinBoundary' h.disjoint]
            refine ⟨Finset.subset_union_left, Finset.union_subset_union subset_rfl (by simpa using hvB), fun k => hB ?_⟩
            refine Finset.Subset.antisymm (fun b hb => ?_) (by simpa using hvB)
            rcases Finset.mem_union.1 (k hb) with j | j
            · exact absurd hb (Finset.disjoint_left.1 h.disjoint j)
            · exact j
          rw [← h.star] at this
          exact hS _ (Finset.mem_filter.1 this).1 _ Finset.subset_union_right
        exact (hm v hmem).move (h.link_right hS hvB hB)
    · have hvAB : v ∉ A ∪ B := by simp [hvA, hvB]
      rw [h.link_other hvAB]
      refine hm v ?_
      rw [h.mem] at hv
      rcases hv with ⟨k, -⟩ | k
      · exact k
      · exact absurd (((mem_joinBoundary' h.disjoint.symm).1 k).2.1 (Finset.mem_singleton_self v))
          (by rw [Finset.union_comm]; exact hvAB)

/-- A bistellar move of a connected complex of dimension at least two gives a connected complex. -/
theorem Bistellar.connected (h : Bistellar (d + 2) A B S S') (hS : IsComplex S) (hc : IsConnected S) :
    IsConnected S' := by
  intro W hW
  have hS' := h.complex hS
  have hdim := h.dimension
  have hstar : ∀ s, s ∈ S → A ⊆ s → s ∈ joinBoundary A B := fun s k j => by
    rw [← h.star]; exact Finset.mem_filter.2 ⟨k, j⟩
  have stay : ∀ s, s ∈ S → ¬ A ⊆ s → s ∈ S' := fun s k j => h.mem.2 (.inl ⟨k, j⟩)
  -- vertices of `B` are all on one side
  have hBB : ∀ x ∈ B, ∀ y ∈ B, (x ∈ W ↔ y ∈ W) := by
    intro x hx y hy
    refine hW x y (hS' B ?_ _ ?_)
    · refine h.mem.2 (.inr ((mem_joinBoundary' h.disjoint.symm).2 ⟨subset_rfl, Finset.subset_union_left, fun k => ?_⟩))
      obtain ⟨a, ha⟩ := h.nonempty.1
      exact Finset.disjoint_left.1 h.disjoint ha (k ha)
    · intro z hz
      rcases Finset.mem_insert.1 hz with rfl | hz
      · exact hx
      · rw [Finset.mem_singleton.1 hz]; exact hy
  -- the simplices of the complex on `A` and one vertex of `B`
  have inS : ∀ C, C ⊂ B → A ∪ C ∈ S := fun C hC => by
    have : A ∪ C ∈ joinBoundary A B := mem_joinBoundary.2 ⟨C, hC, rfl⟩
    rw [← h.star] at this
    exact (Finset.mem_filter.1 this).1
  -- every new vertex is joined to the others
  have hnew : ∀ v, {v} ∈ S' → {v} ∉ S → ∀ a ∈ A, {a} ∈ S ∧ (v ∈ W ↔ a ∈ W) := by
    intro v hv hn a ha
    rw [h.mem] at hv
    rcases hv with ⟨k, -⟩ | k
    · exact absurd k hn
    · have hB : B = {v} := by
        refine Finset.Subset.antisymm (sub_of_joinBoundary k) ?_
        obtain ⟨b, hb⟩ := h.nonempty.2
        have := sub_of_joinBoundary k hb
        rw [Finset.mem_singleton] at this
        simpa [this] using hb
      have hcard : A.card = d + 3 := by rw [hB, Finset.card_singleton] at hdim; omega
      have hAS : A ∈ S := by
        have := inS ∅ (Finset.empty_ssubset.2 h.nonempty.2)
        rwa [Finset.union_empty] at this
      refine ⟨hS _ hAS _ (by simpa using ha), hW v a ?_⟩
      refine h.mem.2 (.inr (mem_joinBoundary.2 ⟨{a}, ?_, by rw [hB]; rfl⟩))
      refine Finset.ssubset_iff_subset_ne.2 ⟨by simpa using ha, fun e => ?_⟩
      rw [← e, Finset.card_singleton] at hcard
      omega
  by_cases hA : ∃ a, A = {a}
  · obtain ⟨a, rfl⟩ := hA
    have hBc : B.card = d + 3 := by rw [Finset.card_singleton] at hdim; omega
    have haB : a ∉ B := Finset.disjoint_left.1 h.disjoint (Finset.mem_singleton_self a)
    have gone : {a} ∉ S' := by
      rw [h.mem]
      rintro (⟨-, k⟩ | k)
      · exact k subset_rfl
      · exact ((mem_joinBoundary' h.disjoint.symm).1 k).2.2 subset_rfl
    obtain ⟨x, hx⟩ := h.nonempty.2
    have key := hc {u | if u = a then x ∈ W else u ∈ W} (by
      have one : ∀ u, {a, u} ∈ S → u ≠ a → (x ∈ W ↔ u ∈ W) := by
        intro u hu hne
        have := hstar _ hu (by simp)
        have := ((mem_joinBoundary' h.disjoint).1 this).2.1 (show u ∈ ({a, u} : Finset V) by simp)
        rcases Finset.mem_union.1 this with j | j
        · exact absurd (Finset.mem_singleton.1 j) hne
        · exact hBB x hx u j
      intro u v huv
      simp only [Set.mem_ofPred_eq]
      by_cases hu : u = a <;> by_cases hv : v = a
      · simp [hu, hv]
      · subst hu
        simp only [if_true, hv, if_false]
        exact one v huv hv
      · subst hv
        simp only [if_true, hu, if_false]
        rw [Finset.pair_comm] at huv
        exact (one u huv hu).symm
      · simp only [hu, hv, if_false]
        refine hW u v (stay _ huv fun k => ?_)
        have := k (Finset.mem_singleton_self a)
        simp only [Finset.mem_insert, Finset.mem_singleton] at this
        rcases this with e | e
        · exact hu e.symm
        · exact hv e.symm)
    have old : ∀ v, {v} ∈ S' → {v} ∈ S ∧ v ≠ a := by
      intro v hv
      refine ⟨?_, fun e => gone (e ▸ hv)⟩
      by_contra hn
      have := (hnew v hv hn a (Finset.mem_singleton_self a)).1
      rw [h.mem] at hv
      rcases hv with ⟨k, -⟩ | k
      · exact hn k
      · have h1 := Finset.card_le_card (sub_of_joinBoundary k)
        rw [hBc, Finset.card_singleton] at h1
        omega
    refine key.imp (fun k v hv => ?_) (fun k v hv => ?_)
    · obtain ⟨h1, h2⟩ := old v hv
      simpa [h2] using k v h1
    · obtain ⟨h1, h2⟩ := old v hv
      simpa [h2] using k v h1
  · have key := hc W (by
      intro u v huv
      by_cases hs : {u, v} ∈ S'
      · exact hW u v hs
      · have hAuv : A ⊆ {u, v} := by
          by_contra k
          exact hs (stay _ huv k)
        obtain ⟨a, ha⟩ := h.nonempty.1
        have hcard : 2 ≤ A.card := by
          by_contra k
          have : A.card = 1 := by
            have := Finset.card_pos.2 h.nonempty.1
            omega
          obtain ⟨b, hb⟩ := Finset.card_eq_one.1 this
          exact hA ⟨b, hb⟩
        have huv' : u ≠ v := by
          rintro rfl
          have := Finset.card_le_card hAuv
          simp at this
          omega
        have hle := Finset.card_le_card hAuv
        rw [Finset.card_pair huv'] at hle
        have hAe : A = {u, v} := Finset.eq_of_subset_of_card_le hAuv (by rw [Finset.card_pair huv']; omega)
        have hBc : B.card = d + 2 := by omega
        obtain ⟨x, hx⟩ := h.nonempty.2
        have hxB : ({x} : Finset V) ⊂ B := by
          refine Finset.ssubset_iff_subset_ne.2 ⟨by simpa using hx, fun e => ?_⟩
          rw [← e, Finset.card_singleton] at hBc
          omega
        have hxA : x ∉ A := fun k => Finset.disjoint_left.1 h.disjoint k hx
        have edge : ∀ w ∈ A, (w ∈ W ↔ x ∈ W) := by
          intro w hw
          refine hW w x (stay _ (hS _ (inS _ hxB) _ ?_) fun k => ?_)
          · intro z hz
            rcases Finset.mem_insert.1 hz with rfl | hz
            · exact Finset.mem_union_left _ hw
            · exact Finset.mem_union_right _ hz
          · have h1 : A ⊆ {w} := fun z hz => by
              rcases Finset.mem_insert.1 (k hz) with j | j
              · simpa using j
              · rw [Finset.mem_singleton] at j
                exact absurd hz (j ▸ hxA)
            have := Finset.card_le_card h1
            rw [Finset.card_singleton] at this
            omega
        rw [edge u (by simp [hAe]), edge v (by simp [hAe])])
    obtain ⟨a, ha⟩ := h.nonempty.1
    refine key.imp (fun k v hv => ?_) (fun k v hv => ?_)
    · by_cases hn : {v} ∈ S
      · exact k v hn
      · obtain ⟨h1, h2⟩ := hnew v hv hn a ha
        exact h2.2 (k a h1)
    · by_cases hn : {v} ∈ S
      · exact k v hn
      · obtain ⟨h1, h2⟩ := hnew v hv hn a ha
        exact fun j => k a h1 (h2.1 j)

end CDT.Spec

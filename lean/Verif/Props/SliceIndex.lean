import Verif.Model.SliceIndex
import Verif.Spec.SliceIndex
import Verif.Props.Listing
/-
C115: the index of spacelike facets by time slice.
-/
namespace CDT.Props
open CDT Spec Moves Cavity
variable {V G : Type} [LinearOrder V] {env : Env V G}

theorem filter_orderedInsert {α : Type} (t : ℤ) (a : ℤ × α) : ∀ l : List (ℤ × α),
    ((l.orderedInsert (fun x y => x.1 ≤ y.1) a).filter fun e => e.1 = t) = ((a :: l).filter fun e => e.1 = t)
  | [] => rfl
  | b :: l => by
    rw [List.orderedInsert]
    split
    · rfl
    · rename_i hlt
      rw [List.filter_cons, filter_orderedInsert t a l]
      by_cases ha : a.1 = t
      · have hb : ¬ b.1 = t := by omega
        simp [ha, hb]
      · simp [List.filter_cons, ha]

theorem filter_insertionSort {α : Type} (t : ℤ) : ∀ l : List (ℤ × α),
    ((l.insertionSort fun x y => x.1 ≤ y.1).filter fun e => e.1 = t) = l.filter fun e => e.1 = t
  | [] => rfl
  | a :: l => by
    rw [List.insertionSort_cons, filter_orderedInsert, List.filter_cons, List.filter_cons, filter_insertionSort t l]

theorem sorted_insertionSort {α : Type} (l : List (ℤ × α)) :
    (l.insertionSort fun x y => x.1 ≤ y.1).Pairwise fun a b => a.1 ≤ b.1 := by
  have : Std.Total (fun a b : ℤ × α => a.1 ≤ b.1) := ⟨fun a b => le_total a.1 b.1⟩
  have : IsTrans (ℤ × α) (fun a b : ℤ × α => a.1 ≤ b.1) := ⟨fun a b c => le_trans⟩
  exact List.pairwise_insertionSort _ l

theorem insert_last {α : Type} (e : ℤ × α) : ∀ acc : List (ℤ × α), (∀ x ∈ acc, x.1 ≤ e.1) →
    multimapInsert acc e = acc ++ [e]
  | [], _ => rfl
  | x :: acc, h => by
    have ih := insert_last e acc fun y hy => h y (List.mem_cons_of_mem _ hy)
    have hx := h x List.mem_cons_self
    unfold multimapInsert at ih ⊢
    rw [List.takeWhile_cons_of_pos (by simpa using hx), List.dropWhile_cons_of_pos (by simpa using hx),
      List.cons_append, ih, List.cons_append]

theorem multimap_of_sorted {α : Type} : ∀ (l acc : List (ℤ × α)), (acc ++ l).Pairwise (fun a b => a.1 ≤ b.1) →
    l.foldl multimapInsert acc = acc ++ l
  | [], acc, _ => by simp
  | e :: l, acc, h => by
    have hi : multimapInsert acc e = acc ++ [e] := insert_last e acc fun x hx =>
      (List.pairwise_append.1 h).2.2 x hx e List.mem_cons_self
    rw [List.foldl_cons, hi, multimap_of_sorted l (acc ++ [e]) (by simpa using h)]
    simp

theorem facet_times {S : CellStore V} {K : Tri V} (hS : S.Lawful K) (h4 : ∀ c ∈ K.cells, c.card = 4)
    {f : FacetHandle V} (hf : f.1 ∈ K.cells) (t : ℤ) :
    facetTimevalues S K f = [t] ↔ ∀ v ∈ f.1.erase (S.vertex f.1 f.2), K.time v = t := by
  unfold facetTimevalues
  rw [dedup_singleton_iff]
  · constructor
    · intro h v hv
      obtain ⟨hne, hm⟩ := Finset.mem_erase.1 hv
      rw [← hS.vertices _ hf] at hm
      obtain ⟨i, _, rfl⟩ := Finset.mem_image.1 hm
      apply h
      apply List.mem_map.2
      refine ⟨i, List.mem_filter.2 ⟨List.mem_finRange i, decide_eq_true ?_⟩, rfl⟩
      rintro rfl
      exact hne rfl
    · intro h x hx
      obtain ⟨i, hi, rfl⟩ := List.mem_map.1 hx
      have hne : i ≠ f.2 := of_decide_eq_true (List.mem_filter.1 hi).2
      exact h _ (Finset.mem_erase.2 ⟨fun e => hne (corners_injective hS hf (h4 _ hf) e), corner_mem hS hf i⟩)
  · rcases f with ⟨c, j⟩
    have : ∀ j : Fin 4, ((List.finRange (3 + 1)).filter fun i => i ≠ j) ≠ [] := by decide
    simpa using this j

theorem entries_filter {S : CellStore V} {K : Tri V} (hS : S.Lawful K) (h4 : ∀ c ∈ K.cells, c.card = 4) (t : ℤ) :
    ∀ facets : List (FacetHandle V), (∀ f ∈ facets, f.1 ∈ K.cells) →
      ((spacelikeEntries S K facets).filter fun e => e.1 = t).map Prod.snd =
        facets.filter fun f => ∀ v ∈ f.1.erase (S.vertex f.1 f.2), K.time v = t
  | [], _ => rfl
  | f :: rest, h => by
    have ih := entries_filter hS h4 t rest fun g hg => h g (List.mem_cons_of_mem _ hg)
    have key := facet_times hS h4 (h f List.mem_cons_self) t
    rw [List.filter_cons, spacelikeEntries]
    split
    · rename_i u hu
      rw [List.filter_cons]
      by_cases e : u = t
      · subst e
        rw [if_pos (by simp), if_pos (decide_eq_true (key.1 hu)), List.map_cons, ih]
      · have : ¬ ∀ v ∈ f.1.erase (S.vertex f.1 f.2), K.time v = t := fun hall => by
          have := key.2 hall
          rw [hu] at this
          exact e (by simpa using this)
        rw [if_neg (by simpa using e), if_neg (by simpa using this), ih]
    · rename_i hno
      have : ¬ ∀ v ∈ f.1.erase (S.vertex f.1 f.2), K.time v = t := fun hall => hno t (key.2 hall)
      rw [if_neg (by simpa using this), ih]

/-- C115. Whatever facets it is given, in whatever order and with whatever repetitions, `volume_per_timeslice` returns
the index that holds under each time exactly those of them whose three vertices have that time label, in the given
order; and `collect_spacelike_facets` returns the same entries in the same order. -/
theorem C115_index {S : CellStore V} {K : Tri V} (hS : S.Lawful K) (h4 : ∀ c ∈ K.cells, c.card = 4)
    (facets : List (FacetHandle V)) (hf : ∀ f ∈ facets, f.1 ∈ K.cells) :
    IndexesBySlice (volumePerTimeslice S K facets) facets
      (fun f t => ∀ v ∈ f.1.erase (S.vertex f.1 f.2), K.time v = t) ∧
    collectFacets S K facets = volumePerTimeslice S K facets := by
  have hs : (collectFacets S K facets).Pairwise fun a b => a.1 ≤ b.1 := sorted_insertionSort _
  have e : volumePerTimeslice S K facets = collectFacets S K facets := by
    unfold volumePerTimeslice
    rw [multimap_of_sorted _ [] (by simpa using hs)]
    rfl
  refine ⟨⟨?_, fun t => ?_⟩, e.symm⟩
  · rw [e]; exact hs
  · rw [e]
    unfold collectFacets
    rw [filter_insertionSort]
    exact entries_filter hS h4 t facets hf

/-- C115. An index by slices leaves nothing out and adds nothing: its entries are the listed facets that are spacelike,
each with the time label of its vertices. -/
theorem C115_entries {S : CellStore V} {K : Tri V} (hS : S.Lawful K) (h4 : ∀ c ∈ K.cells, c.card = 4)
    (facets : List (FacetHandle V)) (hf : ∀ f ∈ facets, f.1 ∈ K.cells) (t : ℤ) (f : FacetHandle V) :
    (t, f) ∈ volumePerTimeslice S K facets ↔
      f ∈ facets ∧ ∀ v ∈ f.1.erase (S.vertex f.1 f.2), K.time v = t := by
  have h := (C115_index hS h4 facets hf).1.2 t
  constructor
  · intro hm
    have : f ∈ ((volumePerTimeslice S K facets).filter fun e => e.1 = t).map Prod.snd :=
      List.mem_map.2 ⟨(t, f), List.mem_filter.2 ⟨hm, by simp⟩, rfl⟩
    rw [h, List.mem_filter] at this
    exact ⟨this.1, of_decide_eq_true this.2⟩
  · rintro ⟨h1, h2⟩
    have : f ∈ facets.filter fun f => ∀ v ∈ f.1.erase (S.vertex f.1 f.2), K.time v = t :=
      List.mem_filter.2 ⟨h1, decide_eq_true h2⟩
    rw [← h] at this
    obtain ⟨⟨u, g⟩, hm, rfl⟩ := List.mem_map.1 this
    obtain ⟨hm', hu⟩ := List.mem_filter.1 hm
    have hu : u = t := by simpa using hu
    subst hu
    exact hm'

theorem entries_refine {S : CellStore V} {K : Tri V} (hS : S.Lawful K) (h4 : ∀ c ∈ K.cells, c.card = 4) :
    ∀ facets : List (FacetHandle V), (∀ f ∈ facets, f.1 ∈ K.cells) →
      (spacelikeEntries S K facets).map (fun e => (e.1, e.2.1.erase (S.vertex e.2.1 e.2.2))) =
        (facets.map fun f => f.1.erase (S.vertex f.1 f.2)).filterMap fun s =>
          match ((canonicalPoints s).map K.time).dedup with
          | [t] => some (t, s)
          | _ => none
  | [], _ => rfl
  | f :: rest, h => by
    have ih := entries_refine hS h4 rest fun g hg => h g (List.mem_cons_of_mem _ hg)
    have hf := h f List.mem_cons_self
    have hc : (f.1.erase (S.vertex f.1 f.2)).card = 3 := by
      rw [Finset.card_erase_of_mem (corner_mem hS hf f.2), h4 _ hf]
    have hne : (canonicalPoints (f.1.erase (S.vertex f.1 f.2))).map K.time ≠ [] := by
      obtain ⟨v, hv⟩ := Finset.card_pos.1 (by rw [hc]; omega)
      intro e
      rw [List.map_eq_nil_iff] at e
      have := mem_canonicalPoints.2 hv
      rw [e] at this
      simp at this
    have key : ∀ t, facetTimevalues S K f = [t] ↔
        ((canonicalPoints (f.1.erase (S.vertex f.1 f.2))).map K.time).dedup = [t] := by
      intro t
      rw [facet_times hS h4 hf, dedup_singleton_iff hne]
      simp only [List.forall_mem_map, mem_canonicalPoints]
    rw [List.map_cons, List.filterMap_cons, ← ih, spacelikeEntries]
    split
    · rename_i u hu
      rw [(key u).1 hu]
      rfl
    · rename_i hno
      have : ∀ t, ((canonicalPoints (f.1.erase (S.vertex f.1 f.2))).map K.time).dedup ≠ [t] :=
        fun t e => hno t ((key t).2 e)
      generalize ((canonicalPoints (f.1.erase (S.vertex f.1 f.2))).map K.time).dedup = l at this ⊢
      rcases l with _ | ⟨a, _ | ⟨b, l⟩⟩
      · rfl
      · exact absurd rfl (this a)
      · rfl

/-- C115. The index of the triangulation's own cache (facets as sets of three vertices) is the one computed from cells
and opposite vertices, whichever of its two cells a facet is given by. -/
theorem C115_refines {S : CellStore V} {K : Tri V} (hS : S.Lawful K) (h4 : ∀ c ∈ K.cells, c.card = 4)
    (facets : List (FacetHandle V)) (hf : ∀ f ∈ facets, f.1 ∈ K.cells) :
    (collectFacets S K facets).map (fun e => (e.1, e.2.1.erase (S.vertex e.2.1 e.2.2))) =
      collectSpacelikeFacets K (facets.map fun f => f.1.erase (S.vertex f.1 f.2)) := by
  unfold collectFacets collectSpacelikeFacets
  rw [List.map_insertionSort (fun a b : ℤ × FacetHandle V => a.1 ≤ b.1) (fun a b : ℤ × Finset V => a.1 ≤ b.1) _ _
    (fun _ _ _ _ => Iff.rfl), entries_refine hS h4 facets hf]
  rfl

/-- C115. If the facets given are the finite facets of a triangulation, each once, the index holds for every time as
many of them as `spacelike_face_count` reports, which is the number of triangles on that slice. -/
theorem C115_counts (hl : env.Lawful) {K K' : Tri V} {cs : Caches V} (h : construct env K = .ok (K', cs))
    (h4 : ∀ c ∈ K'.cells, c.card = 4)
    {S : CellStore V} (hS : S.Lawful K') (facets : List (FacetHandle V)) (hf : ∀ f ∈ facets, f.1 ∈ K'.cells)
    (hn : (facets.map fun f => f.1.erase (S.vertex f.1 f.2)).Nodup)
    (hm : ∀ s, s ∈ facets.map (fun f => f.1.erase (S.vertex f.1 f.2)) ↔
      s ∈ faces K'.cells ∧ K'.inf ∉ s ∧ s.card = 3) (t : ℤ) :
    ((volumePerTimeslice S K' facets).filter fun e => e.1 = t).length = cs.spacelikeFaceCount t ∧
    (cs.spacelikeFaceCount t : ℤ) = sliceArea K'.inf K'.time K'.cells t := by
  have h1 := C36_slice_count hl h t
  refine ⟨?_, h1⟩
  have h2 := congrArg List.length ((C115_index hS h4 facets hf).1.2 t)
  rw [List.length_map] at h2
  rw [h2]
  have h3 : (facets.filter fun f => ∀ v ∈ f.1.erase (S.vertex f.1 f.2), K'.time v = t).length =
      ((facets.map fun f => f.1.erase (S.vertex f.1 f.2)).filter fun s => ∀ v ∈ s, K'.time v = t).length := by
    rw [List.filter_map, List.length_map]
    rfl
  rw [h3, ← List.toFinset_card_of_nodup (hn.filter _)]
  have h5 : ((((facets.map fun f => f.1.erase (S.vertex f.1 f.2)).filter fun s => ∀ v ∈ s, K'.time v = t).toFinset.card : ℕ) : ℤ)
      = cs.spacelikeFaceCount t := by
    rw [h1]
    unfold count
    congr 2
    ext s
    simp only [List.mem_toFinset, List.mem_filter, hm, Finset.mem_filter, decide_eq_true_eq]
    tauto
  exact_mod_cast h5

/-- Non-vacuity: all facets of the finite tetrahedra of a triangulation, the common one twice: the index has the two
copies under time 2 and nothing else. -/
example :
    (let K := Fixture.k26
     let S := sortedStore K
     let facets : List (FacetHandle ℕ) := [{12, 22, 32, 43}, {12, 22, 32, 51}].flatMap fun c =>
       (List.finRange 4).map fun j => (c, j)
     (∀ f ∈ facets, f.1 ∈ K.cells) ∧ facets.length = 8 ∧
     volumePerTimeslice S K facets = [(2, ({12, 22, 32, 43}, 3)), (2, ({12, 22, 32, 51}, 3))]) := by decide +kernel

/-- Non-vacuity of `C115_counts`: the seven finite facets, each once. -/
example :
    (let K := Fixture.k26
     let S := sortedStore K
     let facets : List (FacetHandle ℕ) := ((List.finRange 4).map fun j => (({12, 22, 32, 43} : Finset ℕ), j)) ++
       [({12, 22, 32, 51}, 0), ({12, 22, 32, 51}, 1), ({12, 22, 32, 51}, 2)]
     (∀ f ∈ facets, f.1 ∈ K.cells) ∧ (facets.map fun f => f.1.erase (S.vertex f.1 f.2)).Nodup ∧
     (facets.map fun f => f.1.erase (S.vertex f.1 f.2)).toFinset =
       (faces K.cells).filter (fun s => K.inf ∉ s ∧ s.card = 3) ∧
     ((volumePerTimeslice S K facets).filter fun e => e.1 = 2).length = 1) := by decide +kernel

end CDT.Props

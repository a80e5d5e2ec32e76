/-
Facts about the repair passes.
-/
import Verif.Model.Repair
import Verif.Lemmas.Manifold

namespace CDT
open Spec Cavity Moves

variable {V G : Type} [LinearOrder V]

theorem tri_ext {K L : Tri V} (h1 : K.inf = L.inf) (h2 : K.cells = L.cells) (h3 : K.time = L.time)
    (h4 : K.info = L.info) : K = L := by
  cases K; cases L; simp_all

theorem foldl_time (f : V → ℤ) (l : List V) (K : Tri V) :
    let r := l.foldl (fun K v => { K with time := Function.update K.time v (f v) }) K
    r.inf = K.inf ∧ r.cells = K.cells ∧ r.info = K.info ∧
      ∀ v, r.time v = if v ∈ l then f v else K.time v := by
  induction l generalizing K with
  | nil => simp
  | cons a l ih =>
    obtain ⟨h1, h2, h3, h4⟩ := ih { K with time := Function.update K.time a (f a) }
    refine ⟨h1, h2, h3, fun v => ?_⟩
    rw [List.foldl_cons, h4]
    by_cases hv : v ∈ l
    · simp [hv]
    · by_cases ha : v = a
      · subst ha; simp [hv]
      · simp [hv, ha, Function.update_of_ne ha]

theorem foldl_info (l : List (Finset V)) (K : Tri V) :
    let r := l.foldl (fun K c => { K with info := Function.update K.info c (K.expectedType c).code }) K
    r.inf = K.inf ∧ r.cells = K.cells ∧ r.time = K.time ∧
      ∀ c, r.info c = if c ∈ l then (K.expectedType c).code else K.info c := by
  induction l generalizing K with
  | nil => simp
  | cons a l ih =>
    obtain ⟨h1, h2, h3, h4⟩ := ih { K with info := Function.update K.info a (K.expectedType a).code }
    refine ⟨h1, h2, h3, fun c => ?_⟩
    rw [List.foldl_cons, h4]
    by_cases hv : c ∈ l
    · simp only [hv, if_true, List.mem_cons, or_true]; rfl
    · by_cases ha : c = a
      · subst ha; simp [hv]
      · simp [hv, ha, Function.update_of_ne ha]

theorem mem_foldr_union {l : List (Finset V)} {v : V} :
    v ∈ l.foldr (· ∪ ·) ∅ ↔ ∃ c ∈ l, v ∈ c := by
  induction l with
  | nil => simp
  | cons a l ih => simp [ih]

theorem mem_findIncorrectVertices {env : Env V G} {re : RepairEnv V} (hl : env.Lawful)
    (hr : re.Lawful) {K : Tri V} {v : V} :
    v ∈ findIncorrectVertices env re K ↔
      v ∈ vertices (finitePart K.inf K.cells) ∧ env.label v ≠ K.time v := by
  unfold findIncorrectVertices verticesFromCells
  rw [List.mem_filter, hr.mem_hash, mem_foldr_union, mem_vertices]
  simp only [hl.mem_iter, decide_eq_true_eq, ne_eq]
  rfl

theorem mem_findIncorrectCells {env : Env V G} (hl : env.Lawful) {K : Tri V} {c : Finset V} :
    c ∈ findIncorrectCells env K ↔ c ∈ finitePart K.inf K.cells ∧ K.typeCorrect c = false := by
  unfold findIncorrectCells
  rw [List.mem_filter, hl.mem_iter]
  simp only [Bool.not_eq_true']
  rfl

theorem expectedType_ne_unclassified {K : Tri V} {c : Finset V} (h : c.card = 4) :
    K.expectedType c ≠ .unclassified := by
  rcases expectedType_cases K h with h | h | h | h <;> rw [h.1] <;> simp

/-- A tetrahedron is causal when it spans two adjacent slices. -/
theorem acausal_iff {K : Tri V} {c : Finset V} (h : c.card = 4) :
    K.expectedType c = .acausal ↔
      ¬ (HasType K.time 3 1 c ∨ HasType K.time 2 2 c ∨ HasType K.time 1 3 c) := by
  rcases expectedType_cases K h with h | h | h | h
  · rw [h.1]; simp [h.2]
  · rw [h.1]; simp [h.2]
  · rw [h.1]; simp [h.2]
  · rw [h.1]; simp [h.2 3 1 (by omega) (by omega), h.2 2 2 (by omega) (by omega),
      h.2 1 3 (by omega) (by omega)]

theorem mem_invalid {env : Env V G} (hl : env.Lawful) {K : Tri V} (hK : ∀ c ∈ K.cells, c.card = 4)
    {c : Finset V} : c ∈ findInvalidTimevalueCells env K ↔
      c ∈ finitePart K.inf K.cells ∧
        ¬ (HasType K.time 3 1 c ∨ HasType K.time 2 2 c ∨ HasType K.time 1 3 c) := by
  unfold findInvalidTimevalueCells
  rw [List.mem_filter, hl.mem_iter]
  have hf : K.finiteCells = finitePart K.inf K.cells := rfl
  rw [hf]
  refine and_congr_right (fun hc => ?_)
  have h4 := hK c (Finset.mem_filter.1 hc).1
  simp only [decide_eq_true_eq, expectedType_ne_unclassified h4, or_false]
  exact acausal_iff h4

theorem invalid_empty_iff {env : Env V G} (hl : env.Lawful) {K : Tri V} (hK : ∀ c ∈ K.cells, c.card = 4) :
    (findInvalidTimevalueCells env K).isEmpty = true ↔ Causal K.inf K.time K.cells := by
  rw [List.isEmpty_iff, List.eq_nil_iff_forall_not_mem]
  constructor
  · intro h c hc hi
    by_contra hn
    exact h c ((mem_invalid hl hK).2 ⟨Finset.mem_filter.2 ⟨hc, hi⟩, hn⟩)
  · intro h c hc
    obtain ⟨h1, h2⟩ := (mem_invalid hl hK).1 hc
    obtain ⟨h3, h4⟩ := Finset.mem_filter.1 h1
    exact h2 (h c h3 h4)

theorem findBadVertex_spec {re : RepairEnv V} (hr : re.Lawful) (K : Tri V) {c : Finset V}
    (h : c.Nonempty) : ∃ v ∈ c, findBadVertex re K c = some v ∧
      ((∀ u ∈ c, K.time u ≤ K.time v) ∨ (∀ u ∈ c, K.time v ≤ K.time u)) := by
  have hm : ∀ v, v ∈ (re.stored K c).insertionSort (fun a b => K.time a ≤ K.time b) ↔ v ∈ c := by
    intro v; rw [(List.perm_insertionSort _ _).mem_iff, hr.mem_stored]
  have hs : ((re.stored K c).insertionSort (fun a b => K.time a ≤ K.time b)).Pairwise
      (fun a b => K.time a ≤ K.time b) := by
    have : Std.Total (fun (a b : V) => K.time a ≤ K.time b) := ⟨fun a b => le_total _ _⟩
    have : IsTrans V (fun a b => K.time a ≤ K.time b) := ⟨fun a b c => le_trans⟩
    exact List.pairwise_insertionSort _ _
  unfold findBadVertex
  generalize (re.stored K c).insertionSort (fun a b => K.time a ≤ K.time b) = vs at hm hs
  have hne : vs ≠ [] := by
    obtain ⟨v, hv⟩ := h
    rintro rfl
    simpa using (hm v).2 hv
  obtain ⟨lo, l, rfl⟩ := List.exists_cons_of_ne_nil hne
  obtain ⟨l', hi, he⟩ : ∃ l' hi, lo :: l = l' ++ [hi] :=
    ⟨(lo :: l).dropLast, (lo :: l).getLast hne, (List.dropLast_append_getLast hne).symm⟩
  have hlast : (lo :: l).getLast? = some hi := by rw [he]; simp
  dsimp only
  rw [hlast]
  dsimp only [List.head?_cons]
  have hlo : ∀ u ∈ c, K.time lo ≤ K.time u := by
    intro u hu
    rcases List.mem_cons.1 ((hm u).2 hu) with rfl | h
    · exact le_rfl
    · exact (List.pairwise_cons.1 hs).1 u h
  have hhi : ∀ u ∈ c, K.time u ≤ K.time hi := by
    intro u hu
    have hu' := (hm u).2 hu
    rw [he] at hu' hs
    rcases List.mem_append.1 hu' with h | h
    · exact (List.pairwise_append.1 hs).2.2 u h hi (by simp)
    · rw [List.mem_singleton.1 h]
  split_ifs
  · exact ⟨hi, (hm hi).1 (by rw [he]; simp), rfl, .inl hhi⟩
  · exact ⟨lo, (hm lo).1 (by simp), rfl, .inr hlo⟩

theorem mem_toRemove {env : Env V G} {re : RepairEnv V} {K : Tri V} {v : V} :
    v ∈ verticesToRemove env re K ↔
      ∃ c ∈ findInvalidTimevalueCells env K, findBadVertex re K c = some v := by
  unfold verticesToRemove
  rw [List.mem_toFinset, List.mem_filterMap]

theorem toRemove_subset {env : Env V G} {re : RepairEnv V} (hl : env.Lawful) (hr : re.Lawful) {D : Del V}
    (hw : D.Wf) : verticesToRemove env re D.tri ⊆ D.points := by
  intro v hv
  obtain ⟨c, hc, hb⟩ := mem_toRemove.1 hv
  obtain ⟨h1, _⟩ := (mem_invalid hl hw.card).1 hc
  obtain ⟨h2, h3⟩ := Finset.mem_filter.1 h1
  obtain ⟨u, hu, he, _⟩ := findBadVertex_spec hr D.tri
    (Finset.card_pos.1 (by rw [hw.card c h2]; omega) : c.Nonempty)
  rw [he] at hb
  injection hb with hb
  subst hb
  exact hw.verts (mem_finiteVerts.2 ⟨fun e => h3 (e ▸ hu), c, h2, hu⟩)

theorem makeManifold_idem {env : Env V G} (K : Tri V) :
    makeManifold env (makeManifold env K) = makeManifold env K := by
  apply tri_ext
  · rfl
  · rfl
  · funext v
    by_cases h : v = K.inf <;> simp [makeManifold, relabel, h]
  · have ht : (makeManifold env (makeManifold env K)).time = (makeManifold env K).time := by
      funext v
      by_cases h : v = K.inf <;> simp [makeManifold, relabel, h]
    funext c
    by_cases h : K.inf ∈ c
    · simp [makeManifold, relabel, h]
    · have e1 : (makeManifold env (makeManifold env K)).info c =
          (expectedCellType ((canonicalPoints c).map (makeManifold env (makeManifold env K)).time)).code := by
        simp only [makeManifold, relabel, h, if_false]; rfl
      have e2 : (makeManifold env K).info c =
          (expectedCellType ((canonicalPoints c).map (makeManifold env K).time)).code := by
        simp only [makeManifold, relabel, h, if_false]; rfl
      rw [e1, e2, ht]

/-- The bounded loop stops at the first unproductive pass. -/
theorem passes_spec {σ : Type} (fix : σ → Bool × σ) (hfix : ∀ s, (fix s).1 = false → (fix s).2 = s)
    (n : ℕ) (s : σ) :
    ∃ k, k ≤ n ∧ passes fix n s = (fun s => (fix s).2)^[k] s ∧
      (∀ j, j < k → (fix ((fun s => (fix s).2)^[j] s)).1 = true) ∧
      (k = n ∨ (fix (passes fix n s)).1 = false) := by
  induction n generalizing s with
  | zero => exact ⟨0, le_rfl, rfl, fun j hj => absurd hj (by omega), .inl rfl⟩
  | succ n ih =>
    by_cases h : (fix s).1 = true
    · obtain ⟨k, hk, he, hall, hend⟩ := ih (fix s).2
      refine ⟨k + 1, by omega, ?_, ?_, ?_⟩
      · rw [passes, if_pos h, he, Function.iterate_succ_apply]
      · intro j hj
        cases j with
        | zero => exact h
        | succ j => rw [Function.iterate_succ_apply]; exact hall j (by omega)
      · rw [passes, if_pos h]
        rcases hend with h | h
        · exact .inl (by omega)
        · exact .inr h
    · have h' : (fix s).1 = false := by simpa using h
      refine ⟨0, by omega, ?_, fun j hj => absurd hj (by omega), .inr ?_⟩
      · rw [passes, if_neg h]; simpa using hfix s h'
      · rw [passes, if_neg h, hfix s h', h']

end CDT

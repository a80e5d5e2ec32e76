import Verif.Spec.Fingerprint
import Mathlib.Data.List.Sort
import Mathlib.Data.List.OfFn
import Mathlib.Tactic.Common
import Mathlib.Tactic.Set
import Mathlib.Logic.Equiv.Fin.Basic
import Mathlib.Data.Fintype.EquivFin
import Mathlib.Algebra.BigOperators.Group.List.Basic
/-
Invariance of the canonical fingerprints under reordering.
-/
namespace CDT

section Sorted
variable {α : Type} [LinearOrder α]

theorem sorted_perm (l : List α) : (sorted l).Perm l := List.perm_insertionSort (· ≤ ·) l

theorem sorted_pairwise (l : List α) : (sorted l).Pairwise (· ≤ ·) :=
  List.pairwise_insertionSort (· ≤ ·) l

theorem sorted_congr {l₁ l₂ : List α} (h : l₁.Perm l₂) : sorted l₁ = sorted l₂ :=
  List.Perm.eq_of_pairwise (le := (· ≤ ·)) (fun a b _ _ h₁ h₂ => le_antisymm h₁ h₂)
    (sorted_pairwise l₁) (sorted_pairwise l₂)
    ((sorted_perm l₁).trans (h.trans (sorted_perm l₂).symm))

end Sorted

theorem ofFn_comp_perm {α : Type} {n m : ℕ} (f : Fin n → α) (e : Fin m ≃ Fin n) :
    (List.ofFn fun i => f (e i)).Perm (List.ofFn f) := by
  have hnm : m = n := Fin.equiv_iff_eq.mp ⟨e⟩
  subst hnm
  rw [List.ofFn_eq_map, List.ofFn_eq_map]
  have : (List.map (fun i => f (e i)) (List.finRange m)) = ((List.finRange m).map e).map f := by
    simp [List.map_map, Function.comp_def]
  rw [this]
  exact (Equiv.Perm.map_finRange_perm e).map f

section Search
variable {n : ℕ} (τ : Equiv.Perm (Fin n))

theorem canonicalColors_comp {α : Type} [LinearOrder α] (s s' : Fin n → α)
    (h : ∀ i, s' i = s (τ i)) (i : Fin n) : canonicalColors s' i = canonicalColors s (τ i) := by
  have hs : s' = fun i => s (τ i) := funext h
  subst hs
  simp only [canonicalColors]
  rw [sorted_congr (ofFn_comp_perm s τ)]

/-- Adjacency lists that correspond under the renumbering `τ`. -/
def AdjComp (adj adj' : Fin n → List (Fin n)) : Prop :=
  ∀ i, ((adj' i).map τ).Perm (adj (τ i))

variable {τ}

theorem neighbours_congr {adj adj' : Fin n → List (Fin n)} (ha : AdjComp τ adj adj')
    {colors colors' : Fin n → ℕ} (hc : ∀ i, colors' i = colors (τ i)) (i : Fin n) :
    sorted ((adj' i).map colors') = sorted ((adj (τ i)).map colors) := by
  apply sorted_congr
  have h := (ha i).map colors
  have : (adj' i).map colors' = ((adj' i).map τ).map colors := by
    rw [List.map_map]; exact List.map_congr_left fun x _ => hc x
  rw [this]; exact h

theorem signature_congr {adj adj' : Fin n → List (Fin n)} (ha : AdjComp τ adj adj')
    {colors colors' : Fin n → ℕ} (hc : ∀ i, colors' i = colors (τ i)) (i : Fin n) :
    refinementSignature adj' colors' i = refinementSignature adj colors (τ i) := by
  simp only [refinementSignature, neighbours_congr ha hc, hc]

theorem refineLoop_congr {adj adj' : Fin n → List (Fin n)} (ha : AdjComp τ adj adj') :
    ∀ k {colors colors' : Fin n → ℕ} (_ : ∀ i, colors' i = colors (τ i)) (b : ℕ),
      refineLoop adj' k colors' b = (refineLoop adj k colors b).map fun (c, b) => (fun i => c (τ i), b)
  | 0, colors, colors', hc, b => by
    have : colors' = fun i => colors (τ i) := funext hc
    simp [refineLoop, Except.map, this]
  | k + 1, colors, colors', hc, b => by
    have hr : ∀ i, canonicalColors (refinementSignature adj' colors') i =
        canonicalColors (refinementSignature adj colors) (τ i) :=
      fun i => canonicalColors_comp τ _ _ (signature_congr ha hc) i
    have heq : canonicalColors (refinementSignature adj' colors') = colors' ↔
        canonicalColors (refinementSignature adj colors) = colors := by
      constructor
      · intro h; funext i
        have := congrFun h (τ.symm i); rw [hr, hc] at this; simpa using this
      · intro h; funext i; rw [hr, hc, h]
    unfold refineLoop
    cases consumeWork b with
    | error e => rfl
    | ok b' =>
      simp only [bind, Except.bind]
      by_cases h : canonicalColors (refinementSignature adj colors) = colors
      · rw [if_pos h, if_pos (heq.mpr h)]
        have : colors' = fun i => colors (τ i) := funext hc
        simp [Except.map, this]
      · rw [if_neg h, if_neg (mt heq.mp h)]
        exact refineLoop_congr ha k hr b'

/-- Number of nodes of one colour. -/
theorem countP_congr {colors colors' : Fin n → ℕ} (hc : ∀ i, colors' i = colors (τ i)) (c : ℕ) :
    (List.finRange n).countP (fun i => decide (colors' i = c)) =
      (List.finRange n).countP (fun i => decide (colors i = c)) := by
  have h := (Equiv.Perm.map_finRange_perm τ).countP_eq (fun i => decide (colors i = c))
  rw [List.countP_map] at h
  rw [← h]; congr 1; funext i; simp [hc]

theorem ambiguousColor_congr {colors colors' : Fin n → ℕ} (hc : ∀ i, colors' i = colors (τ i)) :
    ambiguousColor colors' = ambiguousColor colors := by
  simp only [ambiguousColor, countP_congr hc]

theorem individualizedColor_congr {colors colors' : Fin n → ℕ}
    (hc : ∀ i, colors' i = colors (τ i)) : individualizedColor colors' = individualizedColor colors := by
  have : colors' = fun i => colors (τ i) := funext hc
  subst this
  simp only [individualizedColor]
  congr 1
  exact (ofFn_comp_perm colors τ).foldr_eq' (fun x _ y _ z => by omega) 0

theorem individualize_congr {colors colors' : Fin n → ℕ} (hc : ∀ i, colors' i = colors (τ i))
    (node : Fin n) : ∀ i, individualize colors' node i = individualize colors (τ node) (τ i) := by
  intro i
  simp only [individualize, individualizedColor_congr hc, hc, τ.injective.eq_iff]

/-- With no ambiguous colour every colour below `n` is used exactly once. -/
theorem colors_injective {colors : Fin n → ℕ} (hlt : ∀ i, colors i < n)
    (h : ambiguousColor colors = none) : Function.Injective colors := by
  intro i j hij
  by_contra hne
  simp only [ambiguousColor, List.find?_eq_none, List.mem_range, decide_eq_true_eq, not_lt] at h
  have hcount := h (colors i) (hlt i)
  have : 2 ≤ (List.finRange n).countP (fun k => decide (colors k = colors i)) := by
    rw [List.countP_eq_length_filter]
    have hsub : [i, j] ⊆ (List.finRange n).filter (fun k => decide (colors k = colors i)) := by
      intro x hx; simp at hx; rcases hx with rfl | rfl <;> simp [hij]
    have hnd : [i, j].Nodup := by simp [hne]
    exact (List.subperm_of_subset hnd hsub).length_le
  omega

theorem find_color {colors : Fin n → ℕ} (hinj : Function.Injective colors) (i : Fin n) :
    (List.finRange n).find? (fun k => decide (colors k = colors i)) = some i := by
  cases h : (List.finRange n).find? (fun k => decide (colors k = colors i)) with
  | none =>
    have := List.find?_eq_none.mp h i (List.mem_finRange i)
    simp at this
  | some j =>
    have := List.find?_some h
    simp only [decide_eq_true_eq] at this
    rw [hinj this]

theorem incidenceRecords_congr {bases bases' : Fin n → Bytes} (hb : ∀ i, bases' i = bases (τ i))
    {adj adj' : Fin n → List (Fin n)} (ha : AdjComp τ adj adj')
    {colors colors' : Fin n → ℕ} (hc : ∀ i, colors' i = colors (τ i))
    (hinj : Function.Injective colors) :
    incidenceRecords bases' adj' colors' = incidenceRecords bases adj colors := by
  simp only [incidenceRecords]
  apply List.filterMap_congr
  intro c _
  have hinj' : Function.Injective colors' := fun i j h => τ.injective (hinj (by rw [← hc, ← hc, h]))
  by_cases hex : ∃ i, colors i = c
  · obtain ⟨i, rfl⟩ := hex
    rw [find_color hinj i]
    have hi : colors i = colors' (τ.symm i) := by rw [hc]; simp
    rw [hi, find_color hinj' (τ.symm i)]
    simp only [Option.map_some, incidenceRecord, neighbours_congr ha hc, hb, Equiv.apply_symm_apply]
  · have h1 : (List.finRange n).find? (fun k => decide (colors k = c)) = none := by
      simp only [List.find?_eq_none, decide_eq_true_eq]; exact fun i _ h => hex ⟨i, h⟩
    have h2 : (List.finRange n).find? (fun k => decide (colors' k = c)) = none := by
      simp only [List.find?_eq_none, decide_eq_true_eq]
      exact fun i _ h => hex ⟨τ i, by rw [← hc]; exact h⟩
    rw [h1, h2]; rfl

/-! ### Work budget -/

/-- A budgeted computation with a fixed cost and result. -/
def Costs {α : Type} (f : ℕ → Except Exc (α × ℕ)) (limit cost : ℕ) (result : α) : Prop :=
  ∀ b ≤ limit, f b = if cost ≤ b then .ok (result, b - cost) else .error .runtimeError

theorem costs_refineLoop (adj : Fin n → List (Fin n)) (limit : ℕ) :
    ∀ k (colors : Fin n → ℕ), ∃ cost r, Costs (fun b => refineLoop adj k colors b) limit cost r
  | 0, colors => ⟨0, colors, fun b _ => by simp [refineLoop]⟩
  | k + 1, colors => by
    by_cases h : canonicalColors (refinementSignature adj colors) = colors
    · refine ⟨1, colors, fun b _ => ?_⟩
      simp only [refineLoop, consumeWork, h, if_true]
      rcases b with _ | b
      · simp [bind, Except.bind]
      · simp [bind, Except.bind]
    · obtain ⟨cost, r, hr⟩ := costs_refineLoop adj limit k
        (canonicalColors (refinementSignature adj colors))
      refine ⟨cost + 1, r, fun b hb => ?_⟩
      simp only [refineLoop, consumeWork, h, if_false]
      rcases b with _ | b
      · simp [bind, Except.bind]
      · have := hr b (by omega)
        simp only [Nat.add_eq_zero_iff, one_ne_zero, and_false, if_false, bind, Except.bind,
          Nat.add_sub_cancel, this, Nat.add_le_add_iff_right, Nat.add_sub_add_right]

theorem costs_searchLoop {limit : ℕ} {recurse : Fin n → ℕ → Except Exc (List Bytes × ℕ)}
    {cost : Fin n → ℕ} {r : Fin n → List Bytes} (h : ∀ i, Costs (recurse i) limit (cost i) (r i)) :
    ∀ (nodes : List (Fin n)) (best : Option (List Bytes)),
      Costs (fun b => searchLoop recurse nodes best b) limit (nodes.map cost).sum
        ((nodes.map r).foldl better best)
  | [], best => fun b _ => by simp [searchLoop]
  | i :: rest, best => fun b hb => by
    have hi := h i b hb
    simp only [searchLoop, hi, List.map_cons, List.sum_cons, List.foldl_cons]
    by_cases hle : cost i ≤ b
    · have hrest := costs_searchLoop h rest (better best (r i)) (b - cost i) (by omega)
      simp only [hle, if_true, bind, Except.bind, hrest]
      by_cases h2 : (rest.map cost).sum ≤ b - cost i
      · rw [if_pos h2, if_pos (by omega)]; congr 2; omega
      · rw [if_neg h2, if_neg (by omega)]
    · rw [if_neg hle, if_neg (by omega)]; rfl

theorem better_comm (best : Option (List Bytes)) (x y : List Bytes) :
    better (better best x) y = better (better best y) x := by
  rcases best with _ | b
  · simp only [better]
    rcases lt_trichotomy x y with h | h | h
    · rw [if_neg (not_lt_of_gt h), if_pos h]
    · subst h; rfl
    · rw [if_pos h, if_neg (not_lt_of_gt h)]
  · simp only [better]
    split_ifs <;> simp only [better] <;> split_ifs <;> grind

theorem mem_uniqueRuns {α : Type} [DecidableEq α] {x : α} :
    ∀ {l : List α}, x ∈ uniqueRuns l ↔ x ∈ l
  | [] => Iff.rfl
  | a :: rest => by
    have ih := mem_uniqueRuns (x := x) (l := rest)
    rw [uniqueRuns]
    cases h : uniqueRuns rest with
    | nil => rw [h] at ih; simp only [List.mem_cons, ← ih, List.not_mem_nil, or_false]
    | cons b kept =>
      rw [h] at ih
      dsimp only
      split_ifs with hab
      · subst hab; simp only [List.mem_cons] at ih ⊢; rw [← ih]; tauto
      · simp only [List.mem_cons] at ih ⊢; rw [← ih]

theorem length_uniqueRuns {α : Type} [DecidableEq α] :
    ∀ l : List α, (uniqueRuns l).length ≤ l.length
  | [] => Nat.le_refl _
  | a :: rest => by
    have ih := length_uniqueRuns rest
    rw [uniqueRuns]
    cases h : uniqueRuns rest with
    | nil => simp
    | cons b kept =>
      rw [h] at ih
      dsimp only
      split_ifs
      · simp only [List.length_cons] at *; omega
      · simp only [List.length_cons] at *; omega

theorem canonicalColors_lt {α : Type} [LinearOrder α] (s : Fin n → α) (i : Fin n) :
    canonicalColors s i < n := by
  have hmem : s i ∈ uniqueRuns (sorted (List.ofFn s)) := by
    rw [mem_uniqueRuns, (sorted_perm _).mem_iff, List.mem_ofFn]; exact ⟨i, rfl⟩
  have h1 : canonicalColors s i < (uniqueRuns (sorted (List.ofFn s))).length := by
    simp only [canonicalColors]
    rw [List.findIdx_lt_length]
    exact ⟨s i, hmem, by simp⟩
  have h2 := length_uniqueRuns (sorted (List.ofFn s))
  have h3 := (sorted_perm (List.ofFn s)).length_eq
  rw [List.length_ofFn] at h3
  omega

theorem refineLoop_lt (adj : Fin n → List (Fin n)) :
    ∀ k (colors : Fin n → ℕ) (b : ℕ) {c b'}, (0 < k ∨ ∀ i, colors i < n) →
      refineLoop adj k colors b = .ok (c, b') → ∀ i, c i < n
  | 0, colors, b, c, b', hk, h, i => by
    simp only [refineLoop, Except.ok.injEq, Prod.mk.injEq] at h
    rw [← h.1]
    rcases hk with hk | hk
    · omega
    · exact hk i
  | k + 1, colors, b, c, b', _, h, i => by
    have hr : ∀ i, canonicalColors (refinementSignature adj colors) i < n :=
      canonicalColors_lt _
    unfold refineLoop at h
    cases hb : consumeWork b with
    | error e => simp [hb, bind, Except.bind] at h
    | ok b1 =>
      simp only [hb, bind, Except.bind] at h
      split_ifs at h with heq
      · simp only [Except.ok.injEq, Prod.mk.injEq] at h
        rw [← h.1, ← heq]; exact hr i
      · exact refineLoop_lt adj k _ b1 (Or.inr hr) h i

theorem refineColors_lt (adj : Fin n → List (Fin n)) (colors : Fin n → ℕ) (b : ℕ) {c b'}
    (h : refineColors adj colors b = .ok (c, b')) (i : Fin n) : c i < n :=
  refineLoop_lt adj n colors b (Or.inl (by have := i.isLt; omega)) h i

/-- The search has a fixed cost and result, whatever the budget (up to the depth bound). -/
theorem costs_search (bases : Fin n → Bytes) (adj : Fin n → List (Fin n)) :
    ∀ depth (colors : Fin n → ℕ),
      ∃ cost r, Costs (fun b => incidenceSearch bases adj (depth + 1) colors b) depth cost r ∧ 0 < cost
  | depth, colors => by
    obtain ⟨c1, r1, h1⟩ := costs_refineLoop adj depth n colors
    have hlt : c1 ≤ depth → ∀ i, r1 i < n := fun hle i =>
      refineColors_lt adj colors depth (c := r1) (b' := depth - c1)
        (by have := h1 depth le_rfl; rw [if_pos hle] at this; exact this) i
    by_cases hc1 : depth ≤ c1
    · -- the refinement alone exhausts the budget
      refine ⟨c1 + 1, [], fun b hb => ?_, Nat.succ_pos _⟩
      rw [if_neg (by omega)]
      rcases b with _ | b
      · simp [incidenceSearch, consumeWork, bind, Except.bind]
      · have := h1 b (by omega)
        rw [if_neg (by omega)] at this
        simp [incidenceSearch, consumeWork, bind, Except.bind, refineColors, this]
    · have hr : ∀ i, r1 i < n := hlt (by omega)
      have hno : ¬ ∃ i, n ≤ r1 i := fun ⟨i, hi⟩ => absurd (hr i) (by omega)
      cases ha : ambiguousColor r1 with
      | none =>
        refine ⟨c1 + 1, incidenceRecords bases adj r1, fun b hb => ?_, Nat.succ_pos _⟩
        rcases b with _ | b
        · simp [incidenceSearch, consumeWork, bind, Except.bind]
        · have := h1 b (by omega)
          simp only [incidenceSearch, consumeWork, bind, Except.bind, refineColors,
            Nat.add_eq_zero_iff, one_ne_zero, and_false, if_false, Nat.add_sub_cancel, this]
          by_cases hle : c1 ≤ b
          · rw [if_pos hle, if_pos (by omega)]
            simp only [hno, if_false, ha, Nat.add_sub_add_right]
          · rw [if_neg hle, if_neg (by omega)]
      | some a =>
        obtain ⟨d, rfl⟩ : ∃ d, depth = d + 1 := ⟨depth - 1, by omega⟩
        have ih : ∀ node, ∃ cost r, Costs (fun b => incidenceSearch bases adj (d + 1)
            (individualize r1 node) b) d cost r ∧ 0 < cost := fun node =>
          costs_search bases adj d (individualize r1 node)
        choose cost r hcost using ih
        have hloop := costs_searchLoop (fun i => (hcost i).1)
          ((List.finRange n).filter fun i => r1 i = a) none
        refine ⟨c1 + 1 + (((List.finRange n).filter fun i => r1 i = a).map cost).sum,
          (((List.finRange n).filter fun i => r1 i = a).map r |>.foldl better none).getD [],
          fun b hb => ?_, by omega⟩
        rcases b with _ | b
        · rw [if_neg (by omega)]; simp [incidenceSearch, consumeWork, bind, Except.bind]
        · have := h1 b (by omega)
          dsimp only
          rw [incidenceSearch]
          simp only [consumeWork, bind, Except.bind, refineColors, Nat.add_eq_zero_iff, one_ne_zero, and_false, if_false, Nat.add_sub_cancel, this]
          by_cases hle : c1 ≤ b
          · rw [if_pos hle]
            simp only [hno, if_false, ha]
            have hl := hloop (b - c1) (by omega)
            dsimp only at hl
            rw [hl]
            by_cases h2 : (((List.finRange n).filter fun i => r1 i = a).map cost).sum ≤ b - c1
            · rw [if_pos h2, if_pos (by omega)]
              simp only [Except.ok.injEq, Prod.mk.injEq, true_and]; omega
            · rw [if_neg h2, if_neg (by omega)]
          · rw [if_neg hle, if_neg (by omega)]

theorem searchLoop_congr {limit : ℕ} {rec1 rec2 : Fin n → ℕ → Except Exc (List Bytes × ℕ)}
    {cost : Fin n → ℕ} {r : Fin n → List Bytes}
    (h1 : ∀ i, Costs (rec1 i) limit (cost i) (r i))
    (h2 : ∀ i, ∀ b ≤ limit, rec2 i b = rec1 (τ i) b)
    {nodes nodes' : List (Fin n)} (hp : (nodes'.map τ).Perm nodes) (b : ℕ) (hb : b ≤ limit) :
    searchLoop rec2 nodes' none b = searchLoop rec1 nodes none b := by
  have h3 : ∀ i, Costs (rec2 i) limit (cost (τ i)) (r (τ i)) := fun i b hb => by
    rw [h2 i b hb, h1 (τ i) b hb]
  have e1 := costs_searchLoop h1 nodes none b hb
  have e2 := costs_searchLoop h3 nodes' none b hb
  dsimp only at e1 e2
  rw [e1, e2]
  have p1 : (nodes'.map fun i => cost (τ i)).Perm (nodes.map cost) := by
    have := hp.map cost; rwa [List.map_map] at this
  have p2 : (nodes'.map fun i => r (τ i)).Perm (nodes.map r) := by
    have := hp.map r; rwa [List.map_map] at this
  rw [p1.sum_eq, p2.foldl_eq' (fun x _ y _ z => better_comm z x y)]

theorem search_congr {bases bases' : Fin n → Bytes} (hb : ∀ i, bases' i = bases (τ i))
    {adj adj' : Fin n → List (Fin n)} (ha : AdjComp τ adj adj') :
    ∀ depth {colors colors' : Fin n → ℕ} (_ : ∀ i, colors' i = colors (τ i)) (b : ℕ), b ≤ depth →
      incidenceSearch bases' adj' (depth + 1) colors' b =
        incidenceSearch bases adj (depth + 1) colors b
  | depth, colors, colors', hc, b, hbd => by
    rw [incidenceSearch, incidenceSearch]
    rcases b with _ | b
    · simp [consumeWork, bind, Except.bind]
    · simp only [consumeWork, Nat.add_eq_zero_iff, one_ne_zero, and_false, if_false, bind,
        Except.bind, Nat.add_sub_cancel, refineColors, refineLoop_congr ha n hc b]
      cases hr : refineLoop adj n colors b with
      | error e => simp [Except.map]
      | ok p =>
        obtain ⟨c, b1⟩ := p
        have hlt := refineColors_lt adj colors b hr
        have hb1 : b1 ≤ b := by
          obtain ⟨cost, r, h⟩ := costs_refineLoop adj b n colors
          have := h b le_rfl
          dsimp only at this
          rw [hr] at this
          split_ifs at this
          simp only [Except.ok.injEq, Prod.mk.injEq] at this
          omega
        have hno : ¬ ∃ i, n ≤ c i := fun ⟨i, hi⟩ => absurd (hlt i) (by omega)
        have hno' : ¬ ∃ i, n ≤ c (τ i) := fun ⟨i, hi⟩ => absurd (hlt (τ i)) (by omega)
        simp only [Except.map, hno, hno', if_false]
        rw [ambiguousColor_congr (τ := τ) (colors := c) (colors' := fun i => c (τ i)) fun _ => rfl]
        cases ha' : ambiguousColor c with
        | none =>
          dsimp only
          rw [incidenceRecords_congr hb ha (fun _ => rfl) (colors_injective hlt ha')]
        | some a =>
          obtain ⟨d, rfl⟩ : ∃ d, depth = d + 1 := ⟨depth - 1, by omega⟩
          have ih := costs_search bases adj d
          choose cost r hcost using fun node => ih (individualize c node)
          have := searchLoop_congr (τ := τ) (limit := d)
            (rec1 := fun node b => incidenceSearch bases adj (d + 1) (individualize c node) b)
            (rec2 := fun node b => incidenceSearch bases' adj' (d + 1)
              (individualize (fun i => c (τ i)) node) b)
            (fun i => (hcost i).1)
            (fun i b hb' => search_congr hb ha d
              (individualize_congr (colors := c) (fun _ => rfl) i) b hb')
            (nodes := (List.finRange n).filter fun i => c i = a)
            (nodes' := (List.finRange n).filter fun i => c (τ i) = a)
            (by
              have h := (Equiv.Perm.map_finRange_perm τ).filter (fun i => decide (c i = a))
              rw [List.filter_map] at h
              exact h) b1 (by omega)
          dsimp only at this ⊢
          rw [this]

/-- The depth bound is never what stops the search: any two bounds not smaller than the budget give
the same outcome. -/
theorem incidenceSearch_depth (bases : Fin n → Bytes) (adj : Fin n → List (Fin n)) :
    ∀ (b depth depth' : ℕ) (colors : Fin n → ℕ), b ≤ depth → b ≤ depth' →
      incidenceSearch bases adj (depth + 1) colors b =
        incidenceSearch bases adj (depth' + 1) colors b
  | 0, depth, depth', colors, _, _ => by
    simp [incidenceSearch, consumeWork, bind, Except.bind]
  | b + 1, depth, depth', colors, h, h' => by
    obtain ⟨d, rfl⟩ : ∃ d, depth = d + 1 := ⟨depth - 1, by omega⟩
    obtain ⟨d', rfl⟩ : ∃ d, depth' = d + 1 := ⟨depth' - 1, by omega⟩
    rw [incidenceSearch, incidenceSearch]
    simp only [consumeWork, Nat.add_eq_zero_iff, one_ne_zero, and_false, if_false, bind,
      Except.bind, Nat.add_sub_cancel, refineColors]
    cases hr : refineLoop adj n colors b with
    | error e => rfl
    | ok p =>
      obtain ⟨c, b1⟩ := p
      have hb1 : b1 ≤ b := by
        obtain ⟨cost, r, h⟩ := costs_refineLoop adj b n colors
        have := h b le_rfl
        dsimp only at this
        rw [hr] at this
        split_ifs at this
        simp only [Except.ok.injEq, Prod.mk.injEq] at this
        omega
      dsimp only
      cases ha : ambiguousColor c with
      | none => rfl
      | some a =>
        choose cost r hcost using fun node => costs_search bases adj d (individualize c node)
        have := searchLoop_congr (τ := Equiv.refl (Fin n)) (limit := b1)
          (rec1 := fun node b => incidenceSearch bases adj (d + 1) (individualize c node) b)
          (rec2 := fun node b => incidenceSearch bases adj (d' + 1) (individualize c node) b)
          (fun i b hb => (hcost i).1 b (by omega))
          (fun i b2 hb2 => incidenceSearch_depth bases adj b2 d' d _ (by omega) (by omega))
          (nodes := (List.finRange n).filter fun i => c i = a)
          (nodes' := (List.finRange n).filter fun i => c i = a)
          (by simp) b1 le_rfl
        dsimp only at this ⊢
        rw [this]

end Search

/-! ### Stored triangulations -/

theorem Stored.bases_vertex (t : Stored) (v : Fin t.nv) :
    t.bases (Fin.castAdd t.nc v) = t.vertexRecord v := by
  simp only [Stored.bases, Fin.addCases_left]

theorem Stored.bases_cell (t : Stored) (c : Fin t.nc) :
    t.bases (Fin.natAdd t.nv c) = ascii "c:" ++ decimalInt (t.cinfo c) := by
  simp only [Stored.bases, Fin.addCases_right]

/-- The cells around a vertex, once per occurrence. -/
def Stored.star (t : Stored) (v : Fin t.nv) : List (Fin t.nc) :=
  (List.finRange t.nc).flatMap fun c =>
    ((List.finRange 4).filter fun i => t.corner c i = v).map fun _ => c

theorem Stored.adjacency_vertex (t : Stored) (v : Fin t.nv) :
    t.adjacency (Fin.castAdd t.nc v) = (t.star v).map (Fin.natAdd t.nv) := by
  simp only [Stored.adjacency, Fin.addCases_left, Stored.star, List.map_flatMap, List.map_map,
    Function.comp_def]

theorem Stored.adjacency_cell (t : Stored) (c : Fin t.nc) :
    t.adjacency (Fin.natAdd t.nv c) = (List.ofFn (t.corner c)).map (Fin.castAdd t.nc) := by
  simp only [Stored.adjacency, Fin.addCases_right]

open Spec in
theorem placement_congr {t t' : Stored} (r : Reordering t t') :
    placementFingerprint t' = placementFingerprint t := by
  have hv : ∀ v, t'.vertexRecord v = t.vertexRecord (r.vertex v) := fun v => by
    simp only [Stored.vertexRecord, r.key_eq, r.vinfo_eq]
  have : t'.vertexRecord = fun v => t.vertexRecord (r.vertex v) := funext hv
  simp only [placementFingerprint, Stored.vertexRecords, this]
  rw [sorted_congr (ofFn_comp_perm t.vertexRecord r.vertex)]

section
open Spec
variable {t t' : Stored} (r : Reordering t t')
include r

theorem Spec.Reordering.nv_eq : t'.nv = t.nv := Fin.equiv_iff_eq.mp ⟨r.vertex⟩
theorem Spec.Reordering.nc_eq : t'.nc = t.nc := Fin.equiv_iff_eq.mp ⟨r.cell⟩

theorem vertexRecord_congr (v : Fin t'.nv) :
    t'.vertexRecord v = t.vertexRecord (r.vertex v) := by
  simp only [Stored.vertexRecord, r.key_eq, r.vinfo_eq]

theorem vertexRecords_congr : t'.vertexRecords = t.vertexRecords := by
  have : t'.vertexRecord = fun v => t.vertexRecord (r.vertex v) := funext (vertexRecord_congr r)
  simp only [Stored.vertexRecords, this]
  exact sorted_congr (ofFn_comp_perm t.vertexRecord r.vertex)

theorem coincident_congr : t'.hasCoincidentVertices = t.hasCoincidentVertices := by
  have : t'.key = fun v => t.key (r.vertex v) := funext r.key_eq
  simp only [Stored.hasCoincidentVertices, this]
  congr 1
  exact decide_eq_decide.mpr (ofFn_comp_perm t.key r.vertex).nodup_iff

theorem cellRecord_congr (c : Fin t'.nc) : t'.cellRecord c = t.cellRecord (r.cell c) := by
  have : (List.ofFn fun i => t'.key (t'.corner c i)).Perm
      (List.ofFn fun i => t.key (t.corner (r.cell c) i)) := by
    have h1 : (fun i => t'.key (t'.corner c i)) =
        fun i => t.key (t.corner (r.cell c) (r.within c i)) := by
      funext i; rw [r.key_eq, r.corner_eq]
    rw [h1]
    exact ofFn_comp_perm (fun i => t.key (t.corner (r.cell c) i)) (r.within c)
  simp only [Stored.cellRecord, Stored.pointCellKey, sorted_congr this, r.cinfo_eq]

theorem star_congr (v : Fin t'.nv) :
    ((t'.star v).map r.cell).Perm (t.star (r.vertex v)) := by
  have hf : ∀ c i, (t'.corner c i = v) = (t.corner (r.cell c) (r.within c i) = r.vertex v) :=
    fun c i => by rw [← r.corner_eq]; exact propext r.vertex.injective.eq_iff.symm
  have e1 : ((t'.star v).map r.cell) = (List.finRange t'.nc).flatMap fun c =>
      ((List.finRange 4).filter fun i => t.corner (r.cell c) (r.within c i) = r.vertex v).map
        fun _ => r.cell c := by
    simp only [Stored.star, List.map_flatMap, List.map_map, Function.comp_def, hf]
  rw [e1]
  have e2 : ((List.finRange t'.nc).flatMap fun c =>
      ((List.finRange 4).filter fun i => t.corner (r.cell c) (r.within c i) = r.vertex v).map
        fun _ => r.cell c).Perm
      ((List.finRange t'.nc).flatMap fun c =>
      ((List.finRange 4).filter fun i => t.corner (r.cell c) i = r.vertex v).map
        fun _ => r.cell c) := by
    apply List.Perm.flatMap_left
    intro c _
    have h := (Equiv.Perm.map_finRange_perm (r.within c)).filter
      (fun i => decide (t.corner (r.cell c) i = r.vertex v))
    rw [List.filter_map] at h
    have h2 := h.map (fun _ => r.cell c)
    rw [List.map_map] at h2
    exact h2
  refine e2.trans ?_
  have e3 : ((List.finRange t'.nc).map r.cell).Perm (List.finRange t.nc) := by
    have := ofFn_comp_perm (fun c : Fin t.nc => c) r.cell
    rw [List.ofFn_eq_map, List.ofFn_eq_map] at this
    simpa using this
  have e4 := e3.flatMap_right (fun c =>
    ((List.finRange 4).filter fun i => t.corner c i = r.vertex v).map fun _ => c)
  rw [List.flatMap_map] at e4
  exact e4

theorem incidenceTopologyRecords_congr : incidenceTopologyRecords t' = incidenceTopologyRecords t := by
  have hN : t'.nv + t'.nc = t.nv + t.nc := by rw [r.nv_eq, r.nc_eq]
  let τ0 : Fin (t'.nv + t'.nc) ≃ Fin (t.nv + t.nc) :=
    finSumFinEquiv.symm.trans ((Equiv.sumCongr r.vertex r.cell).trans finSumFinEquiv)
  have τv : ∀ v, τ0 (Fin.castAdd t'.nc v) = Fin.castAdd t.nc (r.vertex v) := fun v => by simp [τ0]
  have τc : ∀ c, τ0 (Fin.natAdd t'.nv c) = Fin.natAdd t.nv (r.cell c) := fun c => by simp [τ0]
  have hb : ∀ i, t'.bases i = t.bases (τ0 i) := fun i => by
    refine Fin.addCases (fun v => ?_) (fun c => ?_) i
    · rw [τv, Stored.bases_vertex, Stored.bases_vertex, vertexRecord_congr r]
    · rw [τc, Stored.bases_cell, Stored.bases_cell, r.cinfo_eq]
  have ha : ∀ i, ((t'.adjacency i).map τ0).Perm (t.adjacency (τ0 i)) := fun i => by
    refine Fin.addCases (fun v => ?_) (fun c => ?_) i
    · rw [τv, Stored.adjacency_vertex, Stored.adjacency_vertex, List.map_map]
      have h : (τ0 ∘ Fin.natAdd t'.nv) = Fin.natAdd t.nv ∘ r.cell := funext τc
      rw [h, ← List.map_map]
      exact (star_congr r v).map _
    · rw [τc, Stored.adjacency_cell, Stored.adjacency_cell, List.map_map]
      have h : (τ0 ∘ Fin.castAdd t'.nc) = Fin.castAdd t.nc ∘ r.vertex := funext τv
      rw [h, ← List.map_map]
      apply List.Perm.map
      rw [List.map_ofFn]
      have h2 : r.vertex ∘ t'.corner c = fun i => t.corner (r.cell c) (r.within c i) :=
        funext (r.corner_eq c)
      rw [h2]
      exact ofFn_comp_perm (t.corner (r.cell c)) (r.within c)
  have key : ∀ (n n' : ℕ) (_ : n' = n) (e : Fin n' ≃ Fin n) (b : Fin n → Bytes)
      (b' : Fin n' → Bytes) (a : Fin n → List (Fin n)) (a' : Fin n' → List (Fin n')),
      (∀ i, b' i = b (e i)) → (∀ i, ((a' i).map e).Perm (a (e i))) →
      incidenceSearch b' a' (canonicalIncidenceWorkBudget + 1) (canonicalColors b')
        canonicalIncidenceWorkBudget =
      incidenceSearch b a (canonicalIncidenceWorkBudget + 1) (canonicalColors b)
        canonicalIncidenceWorkBudget := by
    intro n n' h e b b' a a' hb ha
    subst h
    exact search_congr hb ha _ (canonicalColors_comp e _ _ hb) _ (le_refl _)
  unfold incidenceTopologyRecords
  rw [key _ _ hN τ0 _ _ _ _ hb ha, hN]

theorem topology_congr : topologyFingerprint t' = topologyFingerprint t := by
  unfold topologyFingerprint
  rw [coincident_congr r, incidenceTopologyRecords_congr r, vertexRecords_congr r]
  have : t'.cellRecord = fun c => t.cellRecord (r.cell c) := funext (cellRecord_congr r)
  rw [this, sorted_congr ((ofFn_comp_perm t.cellRecord r.cell).append_left t.vertexRecords)]

end
end CDT

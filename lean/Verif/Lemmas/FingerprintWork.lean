import Verif.Lemmas.Fingerprint
import Verif.Spec.FingerprintWork
import Mathlib.Data.Finset.Card
import Mathlib.Data.Fintype.Card
/-
C58: the search for a canonical numbering makes progress, so its work is bounded by a function of
the number of nodes and the number of distinct labels.
-/
namespace CDT
open Spec

theorem uniqueRuns_sublist {α : Type} [DecidableEq α] : ∀ l : List α, (uniqueRuns l).Sublist l
  | [] => List.Sublist.refl _
  | a :: rest => by
    have ih := uniqueRuns_sublist rest
    rw [uniqueRuns]
    cases h : uniqueRuns rest with
    | nil => rw [h] at ih; exact ih.cons_cons a
    | cons b kept =>
      rw [h] at ih
      dsimp only
      split_ifs
      · exact ih.cons a
      · exact ih.cons_cons a

/-- Nodes of the same canonical colour have the same signature. -/
theorem canonicalColors_inj {α : Type} [LinearOrder α] {n : ℕ} (s : Fin n → α) {i j : Fin n}
    (h : canonicalColors s i = canonicalColors s j) : s i = s j := by
  have hpw : (uniqueRuns (sorted (List.ofFn s))).Pairwise (· ≤ ·) :=
    (sorted_pairwise _).sublist (uniqueRuns_sublist _)
  have key : ∀ k, ∃ hk : canonicalColors s k < (uniqueRuns (sorted (List.ofFn s))).length,
      (uniqueRuns (sorted (List.ofFn s)))[canonicalColors s k] = s k := by
    intro k
    have hmem : s k ∈ uniqueRuns (sorted (List.ofFn s)) := by
      rw [mem_uniqueRuns, (sorted_perm _).mem_iff, List.mem_ofFn]; exact ⟨k, rfl⟩
    have hlt : canonicalColors s k < (uniqueRuns (sorted (List.ofFn s))).length := by
      simp only [canonicalColors]
      rw [List.findIdx_lt_length]
      exact ⟨s k, hmem, by simp⟩
    refine ⟨hlt, le_antisymm ?_ ?_⟩
    · obtain ⟨m, hm, hms⟩ := List.getElem_of_mem hmem
      have hle : canonicalColors s k ≤ m := by
        by_contra hcon
        have := List.not_of_lt_findIdx (p := fun x => !decide (x < s k)) (not_le.mp hcon)
        simp [hms] at this
      rcases Nat.lt_or_eq_of_le hle with hlt' | heq
      · exact (List.pairwise_iff_getElem.mp hpw _ _ hlt hm hlt').trans hms.le
      · exact (by simp only [heq, hms]; exact le_refl _)
    · have := List.findIdx_getElem (p := fun x => !decide (x < s k)) (w := hlt)
      simp only [Bool.not_eq_eq_eq_not, Bool.not_true, decide_eq_false_iff_not, not_lt] at this
      exact this
  obtain ⟨h1, e1⟩ := key i
  obtain ⟨h2, e2⟩ := key j
  rw [← e1, ← e2]
  simp only [h]

/-- The number of colours in use. -/
def numColors {n : ℕ} (colors : Fin n → ℕ) : ℕ := (Finset.univ.image colors).card

theorem numColors_le {n : ℕ} (colors : Fin n → ℕ) : numColors colors ≤ n :=
  (Finset.card_image_le).trans (by simp)

/-- A finer labelling uses at least as many labels. -/
theorem image_card_mono {n : ℕ} {α β : Type} [DecidableEq α] [DecidableEq β] [Nonempty α]
    {f : Fin n → α} {g : Fin n → β} (h : ∀ i j, g i = g j → f i = f j) :
    (Finset.univ.image f).card ≤ (Finset.univ.image g).card := by
  obtain ⟨e, he⟩ := (Function.factorsThrough_iff f).mp (fun a b hab => h a b hab : f.FactorsThrough g)
  rw [he, ← Finset.image_image]
  exact Finset.card_image_le

/-- Nodes of the same refined colour had the same colour. -/
theorem refined_finer {n : ℕ} (adj : Fin n → List (Fin n)) (colors : Fin n → ℕ) {i j : Fin n}
    (h : canonicalColors (refinementSignature adj colors) i =
      canonicalColors (refinementSignature adj colors) j) : colors i = colors j := by
  have := canonicalColors_inj _ h
  simp only [refinementSignature, List.cons.injEq] at this
  exact this.1

/-- Refinement succeeds within one unit per node and merges no colours. -/
theorem refineLoop_ok {n : ℕ} (adj : Fin n → List (Fin n)) :
    ∀ k (colors : Fin n → ℕ) (b : ℕ), k ≤ b → ∃ c b', refineLoop adj k colors b = .ok (c, b') ∧
      b ≤ b' + k ∧ ∀ i j, c i = c j → colors i = colors j
  | 0, colors, b, _ => ⟨colors, b, rfl, Nat.le_refl _, fun _ _ h => h⟩
  | k + 1, colors, b, hb => by
    have hcw : consumeWork b = .ok (b - 1) := by simp [consumeWork]; omega
    by_cases h : canonicalColors (refinementSignature adj colors) = colors
    · refine ⟨colors, b - 1, ?_, by omega, fun _ _ h => h⟩
      simp only [refineLoop, hcw, h, if_true, bind, Except.bind]
    · obtain ⟨c, b', h1, h2, h3⟩ := refineLoop_ok adj k
        (canonicalColors (refinementSignature adj colors)) (b - 1) (by omega)
      refine ⟨c, b', ?_, by omega, fun i j hij => refined_finer adj colors (h3 i j hij)⟩
      simp only [refineLoop, hcw, h, if_false, bind, Except.bind, h1]

/-- The loop over the candidates succeeds when each candidate does. -/
theorem searchLoop_ok {n : ℕ} {recurse : Fin n → ℕ → Except Exc (List Bytes × ℕ)} {w : ℕ} :
    ∀ (nodes : List (Fin n)) (best : Option (List Bytes)) (b : ℕ),
      (∀ i ∈ nodes, ∀ b, w ≤ b → ∃ r b', recurse i b = .ok (r, b') ∧ b ≤ b' + w) →
      nodes.length * w ≤ b →
      ∃ r b', searchLoop recurse nodes best b = .ok (r, b') ∧ b ≤ b' + nodes.length * w
  | [], best, b, _, _ => ⟨best, b, rfl, by simp⟩
  | i :: rest, best, b, h, hb => by
    rw [List.length_cons, Nat.add_mul, Nat.one_mul] at hb
    obtain ⟨r, b1, h1, hb1⟩ := h i (List.mem_cons_self) b (by omega)
    obtain ⟨r2, b2, h2, hb2⟩ := searchLoop_ok rest (better best r) b1
      (fun j hj => h j (List.mem_cons_of_mem _ hj)) (by omega)
    refine ⟨r2, b2, ?_, ?_⟩
    · simp only [searchLoop, h1, bind, Except.bind, h2]
    · rw [List.length_cons, Nat.add_mul, Nat.one_mul]; omega

theorem le_individualizedColor {n : ℕ} (colors : Fin n → ℕ) (i : Fin n) :
    colors i < individualizedColor colors := by
  have hmem : colors i ∈ List.ofFn colors := by rw [List.mem_ofFn]; exact ⟨i, rfl⟩
  have : ∀ l : List ℕ, ∀ x ∈ l, x ≤ l.foldr max 0 := by
    intro l
    induction l with
    | nil => simp
    | cons a l ih =>
      intro x hx
      simp only [List.foldr_cons]
      rcases List.mem_cons.mp hx with rfl | hx
      · exact le_max_left _ _
      · exact (ih x hx).trans (le_max_right _ _)
  exact Nat.lt_succ_of_le (this _ _ hmem)

/-- Individualizing a node whose colour another node has adds a colour. -/
theorem numColors_individualize {n : ℕ} (colors : Fin n → ℕ) {i j : Fin n} (hne : i ≠ j)
    (hij : colors i = colors j) : numColors colors + 1 ≤ numColors (individualize colors i) := by
  have hnew : individualizedColor colors ∉ Finset.univ.image colors := by
    intro hm
    obtain ⟨k, _, hk⟩ := Finset.mem_image.mp hm
    have := le_individualizedColor colors k
    omega
  rw [numColors, ← Finset.card_insert_of_notMem hnew]
  apply Finset.card_le_card
  intro c hc
  rcases Finset.mem_insert.mp hc with rfl | hc
  · exact Finset.mem_image.mpr ⟨i, Finset.mem_univ _, by simp [individualize]⟩
  · obtain ⟨k, _, rfl⟩ := Finset.mem_image.mp hc
    by_cases hk : k = i
    · subst hk
      exact Finset.mem_image.mpr ⟨j, Finset.mem_univ _, by simp [individualize, hne.symm, hij]⟩
    · exact Finset.mem_image.mpr ⟨k, Finset.mem_univ _, by simp [individualize, hk]⟩

/-- The nodes of one colour, and a node for each other colour, are at most all nodes. -/
theorem class_size {n : ℕ} (colors : Fin n → ℕ) (a : ℕ) :
    ((List.finRange n).filter fun i => colors i = a).length + numColors colors ≤ n + 1 := by
  have hcls : ((List.finRange n).filter fun i => colors i = a).length =
      (Finset.univ.filter fun i => colors i = a).card := by
    rw [← List.toFinset_card_of_nodup ((List.nodup_finRange n).filter _)]
    congr 1
    ext i; simp
  have himg : Finset.univ.image colors ⊆
      insert a ((Finset.univ.filter fun i => ¬ colors i = a).image colors) := by
    intro c hc
    obtain ⟨k, _, rfl⟩ := Finset.mem_image.mp hc
    by_cases hk : colors k = a
    · exact Finset.mem_insert.mpr (Or.inl hk)
    · exact Finset.mem_insert_of_mem (Finset.mem_image.mpr ⟨k, by simp [hk], rfl⟩)
  have h1 := Finset.card_le_card himg
  have h2 := Finset.card_insert_le a ((Finset.univ.filter fun i => ¬ colors i = a).image colors)
  have h3 := Finset.card_image_le (s := Finset.univ.filter fun i => ¬ colors i = a) (f := colors)
  have h4 := Finset.card_filter_add_card_filter_not (s := (Finset.univ : Finset (Fin n)))
    (fun i => colors i = a)
  simp only [Finset.card_univ, Fintype.card_fin] at h4
  rw [hcls]
  unfold numColors
  omega

/-- A colour found ambiguous is used by two nodes. -/
theorem ambiguous_two {n : ℕ} {colors : Fin n → ℕ} {a : ℕ} (h : ambiguousColor colors = some a)
    (i : Fin n) (hi : colors i = a) : ∃ j, i ≠ j ∧ colors i = colors j := by
  have := List.find?_some h
  simp only [decide_eq_true_eq, List.countP_eq_length_filter] at this
  by_contra hcon
  push Not at hcon
  have hall : ∀ j ∈ (List.finRange n).filter fun i => decide (colors i = a), j = i := by
    intro j hj
    simp only [List.mem_filter, decide_eq_true_eq] at hj
    by_contra hji
    exact hcon j (fun h => hji h.symm) (by rw [hi, hj.2])
  have hnd : ((List.finRange n).filter fun i => decide (colors i = a)).Nodup :=
    (List.nodup_finRange n).filter _
  have hsub := (List.subperm_of_subset hnd (l₂ := [i]) (by
    intro j hj; rw [hall j hj]; simp)).length_le
  simp only [List.length_singleton] at hsub
  omega

/-- With all labels distinct no colour is ambiguous. -/
theorem ambiguous_spare {n : ℕ} {colors : Fin n → ℕ} {a : ℕ} (h : ambiguousColor colors = some a) :
    numColors colors < n := by
  have := List.find?_some h
  simp only [decide_eq_true_eq, List.countP_eq_length_filter] at this
  have := class_size colors a
  omega

/-- **The search succeeds** when its budget covers the bound. -/
theorem search_ok {n : ℕ} (bases : Fin n → Bytes) (adj : Fin n → List (Fin n)) :
    ∀ (spare depth : ℕ) (colors : Fin n → ℕ) (b : ℕ), n ≤ numColors colors + spare →
      spare < depth → searchWork n spare ≤ b →
      ∃ r b', incidenceSearch bases adj depth colors b = .ok (r, b') ∧
        b ≤ b' + searchWork n spare := by
  intro spare
  induction spare with
  | zero =>
    intro depth colors b hn hd hb
    obtain ⟨depth, rfl⟩ : ∃ d, depth = d + 1 := ⟨depth - 1, by omega⟩
    simp only [searchWork] at hb
    have hcw : consumeWork b = .ok (b - 1) := by simp [consumeWork]; omega
    obtain ⟨c, b1, h1, h2, h3⟩ := refineLoop_ok adj n colors (b - 1) (by omega)
    have hlt : ¬ ∃ i, n ≤ c i := by
      rintro ⟨i, hi⟩
      have := refineColors_lt adj colors (b - 1) h1 i
      omega
    have hnum : numColors colors ≤ numColors c := image_card_mono h3
    cases ha : ambiguousColor c with
    | some a => have := ambiguous_spare ha; omega
    | none =>
      refine ⟨incidenceRecords bases adj c, b1, ?_, by simp only [searchWork]; omega⟩
      simp only [incidenceSearch, hcw, bind, Except.bind, refineColors, h1, hlt, if_false, ha]
  | succ spare ih =>
    intro depth colors b hn hd hb
    obtain ⟨depth, rfl⟩ : ∃ d, depth = d + 1 := ⟨depth - 1, by omega⟩
    simp only [searchWork] at hb
    have hcw : consumeWork b = .ok (b - 1) := by simp [consumeWork]; omega
    obtain ⟨c, b1, h1, h2, h3⟩ := refineLoop_ok adj n colors (b - 1) (by omega)
    have hlt : ¬ ∃ i, n ≤ c i := by
      rintro ⟨i, hi⟩
      have := refineColors_lt adj colors (b - 1) h1 i
      omega
    have hnum : numColors colors ≤ numColors c := image_card_mono h3
    cases ha : ambiguousColor c with
    | none =>
      refine ⟨incidenceRecords bases adj c, b1, ?_, by simp only [searchWork]; omega⟩
      simp only [incidenceSearch, hcw, bind, Except.bind, refineColors, h1, hlt, if_false, ha]
    | some a =>
      have hsize := class_size c a
      have hlen : ((List.finRange n).filter fun i => decide (c i = a)).length ≤ spare + 2 := by
        omega
      have hmul := Nat.mul_le_mul_right (searchWork n spare) hlen
      obtain ⟨best, b2, h4, h5⟩ := searchLoop_ok (w := searchWork n spare)
        (recurse := fun node b => incidenceSearch bases adj depth (individualize c node) b)
        ((List.finRange n).filter fun i => decide (c i = a)) none b1
        (fun i hi b hb => by
          simp only [List.mem_filter, decide_eq_true_eq] at hi
          obtain ⟨j, hne, hij⟩ := ambiguous_two ha i hi.2
          have := numColors_individualize c hne hij
          exact ih depth _ b (by omega) (by omega) hb)
        (by omega)
      refine ⟨best.getD [], b2, ?_, by simp only [searchWork]; omega⟩
      simp only [incidenceSearch, hcw, bind, Except.bind, refineColors, h1, hlt, if_false, ha, h4]

/-- The bound grows with the number of nodes still to be told apart. -/
theorem searchWork_mono (n : ℕ) : ∀ {a b : ℕ}, a ≤ b → searchWork n a ≤ searchWork n b := by
  intro a b h
  induction h with
  | refl => exact Nat.le_refl _
  | step _ ih =>
    refine ih.trans ?_
    rw [searchWork]
    exact (Nat.le_mul_of_pos_left _ (by omega)).trans (Nat.le_add_left _ _)

theorem le_searchWork (n : ℕ) : ∀ a, a ≤ searchWork n a
  | 0 => Nat.zero_le _
  | a + 1 => by
    have := le_searchWork n a
    rw [searchWork]
    have : 1 * (a + 2) ≤ searchWork n a * (a + 2) :=
      Nat.mul_le_mul_right _ (by cases a <;> simp [searchWork]; omega)
    rw [Nat.mul_comm] at this
    rw [Nat.mul_comm (searchWork n a)] at this
    omega

end CDT

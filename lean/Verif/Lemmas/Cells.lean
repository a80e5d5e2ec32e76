/-
Lemmas about `expectedCellType`.
-/
import Verif.Model.Foliation
import Verif.Spec.Cells
import Verif.Spec.Complex
import Mathlib.Tactic.Linarith

namespace CDT

theorem foldl_max_spec (xs : List ℤ) (x : ℤ) :
    (xs.foldl max x ∈ x :: xs) ∧ ∀ y ∈ x :: xs, y ≤ xs.foldl max x := by
  induction xs generalizing x with
  | nil => simp
  | cons z zs ih =>
    obtain ⟨h1, h2⟩ := ih (max x z)
    simp only [List.foldl_cons]
    constructor
    · rcases List.mem_cons.1 h1 with h | h
      · rcases max_choice x z with hm | hm <;> rw [hm] at h ⊢ <;> rw [h] <;> simp
      · simp [h]
    · intro y hy
      have hm := h2 (max x z) (by simp)
      rcases List.mem_cons.1 hy with h | h
      · subst h; exact le_trans (le_max_left _ _) hm
      · rcases List.mem_cons.1 h with h | h
        · subst h; exact le_trans (le_max_right _ _) hm
        · exact h2 y (by simp [h])

theorem foldl_min_spec (xs : List ℤ) (x : ℤ) :
    (xs.foldl min x ∈ x :: xs) ∧ ∀ y ∈ x :: xs, xs.foldl min x ≤ y := by
  induction xs generalizing x with
  | nil => simp
  | cons z zs ih =>
    obtain ⟨h1, h2⟩ := ih (min x z)
    simp only [List.foldl_cons]
    constructor
    · rcases List.mem_cons.1 h1 with h | h
      · rcases min_choice x z with hm | hm <;> rw [hm] at h ⊢ <;> rw [h] <;> simp
      · simp [h]
    · intro y hy
      have hm := h2 (min x z) (by simp)
      rcases List.mem_cons.1 hy with h | h
      · subst h; exact le_trans hm (min_le_left _ _)
      · rcases List.mem_cons.1 h with h | h
        · subst h; exact le_trans hm (min_le_right _ _)
        · exact h2 y (by simp [h])

theorem maxElement_spec {ts : List ℤ} (h : ts ≠ []) :
    maxElement ts ∈ ts ∧ ∀ y ∈ ts, y ≤ maxElement ts := by
  cases ts with
  | nil => exact absurd rfl h
  | cons x xs => exact foldl_max_spec xs x

theorem minElement_spec {ts : List ℤ} (h : ts ≠ []) :
    minElement ts ∈ ts ∧ ∀ y ∈ ts, minElement ts ≤ y := by
  cases ts with
  | nil => exact absurd rfl h
  | cons x xs => exact foldl_min_spec xs x

theorem count_two (ts : List ℤ) (t : ℤ) (h : ∀ y ∈ ts, y = t ∨ y = t + 1) :
    ts.count t + ts.count (t + 1) = ts.length := by
  induction ts with
  | nil => simp
  | cons x xs ih =>
    have hx := h x (by simp)
    have := ih (fun y hy => h y (by simp [hy]))
    rcases hx with hx | hx
    · subst hx
      rw [List.count_cons_self, List.count_cons_of_ne (by omega), List.length_cons]; omega
    · subst hx
      rw [List.count_cons_self, List.count_cons_of_ne (by omega), List.length_cons]; omega

theorem two_of_count (ts : List ℤ) (t : ℤ) (h : ts.count t + ts.count (t + 1) = ts.length) :
    ∀ y ∈ ts, y = t ∨ y = t + 1 := by
  induction ts with
  | nil => simp
  | cons x xs ih =>
    have hle : xs.count t + xs.count (t + 1) ≤ xs.length := by
      clear h ih
      induction xs with
      | nil => simp
      | cons z zs ih =>
        simp only [List.count_cons, List.length_cons]
        by_cases h1 : z = t
        · have h2 : ¬ (z = t + 1) := by omega
          simp [h1]; omega
        · by_cases h2 : z = t + 1
          · simp [h2]; omega
          · simp [h1, h2]; omega
    simp only [List.count_cons, List.length_cons] at h
    by_cases h1 : x = t
    · have hi := ih (by have h2 : ¬ (x = t + 1) := by omega
                        simp [h1] at h; omega)
      intro y hy
      rcases List.mem_cons.1 hy with hy | hy
      · left; omega
      · exact hi y hy
    · by_cases h2 : x = t + 1
      · have hi := ih (by simp [h2] at h; omega)
        intro y hy
        rcases List.mem_cons.1 hy with hy | hy
        · right; omega
        · exact hi y hy
      · simp [h1, h2] at h; omega

/-- When `i, j ≥ 1` vertices sit on slices `t`, `t+1` and nowhere else, the extreme values
are `t` and `t+1`. -/
theorem extremes_of_occupies {ts : List ℤ} {i j : ℕ} {t : ℤ} (hi : 1 ≤ i) (hj : 1 ≤ j)
    (hl : ts.length = i + j) (h1 : ts.count t = i) (h2 : ts.count (t + 1) = j) :
    minElement ts = t ∧ maxElement ts = t + 1 := by
  have hne : ts ≠ [] := by rintro rfl; simp at hl; omega
  have hall := two_of_count ts t (by omega)
  have ht : t ∈ ts := List.count_pos_iff.1 (by omega)
  have ht1 : t + 1 ∈ ts := List.count_pos_iff.1 (by omega)
  obtain ⟨m1, m2⟩ := maxElement_spec hne
  obtain ⟨n1, n2⟩ := minElement_spec hne
  have := hall _ m1
  have := hall _ n1
  have := m2 _ ht1
  have := n2 _ ht
  omega

theorem expected_eq {ts : List ℤ} {i j : ℕ} {t : ℤ} (hi : 1 ≤ i) (hj : 1 ≤ j)
    (hl : ts.length = i + j) (h1 : ts.count t = i) (h2 : ts.count (t + 1) = j) :
    expectedCellType ts = if j = 3 ∧ i = 1 then .oneThree else if j = 2 ∧ i = 2 then .twoTwo
      else if j = 1 ∧ i = 3 then .threeOne else .unclassified := by
  obtain ⟨e1, e2⟩ := extremes_of_occupies hi hj hl h1 h2
  unfold expectedCellType
  simp only [e1, e2, h1, h2]
  rw [if_neg (by omega)]

theorem expected_cases {ts : List ℤ} (h4 : ts.length = 4) :
    (expectedCellType ts = .threeOne ∧ Spec.Occupies ts 3 1) ∨
    (expectedCellType ts = .twoTwo ∧ Spec.Occupies ts 2 2) ∨
    (expectedCellType ts = .oneThree ∧ Spec.Occupies ts 1 3) ∨
    (expectedCellType ts = .acausal ∧ ∀ i j, 1 ≤ i → 1 ≤ j → ¬ Spec.Occupies ts i j) := by
  have hne : ts ≠ [] := by rintro rfl; simp at h4
  by_cases hd : maxElement ts - minElement ts = 1
  · obtain ⟨m1, m2⟩ := maxElement_spec hne
    obtain ⟨n1, n2⟩ := minElement_spec hne
    have hmx : maxElement ts = minElement ts + 1 := by omega
    have hall : ∀ y ∈ ts, y = minElement ts ∨ y = minElement ts + 1 := by
      intro y hy
      have := m2 y hy
      have := n2 y hy
      omega
    have hc := count_two ts _ hall
    have c1 : 0 < ts.count (minElement ts) := List.count_pos_iff.2 n1
    have c2 : 0 < ts.count (minElement ts + 1) := List.count_pos_iff.2 (hmx ▸ m1)
    have he := expected_eq (ts := ts) (t := minElement ts) c1 c2 (by omega) rfl rfl
    have : ts.count (minElement ts) = 1 ∨ ts.count (minElement ts) = 2 ∨
      ts.count (minElement ts) = 3 := by omega
    rcases this with h | h | h
    · right; right; left
      have h' : ts.count (minElement ts + 1) = 3 := by omega
      rw [h, h'] at he
      exact ⟨by simpa using he, by omega, _, h, h'⟩
    · right; left
      have h' : ts.count (minElement ts + 1) = 2 := by omega
      rw [h, h'] at he
      exact ⟨by simpa using he, by omega, _, h, h'⟩
    · left
      have h' : ts.count (minElement ts + 1) = 1 := by omega
      rw [h, h'] at he
      exact ⟨by simpa using he, by omega, _, h, h'⟩
  · right; right; right
    constructor
    · unfold expectedCellType
      simp only
      rw [if_pos (Or.inl hd)]
    · rintro i j hi hj ⟨hl, t, h1, h2⟩
      obtain ⟨e1, e2⟩ := extremes_of_occupies hi hj hl h1 h2
      omega

theorem occupies_unique {ts : List ℤ} {i j i' j' : ℕ} (hi : 1 ≤ i) (hj : 1 ≤ j) (hi' : 1 ≤ i')
    (hj' : 1 ≤ j') (h : Spec.Occupies ts i j) (h' : Spec.Occupies ts i' j') : i = i' ∧ j = j' := by
  obtain ⟨hl, t, h1, h2⟩ := h
  obtain ⟨hl', t', h1', h2'⟩ := h'
  have e := extremes_of_occupies hi hj hl h1 h2
  have e' := extremes_of_occupies hi' hj' hl' h1' h2'
  have : t = t' := by omega
  subst this
  omega

end CDT

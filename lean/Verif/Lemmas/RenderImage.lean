import Verif.Spec.RenderImage
import Mathlib.Data.Set.Card
import Mathlib.Data.Fintype.Basic
import Mathlib.Data.Finset.Prod
import Mathlib.Tactic.Tauto

namespace CDT
open Spec

/-- The body paints exactly the positions `P` in colour `c`. -/
structure Paints (c : Rgba) (body : ℕ → Image → ℕ → Image) (P : ℕ → ℕ → ℕ → ℕ → Prop) : Prop where
  width : ∀ y i x, (body y i x).width = i.width
  height : ∀ y i x, (body y i x).height = i.height
  hit : ∀ y i x a b, P x y a b → (body y i x).pixel a b = c
  miss : ∀ y i x a b, ¬ P x y a b → (body y i x).pixel a b = i.pixel a b

theorem Paints.row {c : Rgba} {body : ℕ → Image → ℕ → Image} {P : ℕ → ℕ → ℕ → ℕ → Prop} (h : Paints c body P)
    (y : ℕ) (l : List ℕ) : ∀ i : Image,
    (l.foldl (body y) i).width = i.width ∧ (l.foldl (body y) i).height = i.height ∧
    ∀ a b, ((∃ x ∈ l, P x y a b) → (l.foldl (body y) i).pixel a b = c) ∧
      ((¬ ∃ x ∈ l, P x y a b) → (l.foldl (body y) i).pixel a b = i.pixel a b) := by
  induction l with
  | nil => intro i; simp
  | cons x l ih =>
    intro i
    obtain ⟨h1, h2, h3⟩ := ih (body y i x)
    refine ⟨h1.trans (h.width ..), h2.trans (h.height ..), fun a b => ?_⟩
    obtain ⟨h4, h5⟩ := h3 a b
    simp only [List.foldl_cons, List.mem_cons, exists_eq_or_imp, not_or]
    constructor
    · intro hp
      by_cases hl : ∃ x ∈ l, P x y a b
      · exact h4 hl
      · rw [h5 hl]; exact h.hit _ _ _ _ _ (hp.resolve_right hl)
    · rintro ⟨hx, hl⟩
      rw [h5 hl]; exact h.miss _ _ _ _ _ hx

theorem Paints.rows {c : Rgba} {body : ℕ → Image → ℕ → Image} {P : ℕ → ℕ → ℕ → ℕ → Prop} (h : Paints c body P)
    (cols rows : List ℕ) : ∀ i : Image,
    (rows.foldl (fun i y => cols.foldl (body y) i) i).width = i.width ∧
    (rows.foldl (fun i y => cols.foldl (body y) i) i).height = i.height ∧
    ∀ a b, ((∃ y ∈ rows, ∃ x ∈ cols, P x y a b) →
        (rows.foldl (fun i y => cols.foldl (body y) i) i).pixel a b = c) ∧
      ((¬ ∃ y ∈ rows, ∃ x ∈ cols, P x y a b) →
        (rows.foldl (fun i y => cols.foldl (body y) i) i).pixel a b = i.pixel a b) := by
  induction rows with
  | nil => intro i; simp
  | cons y rows ih =>
    intro i
    obtain ⟨g1, g2, g3⟩ := h.row y cols i
    obtain ⟨h1, h2, h3⟩ := ih (cols.foldl (body y) i)
    refine ⟨h1.trans g1, h2.trans g2, fun a b => ?_⟩
    obtain ⟨h4, h5⟩ := h3 a b
    obtain ⟨g4, g5⟩ := g3 a b
    simp only [List.foldl_cons, List.mem_cons, exists_eq_or_imp, not_or]
    constructor
    · intro hp
      by_cases hl : ∃ y ∈ rows, ∃ x ∈ cols, P x y a b
      · exact h4 hl
      · rw [h5 hl]; exact g4 (hp.resolve_right hl)
    · rintro ⟨hx, hl⟩
      rw [h5 hl]; exact g5 hx

theorem Paints.all {c : Rgba} {body : ℕ → Image → ℕ → Image} {P : ℕ → ℕ → ℕ → ℕ → Prop} (h : Paints c body P)
    (source i : Image) :
    (forPixels source body i).width = i.width ∧ (forPixels source body i).height = i.height ∧
    ∀ a b, ((∃ y < source.height, ∃ x < source.width, P x y a b) → (forPixels source body i).pixel a b = c) ∧
      ((¬ ∃ y < source.height, ∃ x < source.width, P x y a b) →
        (forPixels source body i).pixel a b = i.pixel a b) := by
  unfold forPixels
  simpa only [List.mem_range] using h.rows (List.range source.width) (List.range source.height) i

variable {r : RenderConfig} {source : Image}

/-- `right_boundary`. -/
def rightB (r : RenderConfig) (source : Image) (x y : ℕ) : Bool :=
  decide (x + 1 < source.width) && boundaryWith r (source.pixel x y) (source.pixel (x + 1) y)

/-- `lower_boundary`. -/
def lowerB (r : RenderConfig) (source : Image) (x y : ℕ) : Bool :=
  decide (y + 1 < source.height) && boundaryWith r (source.pixel x y) (source.pixel x (y + 1))

/-- What one step of the first loop nest paints. -/
def edgeHits (r : RenderConfig) (source : Image) (x y a b : ℕ) : Prop :=
  (source.pixel x y).a ≠ 0 ∧
  (((rightB r source x y = true ∨ lowerB r source x y = true) ∧ a = x ∧ b = y) ∨
    (LD.lt (.fin 1) r.lineWidth = true ∧
      (rightB r source x y = true ∧ a = x + 1 ∧ b = y ∨ lowerB r source x y = true ∧ a = x ∧ b = y + 1)))

theorem outlineStep_eq (y : ℕ) (i : Image) (x : ℕ) (h0 : (source.pixel x y).a ≠ 0) : outlineStep r source y i x =
    if rightB r source x y || lowerB r source x y then
      if LD.lt (.fin 1) r.lineWidth then
        if lowerB r source x y then
          (if rightB r source x y then (i.set x y r.edgeColor).set (x + 1) y r.edgeColor
            else i.set x y r.edgeColor).set x (y + 1) r.edgeColor
        else (if rightB r source x y then (i.set x y r.edgeColor).set (x + 1) y r.edgeColor
            else i.set x y r.edgeColor)
      else i.set x y r.edgeColor
    else i := by
  unfold outlineStep
  rw [if_neg h0]
  rfl

theorem outlineStep_paints : Paints r.edgeColor (outlineStep r source) (edgeHits r source) where
  width y i x := by unfold outlineStep; dsimp only; split_ifs <;> rfl
  height y i x := by unfold outlineStep; dsimp only; split_ifs <;> rfl
  hit y i x a b h := by
    obtain ⟨h0, h⟩ := h
    rw [outlineStep_eq _ _ _ h0]
    generalize rightB r source x y = A at h ⊢
    generalize lowerB r source x y = B at h ⊢
    generalize LD.lt (.fin 1) r.lineWidth = W at h ⊢
    cases A <;> cases B <;> cases W <;>
      simp only [Bool.false_eq_true, false_and, true_and, or_self, or_false, false_or, if_false, if_true, Bool.or_true,
        Bool.or_false, Image.set, or_true] at h ⊢ <;> split_ifs <;> first | rfl | tauto
  miss y i x a b h := by
    by_cases h0 : (source.pixel x y).a = 0
    · unfold outlineStep; rw [if_pos h0]
    unfold edgeHits at h
    rw [outlineStep_eq _ _ _ h0]
    generalize rightB r source x y = A at h ⊢
    generalize lowerB r source x y = B at h ⊢
    generalize LD.lt (.fin 1) r.lineWidth = W at h ⊢
    cases A <;> cases B <;> cases W <;>
      simp only [Bool.false_eq_true, false_and, true_and, or_self, or_false, false_or, if_false, if_true, Bool.or_true,
        Bool.or_false, Image.set, or_true, h0, ne_eq, not_false_eq_true] at h ⊢ <;> split_ifs <;> first | rfl | tauto

theorem rightB_iff {x y : ℕ} (hx : x < source.width) (hy : y < source.height) (h0 : (source.pixel x y).a ≠ 0) :
    rightB r source x y = true ↔ Separated r source x y (x + 1) y := by
  simp [rightB, boundaryWith, Separated, Opaque, hx, hy, h0, and_assoc]

theorem lowerB_iff {x y : ℕ} (hx : x < source.width) (hy : y < source.height) (h0 : (source.pixel x y).a ≠ 0) :
    lowerB r source x y = true ↔ Separated r source x y x (y + 1) := by
  simp [lowerB, boundaryWith, Separated, Opaque, hx, hy, h0, and_assoc]

/-- What one step of the second loop nest paints. -/
def rimHits (r : RenderConfig) (source : Image) (x y a b : ℕ) : Prop :=
  isPoint r (source.pixel x y) = true ∧
  ¬ (0 < x ∧ x + 1 < source.width ∧ 0 < y ∧ y + 1 < source.height ∧
    isPoint r (source.pixel (x - 1) y) = true ∧ isPoint r (source.pixel (x + 1) y) = true ∧
    isPoint r (source.pixel x (y - 1)) = true ∧ isPoint r (source.pixel x (y + 1)) = true) ∧ a = x ∧ b = y

theorem pointStep_paints : Paints r.edgeColor (pointStep r source) (rimHits r source) where
  width y i x := by unfold pointStep; dsimp only; split_ifs <;> rfl
  height y i x := by unfold pointStep; dsimp only; split_ifs <;> rfl
  hit y i x a b h := by
    obtain ⟨h1, h2, rfl, rfl⟩ := h
    unfold pointStep
    simp only [h1, Bool.not_true, Bool.false_eq_true, if_false]
    rw [if_pos]
    · simp [Image.set]
    · rw [Bool.not_eq_true', Bool.eq_false_iff]
      intro hc
      simp only [Bool.and_eq_true, decide_eq_true_eq, gt_iff_lt] at hc
      exact h2 (by tauto)
  miss y i x a b h := by
    unfold pointStep
    dsimp only
    split_ifs with c1 c2
    · rfl
    · simp only [Image.set]
      rw [if_neg]
      rintro ⟨rfl, rfl⟩
      refine h ⟨by simpa using c1, ?_, rfl, rfl⟩
      rw [Bool.not_eq_true', Bool.eq_false_iff] at c2
      intro hc
      exact c2 (by simp only [Bool.and_eq_true, decide_eq_true_eq, gt_iff_lt]; tauto)
    · rfl

theorem isPoint_iff {x y : ℕ} (hx : x < source.width) (hy : y < source.height) :
    isPoint r (source.pixel x y) = true ↔ Mark r source x y := by
  simp [isPoint, Mark, Opaque, hx, hy]

theorem edgeHits_iff (a b : ℕ) : (∃ y < source.height, ∃ x < source.width, edgeHits r source x y a b) ↔
    Separated r source a b (a + 1) b ∨ Separated r source a b a (b + 1) ∨
    (LD.lt (.fin 1) r.lineWidth = true ∧
      (0 < a ∧ Separated r source (a - 1) b a b ∨ 0 < b ∧ Separated r source a (b - 1) a b)) := by
  constructor
  · rintro ⟨y, hy, x, hx, h0, ⟨(h | h), rfl, rfl⟩ | ⟨hw, ⟨h, rfl, rfl⟩ | ⟨h, rfl, rfl⟩⟩⟩
    · exact .inl ((rightB_iff hx hy h0).1 h)
    · exact .inr (.inl ((lowerB_iff hx hy h0).1 h))
    · refine .inr (.inr ⟨hw, .inl ⟨by omega, ?_⟩⟩)
      rw [Nat.add_sub_cancel]; exact (rightB_iff hx hy h0).1 h
    · refine .inr (.inr ⟨hw, .inr ⟨by omega, ?_⟩⟩)
      rw [Nat.add_sub_cancel]; exact (lowerB_iff hx hy h0).1 h
  · rintro (h | h | ⟨hw, ⟨h0, h⟩ | ⟨h0, h⟩⟩)
    · exact ⟨b, h.1.2.1, a, h.1.1, h.1.2.2, .inl ⟨.inl ((rightB_iff h.1.1 h.1.2.1 h.1.2.2).2 h), rfl, rfl⟩⟩
    · exact ⟨b, h.1.2.1, a, h.1.1, h.1.2.2, .inl ⟨.inr ((lowerB_iff h.1.1 h.1.2.1 h.1.2.2).2 h), rfl, rfl⟩⟩
    · refine ⟨b, h.1.2.1, a - 1, h.1.1, h.1.2.2, .inr ⟨hw, .inl ⟨?_, by omega, rfl⟩⟩⟩
      rw [rightB_iff h.1.1 h.1.2.1 h.1.2.2, Nat.sub_add_cancel h0]; exact h
    · refine ⟨b - 1, h.1.2.1, a, h.1.1, h.1.2.2, .inr ⟨hw, .inr ⟨?_, rfl, by omega⟩⟩⟩
      rw [lowerB_iff h.1.1 h.1.2.1 h.1.2.2, Nat.sub_add_cancel h0]; exact h

theorem rimHits_iff (a b : ℕ) : (∃ y < source.height, ∃ x < source.width, rimHits r source x y a b) ↔
    Mark r source a b ∧ ¬ MarkInterior r source a b := by
  have inner : ∀ {x y : ℕ}, x < source.width → y < source.height →
      ((0 < x ∧ x + 1 < source.width ∧ 0 < y ∧ y + 1 < source.height ∧
        isPoint r (source.pixel (x - 1) y) = true ∧ isPoint r (source.pixel (x + 1) y) = true ∧
        isPoint r (source.pixel x (y - 1)) = true ∧ isPoint r (source.pixel x (y + 1)) = true) ↔
      MarkInterior r source x y) := by
    intro x y hx hy
    constructor
    · rintro ⟨h1, h2, h3, h4, h5, h6, h7, h8⟩
      exact ⟨h1, h3, (isPoint_iff (by omega) hy).1 h5, (isPoint_iff h2 hy).1 h6, (isPoint_iff hx (by omega)).1 h7,
        (isPoint_iff hx h4).1 h8⟩
    · rintro ⟨h1, h3, h5, h6, h7, h8⟩
      exact ⟨h1, h6.1.1, h3, h8.1.2.1, (isPoint_iff (by omega) hy).2 h5, (isPoint_iff h6.1.1 hy).2 h6,
        (isPoint_iff hx (by omega)).2 h7, (isPoint_iff hx h8.1.2.1).2 h8⟩
  constructor
  · rintro ⟨y, hy, x, hx, h1, h2, rfl, rfl⟩
    exact ⟨(isPoint_iff hx hy).1 h1, fun hc => h2 ((inner hx hy).2 hc)⟩
  · rintro ⟨h1, h2⟩
    exact ⟨b, h1.1.2.1, a, h1.1.1, (isPoint_iff h1.1.1 h1.1.2.1).2 h1, fun hc => h2 ((inner h1.1.1 h1.1.2.1).1 hc), rfl, rfl⟩

/-- Counting with a loop nest. -/
theorem count_row (p : ℕ → Bool) (l : List ℕ) : ∀ n : ℕ,
    l.foldl (fun c x => if p x then c + 1 else c) n = n + (l.filter p).length := by
  induction l with
  | nil => intro n; rfl
  | cons x l ih =>
    intro n
    rw [List.foldl_cons, ih]
    by_cases h : p x
    · simp only [h, if_true, List.filter_cons_of_pos, List.length_cons]; omega
    · simp [h]

theorem count_rows (p : ℕ → ℕ → Bool) (cols rows : List ℕ) : ∀ n : ℕ,
    rows.foldl (fun c y => cols.foldl (fun c x => if p x y then c + 1 else c) c) n =
      n + (rows.map fun y => (cols.filter fun x => p x y).length).sum := by
  induction rows with
  | nil => intro n; rfl
  | cons y rows ih =>
    intro n
    rw [List.foldl_cons, ih, count_row fun x => p x y]
    simp only [List.map_cons, List.sum_cons]
    omega

end CDT

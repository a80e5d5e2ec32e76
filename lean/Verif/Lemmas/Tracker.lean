import Verif.Spec.Accounting

namespace CDT

theorem MoveType.asInteger_inj {a b : MoveType} (h : a.asInteger = b.asInteger) : a = b := by
  cases a <;> cases b <;> first | rfl | (exact absurd h (by decide))

@[simp] theorem Tracker.get_zero (m : MoveType) : Tracker.zero.get m = 0 := rfl

theorem Tracker.get_inc (t : Tracker) (m n : MoveType) :
    (t.inc m).get n = t.get n + if m = n then 1 else 0 := by
  unfold Tracker.get Tracker.inc
  by_cases h : m = n
  · subst h; simp
  · have : n.asInteger ≠ m.asInteger := fun e => h (MoveType.asInteger_inj e).symm
    simp [Function.update_of_ne this, h]

theorem Tracker.get_add (a b : Tracker) (m : MoveType) : (a.add b).get m = a.get m + b.get m := rfl

theorem Tracker.total_eq (t : Tracker) :
    t.total = t.get .twoThree + t.get .threeTwo + t.get .twoSix + t.get .sixTwo + t.get .fourFour := by
  simp [Tracker.total, List.ofFn_succ, Tracker.get, MoveType.asInteger]

theorem Tracker.ext_get {a b : Tracker} (h : ∀ m, a.get m = b.get m) : a = b := by
  funext i
  have h0 := h .twoThree; have h1 := h .threeTwo; have h2 := h .twoSix
  have h3 := h .sixTwo; have h4 := h .fourFour
  simp only [Tracker.get, MoveType.asInteger] at h0 h1 h2 h3 h4
  match i with
  | 0 => exact h0
  | 1 => exact h1
  | 2 => exact h2
  | 3 => exact h3
  | 4 => exact h4

open Spec

@[simp] theorem countMove_nil (m) : countMove [] m = 0 := rfl
@[simp] theorem countIf_nil (m p) : countIf [] m p = 0 := rfl

theorem countMove_append (h k) (m) : countMove (h ++ k) m = countMove h m + countMove k m := by
  simp [countMove]

theorem countIf_append (h k) (m p) : countIf (h ++ k) m p = countIf h m p + countIf k m p := by
  simp [countIf]

theorem countMove_single (a o m) : countMove [(a, o)] m = if a = m then 1 else 0 := by
  unfold countMove; by_cases h : a = m <;> simp [h]

theorem countIf_single (a o m p) : countIf [(a, o)] m p = if a = m ∧ p o = true then 1 else 0 := by
  unfold countIf; by_cases h : a = m <;> by_cases h2 : p o = true <;> simp [h, h2]

theorem countIf_add_not (h : List (MoveType × MoveOutcome)) (m p) :
    countIf h m p + countIf h m (fun o => !p o) = countMove h m := by
  induction h with
  | nil => rfl
  | cons x xs ih =>
    have e : ∀ q, countIf (x :: xs) m q = countIf [x] m q + countIf xs m q :=
      fun q => countIf_append [x] xs m q
    have e2 : countMove (x :: xs) m = countMove [x] m + countMove xs m := countMove_append [x] xs m
    obtain ⟨a, o⟩ := x
    rw [e, e, e2, ← ih, countMove_single, countIf_single, countIf_single]
    by_cases h1 : a = m <;> by_cases h2 : p o = true <;> simp [h1, h2] <;> omega

theorem countIf_nonneg (h : List (MoveType × MoveOutcome)) (m p) : 0 ≤ countIf h m p := by
  simp [countIf]

theorem countIf_mono (h : List (MoveType × MoveOutcome)) (m) {p q : MoveOutcome → Bool}
    (pq : ∀ o, p o = true → q o = true) : countIf h m p ≤ countIf h m q := by
  unfold countIf
  have : (h.filter fun x => decide (x.1 = m) && p x.2).Sublist
      (h.filter fun x => decide (x.1 = m) && q x.2) := by
    apply List.monotone_filter_right
    intro x hx
    simp only [Bool.and_eq_true] at hx ⊢
    exact ⟨hx.1, pq _ hx.2⟩
  exact_mod_cast this.length_le

theorem traceBytes_append (h k) : traceBytes (h ++ k) = traceBytes h ++ traceBytes k := by
  simp [traceBytes]

theorem describesCmd_nil : DescribesCmd {} [] := ⟨fun _ => rfl, fun _ => rfl, fun _ => rfl⟩

theorem describesStats_nil (g : Geometry) : DescribesStats { geometry := g } [] :=
  ⟨fun _ => rfl, fun _ => rfl, fun _ => rfl, rfl, rfl⟩

theorem describes_nil : Describes {} {} [] := ⟨describesCmd_nil, describesStats_nil _⟩

theorem describesCmd_accumulate {a b h k} (da : DescribesCmd a h) (db : DescribesCmd b k) :
    DescribesCmd (a.accumulate b) (h ++ k) where
  attempted m := by
    simp [CommandResults.accumulate, Tracker.get_add, da.attempted, db.attempted, countMove_append]
  succeeded m := by
    simp [CommandResults.accumulate, Tracker.get_add, da.succeeded, db.succeeded, countIf_append]
  failed m := by
    simp [CommandResults.accumulate, Tracker.get_add, da.failed, db.failed, countIf_append]

theorem describes_balanced {cmd st h} (d : Describes cmd st h) : Balanced cmd st := by
  intro m
  have a1 := countIf_add_not h m (fun o => o.accepted)
  have a2 := countIf_add_not h m (fun o => o.successful)
  have n1 := countIf_nonneg h m (fun o => o.accepted)
  have n2 := countIf_nonneg h m (fun o => !o.successful)
  have m1 := countIf_mono h m (p := fun o => o.accepted) (q := fun o => o.successful)
    (by intro o; cases o <;> decide)
  have m2 := countIf_mono h m (p := fun o => !o.successful) (q := fun o => !o.accepted)
    (by intro o; cases o <;> decide)
  simp only [d.2.proposed, d.1.attempted, d.2.accepted, d.2.rejected, d.1.succeeded, d.1.failed]
  refine ⟨by omega, by omega, trivial, n1, m1, n2, m2⟩

end CDT

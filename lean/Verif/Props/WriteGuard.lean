import Verif.Spec.WriteGuard

namespace CDT.Props
open CDT Spec

variable {Tid : Type} [DecidableEq Tid]

/-- Invariant of every schedule. -/
structure WriterInv (w : Writers Tid) : Prop where
  single : ∀ i, (w.threads i).calls = [] ∨ ∃ p, (w.threads i).calls = [p]
  flag : ∀ i, (w.threads i).active = true ↔ (w.threads i).calls ≠ []
  owner : ∀ i, w.owner = some i ↔ (w.threads i).calls = [.locked]
  log : Serial w.log w.owner

theorem inv_set {w : Writers Tid} (h : WriterInv w) {i : Tid} {t : WriterThread}
    {o : Option Tid} {l : List (WriteEvent Tid)}
    (h1 : t.calls = [] ∨ ∃ p, t.calls = [p]) (h2 : t.active = true ↔ t.calls ≠ [])
    (h3 : o = some i ↔ t.calls = [.locked]) (h4 : ∀ j, j ≠ i → (o = some j ↔ w.owner = some j))
    (h5 : Serial l o) : WriterInv { w.set i t with owner := o, log := l } := by
  refine ⟨fun j => ?_, fun j => ?_, fun j => ?_, h5⟩ <;> by_cases hj : j = i
  · subst hj; simpa [Writers.set] using h1
  · simpa [Writers.set, Function.update_of_ne hj] using h.single j
  · subst hj; simpa [Writers.set] using h2
  · simpa [Writers.set, Function.update_of_ne hj] using h.flag j
  · subst hj; simpa [Writers.set] using h3
  · simp only [Writers.set, Function.update_of_ne hj]
    rw [h4 j hj]; exact h.owner j

theorem inv_step {w w' : Writers Tid} (h : WriterInv w) (s : WriterStep w w') : WriterInv w' := by
  cases s with
  | refuse he => exact ⟨h.single, h.flag, h.owner, h.log.refused⟩
  | @enter i a he =>
    have hf : (w.threads i).active = false ∧ a = true := by
      unfold guardConstruct at he
      cases hc : (w.threads i).active <;> simp_all
    obtain ⟨hf, rfl⟩ := hf
    have hnil : (w.threads i).calls = [] := by
      by_contra hne
      rw [(h.flag i).2 hne] at hf; cases hf
    have ho : w.owner ≠ some i := fun ho => by
      have := (h.owner i).1 ho; rw [hnil] at this; cases this
    exact inv_set h (o := w.owner) (l := w.log) (by simp [hnil]) (by simp)
      (by simp [hnil, ho]) (fun _ _ => Iff.rfl) h.log
  | @lock i rest he hfree =>
    have hr : rest = [] := by
      rcases h.single i with e | ⟨p, e⟩ <;> rw [he] at e <;> simp_all
    subst hr
    refine inv_set h (by simp) ?_ (by simp) ?_ ?_
    · simp [(h.flag i).2 (by simp [he])]
    · intro j hj; simp [hfree, Ne.symm hj]
    · have := h.log; rw [hfree] at this; exact this.begin
  | @abandon i rest he =>
    have hr : rest = [] := by
      rcases h.single i with e | ⟨p, e⟩ <;> rw [he] at e <;> simp_all
    subst hr
    have ho : w.owner ≠ some i := fun ho => by
      have := (h.owner i).1 ho; rw [he] at this; simp at this
    exact inv_set h (o := w.owner) (l := w.log) (by simp) (by simp [guardDestroy]) (by simp [ho])
      (fun _ _ => Iff.rfl) h.log
  | @operate i rest he =>
    have hr : rest = [] := by
      rcases h.single i with e | ⟨p, e⟩ <;> rw [he] at e <;> simp_all
    subst hr
    have ho := (h.owner i).2 he
    refine ⟨h.single, h.flag, h.owner, ?_⟩
    have := h.log
    rw [ho] at this
    show Serial (_ :: w.log) w.owner
    rw [ho]
    exact this.operation
  | @unlock i rest he =>
    have hr : rest = [] := by
      rcases h.single i with e | ⟨p, e⟩ <;> rw [he] at e <;> simp_all
    subst hr
    have ho := (h.owner i).2 he
    refine inv_set h (by simp) ?_ (by simp) ?_ ?_
    · simp [(h.flag i).2 (by simp [he])]
    · intro j hj; rw [ho]; simp [Ne.symm hj]
    · have := h.log; rw [ho] at this; exact this.finish
  | @leave i rest he =>
    have hr : rest = [] := by
      rcases h.single i with e | ⟨p, e⟩ <;> rw [he] at e <;> simp_all
    subst hr
    have ho : w.owner ≠ some i := fun ho => by
      have := (h.owner i).1 ho; rw [he] at this; simp at this
    exact inv_set h (o := w.owner) (l := w.log) (by simp) (by simp [guardDestroy]) (by simp [ho])
      (fun _ _ => Iff.rfl) h.log

theorem inv_reachable {w : Writers Tid} (h : Reachable w) : WriterInv w := by
  induction h with
  | refl =>
    exact ⟨fun _ => .inl rfl, fun _ => by simp [Writers.initial],
      fun _ => by simp [Writers.initial], .nil⟩
  | tail _ s ih => exact inv_step ih s

/-- **C57**: at no time are two threads writing. -/
theorem C57_mutual_exclusion {w : Writers Tid} (h : Reachable w) {i j : Tid} (hi : Writing w i)
    (hj : Writing w j) : i = j := by
  have inv := inv_reachable h
  have own : ∀ k, Writing w k → w.owner = some k := by
    intro k hk
    rw [inv.owner]
    rcases inv.single k with e | ⟨p, e⟩
    · rw [Writing, e] at hk; cases hk
    · rw [Writing, e, List.mem_singleton] at hk; rw [e, ← hk]
  have := (own i hi).symm.trans (own j hj)
  exact Option.some.inj this

/-- **C57**: no thread ever has two write operations active. -/
theorem C57_no_nesting {w : Writers Tid} (h : Reachable w) (i : Tid) :
    (w.threads i).calls.length ≤ 1 := by
  rcases (inv_reachable h).single i with e | ⟨p, e⟩ <;> simp [e]

/-- **C57**: the file operations of write operations never interleave, in any schedule. -/
theorem C57_operations_serial {w : Writers Tid} (h : Reachable w) : ∃ o, Serial w.log o :=
  ⟨_, (inv_reachable h).log⟩

/-- **C57**: a call made while the same thread has a write active is refused with `logic_error`; the
guard of the outer call stays set, so a further nested call is refused as well; and a call made
without one active is never refused. -/
theorem C57_reentrant_refused_iff {w : Writers Tid} (h : Reachable w) (i : Tid) :
    guardConstruct (w.threads i).active =
      if (w.threads i).calls = [] then .ok true else .error .logicError := by
  have := (inv_reachable h).flag i
  unfold guardConstruct
  split_ifs with h1 h2 h2 <;> simp_all

/-- **C57**: when a thread has left its call, on whatever path, its flag is clear and it does not own
the mutex. -/
theorem C57_released {w : Writers Tid} (h : Reachable w) {i : Tid} (hi : (w.threads i).calls = []) :
    (w.threads i).active = false ∧ w.owner ≠ some i := by
  have inv := inv_reachable h
  constructor
  · by_contra hc
    exact (inv.flag i).1 (by simpa using hc) hi
  · intro ho
    have := (inv.owner i).1 ho
    rw [hi] at this; cases this

/-- **C57**: a thread that waits for the mutex never owns it (locking a `std::mutex` twice would be
undefined). -/
theorem C57_never_relocks {w : Writers Tid} (h : Reachable w) {i : Tid} {rest : List WritePhase}
    (hi : (w.threads i).calls = .guarded :: rest) : w.owner ≠ some i := fun ho => by
  have := ((inv_reachable h).owner i).1 ho
  rw [hi] at this
  simp at this

/-- **C57**: no deadlock: whenever a write is active in some thread, some thread can proceed with
its own active write without any exception. -/
theorem C57_no_deadlock {w : Writers Tid} (h : Reachable w) {i : Tid}
    (hi : (w.threads i).calls ≠ []) :
    ∃ j p rest w', (w.threads j).calls = p :: rest ∧ WriterStep w w' ∧
      (w'.threads j).calls ≠ (w.threads j).calls ∧
      ((w'.threads j).calls = rest ∨ (w'.threads j).calls = .locked :: rest ∨
        (w'.threads j).calls = .unlocked :: rest) := by
  have inv := inv_reachable h
  cases ho : w.owner with
  | some j =>
    have hj := (inv.owner j).1 ho
    exact ⟨j, _, _, _, hj, .unlock hj, by simp [Writers.set, hj], .inr (.inr (by simp [Writers.set]))⟩
  | none =>
    rcases inv.single i with e | ⟨p, e⟩
    · exact absurd e hi
    · cases p with
      | guarded =>
        exact ⟨i, _, _, _, e, .lock e ho, by simp [Writers.set, e],
          .inr (.inl (by simp [Writers.set]))⟩
      | locked =>
        have := (inv.owner i).2 e
        rw [ho] at this; cases this
      | unlocked =>
        exact ⟨i, _, _, _, e, .leave e, by simp [Writers.set, e], .inl (by simp [Writers.set])⟩

/-! A schedule in which one thread writes while another waits and a nested call is refused. -/

example : ∃ w : Writers Bool, Reachable w ∧ Writing w true ∧
    (w.threads false).calls = [.guarded] ∧ w.log = [.refused true, .operation true, .begin true] := by
  let w0 : Writers Bool := Writers.initial
  have s1 : WriterStep w0 _ := .enter (i := true) (a := true) rfl
  have s2 := WriterStep.enter (w := w0.set true ⟨true, [.guarded]⟩) (i := false) (a := true) rfl
  have s3 := WriterStep.lock (w := (w0.set true ⟨true, [.guarded]⟩).set false ⟨true, [.guarded]⟩)
    (i := true) (rest := []) rfl rfl
  have s4 := WriterStep.operate (w := { ((w0.set true ⟨true, [.guarded]⟩).set false
    ⟨true, [.guarded]⟩).set true ⟨true, [.locked]⟩ with owner := some true, log := [.begin true] })
    (i := true) (rest := []) rfl
  have s5 := WriterStep.refuse (w := { ((w0.set true ⟨true, [.guarded]⟩).set false
    ⟨true, [.guarded]⟩).set true ⟨true, [.locked]⟩ with
      owner := some true, log := [.operation true, .begin true] }) (i := true) (e := .logicError) rfl
  refine ⟨_, ((((Relation.ReflTransGen.refl.tail s1).tail s2).tail s3).tail s4).tail s5, ?_, rfl, rfl⟩
  exact List.mem_singleton.2 rfl

end CDT.Props

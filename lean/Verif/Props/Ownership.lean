import Verif.Spec.Ownership
import Mathlib.Tactic.FinCases
/-
C42: lock ownership follows the triangulation.
-/
namespace CDT.Props
open CDT Spec Own

namespace OwnershipProof

variable {T : Type} {husk : T → T} {m : Mem T}

theorem dead_iff {n : ℕ} : ¬ Alive m n ↔ m.tri (.var n) = none := by simp [Alive]

structure Always (m : Mem T) : Prop where
  inj : ∀ a b g, m.owner a = some g → m.owner b = some g → a = b
  owned : ∀ a g, m.owner a = some g → m.live g = true
  noLeak : ∀ g, m.live g = true → ∃ a, m.owner a = some g
  points : ∀ s t g, m.tri s = some t → t.pointer = some g → m.live g = true
  fresh : ∀ g, m.next ≤ g → m.live g = false

structure Bound (m : Mem T) : Prop where
  bind : ∀ s t, m.tri s = some t → t.pointer = m.owner s
  dead : ∀ s, m.tri s = none → m.owner s = none
  temps : ∀ k, m.tri (.temp k) = none

def Safe (m : Mem T) : Instr T → Prop
  | .makeGrid a => m.owner a = none
  | .moveOwner a b => m.owner a = none ∧ a ≠ b
  | .resetOwner a => ∀ g s t, m.owner a = some g → m.tri s = some t → t.pointer ≠ some g
  | _ => True

def SafeRun (husk : T → T) : Mem T → List (Instr T) → Prop
  | _, [] => True
  | m, i :: p => Safe m i ∧ SafeRun husk (exec husk m i) p

theorem always_initial : Always (Mem.initial : Mem T) :=
  ⟨by simp [Mem.initial], by simp [Mem.initial], by simp [Mem.initial], by simp [Mem.initial],
    by simp [Mem.initial]⟩

theorem always_tri (h : Always m) {tri' : Slot → Option (Delaunay T)}
    (hp : ∀ s t g, tri' s = some t → t.pointer = some g → m.live g = true) :
    Always { m with tri := tri' } := ⟨h.inj, h.owned, h.noLeak, hp, h.fresh⟩

theorem always_exec (h : Always m) {i : Instr T} (hs : Safe m i) : Always (exec husk m i) := by
  cases i with
  | makeGrid a =>
      have hn := h.fresh m.next le_rfl
      refine ⟨?_, ?_, ?_, ?_, ?_⟩ <;> simp only [exec, Function.update_apply]
      · intro x y g hx hy
        have key : ∀ z, m.owner z ≠ some m.next := fun z hz => by
          rw [h.owned z _ hz] at hn; cases hn
        split_ifs at hx hy with h1 h2 h2
        · rw [h1, h2]
        · cases hx; exact absurd hy (key y)
        · cases hy; exact absurd hx (key x)
        · exact h.inj x y g hx hy
      · intro x g hx
        split_ifs with h1
        · rfl
        · split_ifs at hx with h2
          · cases hx; exact absurd rfl h1
          · exact h.owned x g hx
      · intro g hg
        split_ifs at hg with h1
        · exact ⟨a, by simp [h1]⟩
        · obtain ⟨x, hx⟩ := h.noLeak g hg
          refine ⟨x, ?_⟩
          have : x ≠ a := fun e => by rw [e, hs] at hx; cases hx
          rw [if_neg this]; exact hx
      · intro s t g h1 h2
        split_ifs
        · rfl
        · exact h.points s t g h1 h2
      · intro g hg
        have : g ≠ m.next := by omega
        rw [if_neg this]; exact h.fresh g (by omega)
  | newTri a b c =>
      refine always_tri h fun s t g h1 h2 => ?_
      rw [Function.update_apply] at h1
      split_ifs at h1
      · cases h1
        cases b with
        | none => cases h2
        | some b => exact h.owned b g h2
      · exact h.points s t g h1 h2
  | setLock a b =>
      refine always_tri h fun s t g h1 h2 => ?_
      rw [Function.update_apply] at h1
      split_ifs at h1
      · obtain ⟨u, -, rfl⟩ := Option.map_eq_some_iff.1 h1
        cases b with
        | none => cases h2
        | some b => exact h.owned b g h2
      · exact h.points s t g h1 h2
  | moveOwner a b =>
      obtain ⟨ha, hab⟩ := hs
      refine ⟨?_, ?_, ?_, h.points, h.fresh⟩ <;> simp only [exec, Function.update_apply]
      · intro x y g hx hy
        split_ifs at hx hy with h1 h2 h3 h4 h5
        · rw [h2, h4]
        · exact absurd (h.inj _ _ _ hx hy).symm (by assumption)
        · exact absurd (h.inj _ _ _ hx hy) (by assumption)
        · exact h.inj x y g hx hy
      · intro x g hx
        split_ifs at hx
        · exact h.owned b g hx
        · exact h.owned x g hx
      · intro g hg
        obtain ⟨x, hx⟩ := h.noLeak g hg
        by_cases hxb : x = b
        · refine ⟨a, ?_⟩; rw [if_neg hab, if_pos rfl, ← hxb]; exact hx
        · refine ⟨x, ?_⟩
          have : x ≠ a := fun e => by rw [e, ha] at hx; cases hx
          rw [if_neg hxb, if_neg this]; exact hx
  | moveTri a b =>
      refine always_tri h fun s t g h1 h2 => ?_
      simp only [Function.update_apply] at h1
      split_ifs at h1
      · obtain ⟨u, hu, rfl⟩ := Option.map_eq_some_iff.1 h1
        exact h.points b u g hu h2
      · exact h.points b t g h1 h2
      · exact h.points s t g h1 h2
  | copyTri a b =>
      refine always_tri h fun s t g h1 h2 => ?_
      simp only [Function.update_apply] at h1
      split_ifs at h1
      · exact h.points b t g h1 h2
      · exact h.points s t g h1 h2
  | swapTri a b =>
      refine always_tri h fun s t g h1 h2 => ?_
      simp only [Function.update_apply] at h1
      split_ifs at h1
      · exact h.points a t g h1 h2
      · exact h.points b t g h1 h2
      · exact h.points s t g h1 h2
  | swapOwner a b =>
      refine ⟨?_, ?_, ?_, h.points, h.fresh⟩ <;> simp only [exec, Function.update_apply]
      · intro x y g hx hy
        split_ifs at hx hy with h1 h2 h3 h4 h5 h6
        all_goals first
          | (have := h.inj _ _ _ hx hy; simp_all)
      · intro x g hx
        split_ifs at hx
        · exact h.owned a g hx
        · exact h.owned b g hx
        · exact h.owned x g hx
      · intro g hg
        obtain ⟨x, hx⟩ := h.noLeak g hg
        by_cases hxa : x = a
        · exact ⟨b, by rw [if_pos rfl, ← hxa]; exact hx⟩
        · by_cases hxb : x = b
          · refine ⟨a, ?_⟩
            by_cases hab : a = b
            · exact absurd (hxb.trans hab.symm) hxa
            · rw [if_neg hab, if_pos rfl, ← hxb]; exact hx
          · exact ⟨x, by rw [if_neg hxb, if_neg hxa]; exact hx⟩
  | resetOwner a =>
      refine ⟨?_, ?_, ?_, ?_, ?_⟩ <;> simp only [exec, Function.update_apply]
      · intro x y g hx hy
        split_ifs at hx hy
        exact h.inj x y g hx hy
      · intro x g hx
        split_ifs at hx with h1
        rw [if_neg fun e => h1 (h.inj x a g hx e)]
        exact h.owned x g hx
      · intro g hg
        split_ifs at hg with h1
        obtain ⟨x, hx⟩ := h.noLeak g hg
        have : x ≠ a := fun e => h1 (by rw [← e]; exact hx)
        exact ⟨x, by rw [if_neg this]; exact hx⟩
      · intro s t g h1 h2
        rw [if_neg fun e => hs g s t e h1 h2]
        exact h.points s t g h1 h2
      · intro g hg
        split_ifs
        · rfl
        · exact h.fresh g hg
  | destroyTri a =>
      refine always_tri h fun s t g h1 h2 => ?_
      simp only [Function.update_apply] at h1
      split_ifs at h1
      exact h.points s t g h1 h2
  | mutate a f =>
      refine always_tri h fun s t g h1 h2 => ?_
      simp only [Function.update_apply] at h1
      split_ifs at h1
      · obtain ⟨u, hu, rfl⟩ := Option.map_eq_some_iff.1 h1
        exact h.points a u g hu h2
      · exact h.points s t g h1 h2

theorem always_prefix {p q : List (Instr T)} (h : Always m) (hs : SafeRun husk m (p ++ q)) :
    Always (run husk m p) := by
  induction p generalizing m with
  | nil => exact h
  | cons i p ih => exact ih (always_exec h hs.1) hs.2

theorem safe_append {p q : List (Instr T)} (hp : SafeRun husk m p)
    (hq : SafeRun husk (run husk m p) q) : SafeRun husk m (p ++ q) := by
  induction p generalizing m with
  | nil => exact hq
  | cons i p ih => exact ⟨hp.1, ih hp.2 hq⟩

theorem run_append {p q : List (Instr T)} : run husk m (p ++ q) = run husk (run husk m p) q :=
  List.foldl_append

/-- A sequence is safe and ends with all bindings restored. -/
def Restores (husk : T → T) (m : Mem T) (p : List (Instr T)) : Prop :=
  SafeRun husk m p ∧ Bound (run husk m p)

theorem restores_append {p q : List (Instr T)} (hp : Restores husk m p)
    (hq : Restores husk (run husk m p) q) : Restores husk m (p ++ q) :=
  ⟨safe_append hp.1 hq.1, by rw [run_append]; exact hq.2⟩

theorem Bound.owner_temp (h : Bound m) (k : Fin 5) : m.owner (.temp k) = none := h.dead _ (h.temps k)

theorem bound_of (h : Bound m) {m' : Mem T} (a : Slot) (ha : ∀ k, a ≠ .temp k)
    (t : Option (Delaunay T)) (hb : ∀ u, t = some u → u.pointer = m'.owner a)
    (hd : t = none → m'.owner a = none)
    (ht : m'.tri = Function.update m.tri a t)
    (ho : ∀ s, s ≠ a → m'.owner s = m.owner s) : Bound m' := by
  refine ⟨fun s u hu => ?_, fun s hs => ?_, fun k => ?_⟩
  · rw [ht, Function.update_apply] at hu
    split_ifs at hu with h1
    · rw [h1]; exact hb u hu
    · rw [ho s h1]; exact h.bind s u hu
  · rw [ht, Function.update_apply] at hs
    split_ifs at hs with h1
    · rw [h1]; exact hd hs
    · rw [ho s h1]; exact h.dead s hs
  · rw [ht, Function.update_of_ne (ha k).symm]; exact h.temps k

/-- Final memory of the constructions without a source. -/
theorem run_default (h : Bound m) (parallel : Bool) (empty : T) {a : ℕ} (ha : ¬ Alive m a) :
    SafeRun husk m (makeEmptyState parallel empty ++ fromPending (.var a)) ∧
    run husk m (makeEmptyState parallel empty ++ fromPending (.var a)) =
      if parallel then
        { m with
          owner := Function.update m.owner (.var a) (some m.next),
          tri := Function.update m.tri (.var a) (some ⟨empty, some m.next⟩),
          live := Function.update m.live m.next true, next := m.next + 1 }
      else { m with tri := Function.update m.tri (.var a) (some ⟨empty, none⟩) } := by
  have ha' : m.tri (.var a) = none := dead_iff.1 ha
  have hoa := h.dead _ ha'
  have ho := h.owner_temp
  have ht := h.temps
  cases parallel
  · constructor
    · simp [makeEmptyState, fromPending, SafeRun, Safe, exec, hoa, ho, ht]
    · simp [makeEmptyState, fromPending, run, exec, hoa, ho, ht]
      refine ⟨?_, ?_⟩ <;> funext s <;> rcases s with n | k <;>
        simp [Function.update_apply, ho, ht] <;> intros <;> simp_all
  · constructor
    · simp [makeEmptyState, fromPending, SafeRun, Safe, exec, hoa, ho, ht]
    · simp [makeEmptyState, fromPending, run, exec, hoa, ho, ht]
      refine ⟨?_, ?_⟩ <;> funext s <;> rcases s with n | k <;>
        simp [Function.update_apply, ho, ht] <;> intros <;> simp_all

/-- Final memory after adopting a triangulation held in the argument slot. -/
theorem run_adopt (h : Bound m) (parallel : Bool) (t : Delaunay T) {a : ℕ} (ha : ¬ Alive m a) :
    SafeRun husk { m with tri := Function.update m.tri argument (some t) }
      (adoptArgument parallel (.var a)) ∧
    run husk { m with tri := Function.update m.tri argument (some t) }
      (adoptArgument parallel (.var a)) =
      if parallel then
        { m with
          owner := Function.update m.owner (.var a) (some m.next),
          tri := Function.update m.tri (.var a) (some ⟨t.content, some m.next⟩),
          live := Function.update m.live m.next true, next := m.next + 1 }
      else { m with tri := Function.update m.tri (.var a) (some ⟨t.content, none⟩) } := by
  have ha' : m.tri (.var a) = none := dead_iff.1 ha
  have hoa := h.dead _ ha'
  have ho := h.owner_temp
  have ht := h.temps
  cases parallel
  · constructor
    · simp [adoptArgument, makeAdoptedState, fromPending, SafeRun, Safe, exec, hoa, ho, ht]
    · simp [adoptArgument, makeAdoptedState, fromPending, run, exec, hoa, ho, ht]
      refine ⟨?_, ?_⟩ <;> funext s <;> rcases s with n | k <;>
        simp [Function.update_apply, ho, ht] <;> intros <;> simp_all
  · constructor
    · simp [adoptArgument, makeAdoptedState, fromPending, SafeRun, Safe, exec, hoa, ho, ht]
    · simp [adoptArgument, makeAdoptedState, fromPending, run, exec, hoa, ho, ht]
      refine ⟨?_, ?_⟩ <;> funext s <;> rcases s with n | k <;>
        simp [Function.update_apply, ho, ht] <;> intros <;> simp_all

/-- The memory in which slot `a` holds a new state with contents `c`. -/
def built (parallel : Bool) (m : Mem T) (a : ℕ) (c : T) : Mem T :=
  if parallel then
    { m with
      owner := Function.update m.owner (.var a) (some m.next),
      tri := Function.update m.tri (.var a) (some ⟨c, some m.next⟩),
      live := Function.update m.live m.next true, next := m.next + 1 }
  else { m with tri := Function.update m.tri (.var a) (some ⟨c, none⟩) }

theorem built_bound (h : Bound m) (parallel : Bool) {a : ℕ} (ha : ¬ Alive m a) (c : T) :
    Bound (built parallel m a c) := by
  have ha' : m.tri (.var a) = none := dead_iff.1 ha
  have hoa := h.dead _ ha'
  cases parallel
  · refine bound_of h (.var a) (by simp) (some ⟨c, none⟩) ?_ (by simp) rfl (fun s _ => rfl)
    rintro u ⟨⟩; exact hoa.symm
  · refine bound_of h (.var a) (by simp) (some ⟨c, some m.next⟩) ?_ (by simp) rfl
      (fun s hs => Function.update_of_ne hs _ _)
    rintro u ⟨⟩; simp [built]

theorem copy_restores (h : Bound m) (parallel : Bool) {a b : ℕ} (ha : ¬ Alive m a)
    (t : Delaunay T) (hb : m.tri (.var b) = some t) :
    SafeRun husk m (copyState parallel (.var a) (.var b)) ∧
    run husk m (copyState parallel (.var a) (.var b)) = built parallel m a t.content := by
  have := run_adopt (husk := husk) h parallel t ha
  refine ⟨⟨trivial, ?_⟩, ?_⟩
  · simpa only [exec, hb] using this.1
  · have h2 := this.2
    simpa only [run, copyState, List.foldl_cons, exec, hb, built] using h2

theorem swap_restores (h : Bound m) (a b : ℕ) : Restores husk m (swapStates (.var a) (.var b)) := by
  refine ⟨by simp [swapStates, SafeRun, Safe], ?_⟩
  refine ⟨?_, ?_, ?_⟩ <;> simp only [swapStates, run, exec, List.foldl_cons, List.foldl_nil,
    Function.update_apply]
  · intro s t
    split_ifs <;> exact h.bind _ t
  · intro s
    split_ifs <;> exact h.dead _
  · intro k
    simpa using h.temps k

theorem destroy_restores (hA : Always m) (h : Bound m) (a : ℕ) :
    Restores husk m (destroyState (.var a)) := by
  refine ⟨⟨trivial, ?_, trivial⟩, ?_⟩
  · intro g s t hg ht hp
    simp only [exec, Function.update_apply] at hg ht
    split_ifs at ht with h1
    rw [h.bind s t ht] at hp
    exact h1 (hA.inj _ _ _ hp hg)
  · exact bound_of h (.var a) (by simp) none (by simp) (by simp [destroyState, run, exec])
      (by simp [destroyState, run, exec]) (by simp +contextual [destroyState, run, exec])

theorem op_restores (hA : Always m) (h : Bound m) (parallel : Bool) (empty : T) {o : Op T}
    (hl : Legal m o) : Restores husk m (o.code parallel empty) := by
  cases o with
  | default a =>
      have := run_default (husk := husk) h parallel empty hl
      refine ⟨this.1, ?_⟩
      rw [Op.code, this.2]
      exact built_bound h parallel hl empty
  | insert a f ok =>
      have := run_default (husk := husk) h parallel empty hl
      have hm : Restores husk m (makeEmptyState parallel empty ++ fromPending (.var a)) :=
        ⟨this.1, by rw [this.2]; exact built_bound h parallel hl empty⟩
      have hm2 : Restores husk (run husk m (makeEmptyState parallel empty ++ fromPending (.var a)))
          [.mutate (.var a) f] := by
        refine ⟨⟨trivial, trivial⟩, ?_⟩
        refine bound_of hm.2 (.var a) (by simp) _ ?_ ?_ rfl (fun s _ => rfl)
        · intro u hu
          obtain ⟨w, hw, rfl⟩ := Option.map_eq_some_iff.1 hu
          exact hm.2.bind _ w hw
        · intro hu
          exact hm.2.dead _ (Option.map_eq_none_iff.1 hu)
      have h12 := restores_append hm hm2
      cases ok with
      | true => simpa [Op.code] using h12
      | false =>
          have h3 := destroy_restores (husk := husk) (a := a)
            (always_prefix (q := []) hA (by simpa using h12.1)) h12.2
          simpa [Op.code] using restores_append h12 h3
  | plain x c =>
      have hx : m.owner (.var x) = none := h.dead _ (dead_iff.1 hl)
      refine ⟨⟨trivial, trivial⟩, ?_⟩
      exact bound_of h (.var x) (by simp) (some ⟨c, none⟩) (by rintro u ⟨⟩; exact hx.symm) (by simp)
        rfl (fun s _ => rfl)
  | adopt a x =>
      obtain ⟨ha, hx⟩ := hl
      obtain ⟨t, ht⟩ := Option.isSome_iff_exists.1 hx
      have hax : x ≠ a := fun e => ha (e ▸ hx)
      set m1 : Mem T := { m with
        tri := Function.update m.tri (.var x) (some { t with content := husk t.content }) } with hm1
      have hb1 : Bound m1 :=
        bound_of h (.var x) (by simp) _ (by rintro u ⟨⟩; exact h.bind _ t ht) (by simp) rfl
          (fun s _ => rfl)
      have ha1 : ¬ Alive m1 a := by
        rw [dead_iff] at ha ⊢
        simp only [hm1]
        rw [Function.update_of_ne (by simpa using hax.symm)]; exact ha
      have := run_adopt (husk := husk) hb1 parallel t ha1
      have e : exec husk m (.moveTri argument (.var x)) =
          { m1 with tri := Function.update m1.tri argument (some t) } := by
        simp only [exec, ht, hm1, Option.map_some]
        rw [Function.update_comm (by simp)]
      refine ⟨⟨trivial, by rw [e]; exact this.1⟩, ?_⟩
      have e2 : run husk m ((Op.adopt a x).code parallel empty) = built parallel m1 a t.content := by
        rw [← show _ = built parallel m1 a t.content from this.2, ← e]
        rfl
      rw [e2]
      exact built_bound hb1 parallel ha1 _
  | copy a b =>
      obtain ⟨ha, hb⟩ := hl
      obtain ⟨t, ht⟩ := Option.isSome_iff_exists.1 hb
      have := copy_restores (husk := husk) h parallel ha t ht
      exact ⟨this.1, by rw [Op.code, this.2]; exact built_bound h parallel ha _⟩
  | move a b =>
      obtain ⟨ha, hb⟩ := hl
      have hab : a ≠ b := fun e => ha (e ▸ hb)
      have ha' : m.tri (.var a) = none := dead_iff.1 ha
      have hoa := h.dead _ ha'
      refine ⟨?_, ?_⟩
      · simp [Op.code, SafeRun, Safe, hoa, hab]
      · refine ⟨?_, ?_, ?_⟩ <;> simp only [Op.code, run, exec, List.foldl_cons, List.foldl_nil,
          Function.update_apply]
        · intro s t
          split_ifs
          · rintro hs
            simp only [Option.map_map, Option.map_eq_some_iff] at hs
            obtain ⟨u, -, rfl⟩ := hs
            rfl
          · exact h.bind _ t
          · exact h.bind _ t
        · intro s
          split_ifs
          · intro; rfl
          · exact h.dead _
          · exact h.dead _
        · intro k
          simpa using h.temps k
  | swap a b => exact swap_restores h a b
  | copyAssign a b c =>
      obtain ⟨ha, hb, hc⟩ := hl
      simp only [Op.code]
      split_ifs with hab
      · exact ⟨trivial, h⟩
      · obtain ⟨t, ht⟩ := Option.isSome_iff_exists.1 hb
        have h1 := copy_restores (husk := husk) h parallel hc t ht
        have r1 : Restores husk m (copyState parallel (.var c) (.var b)) :=
          ⟨h1.1, by rw [h1.2]; exact built_bound h parallel hc _⟩
        have r2 := restores_append r1 (swap_restores r1.2 a c)
        exact restores_append r2 (destroy_restores
          (always_prefix (q := []) hA (by simpa using r2.1)) r2.2 c)
  | moveAssign a b =>
      simp only [Op.code]
      split_ifs with hab
      · exact ⟨trivial, h⟩
      · exact swap_restores h a b
  | detach x a =>
      obtain ⟨hx, ha⟩ := hl
      have hxa : x ≠ a := fun e => hx (e ▸ ha)
      have hx' : m.tri (.var x) = none := dead_iff.1 hx
      have hox := h.dead _ hx'
      refine ⟨⟨trivial, ?_, trivial, trivial⟩, ?_⟩
      · intro g s t hg ht hp
        simp only [exec, Function.update_apply] at hg ht
        split_ifs at ht with h1
        · obtain ⟨u, -, rfl⟩ := Option.map_eq_some_iff.1 ht
          cases hp
        · rw [h.bind s t ht] at hp
          exact h1 (hA.inj _ _ _ hp hg)
      · refine ⟨?_, ?_, ?_⟩ <;> simp only [Op.code, run, exec, List.foldl_cons, List.foldl_nil,
          Function.update_apply]
        · intro s t
          split_ifs with h1 h2
          · intro hs
            simp only [Option.map_map, Option.map_eq_some_iff] at hs
            obtain ⟨u, -, rfl⟩ := hs
            rfl
          · intro hs
            simp only [Option.map_eq_some_iff] at hs
            obtain ⟨u, -, rfl⟩ := hs
            rw [h2, hox]; rfl
          · exact h.bind _ t
        · intro s
          split_ifs with h1 h2
          · intro; rfl
          · intro; rw [h2]; exact hox
          · exact h.dead _
        · intro k
          simpa using h.temps k
  | snapshot x a =>
      obtain ⟨hx, ha⟩ := hl
      have hxa : x ≠ a := fun e => hx (e ▸ ha)
      have hx' : m.tri (.var x) = none := dead_iff.1 hx
      have hox := h.dead _ hx'
      obtain ⟨t, ht⟩ := Option.isSome_iff_exists.1 ha
      refine ⟨⟨trivial, trivial, trivial⟩, ?_⟩
      refine bound_of h (.var x) (by simp) (some ⟨t.content, none⟩) ?_ (by simp) ?_ (fun s _ => rfl)
      · rintro u ⟨⟩; exact hox.symm
      · simp [Op.code, run, exec, ht]
  | mutate a f =>
      refine ⟨⟨trivial, trivial⟩, ?_⟩
      refine bound_of h (.var a) (by simp) _ ?_ ?_ rfl (fun s _ => rfl)
      · intro u hu
        obtain ⟨w, hw, rfl⟩ := Option.map_eq_some_iff.1 hu
        exact h.bind _ w hw
      · intro hu
        exact h.dead _ (Option.map_eq_none_iff.1 hu)
  | destroy a => exact destroy_restores hA h a

theorem between_inv {parallel : Bool} {empty : T} (h : Between parallel empty husk m) :
    Always m ∧ Bound m := by
  induction h with
  | start => exact ⟨always_initial, by simp [Mem.initial], by simp [Mem.initial],
      by simp [Mem.initial]⟩
  | step _ hl ih =>
      have := op_restores (husk := husk) ih.1 ih.2 parallel empty hl
      exact ⟨always_prefix (q := []) ih.1 (by simpa using this.1), this.2⟩

theorem anytime_inv {parallel : Bool} {empty : T} (h : AtAnyTime parallel empty husk m) :
    Always m := by
  obtain ⟨hb, hl, e⟩ := h
  have hi := between_inv hb
  have := (op_restores (husk := husk) hi.1 hi.2 parallel empty hl).1
  rw [e] at this
  exact always_prefix hi.1 this

end OwnershipProof

open OwnershipProof

variable {T : Type} {parallel : Bool} {empty : T} {husk : T → T} {m : Mem T}

/-- Between operations every object's triangulation refers to exactly the grid the object owns, and
to none when it owns none: `has_consistent_lock_binding()` always holds. -/
theorem C42_binding (h : Between parallel empty husk m) {n : ℕ} {t : Delaunay T}
    (ht : m.tri (.var n) = some t) : t.pointer = m.owner (.var n) :=
  (between_inv h).2.bind _ t ht

/-- Two objects never refer to the same grid. -/
theorem C42_not_shared (h : Between parallel empty husk m) {a b : ℕ} (hab : a ≠ b)
    {t u : Delaunay T} (ha : m.tri (.var a) = some t) (hb : m.tri (.var b) = some u) {g : ℕ}
    (hg : t.pointer = some g) : u.pointer ≠ some g := by
  intro hu
  rw [C42_binding h ha] at hg
  rw [C42_binding h hb] at hu
  exact hab (by simpa using (between_inv h).1.inj _ _ _ hg hu)

/-- At every moment, also in the middle of an operation, a grid has at most one owner. -/
theorem C42_unique_owner (h : AtAnyTime parallel empty husk m) {a b : Slot} {g : ℕ}
    (ha : m.owner a = some g) (hb : m.owner b = some g) : a = b :=
  (anytime_inv h).inj a b g ha hb

/-- At every moment, also in the middle of an operation and inside temporaries, a triangulation
refers to no destroyed grid: the grid it refers to exists and has an owner. -/
theorem C42_never_dangling (h : AtAnyTime parallel empty husk m) {s : Slot} {t : Delaunay T}
    (ht : m.tri s = some t) {g : ℕ} (hg : t.pointer = some g) :
    m.live g = true ∧ ∃ a, m.owner a = some g := by
  have hl := (anytime_inv h).points s t g ht hg
  exact ⟨hl, (anytime_inv h).noLeak g hl⟩

/-- Between operations every grid that exists belongs to a live object: none is leaked, and none
outlives its object. -/
theorem C42_no_leak (h : Between parallel empty husk m) {g : ℕ} (hg : m.live g = true) :
    ∃ n, Alive m n ∧ m.owner (.var n) = some g := by
  obtain ⟨a, ha⟩ := (between_inv h).1.noLeak g hg
  have hb := (between_inv h).2
  cases a with
  | var n =>
      refine ⟨n, ?_, ha⟩
      by_contra e
      rw [hb.dead _ (dead_iff.1 e)] at ha; cases ha
  | temp k => rw [hb.owner_temp k] at ha; cases ha

/-- In the parallel build every construction other than a move gives the new object a grid of its
own, created for it. -/
theorem C42_construction_has_own_grid (h : Between true empty husk m) {o : Op T} {a : ℕ}
    (ho : o = .default a ∨ (∃ f, o = .insert a f true) ∨ (∃ x, o = .adopt a x) ∨
      (∃ b, o = .copy a b)) (hl : Legal m o) :
    ∃ g, (run husk m (o.code true empty)).owner (.var a) = some g ∧ m.live g = false ∧
      ∃ t, (run husk m (o.code true empty)).tri (.var a) = some t ∧ t.pointer = some g := by
  have hi := between_inv h
  have hf := hi.1.fresh m.next le_rfl
  have hb' := (between_inv (Between.step (o := o) h hl)).2.bind
  have key : (run husk m (o.code true empty)).owner (.var a) = some m.next ∧
      (run husk m (o.code true empty)).tri (.var a) ≠ none := by
    rcases ho with rfl | ⟨f, rfl⟩ | ⟨x, rfl⟩ | ⟨b, rfl⟩
    · rw [Op.code, (run_default hi.2 true empty hl).2]; simp
    · rw [Op.code, run_append, (run_default hi.2 true empty hl).2]; simp [run, exec]
    · obtain ⟨ha, hx⟩ := hl
      obtain ⟨t, ht⟩ := Option.isSome_iff_exists.1 hx
      have hax : a ≠ x := fun e => ha (e ▸ hx)
      have ho := hi.2.owner_temp
      have htt := hi.2.temps
      simp [Op.code, adoptArgument, makeAdoptedState, fromPending, run, exec, ht]
    · obtain ⟨ha, hb⟩ := hl
      obtain ⟨t, ht⟩ := Option.isSome_iff_exists.1 hb
      rw [Op.code, (copy_restores hi.2 true ha t ht).2]; simp [built]
  obtain ⟨t, ht⟩ := Option.ne_none_iff_exists'.1 key.2
  exact ⟨m.next, key.1, hf, t, ht, (hb' _ t ht).trans key.1⟩

/-- Moving transfers the grid together with the triangulation; the source keeps neither the grid nor
a reference to it. -/
theorem C42_move_transfers {a b : ℕ}
    (hl : Legal m (Op.move a b)) {t : Delaunay T} (ht : m.tri (.var b) = some t) :
    let m' := run husk m ((Op.move a b).code parallel empty)
    m'.tri (.var a) = some t ∧ m'.owner (.var a) = m.owner (.var b) ∧ m'.live = m.live ∧
      m'.owner (.var b) = none ∧ ∃ u, m'.tri (.var b) = some u ∧ u.pointer = none := by
  obtain ⟨ha, hb⟩ := hl
  have hab : a ≠ b := fun e => ha (e ▸ hb)
  simp [Op.code, run, exec, ht, hab]

/-- Copy assignment gives the target the contents of the source and a grid of its own; the source
keeps its contents and its grid, and the target's former grid is destroyed. -/
theorem C42_copy_assignment (h : Between true empty husk m) {a b c : ℕ} (hab : a ≠ b)
    (hl : Legal m (Op.copyAssign a b c)) {t u : Delaunay T} (ha : m.tri (.var a) = some u)
    (hb : m.tri (.var b) = some t) :
    let m' := run husk m ((Op.copyAssign a b c).code true empty)
    (∃ g, m'.owner (.var a) = some g ∧ m.live g = false ∧ m'.live g = true ∧
      m'.tri (.var a) = some ⟨t.content, some g⟩) ∧
    m'.tri (.var b) = some t ∧ m'.owner (.var b) = m.owner (.var b) ∧ ¬ Alive m' c ∧
      ∀ g, u.pointer = some g → m'.live g = false := by
  have hi := between_inv h
  have hf := hi.1.fresh m.next le_rfl
  obtain ⟨hla, hlb, hlc⟩ := hl
  have hac : a ≠ c := fun e => hlc (e ▸ hla)
  have hbc : b ≠ c := fun e => hlc (e ▸ hlb)
  have hoa : m.owner (.var a) ≠ some m.next := fun e => by
    rw [hi.1.owned _ _ e] at hf; cases hf
  have hu := hi.2.bind _ u ha
  have e : run husk m ((Op.copyAssign a b c).code true empty) =
      run husk (built true m c t.content)
        (swapStates (.var a) (.var c) ++ destroyState (.var c)) := by
    simp only [Op.code, if_neg hab]
    rw [List.append_assoc, run_append, (copy_restores hi.2 true hlc t hb).2]
  rw [e]
  refine ⟨⟨m.next, ?_, hf, ?_, ?_⟩, ?_, ?_, ?_, ?_⟩
  · simp [run, exec, swapStates, destroyState, built, hac]
  · simp [run, exec, swapStates, destroyState, built, hac, hoa]
  · simp [run, exec, swapStates, destroyState, built, hac]
  · simp [run, exec, swapStates, destroyState, built, hab, hab.symm, hbc, hb]
  · simp [run, exec, swapStates, destroyState, built, hab, hab.symm, hbc]
  · simp [run, exec, swapStates, destroyState, built, Alive]
  · intro g hg
    rw [hu] at hg
    simp [run, exec, swapStates, destroyState, built, hac, hg]

/-- Detaching yields the contents without a grid and destroys the grid. -/
theorem C42_detach (h : Between parallel empty husk m) {x a : ℕ} (hl : Legal m (Op.detach x a))
    {t : Delaunay T} (ht : m.tri (.var a) = some t) :
    let m' := run husk m ((Op.detach x a).code parallel empty)
    m'.tri (.var x) = some ⟨t.content, none⟩ ∧ m'.owner (.var x) = none ∧
      m'.owner (.var a) = none ∧ (∃ u, m'.tri (.var a) = some u ∧ u.pointer = none) ∧
      ∀ g, t.pointer = some g → m'.live g = false := by
  obtain ⟨hx, ha⟩ := hl
  have hxa : x ≠ a := fun e => hx (e ▸ ha)
  have hox := (between_inv h).2.dead _ (dead_iff.1 hx)
  have hb := C42_binding h ht
  refine ⟨?_, ?_, ?_, ?_, ?_⟩ <;> simp [Op.code, run, exec, ht, hxa, hox]
  intro g hg h2
  rw [hb] at hg
  exact absurd hg h2

/-- A snapshot has the same contents, no grid, and leaves the source as it was. -/
theorem C42_snapshot {x a : ℕ} (hl : Legal m (Op.snapshot x a))
    {t : Delaunay T} (ht : m.tri (.var a) = some t) :
    let m' := run husk m ((Op.snapshot x a).code parallel empty)
    m'.tri (.var x) = some ⟨t.content, none⟩ ∧ m'.tri (.var a) = some t ∧ m'.owner = m.owner ∧
      m'.live = m.live := by
  obtain ⟨hx, ha⟩ := hl
  have hxa : a ≠ x := fun e => hx (e ▸ ha)
  simp [Op.code, run, exec, ht, hxa]

/-- In the sequential build no grid is ever created and no triangulation refers to one. -/
theorem C42_sequential (h : AtAnyTime false empty husk m) :
    (∀ g, m.live g = false) ∧ ∀ s t, m.tri s = some t → t.pointer = none := by
  have noMake : ∀ (o : Op T) i, i ∈ o.code false empty → ∀ a, i ≠ .makeGrid a := by
    intro o i hi a e
    subst e
    cases o <;> simp [Op.code, makeEmptyState, fromPending, adoptArgument, makeAdoptedState,
      copyState, swapStates, destroyState] at hi
    all_goals (split_ifs at hi <;> simp at hi)
  have step : ∀ (p : List (Instr T)) (m : Mem T), (∀ i ∈ p, ∀ a, i ≠ .makeGrid a) →
      (∀ g, m.live g = false) → ∀ g, (run husk m p).live g = false := by
    intro p
    induction p with
    | nil => exact fun m _ h => h
    | cons i p ih =>
        intro m hp hm
        refine ih (exec husk m i) (fun j hj => hp j (by simp [hj])) fun g => ?_
        cases i with
        | makeGrid a => exact absurd rfl (hp _ (by simp) a)
        | resetOwner a => simp only [exec]; split_ifs <;> simp [hm]
        | _ => exact hm g
  have hbetween : ∀ {m : Mem T}, Between false empty husk m → ∀ g, m.live g = false := by
    intro m hm
    induction hm with
    | start => intro g; rfl
    | step _ _ ih => exact step _ _ (noMake _) ih
  have hall : ∀ g, m.live g = false := by
    obtain ⟨hb, hl, e⟩ := h
    refine step _ _ (fun i hi => noMake _ i (by rw [e]; simp [hi])) (hbetween hb)
  refine ⟨hall, fun s t ht => ?_⟩
  cases hp : t.pointer with
  | none => rfl
  | some g =>
      have := (anytime_inv h).points s t g ht hp
      rw [hall g] at this; cases this

/-- A program that constructs, inserts, copies, moves, swaps, assigns, takes a snapshot and detaches
is legal, and at its end two objects own different grids. -/
example : ∃ m : Mem (List ℕ), Between true [] (fun _ => []) m ∧
    m.tri (.var 0) = some ⟨[1], some 3⟩ ∧ m.owner (.var 0) = some 3 ∧
    m.tri (.var 2) = some ⟨[7], some 1⟩ ∧ m.owner (.var 2) = some 1 ∧
    m.live 0 = false ∧ m.live 1 = true ∧ m.live 3 = true := by
  have h0 : Between true [] (fun _ : List ℕ => []) Mem.initial := .start
  have h1 := Between.step (o := .insert 0 (fun _ => [1]) true) h0 (by decide +kernel)
  have h2 := Between.step (o := .insert 1 (fun _ => [7]) true) h1 (by decide +kernel)
  have h3 := Between.step (o := .move 2 1) h2 (by decide +kernel)
  have h4 := Between.step (o := .copy 3 0) h3 (by decide +kernel)
  have h5 := Between.step (o := .copyAssign 0 3 4) h4 (by decide +kernel)
  have h6 := Between.step (o := .snapshot 5 2) h5 (by decide +kernel)
  have h7 := Between.step (o := .detach 6 3) h6 (by decide +kernel)
  exact ⟨_, h7, by decide +kernel, by decide +kernel, by decide +kernel, by decide +kernel,
    by decide +kernel, by decide +kernel, by decide +kernel⟩

end CDT.Props

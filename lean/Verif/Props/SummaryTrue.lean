import Verif.Props.Whole
import Verif.Props.Portrait
import Verif.Props.Diagnostics
import Verif.Lemmas.Program
/-
C113: the numbers in the name of an artifact are those of the manifold; C77: the diagnostic test compares the time
bounds.
-/
namespace CDT.Props
open CDT Spec Moves
variable {V S T : Type} [LinearOrder V]

/-- **C113** (numbers). In `cdt` with the modelled manifolds, the numbers that name an artifact (and fill the record
before it is written) are those of the triangulation: its simplices by dimension, and the least and greatest time
label. -/
theorem C113_summary_true {base : Host (Mfld V) S Mp T} {env : Env V (Random S)} (hl : env.Lawful) {R : Rounding}
    {drawMove : Random S → Fin 5 × Random S} {drawTrial : Random S → LD × Random S} {value : BitVec 64 → ℚ}
    {snapshot : Tri V → T} {m : Mfld V} (hf : Fit env m) :
    let s := (assembled base env R drawMove drawTrial value snapshot).summary m
    let n := census m.tri.inf m.tri.time m.tri.cells
    s.N0 = n.N0 ∧ s.N1 = n.N1SL + n.N1TL ∧ s.N2 = n.N2 ∧ s.N3 = n.N3 ∧
      TimeRange m.tri.inf m.tri.time m.tri.cells s.minTime s.maxTime ∧
      s.radius = value m.radius ∧ s.spacing = value m.spacing := by
  have hK : ∀ c ∈ m.tri.cells, c.card = 4 := hf.sound.closed.1
  have hok : ∀ c ∈ m.tri.finiteCells, m.tri.typeCorrect c = true := fun c hc =>
    (typeCorrect_iff (hK c (mem_finiteCells.1 hc).1)).2
      (hf.sound.labels c (mem_finiteCells.1 hc).1 (mem_finiteCells.1 hc).2)
  obtain ⟨h0, h1s, h1t, h2, h31, h22, h13, h3, h1⟩ := geometry_census hl hK hok hf.caches
  exact ⟨h0, h1, h2, h3, ⟨(minTime_spec hl hf.caches).1, (maxTime_spec hl hf.caches).1, fun v hv =>
    ⟨(minTime_spec hl hf.caches).2 v hv, (maxTime_spec hl hf.caches).2 v hv⟩⟩, rfl, rfl⟩

open Val in
/-- **C77** (time bounds). If the diagnostic test passes, the recorded time bounds are the least and greatest time
label of the recorded vertices, if there are any. -/
theorem C77_time_bounds {w : World V} {a b : ℕ} {x : Object V} {K : Tri V} (hx : w.obj a = some x)
    (hb : x.tri.body = some b) (hK : w.body b = some K) (hne : x.tri.vertices ≠ [])
    (h : isCorrectWithDiagnostics w a = true) :
    (∀ p ∈ x.tri.vertices, ∀ v ∈ p.2, x.tri.minTime ≤ K.time v ∧ K.time v ≤ x.tri.maxTime) ∧
    (∃ p ∈ x.tri.vertices, ∃ v ∈ p.2, K.time v = x.tri.minTime) ∧
    (∃ p ∈ x.tri.vertices, ∃ v ∈ p.2, K.time v = x.tri.maxTime) := by
  unfold isCorrectWithDiagnostics at h
  rw [hx] at h
  dsimp only at h
  rw [hb] at h
  dsimp only at h
  rw [hK] at h
  dsimp only at h
  rw [Bool.and_eq_true] at h
  obtain ⟨-, hd⟩ := h
  unfold hasConsistentDerivedState at hd
  split at hd
  · cases hd
  split at hd
  · cases hd
  split at hd
  · cases hd
  split at hd
  · cases hd
  rw [if_neg (by simpa using hne), Bool.and_eq_true, beq_iff_eq, beq_iff_eq] at hd
  obtain ⟨hmax, hmin⟩ := hd
  unfold findMaxTimevalue at hmax
  unfold findMinTimevalue at hmin
  have mem : ∀ t, t ∈ x.tri.caches.vertices.flatMap (fun s => (canonicalPoints s).map K.time) ↔
      ∃ p ∈ x.tri.vertices, ∃ v ∈ p.2, K.time v = t := by
    intro t
    simp only [Members.caches, List.mem_flatMap, List.mem_map, mem_canonicalPoints]
    constructor
    · rintro ⟨_, ⟨p, hp, rfl⟩, v, hv, e⟩; exact ⟨p, hp, v, hv, e⟩
    · rintro ⟨p, hp, v, hv, e⟩; exact ⟨_, ⟨p, hp, rfl⟩, v, hv, e⟩
  cases he : x.tri.caches.vertices.flatMap (fun s => (canonicalPoints s).map K.time) with
  | nil => rw [he] at hmax; cases hmax
  | cons t ts =>
    rw [he] at hmax hmin mem
    simp only [Option.some.injEq] at hmax hmin
    obtain ⟨m1, m2, m3⟩ := foldl_le_max ts t
    obtain ⟨n1, n2, n3⟩ := foldl_min_le ts t
    rw [hmax] at m1 m2 m3
    rw [hmin] at n1 n2 n3
    refine ⟨fun p hp v hv => ?_, (mem _).1 ?_, (mem _).1 ?_⟩
    · rcases List.mem_cons.1 ((mem (K.time v)).2 ⟨p, hp, v, hv, rfl⟩) with h | h
      · rw [h]; exact ⟨n1, m1⟩
      · exact ⟨n2 _ h, m2 _ h⟩
    · rcases n3 with h | h
      · rw [h]; exact List.mem_cons_self
      · exact List.mem_cons_of_mem _ h
    · rcases m3 with h | h
      · rw [h]; exact List.mem_cons_self
      · exact List.mem_cons_of_mem _ h

section
open Val ValuesExample

-- The hypotheses hold of a constructed manifold.  With the greatest time recorded wrongly the cheap test still
-- passes and the diagnostic test does not.
example : (match step setting World.initial (.construct 0 Fixture.k23 7 8) with
    | .ok w => (match w.obj 0 with
      | some x =>
        let w' := w.set 0 (some { x with tri := { x.tri with maxTime := x.tri.maxTime + 1 } })
        isCorrectWithDiagnostics w 0 && !x.tri.vertices.isEmpty && isCorrect w' 0 && !isCorrectWithDiagnostics w' 0
      | none => false)
    | .error _ => false) = true := by decide +kernel

-- `Fit` holds of the universe built at the end of `Props/Whole` and of every state of a run from it (C81).

end

end CDT.Props

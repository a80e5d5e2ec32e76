/-
The site search of `do_*_move` and the single-site selection of `propose_*_move`.
-/
import Verif.Model.Moves

namespace CDT
open Moves

variable {V G S P T : Type}

theorem searchSites_ok {prep : S → Except MoveFailure P} {exec : P → G → Except MoveFailure T × G}
    {l : List S} {e : MoveFailure} {g : G} {r : T} {g' : G}
    (h : searchSites prep exec l e g = (.ok r, g')) :
    ∃ s ∈ l, ∃ p g1, prep s = .ok p ∧ exec p g1 = (.ok r, g') := by
  induction l generalizing e g with
  | nil => simp [searchSites] at h
  | cons s ss ih =>
    unfold searchSites at h
    cases hp : prep s with
    | error e1 =>
      rw [hp] at h
      obtain ⟨s', hs, x⟩ := ih h
      exact ⟨s', List.mem_cons_of_mem _ hs, x⟩
    | ok p =>
      rw [hp] at h
      dsimp only at h
      rcases he : exec p g with ⟨e1 | r1, g1⟩
      · rw [he] at h
        obtain ⟨s', hs, x⟩ := ih h
        exact ⟨s', List.mem_cons_of_mem _ hs, x⟩
      · rw [he] at h
        injection h with h1 h2
        injection h1 with h1
        subst h1; subst h2
        exact ⟨s, by simp, p, g, hp, he⟩

theorem searchSites26_ok {prep : S → Except MoveFailure P} {exec : P → G → Except MoveFailure T × G}
    {l : List S} {e : MoveFailure} {g : G} {r : T} {g' : G}
    (h : searchSites26 prep exec l e g = (.ok r, g')) :
    ∃ s ∈ l, ∃ p g1, prep s = .ok p ∧ exec p g1 = (.ok r, g') := by
  induction l generalizing e g with
  | nil => simp [searchSites26] at h
  | cons s ss ih =>
    unfold searchSites26 at h
    cases hp : prep s with
    | error e1 =>
      rw [hp] at h
      obtain ⟨s', hs, x⟩ := ih h
      exact ⟨s', List.mem_cons_of_mem _ hs, x⟩
    | ok p =>
      rw [hp] at h
      exact ⟨s, by simp, p, g, hp, h⟩

variable [LinearOrder V]

theorem canonicalPoints_injective : Function.Injective (canonicalPoints (V := V)) := by
  intro s t h
  ext v
  rw [← mem_canonicalPoints, h, mem_canonicalPoints]

theorem siteLe_iff {s t : Finset V} : siteLe s t = true ↔ canonicalPoints s ≤ canonicalPoints t := by
  simp [siteLe]

theorem siteLe_total (s t : Finset V) : siteLe s t = true ∨ siteLe t s = true := by
  rw [siteLe_iff, siteLe_iff]; exact le_total _ _

theorem siteLe_trans {s t u : Finset V} (h : siteLe s t = true) (h' : siteLe t u = true) :
    siteLe s u = true := by
  rw [siteLe_iff] at *; exact le_trans h h'

theorem siteLe_antisymm {s t : Finset V} (h : siteLe s t = true) (h' : siteLe t s = true) : s = t := by
  rw [siteLe_iff] at *; exact canonicalPoints_injective (le_antisymm h h')

theorem mem_canonicalize {l : List (Finset V)} {s : Finset V} : s ∈ canonicalize l ↔ s ∈ l :=
  (List.perm_insertionSort _ _).mem_iff

/-- A result of `do_*_move` or `propose_*_move`: some raw site prepared and executed, and the
executed triangulation was rebuilt into a manifold. -/
theorem doMove_ok {env : Env V G} (hl : env.Lawful) {mv : MoveType} {K K' : Tri V} {g g' : G}
    (h : doMove env mv K g = (.ok K', g')) :
    ∃ s ∈ rawSites env K mv, ∃ p K1 g1 g2, prepare K mv s = .ok p ∧ execute env K p g1 = (.ok K1, g2) ∧
      K' = makeManifold env K1 := by
  unfold doMove at h
  have hsh := hl.shuffle_perm (canonicalize (rawSites env K mv)) g
  rcases hs : env.shuffle (canonicalize (rawSites env K mv)) g with ⟨sites, g1⟩
  rw [hs] at h hsh
  dsimp only at h
  have key : ∀ r : Except MoveFailure (Tri V) × G,
      (r.1.map (makeManifold env), r.2) = (Except.ok K', g') → ∃ K1, r = (.ok K1, g') ∧ K' = makeManifold env K1 := by
    rintro ⟨e | K1, g2⟩ hr
    · simp [Except.map] at hr
    · simp only [Except.map, Prod.mk.injEq, Except.ok.injEq] at hr
      exact ⟨K1, by rw [hr.2], hr.1.symm⟩
  have fin : ∀ {K1 : Tri V} {s : Finset V} {p : Prepared V} {g1 : G}, s ∈ sites → prepare K mv s = .ok p →
      execute env K p g1 = (.ok K1, g') → K' = makeManifold env K1 →
      ∃ s ∈ rawSites env K mv, ∃ p K1 g1 g2, prepare K mv s = .ok p ∧ execute env K p g1 = (.ok K1, g2) ∧
      K' = makeManifold env K1 := by
    intro K1 s p g1 h1 h2 h3 h4
    exact ⟨s, mem_canonicalize.1 (hsh.mem_iff.1 h1), p, K1, g1, g', h2, h3, h4⟩
  cases mv <;> (obtain ⟨K1, hr, hK'⟩ := key _ h)
  case twoSix =>
    obtain ⟨s, hs, p, g1, h1, h2⟩ := searchSites26_ok hr
    exact fin hs h1 h2 hK'
  all_goals
    obtain ⟨s, hs, p, g1, h1, h2⟩ := searchSites_ok hr
    exact fin hs h1 h2 hK'

theorem canonicalRandomElement_mem {env : Env V G} (hl : env.Lawful) {l : List (Finset V)} {g g' : G}
    {s : Finset V} (h : canonicalRandomElement env l g = (some s, g')) : s ∈ l := by
  unfold canonicalRandomElement at h
  by_cases h0 : l.isEmpty
  · simp [h0] at h
  · rw [if_neg h0] at h
    rcases hi : env.index l.length g with ⟨i, g1⟩
    rw [hi] at h
    dsimp only at h
    injection h with h1 h2
    exact ((hl.nth siteLe l i siteLe_total (fun _ _ _ => siteLe_trans)).1).mem_iff.1 (List.mem_of_getElem? h1)

theorem propose_ok {env : Env V G} (hl : env.Lawful) {mv : MoveType} {K K' : Tri V} {g g' : G}
    (h : propose env mv K g = (.ok K', g')) :
    ∃ s ∈ rawSites env K mv, ∃ p K1 g1 g2, prepare K mv s = .ok p ∧ execute env K p g1 = (.ok K1, g2) ∧
      K' = makeManifold env K1 := by
  unfold propose at h
  rcases hc : canonicalRandomElement env (rawSites env K mv) g with ⟨_ | s, g1⟩
  · rw [hc] at h; simp at h
  · rw [hc] at h
    dsimp only at h
    cases hp : prepare K mv s with
    | error e => rw [hp] at h; simp at h
    | ok p =>
      rw [hp] at h
      dsimp only at h
      rcases he : execute env K p g1 with ⟨e | K1, g2⟩
      · rw [he] at h; simp at h
      · rw [he] at h
        simp only [Prod.mk.injEq, Except.ok.injEq] at h
        exact ⟨s, canonicalRandomElement_mem hl hc, p, K1, g1, g2, hp, he, h.1.symm⟩

end CDT

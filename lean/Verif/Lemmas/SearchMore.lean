/-
The site search in full: success, failure, prefixes; independence of storage order.
-/
import Verif.Lemmas.Undo

namespace CDT
open Spec Cavity Moves

variable {V G S P T : Type}

/-- One attempt at a site: prepare, then execute. -/
def attempt (prep : S → Except MoveFailure P) (exec : P → G → Except MoveFailure T × G) (s : S) (g : G) :
    Except MoveFailure T × G :=
  match prep s with
  | .error e => (.error e, g)
  | .ok p => exec p g

theorem searchSites_cons {prep : S → Except MoveFailure P} {exec : P → G → Except MoveFailure T × G}
    (s : S) (ss : List S) (e : MoveFailure) (g : G) :
    searchSites prep exec (s :: ss) e g = match attempt prep exec s g with
      | (.ok r, g') => (.ok r, g')
      | (.error e', g') => searchSites prep exec ss e' g' := by
  rw [searchSites, attempt]
  cases prep s <;> rfl

/-- The search returns a value exactly when some site succeeds after all earlier ones failed. -/
theorem searchSites_split {prep : S → Except MoveFailure P} {exec : P → G → Except MoveFailure T × G}
    {l : List S} {e : MoveFailure} {g : G} {r : T} {g' : G}
    (h : searchSites prep exec l e g = (.ok r, g')) :
    ∃ pre s post, l = pre ++ s :: post ∧ ∃ e1 g1, searchSites prep exec pre e g = (.error e1, g1) ∧
      attempt prep exec s g1 = (.ok r, g') := by
  induction l generalizing e g with
  | nil => simp [searchSites] at h
  | cons s ss ih =>
    rw [searchSites_cons] at h
    rcases ha : attempt prep exec s g with ⟨e1 | r1, g1⟩
    · rw [ha] at h
      obtain ⟨pre, s', post, rfl, e2, g2, h1, h2⟩ := ih h
      refine ⟨s :: pre, s', post, rfl, e2, g2, ?_, h2⟩
      rw [searchSites_cons, ha]; exact h1
    · rw [ha] at h
      exact ⟨[], s, ss, rfl, e, g, rfl, by rw [ha]; exact h⟩

theorem searchSites_append {prep : S → Except MoveFailure P} {exec : P → G → Except MoveFailure T × G}
    {pre : List S} (post : List S) {e e1 : MoveFailure} {g g1 : G}
    (h : searchSites prep exec pre e g = (.error e1, g1)) :
    searchSites prep exec (pre ++ post) e g = searchSites prep exec post e1 g1 := by
  induction pre generalizing e g with
  | nil => simp only [searchSites, Prod.mk.injEq, Except.error.injEq] at h; simp [h.1, h.2]
  | cons s ss ih =>
    rw [searchSites_cons] at h
    rw [List.cons_append, searchSites_cons]
    rcases ha : attempt prep exec s g with ⟨e2 | r1, g2⟩
    · rw [ha] at h; exact ih h
    · rw [ha] at h; simp at h

/-- A failed search tried every site, and reports the error of the last one. -/
theorem searchSites_error {prep : S → Except MoveFailure P} {exec : P → G → Except MoveFailure T × G}
    {l : List S} {e e1 : MoveFailure} {g g1 : G} (h : searchSites prep exec l e g = (.error e1, g1)) :
    (∀ s ∈ l, ∃ e' g' g'', attempt prep exec s g' = (.error e', g'')) ∧
    (l = [] ∧ e1 = e ∨ ∃ pre s, l = pre ++ [s] ∧ ∃ g', attempt prep exec s g' = (.error e1, g1)) := by
  induction l generalizing e g with
  | nil => simp only [searchSites, Prod.mk.injEq, Except.error.injEq] at h; simp [h.1]
  | cons s ss ih =>
    rw [searchSites_cons] at h
    rcases ha : attempt prep exec s g with ⟨e2 | r1, g2⟩
    · rw [ha] at h
      obtain ⟨h1, h2⟩ := ih h
      refine ⟨?_, .inr ?_⟩
      · intro s' hs'
        rcases List.mem_cons.1 hs' with rfl | hs'
        · exact ⟨e2, g, g2, ha⟩
        · exact h1 s' hs'
      · rcases h2 with ⟨rfl, rfl⟩ | ⟨pre, s', rfl, g', h3⟩
        · simp only [searchSites, Prod.mk.injEq] at h
          exact ⟨[], s, rfl, g, by rw [ha, h.2]⟩
        · exact ⟨s :: pre, s', rfl, g', h3⟩
    · rw [ha] at h; simp at h

theorem searchSites26_error {prep : S → Except MoveFailure P} {exec : P → G → Except MoveFailure T × G}
    {l : List S} {e e1 : MoveFailure} {g g1 : G} (h : searchSites26 prep exec l e g = (.error e1, g1)) :
    (l = [] ∧ e1 = e) ∨
    (∃ pre s, l = pre ++ [s] ∧ prep s = .error e1 ∧ ∀ s' ∈ pre, ∃ e', prep s' = .error e') ∨
    (∃ pre s post p, l = pre ++ s :: post ∧ (∀ s' ∈ pre, ∃ e', prep s' = .error e') ∧ prep s = .ok p ∧
      exec p g = (.error e1, g1)) := by
  induction l generalizing e with
  | nil => simp only [searchSites26, Prod.mk.injEq, Except.error.injEq] at h; simp [h.1]
  | cons s ss ih =>
    unfold searchSites26 at h
    cases hp : prep s with
    | error e2 =>
      rw [hp] at h
      rcases ih h with ⟨rfl, rfl⟩ | ⟨pre, s', rfl, h1, h2⟩ | ⟨pre, s', post, p, rfl, h1, h2, h3⟩
      · exact .inr (.inl ⟨[], s, rfl, hp, by simp⟩)
      · refine .inr (.inl ⟨s :: pre, s', rfl, h1, ?_⟩)
        intro t ht
        rcases List.mem_cons.1 ht with rfl | ht
        · exact ⟨e2, hp⟩
        · exact h2 t ht
      · refine .inr (.inr ⟨s :: pre, s', post, p, rfl, ?_, h2, h3⟩)
        intro t ht
        rcases List.mem_cons.1 ht with rfl | ht
        · exact ⟨e2, hp⟩
        · exact h1 t ht
    | ok p =>
      rw [hp] at h
      exact .inr (.inr ⟨[], s, ss, p, rfl, by simp, hp, h⟩)

variable [LinearOrder V] {env env' : Env V G}

theorem attempt_ok {prep : S → Except MoveFailure P} {exec : P → G → Except MoveFailure T × G} {s : S} {g g' : G}
    {r : T} (h : attempt prep exec s g = (.ok r, g')) : ∃ p, prep s = .ok p ∧ exec p g = (.ok r, g') := by
  unfold attempt at h
  cases hp : prep s with
  | error e => rw [hp] at h; simp at h
  | ok p => rw [hp] at h; exact ⟨p, rfl, h⟩

/-- `do_*_move` succeeds if some raw site prepares and executes whatever the generator state. -/
theorem doMove_of_site (hl : env.Lawful) {K : Tri V} {mv : MoveType} (hmv : mv ≠ .twoSix) {s : Finset V}
    {p : Prepared V} (hs : s ∈ rawSites env K mv) (hp : prepare K mv s = .ok p)
    (he : ∀ g, ∃ K1, (execute env K p g).1 = .ok K1) (g : G) :
    ∃ K' g', doMove env mv K g = (.ok K', g') := by
  unfold doMove
  have hsh := hl.shuffle_perm (canonicalize (rawSites env K mv)) g
  rcases hr : env.shuffle (canonicalize (rawSites env K mv)) g with ⟨sites, g1⟩
  rw [hr] at hsh
  have hm : s ∈ sites := hsh.mem_iff.2 (mem_canonicalize.2 hs)
  dsimp only
  have key : ∃ K1 g2, searchSites (prepare K mv) (execute env K) sites .noCandidate g1 = (.ok K1, g2) := by
    rcases hq : searchSites (prepare K mv) (execute env K) sites .noCandidate g1 with ⟨e | K1, g2⟩
    · exfalso
      obtain ⟨e', g', g'', h1⟩ := (searchSites_error hq).1 s hm
      unfold attempt at h1
      rw [hp] at h1
      dsimp only at h1
      obtain ⟨K1, hK1⟩ := he g'
      rw [h1] at hK1
      simp at hK1
    · exact ⟨K1, g2, rfl⟩
  obtain ⟨K1, g2, hk⟩ := key
  cases mv <;> first | exact absurd rfl hmv | (simp only [hk]; exact ⟨_, _, rfl⟩)

theorem prepare_ne_noCandidate {K : Tri V} {mv : MoveType} {s : Finset V} :
    prepare K mv s ≠ .error .noCandidate := by
  intro h
  cases mv
  · simp only [prepare, Except.map] at h
    cases hq : prepareTwoThree K s with
    | ok m => rw [hq] at h; simp at h
    | error e =>
      rw [hq] at h; simp only [Except.error.injEq] at h; subst h
      unfold prepareTwoThree at hq
      split_ifs at hq
      · simp at hq
      · split at hq <;> simp at hq
      · simp at hq
  · simp only [prepare] at h
    split at h
    · simp only [Except.map] at h
      rename_i a b _
      cases hq : prepareThreeTwo K a b with
      | ok m => rw [hq] at h; simp at h
      | error e =>
        rw [hq] at h; simp only [Except.error.injEq] at h; subst h
        unfold prepareThreeTwo at hq
        split_ifs at hq <;> simp at hq
    · simp at h
  · simp only [prepare, Except.map] at h
    cases hq : prepareTwoSix K s with
    | ok m => rw [hq] at h; simp at h
    | error e =>
      rw [hq] at h; simp only [Except.error.injEq] at h; subst h
      unfold prepareTwoSix at hq
      split_ifs at hq
      · split at hq
        · simp at hq
        · split_ifs at hq; simp at hq
      · simp at hq
  · simp only [prepare] at h
    split at h
    · simp only [Except.map] at h
      rename_i a _
      cases hq : prepareSixTwo K a with
      | ok m => rw [hq] at h; simp at h
      | error e =>
        rw [hq] at h; simp only [Except.error.injEq] at h; subst h
        unfold prepareSixTwo at hq
        split_ifs at hq <;> simp at hq
    · simp at h
  · simp only [prepare] at h
    split at h
    · simp only [Except.map] at h
      rename_i a b _
      cases hq : prepareFourFour K a b with
      | ok m => rw [hq] at h; simp at h
      | error e =>
        rw [hq] at h; simp only [Except.error.injEq] at h; subst h
        unfold prepareFourFour at hq
        split_ifs at hq
        · simp at hq
        · split at hq
          · simp at hq
          · simp only at hq
            split at hq
            · split_ifs at hq <;> simp at hq
            · simp at hq
    · simp at h

theorem execute_ne_noCandidate {K : Tri V} {p : Prepared V} {g g' : G} :
    execute env K p g ≠ (.error .noCandidate, g') := by
  intro h
  cases p with
  | twoThree m =>
    simp only [execute, Prod.mk.injEq] at h
    replace h := h.1
    unfold executeTwoThree at h
    split_ifs at h
    · simp at h
    · split at h <;> simp at h
  | threeTwo m =>
    simp only [execute, Prod.mk.injEq] at h
    replace h := h.1
    unfold executeThreeTwo at h
    split_ifs at h
    · simp at h
    · split at h <;> simp at h
  | twoSix m =>
    simp only [execute, Prod.mk.injEq] at h
    replace h := h.1
    unfold executeTwoSix at h
    split_ifs at h
    · simp at h
    · simp only at h
      split at h
      · simp at h
      · split_ifs at h <;> simp at h
  | sixTwo v =>
    simp only [execute] at h
    unfold executeSixTwo at h
    split_ifs at h
    · simp only [Prod.mk.injEq] at h
      replace h := h.1
      split at h
      · simp at h
      · split_ifs at h <;> simp at h
    · simp at h
  | fourFour m =>
    simp only [execute, Prod.mk.injEq] at h
    replace h := h.1
    unfold executeFourFour at h
    split_ifs at h
    · simp at h
    · simp only at h
      split at h
      · simp at h
      · split at h
        · simp at h
        · split_ifs at h
          · simp at h
          · split at h
            · simp at h
            · split_ifs at h <;> simp at h

end CDT

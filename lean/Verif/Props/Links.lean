/-
C100: the universe stays a connected manifold, and so do its slices.
-/
import Verif.Lemmas.Links
import Verif.Props.Workshop
import Verif.Fixture.Sphere

namespace CDT.Props
open CDT Spec Moves

section Generic
variable {V : Type} [DecidableEq V] {d : ℕ} {inf : V} {S S' : Finset (Finset V)}

theorem isComplex_simplex (T : Finset V) : IsComplex T.ssubsets := fun _ hs _ hr =>
  Finset.mem_ssubsets.2 (lt_of_le_of_lt hr (Finset.mem_ssubsets.1 hs))

/-- Bistellar moves keep spheres, manifolds and connectedness, in every dimension. -/
theorem C100_moves (hS : IsComplex S) (h : PachnerEquivalent d inf S S') :
    IsComplex S' ∧ (IsSphere d S → IsSphere d S') ∧
    (∀ e, d = e + 1 → IsManifold e S → IsManifold e S') ∧ (2 ≤ d → IsConnected S → IsConnected S') := by
  induction h with
  | refl => exact ⟨hS, id, fun _ _ => id, fun _ => id⟩
  | tail _ hs ih =>
    obtain ⟨A, B, -, hb⟩ := hs
    obtain ⟨h1, h2, h3, h4⟩ := ih
    refine ⟨hb.complex h1, fun k => (h2 k).move hb, fun e he k => ?_, fun hd k => ?_⟩
    · subst he
      exact hb.manifold h1 (h3 e rfl k)
    · obtain ⟨n, rfl⟩ : ∃ n, d = n + 2 := ⟨d - 2, by omega⟩
      exact hb.connected h1 (h4 hd k)

theorem pachner_back (hS : IsComplex S) (h : PachnerEquivalent d inf S S') :
    IsComplex S' ∧ PachnerEquivalent d inf S' S := by
  induction h with
  | refl => exact ⟨hS, .refl⟩
  | tail _ hs ih =>
    obtain ⟨A, B, hi, hb⟩ := hs
    exact ⟨hb.complex ih.1, .head ⟨B, A, by rwa [Finset.union_comm], hb.symm ih.1⟩ ih.2⟩

/-- And, moves being reversible, exactly when the one is a sphere, a manifold or connected is the other. -/
theorem C100_exactly (hS : IsComplex S) (h : PachnerEquivalent d inf S S') :
    (IsSphere d S' ↔ IsSphere d S) ∧ (∀ e, d = e + 1 → (IsManifold e S' ↔ IsManifold e S)) ∧
    (2 ≤ d → (IsConnected S' ↔ IsConnected S)) := by
  obtain ⟨hS', hr⟩ := pachner_back hS h
  obtain ⟨-, a2, a3, a4⟩ := C100_moves hS h
  obtain ⟨-, b2, b3, b4⟩ := C100_moves hS' hr
  exact ⟨⟨b2, a2⟩, fun e he => ⟨b3 e he, a3 e he⟩, fun hd => ⟨b4 hd, a4 hd⟩⟩

/-- The boundary of a simplex: every link is the boundary of a simplex. -/
theorem simplex_manifold {T : Finset V} (hT : T.card = d + 3) : IsManifold d T.ssubsets := by
  intro v hv
  have hvT : v ∈ T := (Finset.mem_ssubsets.1 hv).1 (Finset.mem_singleton_self v)
  refine ⟨T.erase v, by rw [Finset.card_erase_of_mem hvT]; omega, ?_⟩
  have : link v T.ssubsets = (T.erase v).ssubsets := by
    ext s
    rw [mem_link, Finset.mem_ssubsets, Finset.mem_ssubsets]
    constructor
    · rintro ⟨k1, k2⟩
      refine (Finset.ssubset_iff_subset_ne).2 ⟨fun x hx => Finset.mem_erase.2
        ⟨fun e => k1 (e ▸ hx), k2.1 (Finset.mem_insert_of_mem hx)⟩, fun e => k2.2 ?_⟩
      rw [e, Finset.insert_erase hvT]
    · intro k
      have k1 : v ∉ s := fun j => Finset.notMem_erase v T (k.1 j)
      refine ⟨k1, (Finset.ssubset_iff_subset_ne).2 ⟨Finset.insert_subset hvT
        (k.1.trans (Finset.erase_subset v T)), fun e => k.2 ?_⟩⟩
      rw [← e, Finset.erase_insert k1]
  rw [this]

theorem simplex_connected {T : Finset V} (hT : 3 ≤ T.card) : IsConnected T.ssubsets := by
  have hmem : ∀ s : Finset V, s ⊆ T → s.card < 3 → s ∈ T.ssubsets := fun s h1 h2 =>
    Finset.mem_ssubsets.2 (Finset.ssubset_iff_subset_ne.2 ⟨h1, fun e => by rw [e] at h2; omega⟩)
  have hin : ∀ v, {v} ∈ T.ssubsets → v ∈ T := fun v hv =>
    (Finset.mem_ssubsets.1 hv).1 (Finset.mem_singleton_self v)
  intro W hW
  obtain ⟨u, hu⟩ : T.Nonempty := Finset.card_pos.1 (by omega)
  have all : ∀ v, {v} ∈ T.ssubsets → (u ∈ W ↔ v ∈ W) := fun v hv => hW u v (hmem _ (by
    intro x hx
    rcases Finset.mem_insert.1 hx with rfl | hx
    · exact hu
    · rw [Finset.mem_singleton.1 hx]; exact hin v hv) (lt_of_le_of_lt Finset.card_le_two (by omega)))
  by_cases k : u ∈ W
  · exact .inl fun v hv => (all v hv).1 k
  · exact .inr fun v hv j => k ((all v hv).2 j)

theorem simplex_euler {T : Finset V} (hT : T.card = d + 2) : eulerOf T.ssubsets = 1 + (-1) ^ d := by
  have hne : T.Nonempty := Finset.card_pos.1 (by omega)
  have h0 := Finset.sum_powerset_neg_one_pow_card_of_nonempty hne
  have e1 : T.powerset = insert T (insert ∅ (T.ssubsets.filter (·.Nonempty))) := by
    ext s
    simp only [Finset.mem_powerset, Finset.mem_insert, Finset.mem_filter, Finset.mem_ssubsets]
    constructor
    · intro k
      by_cases h1 : s = T
      · exact .inl h1
      · rcases Finset.eq_empty_or_nonempty s with h2 | h2
        · exact .inr (.inl h2)
        · exact .inr (.inr ⟨Finset.ssubset_iff_subset_ne.2 ⟨k, h1⟩, h2⟩)
    · rintro (rfl | rfl | k)
      · exact subset_rfl
      · exact Finset.empty_subset T
      · exact k.1.1
  have n1 : T ∉ insert ∅ (T.ssubsets.filter (·.Nonempty)) := by
    simp [hne.ne_empty]
  have n2 : ∅ ∉ T.ssubsets.filter (·.Nonempty) := by simp
  rw [e1, Finset.sum_insert n1, Finset.sum_insert n2, hT] at h0
  rw [eulerOf_eq]
  simp only [Finset.card_empty, pow_zero, pow_add] at h0
  norm_num at h0
  linarith

/-- The Euler characteristic of a sphere. -/
theorem C100_euler (h : IsSphere d S) : eulerOf S = 1 + (-1) ^ d := by
  obtain ⟨T, hT, h⟩ := h
  have : IsComplex S ∧ eulerOf S = eulerOf T.ssubsets := by
    induction h with
    | refl => exact ⟨isComplex_simplex T, rfl⟩
    | tail _ hs ih =>
      obtain ⟨A, B, hb⟩ := hs
      exact ⟨hb.complex ih.1, (hb.euler ih.1).trans ih.2⟩
  rw [this.2, simplex_euler hT]

/-- A sphere is a manifold, and connected from dimension two on. -/
theorem C100_spheres (h : IsSphere d S) :
    IsComplex S ∧ (∀ e, d = e + 1 → IsManifold e S) ∧ (2 ≤ d → IsConnected S) := by
  obtain ⟨T, hT, h⟩ := h
  induction h with
  | refl => exact ⟨isComplex_simplex T, fun e he => simplex_manifold (by omega), fun hd => simplex_connected (by omega)⟩
  | tail _ hs ih =>
    obtain ⟨A, B, hb⟩ := hs
    obtain ⟨h1, h3, h4⟩ := ih
    refine ⟨hb.complex h1, fun e he => ?_, fun hd => ?_⟩
    · subst he
      exact hb.manifold h1 (h3 e rfl)
    · obtain ⟨n, rfl⟩ : ∃ n, d = n + 2 := ⟨d - 2, by omega⟩
      exact hb.connected h1 (h4 hd)

end Generic

variable {V : Type} [LinearOrder V]

/-- `K'` is a connected manifold, or a sphere, exactly when `K` is, and so is its slice at every time. -/
structure SameShape (K K' : Tri V) : Prop where
  manifold : IsManifold 2 (faces K'.cells) ↔ IsManifold 2 (faces K.cells)
  connected : IsConnected (faces K'.cells) ↔ IsConnected (faces K.cells)
  sphere : IsSphere 3 (faces K'.cells) ↔ IsSphere 3 (faces K.cells)
  surface : ∀ t, IsManifold 1 (sliceAt K'.inf K'.time K'.cells t) ↔ IsManifold 1 (sliceAt K.inf K.time K.cells t)
  slice : ∀ t, IsConnected (sliceAt K'.inf K'.time K'.cells t) ↔ IsConnected (sliceAt K.inf K.time K.cells t)
  round : ∀ t, IsSphere 2 (sliceAt K'.inf K'.time K'.cells t) ↔ IsSphere 2 (sliceAt K.inf K.time K.cells t)

theorem SameTopology.shape {K K' : Tri V} (h : SameTopology K K') : SameShape K K' := by
  obtain ⟨a1, a2, a3⟩ := C100_exactly (isComplex_faces K.cells) h.whole
  have b := fun t => C100_exactly (isComplex_slice K.inf K.time K.cells t) (h.slices t)
  exact ⟨a2 2 rfl, a3 (by omega), a1, fun t => (b t).2.1 1 rfl, fun t => (b t).2.2 (by omega), fun t => (b t).1⟩

/-- C100: a connected manifold stays one under every history of successful moves; no slice falls apart. -/
theorem C100_history {G : Type} {env : Env V G} (hl : env.Lawful) {K K' : Tri V} (hK : Sound env K)
    (h : Relation.ReflTransGen (Step env) K K') : SameShape K K' :=
  have h1 := C84_history hl hK h
  SameTopology.shape ⟨h1.1, h1.2, fun t => (C85_history hl hK h t).1⟩

section Programs
variable {S T : Type} {base : Host (Mfld V) S Mp T} {env : Env V (Random S)} {R : Rounding}
  {drawMove : Random S → Fin 5 × Random S} {drawTrial : Random S → LD × Random S} {value : BitVec 64 → ℚ}
  {snapshot : Tri V → T} {start : Mfld V} {held : List (Mfld V)} {cmds : List (Command (Mfld V))}

/-- C100: so does every manifold a program gets from any mixture of moves, commands, unconditional runs
and Metropolis calls. -/
theorem C100_programs (hl : env.Lawful) (hs : Fit env start)
    (h : Workshop (assembled base env R drawMove drawTrial value snapshot) env (OrdinaryArgs env R drawTrial)
      (TameState env) start held cmds) :
    (∀ m ∈ held, SameShape start.tri m.tri) ∧ ∀ c ∈ cmds, SameShape start.tri c.manifold.tri := by
  obtain ⟨h1, h2⟩ := C99_in_order hl hs h
  exact ⟨fun m hm => (h1 m hm).2.shape, fun c hc => (h2 c hc).2.shape⟩

end Programs

/-! ### Non-vacuity -/

namespace LinksExample
open Fixture

def flipped (S : Finset (Finset ℕ)) (m : Finset ℕ × Finset ℕ) : Finset (Finset ℕ) :=
  (S \ joinBoundary m.1 m.2) ∪ joinBoundary m.2 m.1

/-- The moves are possible one after the other. -/
def playable (d : ℕ) : List (Finset ℕ × Finset ℕ) → Finset (Finset ℕ) → Bool
  | [], _ => true
  | m :: ms, S => decide (m.1.Nonempty) && decide (m.2.Nonempty) && decide (Disjoint m.1 m.2) &&
      decide (m.1.card + m.2.card = d + 2) && decide (S.filter (m.1 ⊆ ·) = joinBoundary m.1 m.2) &&
      decide (m.2 ∉ S) && playable d ms (flipped S m)

theorem played {d : ℕ} : ∀ {ms : List (Finset ℕ × Finset ℕ)} {S : Finset (Finset ℕ)}, playable d ms S = true →
    Relation.ReflTransGen (fun L L' => ∃ A B, Bistellar d A B L L') S (ms.foldl flipped S)
  | [], _, _ => .refl
  | m :: ms, S, h => by
    simp only [playable, Bool.and_eq_true, decide_eq_true_eq] at h
    obtain ⟨⟨⟨⟨⟨⟨h1, h2⟩, h3⟩, h4⟩, h5⟩, h6⟩, h7⟩ := h
    exact .head ⟨m.1, m.2, ⟨h1, h2⟩, h3, h4, h5, h6, rfl⟩ (played h7)

/-- From the boundary of a 4-simplex to the small universe of `Fixture.onion`. -/
def growth : List (Finset ℕ × Finset ℕ) :=
  [({12, 23, 33, 43}, {22}), ({13, 23, 33, 43}, {0}), ({12, 22, 33, 43}, {32}), ({12, 22, 32, 43}, {42}),
    ({12, 22, 32, 42}, {51})]

theorem onion_sphere : IsSphere 3 (faces onion.cells) := by
  refine ⟨{12, 13, 23, 33, 43}, by decide, ?_⟩
  have h := played (d := 3) (ms := growth) (S := ({12, 13, 23, 33, 43} : Finset ℕ).ssubsets) (by decide +kernel)
  rwa [show growth.foldl flipped ({12, 13, 23, 33, 43} : Finset ℕ).ssubsets = faces onion.cells by decide +kernel] at h

theorem onion_round : IsSphere 2 (sliceAt onion.inf onion.time onion.cells 2) :=
  ⟨{12, 22, 32, 42}, by decide, by
    rw [show sliceAt onion.inf onion.time onion.cells 2 = ({12, 22, 32, 42} : Finset ℕ).ssubsets by decide +kernel]⟩

/-- The small universe is a sphere with a sphere in it, and after a (2,6) move it is one still: another
triangulation, connected, every vertex surrounded by a sphere. -/
example : ∃ K', Step env onion K' ∧ (∃ t, sliceAt K'.inf K'.time K'.cells t ≠ sliceAt onion.inf onion.time onion.cells t) ∧
    IsSphere 3 (faces K'.cells) ∧ IsManifold 2 (faces K'.cells) ∧ IsConnected (faces K'.cells) ∧
    IsManifold 1 (sliceAt K'.inf K'.time K'.cells 2) ∧ IsConnected (sliceAt K'.inf K'.time K'.cells 2) := by
  obtain ⟨K', h⟩ := returnsOnion
  have ha := fixture_accepts soundOnion freshOnion h
  have hst : Step env onion K' := .twoSix freshOnion h ha
  have hsh := C100_history lawful soundOnion (.single hst)
  obtain ⟨-, m1, c1⟩ := C100_spheres onion_sphere
  obtain ⟨-, m2, c2⟩ := C100_spheres onion_round
  obtain ⟨t, x, y, z, m, -, -, hf⟩ := C85_two_six lawful soundOnion freshOnion h ha
  refine ⟨K', hst, ⟨t, fun e => hf.flip.absent ?_⟩, hsh.sphere.2 onion_sphere, hsh.manifold.2 (m1 2 rfl),
    hsh.connected.2 (c1 (by omega)), (hsh.surface 2).2 (m2 1 rfl), (hsh.slice 2).2 (c2 le_rfl)⟩
  rw [← e, hf.flip.mem]
  exact .inr ((mem_joinBoundary' hf.flip.disjoint.symm).2 ⟨subset_rfl, Finset.subset_union_left, fun k => by
    have hx : x ∈ ({x, y, z} : Finset ℕ) := by simp
    exact Finset.disjoint_left.1 hf.flip.disjoint hx (k hx)⟩)

/-- Not every complex is a manifold, or connected: a triangle has a boundary, and two spheres lie apart. -/
example : ¬ IsManifold 1 ({1, 2, 3} : Finset ℕ).powerset := by
  intro h
  have h := C100_euler (h 1 (by decide +kernel))
  rw [show eulerOf (link 1 ({1, 2, 3} : Finset ℕ).powerset) = 1 by decide +kernel] at h
  norm_num at h

example : ¬ IsConnected (({1, 2, 3, 4} : Finset ℕ).ssubsets ∪ ({5, 6, 7, 8} : Finset ℕ).ssubsets) := by
  intro h
  have h := h {v | v ≤ 4} (by
    have : ∀ s ∈ ({1, 2, 3, 4} : Finset ℕ).ssubsets ∪ ({5, 6, 7, 8} : Finset ℕ).ssubsets, ∀ u ∈ s, ∀ v ∈ s,
        (u ≤ 4 ↔ v ≤ 4) := by decide +kernel
    exact fun u v k => this _ k u (by simp) v (by simp))
  rcases h with h | h
  · exact absurd (h 5 (by decide +kernel)) (by simp)
  · exact absurd (h 1 (by decide +kernel)) (by simp)

end LinksExample

end CDT.Props

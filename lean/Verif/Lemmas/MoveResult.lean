/-
Effect of the public move functions on sound manifolds, in terms of cavity patterns.
-/
import Verif.Spec.Sound
import Verif.Lemmas.Shape
import Verif.Lemmas.Search
import Verif.Lemmas.Congr
import Verif.Lemmas.Manifold
import Verif.Lemmas.Site62
import Verif.Lemmas.Site32
import Verif.Props.CheckMove

namespace CDT
open Spec Cavity Moves

variable {V G : Type} [LinearOrder V] {env : Env V G}

theorem Sound.correct {K : Tri V} (h : Sound env K) : ∀ c ∈ K.finiteCells, K.typeCorrect c = true := by
  intro c hc
  obtain ⟨h1, h2⟩ := mem_finiteCells.1 hc
  exact (typeCorrect_iff (h.closed.1 c h1)).2 (h.labels c h1 h2)

theorem Sound.causal {K : Tri V} (h : Sound env K) : Causal K.inf K.time K.cells :=
  causal_of_correct h.closed.1 h.correct

theorem moveReturns_ok (hl : env.Lawful) {mv : MoveType} {K K' : Tri V} (h : MoveReturns env mv K K') :
    ∃ s ∈ rawSites env K mv, ∃ p K1 g1 g2, prepare K mv s = .ok p ∧ execute env K p g1 = (.ok K1, g2) ∧
      K' = makeManifold env K1 := by
  obtain ⟨g, g', h | h⟩ := h
  · exact doMove_ok hl h
  · exact propose_ok hl h

theorem makeManifold_cells (K : Tri V) : (makeManifold env K).cells = K.cells := rfl
theorem makeManifold_inf (K : Tri V) : (makeManifold env K).inf = K.inf := rfl
theorem makeManifold_time {K : Tri V} {v : V} (h : v ≠ K.inf) :
    (makeManifold env K).time v = env.label v := by
  simp [makeManifold, relabel, h]
theorem makeManifold_info {K : Tri V} {c : Finset V} (h : K.inf ∈ c) :
    (makeManifold env K).info c = K.info c := by
  simp [makeManifold, relabel, h]

theorem makeManifold_labels {K : Tri V} (h4 : ∀ c ∈ K.cells, c.card = 4)
    (h : Causal K.inf (makeManifold env K).time K.cells) :
    ∀ c ∈ K.cells, K.inf ∉ c → ((makeManifold env K).info c = 31 ∧ HasType (makeManifold env K).time 3 1 c) ∨
      ((makeManifold env K).info c = 22 ∧ HasType (makeManifold env K).time 2 2 c) ∨
      ((makeManifold env K).info c = 13 ∧ HasType (makeManifold env K).time 1 3 c) := by
  intro c hc hi
  have := correct_relabel (K := { K with time := fun v => if v = K.inf then K.time v else env.label v }) h4 h c
    (mem_finiteCells.2 ⟨hc, hi⟩)
  exact (typeCorrect_iff (h4 c hc)).1 this

/-- The sound state after rebuilding a complex whose finite vertices were already there. -/
theorem makeManifold_same {K K1 : Tri V} (h : Sound env K) (hinf : K1.inf = K.inf)
    (hv : ∀ v ∈ vertices K1.cells, v ∈ vertices K.cells) :
    ∀ v ∈ vertices K1.cells, v ≠ K.inf → (makeManifold env K1).time v = K.time v := by
  intro v hm hne
  rw [makeManifold_time (by rw [hinf]; exact hne), h.times v (hv v hm) hne]

theorem vertices_replace {n : ℕ} {p : Pattern n} {inf : V} {time : V → ℤ} {K : Finset (Finset V)}
    {f : Fin n ↪ V} {t : ℤ} (h : Placed p inf time K f t) (hsub : vertices p.N ⊆ vertices p.O) :
    ∀ v ∈ vertices (replace p K f), v ∈ vertices K := by
  intro v hv
  obtain ⟨c, hc, hvc⟩ := mem_vertices.1 hv
  rcases mem_replace.1 hc with ⟨hk, _⟩ | hn
  · exact mem_vertices.2 ⟨c, hk, hvc⟩
  · obtain ⟨d, hd, rfl⟩ := mem_place.1 hn
    obtain ⟨i, hi, rfl⟩ := Finset.mem_map.1 hvc
    obtain ⟨e, he, hie⟩ := mem_vertices.1 (hsub (mem_vertices.2 ⟨d, hd, hi⟩))
    exact mem_vertices.2 ⟨e.map f, h.old e he, Finset.mem_map_of_mem f hie⟩

/-- What every successful move does to a sound manifold, once the new complex is known to be a
placed replacement with the rebuilt time function. -/
structure Effect (env : Env V G) (K K' : Tri V) (δ : Census) : Prop where
  inf : K'.inf = K.inf
  sound : Sound env K'
  census : census K'.inf K'.time K'.cells = Spec.census K.inf K.time K.cells + δ
  slices : slices K'.inf K'.time K'.cells = Spec.slices K.inf K.time K.cells
  boundary : boundary K'.inf K'.cells = Spec.boundary K.inf K.cells

theorem effect_of_placed {n : ℕ} {p : Pattern n} (g : p.Good) (tm : p.Timed) {K K1 : Tri V} (hK : Sound env K)
    {f : Fin n ↪ V} {t : ℤ} (h : Placed p K.inf (makeManifold env K1).time K.cells f t)
    (hc : K1.cells = replace p K.cells f) (hinf : K1.inf = K.inf)
    (hinfo : ∀ c, K.inf ∈ c → K1.info c = K.info c) :
    Effect env K (makeManifold env K1) p.delta := by
  have same : ∀ v ∈ vertices K.cells, v ≠ K.inf → (makeManifold env K1).time v = K.time v := by
    intro v hv hne
    rw [makeManifold_time (by rw [hinf]; exact hne), hK.times v hv hne]
  have hcl : Closed K1.cells := by rw [hc]; exact closed_replace g h hK.closed
  have hca : Causal K1.inf (makeManifold env K1).time K1.cells := by
    rw [hinf, hc]; exact causal_replace tm h ((causal_congr same).2 hK.causal)
  refine ⟨hinf, ⟨hcl, ?_, ?_, ?_⟩, ?_, ?_, ?_⟩
  · exact makeManifold_labels hcl.1 hca
  · intro v _ hne
    exact makeManifold_time hne
  · intro c hcm hi
    have hi' : K.inf ∈ c := by rw [← hinf]; exact hi
    rw [makeManifold_info (K := K1) hi, hinfo c hi']
    have hcm : c ∈ replace p K.cells f := by rw [← hc]; exact hcm
    rcases mem_replace.1 hcm with ⟨hk, _⟩ | hn
    · exact hK.quiet c hk hi'
    · obtain ⟨d, _, rfl⟩ := mem_place.1 hn
      exact absurd hi' (not_mem_map h d)
  · show census K1.inf _ K1.cells = _
    rw [hinf, hc, census_replace g h, census_congr same]
  · show slices K1.inf _ K1.cells = _
    rw [hinf, hc, slices_replace tm h, slices_congr same]
  · show boundary K1.inf K1.cells = _
    rw [hinf, hc, boundary_replace h]

/-- Times that agree on the pattern vertices do not matter for the placement. -/
theorem placed_retime {n : ℕ} {p : Pattern n} {inf : V} {time time' : V → ℤ} {K : Finset (Finset V)}
    {f : Fin n ↪ V} {t : ℤ} (h : Placed p inf time K f t) (ht : ∀ i, time' (f i) = time (f i)) :
    Placed p inf time' K f t :=
  ⟨h.old, h.starOld, h.fresh, h.fin, fun i => by rw [ht, h.times]⟩

theorem placed_rebuild {n : ℕ} {p : Pattern n} {K K1 : Tri V} (hK : Sound env K) {f : Fin n ↪ V} {t : ℤ}
    (h : Placed p K.inf K.time K.cells f t) (hinf : K1.inf = K.inf)
    (hcov : ∀ i, i ∈ vertices p.O) : Placed p K.inf (makeManifold env K1).time K.cells f t := by
  refine placed_retime h (fun i => ?_)
  obtain ⟨c, hc, hic⟩ := mem_vertices.1 (hcov i)
  rw [makeManifold_time (by rw [hinf]; exact h.fin i),
    hK.times _ (mem_vertices.2 ⟨_, h.old c hc, Finset.mem_map_of_mem f hic⟩) (h.fin i)]

/-! ### The five moves -/

theorem result23 (hl : env.Lawful) {K K' : Tri V} (hK : Sound env K)
    (h : MoveReturns env .twoThree K K') :
    ∃ p f t, (p = p23up ∨ p = p23down) ∧ Placed p K.inf K.time K.cells f t ∧
      K'.cells = replace p K.cells f ∧ Effect env K K' p.delta := by
  obtain ⟨s, hs, pr, K1, g1, g2, hp, he, rfl⟩ := moveReturns_ok hl h
  simp only [prepare, Except.map] at hp
  cases hq : prepareTwoThree K s with
  | error e => rw [hq] at hp; simp at hp
  | ok m =>
    rw [hq] at hp
    injection hp with hp
    subst hp
    simp only [execute, Prod.mk.injEq] at he
    obtain ⟨p, f, t, hpp, hpl, hc, hi, ht, hinfo, _⟩ := site23 hK.closed hq he.1
    refine ⟨p, f, t, hpp, hpl, hc, ?_⟩
    have g : p.Good := by rcases hpp with rfl | rfl; exacts [good23up, good23down]
    have tm : p.Timed := by rcases hpp with rfl | rfl; exacts [timed23up, timed23down]
    refine effect_of_placed g tm hK (placed_rebuild hK hpl hi ?_) hc hi (fun c _ => by rw [hinfo])
    rcases hpp with rfl | rfl <;> decide +kernel

theorem result32 (hl : env.Lawful) {K K' : Tri V} (hK : Sound env K)
    (h : MoveReturns env .threeTwo K K') :
    ∃ p f t, (p = p23up ∨ p = p23down) ∧ Placed p.rev K.inf K.time K.cells f t ∧
      K'.cells = replace p.rev K.cells f ∧ Effect env K K' p.rev.delta := by
  obtain ⟨s, hs, pr, K1, g1, g2, hp, he, rfl⟩ := moveReturns_ok hl h
  simp only [prepare] at hp
  rcases hcp : canonicalPoints s with _ | ⟨a, _ | ⟨b, _ | ⟨c, l⟩⟩⟩ <;> rw [hcp] at hp <;>
    try (simp at hp; done)
  simp only [Except.map] at hp
  cases hq : prepareThreeTwo K a b with
  | error e => rw [hq] at hp; simp at hp
  | ok m =>
    rw [hq] at hp
    injection hp with hp
    subst hp
    simp only [execute, Prod.mk.injEq] at he
    obtain ⟨p, f, t, hpp, hpl, hc, hi, ht, hinfo, _⟩ := site32 hK.closed hq he.1
    refine ⟨p, f, t, hpp, hpl, hc, ?_⟩
    have g : p.rev.Good := by rcases hpp with rfl | rfl; exacts [good23upR, good23downR]
    have tm : p.rev.Timed := by rcases hpp with rfl | rfl; exacts [timed23upR, timed23downR]
    refine effect_of_placed g tm hK (placed_rebuild hK hpl hi ?_) hc hi (fun c _ => by rw [hinfo])
    rcases hpp with rfl | rfl <;> decide +kernel

theorem result62 (hl : env.Lawful) {K K' : Tri V} (hK : Sound env K)
    (h : MoveReturns env .sixTwo K K') :
    ∃ f t, Placed (p26 0).rev K.inf K.time K.cells f t ∧
      K'.cells = replace (p26 0).rev K.cells f ∧ Effect env K K' (p26 0).rev.delta := by
  obtain ⟨s, hs, pr, K1, g1, g2, hp, he, rfl⟩ := moveReturns_ok hl h
  simp only [prepare] at hp
  rcases hcp : canonicalPoints s with _ | ⟨a, _ | ⟨b, l⟩⟩ <;> rw [hcp] at hp <;>
    try (simp at hp; done)
  simp only [Except.map] at hp
  cases hq : prepareSixTwo K a with
  | error e => rw [hq] at hp; simp at hp
  | ok m =>
    rw [hq] at hp
    injection hp with hp
    subst hp
    simp only [execute] at he
    obtain ⟨f, t, hpl, hc, hi, ht, hinfo, _⟩ := site62 hl hK.closed hq he
    refine ⟨f, t, hpl, hc, ?_⟩
    refine effect_of_placed good62 timed62 hK (placed_rebuild hK hpl hi ?_) hc hi hinfo
    decide +kernel

theorem result44 (hl : env.Lawful) {K K' : Tri V} (hK : Sound env K)
    (h : MoveReturns env .fourFour K K') :
    ∃ f t, Placed p44 K.inf K.time K.cells f t ∧
      K'.cells = replace p44 K.cells f ∧ Effect env K K' p44.delta := by
  obtain ⟨s, hs, pr, K1, g1, g2, hp, he, rfl⟩ := moveReturns_ok hl h
  simp only [prepare] at hp
  rcases hcp : canonicalPoints s with _ | ⟨a, _ | ⟨b, _ | ⟨c, l⟩⟩⟩ <;> rw [hcp] at hp <;>
    try (simp at hp; done)
  simp only [Except.map] at hp
  cases hq : prepareFourFour K a b with
  | error e => rw [hq] at hp; simp at hp
  | ok m =>
    rw [hq] at hp
    injection hp with hp
    subst hp
    simp only [execute, Prod.mk.injEq] at he
    obtain ⟨f, t, hpl, hc, hi, ht, hinfo, _⟩ := site44 hK.closed hq he.1
    refine ⟨f, t, hpl, hc, ?_⟩
    refine effect_of_placed good44 timed44 hK (placed_rebuild hK hpl hi ?_) hc hi hinfo
    decide +kernel

/-- The topological part of (2,6), whatever label the new vertex receives. -/
theorem result26 (hl : env.Lawful) {K K' : Tri V} (hK : Sound env K) (hfr : FreshCentroids env K)
    (h : MoveReturns env .twoSix K K') :
    ∃ f t d, Placed (p26 d) K.inf K'.time K.cells f t ∧
      K'.cells = replace (p26 d) K.cells f ∧ env.label (f 5) = t + d ∧ f 5 = env.centroid {f 0, f 1, f 2} ∧
      K'.inf = K.inf ∧
      (∃ K1 : Tri V, K' = makeManifold env K1 ∧ K1.inf = K.inf ∧ (∀ c, K.inf ∈ c → K1.info c = K.info c)) := by
  obtain ⟨s, hs, pr, K1, g1, g2, hp, he, rfl⟩ := moveReturns_ok hl h
  simp only [prepare, Except.map] at hp
  cases hq : prepareTwoSix K s with
  | error e => rw [hq] at hp; simp at hp
  | ok m =>
    rw [hq] at hp
    injection hp with hp
    subst hp
    simp only [execute, Prod.mk.injEq] at he
    have hsf : K.inf ∉ s := by
      have : s ∈ cellSites env K .oneThree := hs
      simp only [cellSites, List.mem_filter, hl.mem_iter] at this
      exact (mem_finiteCells.1 this.1).2
    obtain ⟨x, y, z, w, t, d8, d9, d10, d5, d6, d7, d2, d3, d4, d1, h1, hc, e, ee, _⟩ :=
      site26_shape hK.closed hK.quiet hsf hq
    have hF : s.erase m.2 ∈ faces K.cells := mem_faces.2 ⟨s, hc, Finset.erase_subset _ _⟩
    have h3 : (s.erase m.2).card = 3 := by
      rw [Finset.card_erase_of_mem (by rw [e]; simp), hK.closed.1 s hc]
    obtain ⟨hn1, hn2⟩ := hfr _ hF h3 (fun hx => hsf (Finset.mem_of_mem_erase hx))
    obtain ⟨f, t, hf5, hpl, hcells, hinf, hinfo, ht5, htv, hF'⟩ :=
      site26 (env := env) hK.closed hK.quiet hsf hq he.1 hn1 hn2
    refine ⟨f, t, env.label (f 5) - t, ?_, hcells, by omega, by rw [hF', hf5], hinf, K1, rfl, hinf,
      fun c _ => by rw [hinfo]⟩
    -- the rebuilt times agree with the old ones on old finite vertices; at infinity they are irrelevant
    have h5 : f 5 ≠ K.inf := by rw [hf5]; exact hn2
    have base := hpl (fun v => if v = K.inf then K.time v else
      if v = f 5 then env.label (f 5) else K.time v) (env.label (f 5) - t)
      (fun v hv => by
        by_cases h1 : v = K.inf
        · simp [h1]
        · have : v ≠ f 5 := fun h => hn1 (by rw [← hf5, ← h]; exact hv)
          simp [h1, this])
      (by simp [h5])
    refine placed_retime base (fun i => ?_)
    have hi : f i ≠ K.inf := base.fin i
    rw [makeManifold_time (by rw [hinf]; exact hi)]
    simp only [hi, if_false]
    by_cases h6 : f i = f 5
    · rw [if_pos h6, h6]
    · rw [if_neg h6]
      have hi5 : i ≠ 5 := fun h => h6 (by rw [h])
      have : i ∈ vertices (p26 (env.label (f 5) - t)).O := by
        have hall : ∀ i : Fin 6, i ≠ 5 → i ∈ vertices (p26 0).O := by decide +kernel
        exact hall i hi5
      obtain ⟨c, hc, hic⟩ := mem_vertices.1 this
      rw [hK.times _ (mem_vertices.2 ⟨_, base.old c hc, Finset.mem_map_of_mem f hic⟩) hi]

end CDT

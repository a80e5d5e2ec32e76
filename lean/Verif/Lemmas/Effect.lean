/-
From the effect of a move to the published contract and the invariants.
-/
import Verif.Lemmas.MoveResult

namespace CDT
open Spec Cavity Moves

variable {V G : Type} [LinearOrder V] {env : Env V G}

theorem Census.add_def (a b : Census) : a + b = ⟨a.N0 + b.N0, a.N1SL + b.N1SL, a.N1TL + b.N1TL, a.N2 + b.N2,
  a.N31 + b.N31, a.N22 + b.N22, a.N13 + b.N13, a.N3 + b.N3⟩ := rfl

theorem euler_census (inf : V) (time : V → ℤ) (K : Finset (Finset V)) :
    euler inf K = (census inf time K).N0 - ((census inf time K).N1SL + (census inf time K).N1TL)
      + (census inf time K).N2 - (census inf time K).N3 := by
  have : count inf K (fun s => s.card = 2)
      = count inf K (fun s => s.card = 2 ∧ Spacelike time s) + count inf K (fun s => s.card = 2 ∧ ¬ Spacelike time s) := by
    unfold count
    rw [← Nat.cast_add]
    congr 1
    rw [← Finset.card_filter_add_card_filter_not (s := ((faces K).filter (inf ∉ ·)).filter (fun s => s.card = 2))
      (Spacelike time)]
    simp only [Finset.filter_filter, and_assoc]
  show count inf K (fun s => s.card = 1) - count inf K (fun s => s.card = 2) + count inf K (fun s => s.card = 3)
    - count inf K (fun s => s.card = 4) = count inf K (fun s => s.card = 1) - (count inf K _ + count inf K _)
    + count inf K (fun s => s.card = 3) - count inf K (fun s => s.card = 4)
  rw [this]

/-- The published row as a census difference. -/
def deltaCensus (d : Delta) : Census := ⟨d.dN0, d.dN1SL, d.dN1TL, d.dN2, d.dN31, d.dN22, d.dN13, d.dN3⟩

theorem vertices_eq_verts (K : Tri V) : vertices K.cells = K.verts := rfl

theorem slices_bounds (hl : env.Lawful) {K K' : Tri V} {cs cs' : Caches V}
    (hb : buildCaches env K = .ok cs) (hb' : buildCaches env K' = .ok cs')
    (hs : slices K'.inf K'.time K'.cells = slices K.inf K.time K.cells) :
    cs'.maxTime = cs.maxTime ∧ cs'.minTime = cs.minTime := by
  have mem : ∀ {K : Tri V} {t : ℤ}, t ∈ slices K.inf K.time K.cells ↔ ∃ v ∈ K.finiteVerts, K.time v = t := by
    intro K t
    simp only [slices, Finset.mem_image]
    rfl
  have a1 := maxTime_spec hl hb
  have a2 := maxTime_spec hl hb'
  have b1 := minTime_spec hl hb
  have b2 := minTime_spec hl hb'
  have m1 := mem.2 a1.1; have m2 := mem.2 a2.1; have n1 := mem.2 b1.1; have n2 := mem.2 b2.1
  rw [← hs] at m1 n1
  rw [hs] at m2 n2
  obtain ⟨v1, hv1, e1⟩ := mem.1 m1
  obtain ⟨v2, hv2, e2⟩ := mem.1 m2
  obtain ⟨v3, hv3, e3⟩ := mem.1 n1
  obtain ⟨v4, hv4, e4⟩ := mem.1 n2
  have := a2.2 v1 hv1; have := a1.2 v2 hv2; have := b2.2 v3 hv3; have := b1.2 v4 hv4
  constructor <;> omega

theorem contract_of_effect (hl : env.Lawful) {K K' : Tri V} {d : Delta} (hK : Sound env K)
    (h : Effect env K K' (deltaCensus d)) {cs cs' : Caches V} (hb : buildCaches env K = .ok cs)
    (hb' : buildCaches env K' = .ok cs') (r s : BitVec 64) :
    Contract d (viewOf r s K cs) (viewOf r s K' cs') := by
  have g1 := geometry_census hl hK.closed.1 hK.correct hb
  have g2 := geometry_census hl h.sound.closed.1 h.sound.correct hb'
  have hc := h.census
  rw [Census.add_def] at hc
  dsimp only at g1 g2
  have ts := slices_bounds hl hb hb' h.slices
  obtain ⟨a1, a2, a3, a4, a5, a6, a7, a8, a9⟩ := g1
  obtain ⟨b1, b2, b3, b4, b5, b6, b7, b8, b9⟩ := g2
  rw [hc] at b1 b2 b3 b4 b5 b6 b7 b8 b9
  dsimp only [deltaCensus] at b1 b2 b3 b4 b5 b6 b7 b8 b9
  refine ⟨(isStructurallyCorrect_iff hl hb').2 ⟨h.sound.closed, h.sound.correct⟩, rfl, rfl, ts.1, ts.2,
    ?_, ?_, ?_, ?_, ?_, ?_, ?_, ?_, ?_⟩
  · show (geometryOf K' cs').N0 = (geometryOf K cs).N0 + _
    omega
  · show (geometryOf K' cs').N1 = (geometryOf K cs).N1 + _ + _
    omega
  · show (geometryOf K' cs').N1_SL = (geometryOf K cs).N1_SL + _
    omega
  · show (geometryOf K' cs').N1_TL = (geometryOf K cs).N1_TL + _
    omega
  · show (geometryOf K' cs').N2 = (geometryOf K cs).N2 + _
    omega
  · show (geometryOf K' cs').N3_31 = (geometryOf K cs).N3_31 + _
    omega
  · show (geometryOf K' cs').N3_22 = (geometryOf K cs).N3_22 + _
    omega
  · show (geometryOf K' cs').N3_13 = (geometryOf K cs).N3_13 + _
    omega
  · show (geometryOf K' cs').N3 = (geometryOf K cs).N3 + _
    omega

theorem effect_euler {K K' : Tri V} {mv : MoveType} (h : Effect env K K' (deltaCensus (publishedDelta mv))) :
    euler K'.inf K'.cells = euler K.inf K.cells := by
  rw [euler_census K'.inf K'.time, euler_census K.inf K.time, h.census, Census.add_def]
  cases mv <;> simp only [deltaCensus, publishedDelta] <;> omega

/-- The rebuilt complex after (2,6) is causal exactly when the new vertex got the slice of the
triangle. -/
theorem causal26_iff {inf : V} {time : V → ℤ} {K : Finset (Finset V)} {f : Fin 6 ↪ V} {t d : ℤ}
    (h : Placed (p26 d) inf time K f t) :
    Causal inf time (replace (p26 d) K f) → d = 0 := by
  intro hc
  have h1 := hc (({0,1,5,3} : Finset (Fin 6)).map f)
    (mem_replace.2 (.inr (map_mem_place.2 (by simp [p26])))) (not_mem_map h _)
  have h2 := hc (({0,1,5,4} : Finset (Fin 6)).map f)
    (mem_replace.2 (.inr (map_mem_place.2 (by simp [p26])))) (not_mem_map h _)
  simp only [hasType_map (p := p26 d) h.times] at h1 h2
  have q : ∀ (i j : ℕ) (k : Fin 6), 1 ≤ i → i + j = 4 → k = 3 ∨ k = 4 → HasType (p26 d).τ i j {0,1,5,k} →
      Quad j ((p26 d).τ 0) ((p26 d).τ 1) ((p26 d).τ 5) ((p26 d).τ k) := by
    intro i j k hi hij hk
    exact (hasType_quad (p26 d).τ hi hij (by decide) (by decide) (by rcases hk with rfl | rfl <;> decide) (by decide)
      (by rcases hk with rfl | rfl <;> decide) (by rcases hk with rfl | rfl <;> decide)).1
  have d1 : d = 0 ∨ d = 1 := by
    rcases h1 with h1 | h1 | h1
    · have := q 3 1 3 (by omega) (by omega) (.inl rfl) h1
      simp only [Quad, p26] at this
      obtain ⟨u, a, b, c, e, s⟩ := this
      simp at a b c e s
      omega
    · have := q 2 2 3 (by omega) (by omega) (.inl rfl) h1
      simp only [Quad, p26] at this
      obtain ⟨u, a, b, c, e, s⟩ := this
      simp at a b c e s
      omega
    · have := q 1 3 3 (by omega) (by omega) (.inl rfl) h1
      simp only [Quad, p26] at this
      obtain ⟨u, a, b, c, e, s⟩ := this
      simp at a b c e s
      omega
  have d2 : d = 0 ∨ d = -1 := by
    rcases h2 with h1 | h1 | h1
    · have := q 3 1 4 (by omega) (by omega) (.inr rfl) h1
      simp only [Quad, p26] at this
      obtain ⟨u, a, b, c, e, s⟩ := this
      simp at a b c e s
      omega
    · have := q 2 2 4 (by omega) (by omega) (.inr rfl) h1
      simp only [Quad, p26] at this
      obtain ⟨u, a, b, c, e, s⟩ := this
      simp at a b c e s
      omega
    · have := q 1 3 4 (by omega) (by omega) (.inr rfl) h1
      simp only [Quad, p26] at this
      obtain ⟨u, a, b, c, e, s⟩ := this
      simp at a b c e s
      omega
  omega

/-- Full effect of (2,6) when the rebuilt complex is causal. -/
theorem effect26 (hl : env.Lawful) {K K' : Tri V} (hK : Sound env K) (hfr : FreshCentroids env K)
    (h : MoveReturns env .twoSix K K') (hc : Causal K'.inf K'.time K'.cells) :
    Effect env K K' (p26 0).delta := by
  obtain ⟨f, t, d, hpl, hcells, _, _, hi, K1, rfl, hi1, hinfo⟩ := result26 hl hK hfr h
  have hcells' : K1.cells = replace (p26 d) K.cells f := hcells
  have d0 : d = 0 := by
    apply causal26_iff hpl
    rw [← hcells', ← hi1]
    exact hc
  subst d0
  exact effect_of_placed (good26 0) timed26 hK hpl hcells' hi1 hinfo

end CDT

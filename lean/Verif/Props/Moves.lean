/-
C19–C24: what a successful move does.
-/
import Verif.Lemmas.Effect
import Verif.Fixture.Complexes
import Mathlib.Logic.Relation

namespace CDT.Props
open Spec Cavity Moves

variable {V G : Type} [LinearOrder V] {env : Env V G}

/-- The times of all vertices present after the move are those before it. -/
def SameTimes (K K' : Tri V) : Prop :=
  ∀ v ∈ vertices K'.cells, v ≠ K.inf → K'.time v = K.time v

theorem same_of_effect {K K' : Tri V} (hK : Sound env K) (hK' : Sound env K') (hi : K'.inf = K.inf)
    (hv : ∀ v ∈ vertices K'.cells, v ∈ vertices K.cells) : SameTimes K K' := by
  intro v hv' hne
  rw [hK'.times v hv' (by rw [hi]; exact hne), hK.times v (hv v hv') hne]

/-- C19.  Every successful (2,3) move, through either public function, is the documented
replacement of two tetrahedra at a timelike triangle by three around a new timelike edge, changes
the counts by exactly (0,0,+1,+2,0,+1,0,+1), and keeps all time values. -/
theorem C19_two_three_effect (hl : env.Lawful) {K K' : Tri V} (hK : Sound env K)
    (h : MoveReturns env .twoThree K K') :
    K'.inf = K.inf ∧
    (∃ p q x y z, Move23 K.inf K.time K.cells K'.cells p q x y z) ∧
    census K'.inf K'.time K'.cells = census K.inf K.time K.cells + ⟨0, 0, 1, 2, 0, 1, 0, 1⟩ ∧
    SameTimes K K' := by
  obtain ⟨p, f, t, hp, hpl, hc, he⟩ := result23 hl hK h
  refine ⟨he.inf, ⟨f 0, f 1, f 2, f 3, f 4, hc ▸ move23_of_placed hp hpl⟩, ?_, ?_⟩
  · rw [he.census]
    rcases hp with rfl | rfl
    · rw [delta23up]
    · rw [delta23down]
  · refine same_of_effect hK he.sound he.inf ?_
    rw [hc]
    refine vertices_replace hpl ?_
    rcases hp with rfl | rfl <;> decide +kernel

example : ∃ K', MoveReturns Fixture.env .twoThree Fixture.k23 K' ∧ Fixture.env.Lawful ∧
    Sound Fixture.env Fixture.k23 :=
  Fixture.returns23.imp fun _ h => ⟨h, Fixture.lawful, Fixture.sound23⟩

/-- C20.  Every successful (3,2) move is the inverse replacement at a timelike edge of degree
three and changes the counts by exactly (0,0,-1,-2,0,-1,0,-1). -/
theorem C20_three_two_effect (hl : env.Lawful) {K K' : Tri V} (hK : Sound env K)
    (h : MoveReturns env .threeTwo K K') :
    K'.inf = K.inf ∧
    (∃ p q x y z, Move32 K.inf K.time K.cells K'.cells p q x y z) ∧
    census K'.inf K'.time K'.cells = census K.inf K.time K.cells + ⟨0, 0, -1, -2, 0, -1, 0, -1⟩ ∧
    SameTimes K K' := by
  obtain ⟨p, f, t, hp, hpl, hc, he⟩ := result32 hl hK h
  refine ⟨he.inf, ⟨f 0, f 1, f 2, f 3, f 4, hc ▸ move32_of_placed hp hpl⟩, ?_, ?_⟩
  · rw [he.census]
    rcases hp with rfl | rfl
    · rw [delta32up]
    · rw [delta32down]
  · refine same_of_effect hK he.sound he.inf ?_
    rw [hc]
    refine vertices_replace hpl ?_
    rcases hp with rfl | rfl <;> decide +kernel

example : ∃ K', MoveReturns Fixture.env .threeTwo Fixture.k32 K' ∧ Sound Fixture.env Fixture.k32 :=
  Fixture.returns32.imp fun _ h => ⟨h, Fixture.sound32⟩

/-- C21, topological part.  Every successful (2,6) move subdivides a spacelike triangle between a
(3,1) and a (1,3) tetrahedron at its centroid; whatever time value the new vertex receives, the
untyped counts change by N0 +1, N1 +5, N2 +8, N3 +4, and all old time values stay. -/
theorem C21_two_six_subdivision (hl : env.Lawful) {K K' : Tri V} (hK : Sound env K)
    (hfr : FreshCentroids env K) (h : MoveReturns env .twoSix K K') :
    K'.inf = K.inf ∧
    (∃ x y z u d m, Move26 K.inf K.time K.cells K'.cells x y z u d m ∧ m = env.centroid {x, y, z} ∧
      K'.time m = env.label m) ∧
    (let n := census K.inf K.time K.cells
     let n' := census K'.inf K'.time K'.cells
     n'.N0 = n.N0 + 1 ∧ n'.N1SL + n'.N1TL = n.N1SL + n.N1TL + 5 ∧ n'.N2 = n.N2 + 8 ∧
      n'.N3 = n.N3 + 4) ∧
    (∀ v ∈ vertices K.cells, v ≠ K.inf → K'.time v = K.time v) := by
  obtain ⟨f, t, d, hpl, hcells, hlab, hm, hi, K1, rfl, hi1, hinfo⟩ := result26 hl hK hfr h
  have old : ∀ v ∈ vertices K.cells, v ≠ K.inf → (makeManifold env K1).time v = K.time v := by
    intro v hv hne
    rw [makeManifold_time (by rw [hi1]; exact hne), hK.times v hv hne]
  have h5 : f 5 ≠ K1.inf := by rw [hi1]; exact hpl.fin 5
  refine ⟨hi, ⟨f 0, f 1, f 2, f 3, f 4, f 5, ?_, hm, makeManifold_time h5⟩, ?_, old⟩
  · have hmv : Move26 K.inf (makeManifold env K1).time K.cells (makeManifold env K1).cells
        (f 0) (f 1) (f 2) (f 3) (f 4) (f 5) := by
      rw [hcells]; exact move26_of_placed hpl
    have inK : ∀ i : Fin 6, i ≠ 5 → (makeManifold env K1).time (f i) = K.time (f i) := by
      intro i hi5
      refine old _ ?_ (hpl.fin i)
      have hall : ∀ i : Fin 6, i ≠ 5 → i ∈ vertices (p26 0).O := by decide +kernel
      obtain ⟨c, hc, hic⟩ := mem_vertices.1 (hall i hi5)
      exact mem_vertices.2 ⟨_, hpl.old c hc, Finset.mem_map_of_mem f hic⟩
    have s := hmv.slice; have a := hmv.above; have b := hmv.below
    rw [inK 0 (by decide), inK 1 (by decide), inK 2 (by decide)] at s
    rw [inK 0 (by decide), inK 3 (by decide)] at a
    rw [inK 0 (by decide), inK 4 (by decide)] at b
    exact ⟨hmv.distinct, hmv.finite, hmv.fresh, hmv.cells, hmv.simplices, s, a, b⟩
  · have e : census (makeManifold env K1).inf (makeManifold env K1).time (makeManifold env K1).cells
        = census K.inf K.time K.cells + (p26 d).delta := by
      rw [hi, hcells, census_replace (good26 d) hpl, census_congr old]
    have d1 : (p26 d).delta.N0 = 1 := by
      simp only [Pattern.delta, p26]; decide +kernel
    have d2 : (p26 d).delta.N2 = 8 := by
      simp only [Pattern.delta, p26]; decide +kernel
    have d3 : (p26 d).delta.N3 = 4 := by
      simp only [Pattern.delta, p26]; decide +kernel
    have d4 : (p26 d).delta.N1SL + (p26 d).delta.N1TL = 5 := by
      have aux : ∀ (S : Finset (Finset (Fin 6))) (q : Finset (Fin 6) → Prop) [DecidablePred q],
          ((S.filter (fun s => s.card = 2 ∧ q s)).card : ℤ) + (S.filter (fun s => s.card = 2 ∧ ¬ q s)).card
            = (S.filter (fun s => s.card = 2)).card := by
        intro S q _
        rw [← Nat.cast_add, ← Finset.filter_filter, ← Finset.filter_filter,
          Finset.card_filter_add_card_filter_not]
      have a1 := aux (faces (p26 d).N \ faces (p26 d).O) (Spacelike (p26 d).τ)
      have a2 := aux (faces (p26 d).O \ faces (p26 d).N) (Spacelike (p26 d).τ)
      have c1 : ((faces (p26 d).N \ faces (p26 d).O).filter (fun s => s.card = 2)).card = 5 := by
        simp only [p26]; decide +kernel
      have c2 : ((faces (p26 d).O \ faces (p26 d).N).filter (fun s => s.card = 2)).card = 0 := by
        simp only [p26]; decide +kernel
      rw [c1] at a1
      rw [c2] at a2
      simp only [Pattern.delta]
      push_cast at a1 a2
      linarith
    dsimp only
    rw [e, Census.add_def]
    dsimp only
    omega

/-- C21.  When the rebuilt manifold passes `is_correct()` — in particular whenever `check_move` accepts
the candidate — the new vertex lies on the slice of the triangle and the counts change by exactly
(+1,+3,+2,+8,+2,0,+2,+4). -/
theorem C21_two_six_effect (hl : env.Lawful) {K K' : Tri V} (hK : Sound env K)
    (hfr : FreshCentroids env K) (h : MoveReturns env .twoSix K K') {cs' : Caches V}
    (hok : isStructurallyCorrect K' cs' = true) :
    (∃ x y z u d m, Move26 K.inf K.time K.cells K'.cells x y z u d m ∧ K'.time m = K.time x) ∧
    census K'.inf K'.time K'.cells = census K.inf K.time K.cells + ⟨1, 3, 2, 8, 2, 0, 2, 4⟩ := by
  obtain ⟨hc, hcor⟩ := isStructurallyCorrect_data hok
  have hca := causal_of_correct hc.1 hcor
  have he := effect26 hl hK hfr h hca
  obtain ⟨hi, ⟨x, y, z, u, d, m, hm, _, hmt⟩, _, old⟩ := C21_two_six_subdivision hl hK hfr h
  refine ⟨⟨x, y, z, u, d, m, hm, ?_⟩, by rw [he.census, delta26]⟩
  -- causality of {x,y,m,u} and {x,y,m,d} forces the slice
  have hn := hm.distinct
  have hf := hm.finite
  simp only [List.nodup_cons, List.mem_cons, List.not_mem_nil, or_false, not_or, not_false_eq_true,
    List.nodup_nil, and_true] at hn hf
  obtain ⟨⟨xy, xz, xu, xd, xm⟩, ⟨yz, yu, yd, ym⟩, ⟨zu, zd, zm⟩, ⟨ud, um⟩, dm⟩ := hn
  obtain ⟨ix, iy, iz, iu, id, im⟩ := hf
  have inK : ∀ v, v ∈ ({x, y, z, u} : Finset V) ∨ v ∈ ({x, y, z, d} : Finset V) → v ∈ vertices K.cells := by
    rintro v (hv | hv)
    · exact mem_vertices.2 ⟨_, hm.cells.present (by simp), hv⟩
    · exact mem_vertices.2 ⟨_, hm.cells.present (by simp), hv⟩
  have tx := old x (inK x (by simp)) (Ne.symm ix)
  have ty := old y (inK y (by simp)) (Ne.symm iy)
  have tu := old u (inK u (by simp)) (Ne.symm iu)
  have td := old d (inK d (by simp)) (Ne.symm id)
  have c1 := hca {x, y, m, u} (by rw [hm.cells.result]; simp [sixAround]) (by rw [hi]; simp; tauto)
  have c2 := hca {x, y, m, d} (by rw [hm.cells.result]; simp [sixAround]) (by rw [hi]; simp; tauto)
  rw [hasType_quad (i := 3) (j := 1) _ (by omega) (by omega) xy xm xu ym yu (Ne.symm um),
    hasType_quad (i := 2) (j := 2) _ (by omega) (by omega) xy xm xu ym yu (Ne.symm um),
    hasType_quad (i := 1) (j := 3) _ (by omega) (by omega) xy xm xu ym yu (Ne.symm um)] at c1
  rw [hasType_quad (i := 3) (j := 1) _ (by omega) (by omega) xy xm xd ym yd (Ne.symm dm),
    hasType_quad (i := 2) (j := 2) _ (by omega) (by omega) xy xm xd ym yd (Ne.symm dm),
    hasType_quad (i := 1) (j := 3) _ (by omega) (by omega) xy xm xd ym yd (Ne.symm dm)] at c2
  have s := hm.slice; have a := hm.above; have b := hm.below
  rw [tx, ty, tu] at c1
  rw [tx, ty, td] at c2
  simp only [Quad] at c1 c2
  push_cast at c1 c2
  rcases c1 with ⟨t1, c1⟩ | ⟨t1, c1⟩ | ⟨t1, c1⟩ <;> rcases c2 with ⟨t2, c2⟩ | ⟨t2, c2⟩ | ⟨t2, c2⟩ <;> omega

example : FreshCentroids Fixture.env Fixture.k26 ∧ Sound Fixture.env Fixture.k26 ∧
    ∃ K', MoveReturns Fixture.env .twoSix Fixture.k26 K' :=
  ⟨Fixture.fresh26, Fixture.sound26, Fixture.returns26⟩

/-- C22.  Every successful (6,2) move removes one vertex whose star is the six-cell bipyramid and
changes the counts by exactly (-1,-3,-2,-8,-2,0,-2,-4). -/
theorem C22_six_two_effect (hl : env.Lawful) {K K' : Tri V} (hK : Sound env K)
    (h : MoveReturns env .sixTwo K K') :
    K'.inf = K.inf ∧
    (∃ x y z u d m, Move62 K.inf K.time K.cells K'.cells x y z u d m) ∧
    census K'.inf K'.time K'.cells = census K.inf K.time K.cells + ⟨-1, -3, -2, -8, -2, 0, -2, -4⟩ ∧
    SameTimes K K' := by
  obtain ⟨f, t, hpl, hc, he⟩ := result62 hl hK h
  refine ⟨he.inf, ⟨_, _, _, _, _, _, hc ▸ move62_of_placed hpl⟩, by rw [he.census, delta62], ?_⟩
  refine same_of_effect hK he.sound he.inf ?_
  rw [hc]
  exact vertices_replace hpl (by decide +kernel)

example : ∃ K', MoveReturns Fixture.env .sixTwo Fixture.k62 K' ∧ Sound Fixture.env Fixture.k62 :=
  Fixture.returns62.imp fun _ h => ⟨h, Fixture.sound62⟩

/-- C23.  Every successful (4,4) move exchanges the diagonal of a spatial quadrilateral and leaves
every published count unchanged. -/
theorem C23_four_four_effect (hl : env.Lawful) {K K' : Tri V} (hK : Sound env K)
    (h : MoveReturns env .fourFour K K') :
    K'.inf = K.inf ∧
    (∃ a b x y u d, Move44 K.inf K.time K.cells K'.cells a b x y u d) ∧
    census K'.inf K'.time K'.cells = census K.inf K.time K.cells ∧
    SameTimes K K' := by
  obtain ⟨f, t, hpl, hc, he⟩ := result44 hl hK h
  refine ⟨he.inf, ⟨_, _, _, _, _, _, hc ▸ move44_of_placed hpl⟩, ?_, ?_⟩
  · rw [he.census, delta44, Census.add_def]; simp
  · refine same_of_effect hK he.sound he.inf ?_
    rw [hc]
    exact vertices_replace hpl (by decide +kernel)

example : ∃ K', MoveReturns Fixture.env .fourFour Fixture.k44 K' ∧ Sound Fixture.env Fixture.k44 :=
  Fixture.returns44.imp fun _ h => ⟨h, Fixture.sound44⟩

/-- All moves but (2,6) as one effect statement. -/
theorem effect_of_move (hl : env.Lawful) {mv : MoveType} (hmv : mv ≠ .twoSix) {K K' : Tri V} (hK : Sound env K)
    (h : MoveReturns env mv K K') : Effect env K K' (deltaCensus (publishedDelta mv)) := by
  cases mv with
  | twoThree =>
    obtain ⟨p, f, t, hp, _, _, he⟩ := result23 hl hK h
    rcases hp with rfl | rfl
    · rw [delta23up] at he; exact he
    · rw [delta23down] at he; exact he
  | threeTwo =>
    obtain ⟨p, f, t, hp, _, _, he⟩ := result32 hl hK h
    rcases hp with rfl | rfl
    · rw [delta32up] at he; exact he
    · rw [delta32down] at he; exact he
  | twoSix => exact absurd rfl hmv
  | sixTwo =>
    obtain ⟨_, _, _, _, he⟩ := result62 hl hK h
    rw [delta62] at he; exact he
  | fourFour =>
    obtain ⟨_, _, _, _, he⟩ := result44 hl hK h
    rw [delta44] at he; exact he

/-- The candidate built by a (2,3), (3,2), (6,2) or (4,4) move on a sound manifold always passes
`check_move`: the published contract holds for the counts, bounds and parameters the manifold
objects report. -/
theorem published_contract (hl : env.Lawful) {mv : MoveType} (hmv : mv ≠ .twoSix)
    {K K' : Tri V} (hK : Sound env K) (h : MoveReturns env mv K K') {cs cs' : Caches V}
    (hb : buildCaches env K = .ok cs) (hb' : buildCaches env K' = .ok cs') (r s : BitVec 64) :
    checkMove (viewOf r s K cs) (viewOf r s K' cs') mv = true := by
  rw [C32_check_move_iff_contract]
  exact contract_of_effect hl hK (effect_of_move hl hmv hK h) hb hb' r s

/-- C19, as the library reports it: counts, bounds and parameters read from the manifold objects
before and after a successful (2,3) move satisfy the published row, so `check_move` accepts. -/
theorem C19_two_three_reported (hl : env.Lawful)
    {K K' : Tri V} (hK : Sound env K) (h : MoveReturns env .twoThree K K') {cs cs' : Caches V}
    (hb : buildCaches env K = .ok cs) (hb' : buildCaches env K' = .ok cs') (r s : BitVec 64) :
    Contract (publishedDelta .twoThree) (viewOf r s K cs) (viewOf r s K' cs') ∧
    checkMove (viewOf r s K cs) (viewOf r s K' cs') .twoThree = true :=
  ⟨(C32_check_move_iff_contract _ _ _).1 (published_contract hl (by decide) hK h hb hb' r s),
    published_contract hl (by decide) hK h hb hb' r s⟩

/-- C20, as the library reports it. -/
theorem C20_three_two_reported (hl : env.Lawful)
    {K K' : Tri V} (hK : Sound env K) (h : MoveReturns env .threeTwo K K') {cs cs' : Caches V}
    (hb : buildCaches env K = .ok cs) (hb' : buildCaches env K' = .ok cs') (r s : BitVec 64) :
    Contract (publishedDelta .threeTwo) (viewOf r s K cs) (viewOf r s K' cs') ∧
    checkMove (viewOf r s K cs) (viewOf r s K' cs') .threeTwo = true :=
  ⟨(C32_check_move_iff_contract _ _ _).1 (published_contract hl (by decide) hK h hb hb' r s),
    published_contract hl (by decide) hK h hb hb' r s⟩

/-- C22, as the library reports it. -/
theorem C22_six_two_reported (hl : env.Lawful)
    {K K' : Tri V} (hK : Sound env K) (h : MoveReturns env .sixTwo K K') {cs cs' : Caches V}
    (hb : buildCaches env K = .ok cs) (hb' : buildCaches env K' = .ok cs') (r s : BitVec 64) :
    Contract (publishedDelta .sixTwo) (viewOf r s K cs) (viewOf r s K' cs') ∧
    checkMove (viewOf r s K cs) (viewOf r s K' cs') .sixTwo = true :=
  ⟨(C32_check_move_iff_contract _ _ _).1 (published_contract hl (by decide) hK h hb hb' r s),
    published_contract hl (by decide) hK h hb hb' r s⟩

/-- C23, as the library reports it. -/
theorem C23_four_four_reported (hl : env.Lawful)
    {K K' : Tri V} (hK : Sound env K) (h : MoveReturns env .fourFour K K') {cs cs' : Caches V}
    (hb : buildCaches env K = .ok cs) (hb' : buildCaches env K' = .ok cs') (r s : BitVec 64) :
    Contract (publishedDelta .fourFour) (viewOf r s K cs) (viewOf r s K' cs') ∧
    checkMove (viewOf r s K cs) (viewOf r s K' cs') .fourFour = true :=
  ⟨(C32_check_move_iff_contract _ _ _).1 (published_contract hl (by decide) hK h hb hb' r s),
    published_contract hl (by decide) hK h hb hb' r s⟩

/-- With the new vertex on the triangle's slice, the six new tetrahedra are causal. -/
theorem causal_of_move26 {inf : V} {time time' : V → ℤ} {K K' : Finset (Finset V)} {x y z u d m : V}
    (hK : Causal inf time K) (hm : Move26 inf time K K' x y z u d m)
    (old : ∀ v ∈ vertices K, v ≠ inf → time' v = time v) (htm : time' m = time x) :
    Causal inf time' K' := by
  intro c hc hinf
  rw [hm.cells.result] at hc
  rcases Finset.mem_union.1 hc with hc | hc
  · have hk := (Finset.mem_sdiff.1 hc).1
    have e : ∀ v ∈ c, time' v = time v :=
      fun v hv => old v (mem_vertices.2 ⟨c, hk, hv⟩) (fun h => hinf (h ▸ hv))
    rw [hasType_congr e, hasType_congr e, hasType_congr e]
    exact hK c hk hinf
  · have hn := hm.distinct
    have hf := hm.finite
    simp only [List.nodup_cons, List.mem_cons, List.not_mem_nil, or_false, not_or, not_false_eq_true,
      List.nodup_nil, and_true] at hn hf
    obtain ⟨⟨xy, xz, xu, xd, xm⟩, ⟨yz, yu, yd, ym⟩, ⟨zu, zd, zm⟩, ⟨ud, um⟩, dm⟩ := hn
    obtain ⟨ix, iy, iz, iu, id, im⟩ := hf
    have inK : ∀ v, v ∈ ({x, y, z, u} : Finset V) ∨ v ∈ ({x, y, z, d} : Finset V) → v ∈ vertices K := by
      rintro v (hv | hv)
      · exact mem_vertices.2 ⟨_, hm.cells.present (by simp), hv⟩
      · exact mem_vertices.2 ⟨_, hm.cells.present (by simp), hv⟩
    have tx := old x (inK x (by simp)) (Ne.symm ix)
    have ty := old y (inK y (by simp)) (Ne.symm iy)
    have tz := old z (inK z (by simp)) (Ne.symm iz)
    have tu := old u (inK u (by simp)) (Ne.symm iu)
    have td := old d (inK d (by simp)) (Ne.symm id)
    obtain ⟨sy, sz⟩ := hm.slice
    have a := hm.above
    have b := hm.below
    have up : ∀ p q : V, p ≠ q → p ≠ m → p ≠ u → q ≠ m → q ≠ u → time' p = time x → time' q = time x →
        HasType time' 3 1 {p, q, m, u} := by
      intro p q h1 h2 h3 h4 h5 tp tq
      rw [hasType_quad (i := 3) (j := 1) _ (by omega) (by omega) h1 h2 h3 h4 h5 (Ne.symm um)]
      refine ⟨time x, ?_⟩
      rw [tp, tq, htm, tu, a]
      refine ⟨.inl rfl, .inl rfl, .inl rfl, .inr rfl, by push_cast; omega⟩
    have dn : ∀ p q : V, p ≠ q → p ≠ m → p ≠ d → q ≠ m → q ≠ d → time' p = time x → time' q = time x →
        HasType time' 1 3 {p, q, m, d} := by
      intro p q h1 h2 h3 h4 h5 tp tq
      rw [hasType_quad (i := 1) (j := 3) _ (by omega) (by omega) h1 h2 h3 h4 h5 (Ne.symm dm)]
      refine ⟨time x - 1, ?_⟩
      rw [tp, tq, htm, td, b]
      refine ⟨.inr (by omega), .inr (by omega), .inr (by omega), .inl rfl, by push_cast; omega⟩
    have ty' : time' y = time x := by rw [ty, sy]
    have tz' : time' z = time x := by rw [tz, sz]
    simp only [sixAround, Finset.mem_insert, Finset.mem_singleton] at hc
    rcases hc with rfl | rfl | rfl | rfl | rfl | rfl
    · exact .inl (up x y xy xm xu ym yu tx ty')
    · exact .inl (up x z xz xm xu zm zu tx tz')
    · exact .inl (up y z yz ym yu zm zu ty' tz')
    · exact .inr (.inr (dn x y xy xm xd ym yd tx ty'))
    · exact .inr (.inr (dn x z xz xm xd zm zd tx tz'))
    · exact .inr (.inr (dn y z yz ym yd zm zd ty' tz'))

/-- A (2,6) candidate passes `check_move` exactly when its new vertex received the slice of the
subdivided triangle. -/
theorem C21_check_move_iff_slice (hl : env.Lawful) {K K' : Tri V} (hK : Sound env K)
    (hfr : FreshCentroids env K) (h : MoveReturns env .twoSix K K') {cs cs' : Caches V}
    (hb : buildCaches env K = .ok cs) (hb' : buildCaches env K' = .ok cs') (r s : BitVec 64) :
    checkMove (viewOf r s K cs) (viewOf r s K' cs') .twoSix = true ↔
      ∃ x y z u d m, Move26 K.inf K.time K.cells K'.cells x y z u d m ∧ K'.time m = K.time x := by
  rw [C32_check_move_iff_contract]
  constructor
  · intro hc
    exact (C21_two_six_effect hl hK hfr h hc.correct).1
  · rintro ⟨x, y, z, u, d, m, hm, htm⟩
    obtain ⟨hi, _, _, old⟩ := C21_two_six_subdivision hl hK hfr h
    have he := effect26 hl hK hfr h (by rw [hi]; exact causal_of_move26 hK.causal hm old htm)
    rw [delta26] at he
    exact contract_of_effect hl hK he hb hb' r s

end CDT.Props

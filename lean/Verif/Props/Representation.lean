/-
C95: what happens to a manifold depends on the manifold, not on how it is stored.
-/
import Verif.Lemmas.Congruence
import Verif.Props.Transition

namespace CDT.Props
open CDT Spec Cavity Moves

variable {V G : Type} [LinearOrder V] {env : Env V G}

theorem site_finite (hl : env.Lawful) {K : Tri V} {mv : MoveType} {s : Finset V} (h : s ∈ rawSites env K mv) :
    K.inf ∉ s := by
  cases mv
  · exact (mem_finiteCells.1 ((hl.mem_iter _ _ _).1 (List.mem_filter.1 h).1)).2
  · exact (mem_finiteEdges.1 ((hl.mem_iter _ _ _).1 (List.mem_filter.1 h).1)).2.1
  · exact (mem_finiteCells.1 ((hl.mem_iter _ _ _).1 (List.mem_filter.1 h).1)).2
  · obtain ⟨v, hv, rfl⟩ := Finset.mem_image.1 ((hl.mem_iter _ _ _).1 h)
    rw [Finset.mem_singleton]
    exact fun e => (mem_finiteVerts.1 hv).1 e.symm
  · exact (mem_finiteEdges.1 ((hl.mem_iter _ _ _).1 (List.mem_filter.1 h).1)).2.1

theorem randomElement_perm (hl : env.Lawful) {l l' : List (Finset V)} (h : l'.Perm l) (g : G) :
    canonicalRandomElement env l' g = canonicalRandomElement env l g := by
  unfold canonicalRandomElement
  have he : l'.isEmpty = l.isEmpty := by
    rw [Bool.eq_iff_iff, List.isEmpty_iff, List.isEmpty_iff]
    constructor
    · rintro rfl; exact h.symm.eq_nil
    · rintro rfl; exact h.eq_nil
  rw [he, h.length_eq]
  by_cases h0 : l.isEmpty
  · rw [if_pos h0, if_pos h0]
  · rw [if_neg h0, if_neg h0]
    rcases env.index l.length g with ⟨i, g1⟩
    dsimp only
    rw [nth_eq_sorted (hl.nth siteLe l' i siteLe_total (fun _ _ _ => siteLe_trans)),
      nth_eq_sorted (hl.nth siteLe l i siteLe_total (fun _ _ _ => siteLe_trans)), canonicalize_congr h]

theorem randomElement_mem (hl : env.Lawful) {l : List (Finset V)} {g g' : G} {s : Finset V}
    (h : canonicalRandomElement env l g = (some s, g')) : s ∈ l := by
  unfold canonicalRandomElement at h
  split_ifs at h
  · simp at h
  rcases hi : env.index l.length g with ⟨i, g1⟩
  rw [hi] at h
  simp only [Prod.mk.injEq] at h
  rw [nth_eq_sorted (hl.nth siteLe l i siteLe_total (fun _ _ _ => siteLe_trans))] at h
  exact mem_canonicalize.1 (List.mem_of_getElem? h.1)

theorem sameAnswer_of {r s : Except MoveFailure (Tri V) × G} (h : SameResult r.1 s.1) (hg : s.2 = r.2) :
    SameAnswer (r.1.map (makeManifold env), r.2) (s.1.map (makeManifold env), s.2) := by
  obtain ⟨r, g⟩ := r
  obtain ⟨s, g'⟩ := s
  refine ⟨hg, ?_, ?_⟩
  · intro e
    cases r <;> cases s <;> simp only [SameResult] at h <;> simp [Except.map, h]
  · intro K L h1 h2
    cases r with
    | error e => simp [Except.map] at h1
    | ok K1 => cases s with
      | error e => simp [Except.map] at h2
      | ok L1 =>
        simp only [Except.map, Except.ok.injEq] at h1 h2
        subst h1 h2
        exact makeManifold_sameManifold h.1 h.2

/-- C95.  A proposal from the same manifold with the same state of the random source proposes the same
manifold or fails the same way, and leaves the random source in the same state - however the
manifold is stored, in whatever order its simplices are enumerated, and whatever is left in the
fields of the vertex and cells at infinity. -/
theorem C95_propose (hl : env.Lawful) (hp : PointsOnly env) {K L : Tri V} (hK : Sound env K) (hL : Sound env L)
    (h : SameManifold K L) (mv : MoveType) (g : G) : SameAnswer (propose env mv K g) (propose env mv L g) := by
  unfold propose
  rw [randomElement_perm hl (rawSites_congr hl h mv) g]
  rcases hr : canonicalRandomElement env (rawSites env K mv) g with ⟨_ | s, g1⟩
  · exact ⟨rfl, fun e => Iff.rfl, fun _ _ k => by simp at k⟩
  · have hs := site_finite hl (randomElement_mem hl hr)
    dsimp only
    rw [prepare_congr h hK.quiet hL.quiet mv hs]
    cases prepare K mv s with
    | error e => exact ⟨rfl, fun e => Iff.rfl, fun _ _ k => by simp at k⟩
    | ok p =>
      dsimp only
      obtain ⟨h1, h2⟩ := execute_congr hl hp h p g1
      have key := sameAnswer_of (env := env) h1 h2
      generalize execute env K p g1 = a at key ⊢
      generalize execute env L p g1 = b at key ⊢
      rcases a with ⟨_ | K1, g2⟩ <;> rcases b with ⟨_ | L1, g2'⟩ <;> exact key

theorem searchSites_congr {S P T : Type} (rel : Except MoveFailure T → Except MoveFailure T → Prop)
    (hrel : ∀ e r, rel (.error e) r ↔ r = .error e) (hrel' : ∀ a r, rel (.ok a) r → ∃ b, r = .ok b)
    {prep prep' : S → Except MoveFailure P} {exec exec' : P → G → Except MoveFailure T × G}
    (he : ∀ p g, rel (exec p g).1 (exec' p g).1 ∧ (exec' p g).2 = (exec p g).2) :
    ∀ (l : List S) (e : MoveFailure) (g : G), (∀ s ∈ l, prep' s = prep s) →
      (rel (searchSites prep exec l e g).1 (searchSites prep' exec' l e g).1 ∧
        (searchSites prep' exec' l e g).2 = (searchSites prep exec l e g).2) ∧
      (rel (searchSites26 prep exec l e g).1 (searchSites26 prep' exec' l e g).1 ∧
        (searchSites26 prep' exec' l e g).2 = (searchSites26 prep exec l e g).2) := by
  intro l
  induction l with
  | nil => intro e g _; exact ⟨⟨(hrel _ _).2 rfl, rfl⟩, (hrel _ _).2 rfl, rfl⟩
  | cons s l ih =>
    intro e g hl
    have ih := fun e g => ih e g (fun s' hs' => hl s' (by simp [hs']))
    unfold searchSites searchSites26
    rw [hl s (by simp)]
    cases prep s with
    | error e' => exact ih e' g
    | ok p =>
      dsimp only
      refine ⟨?_, he p g⟩
      obtain ⟨h1, h2⟩ := he p g
      rcases hx : exec p g with ⟨_ | a, g1⟩ <;> rcases hx' : exec' p g with ⟨_ | b, g2⟩ <;>
        rw [hx, hx'] at h1 h2 <;> dsimp only at h1 h2 ⊢
      · have := (hrel _ _).1 h1
        simp only [Except.error.injEq] at this
        subst this h2
        exact (ih _ _).1
      · simpa using (hrel _ _).1 h1
      · simpa using hrel' _ _ h1
      · exact ⟨h1, h2⟩

/-- C95.  The same for the searching moves (`do_23_move` and the others). -/
theorem C95_do_move (hl : env.Lawful) (hp : PointsOnly env) {K L : Tri V} (hK : Sound env K) (hL : Sound env L)
    (h : SameManifold K L) (mv : MoveType) (g : G) : SameAnswer (doMove env mv K g) (doMove env mv L g) := by
  unfold doMove
  rw [canonicalize_congr (rawSites_congr hl h mv)]
  have hsh := hl.shuffle_perm (canonicalize (rawSites env K mv)) g
  generalize env.shuffle (canonicalize (rawSites env K mv)) g = q at hsh ⊢
  obtain ⟨sites, g1⟩ := q
  have hs : ∀ s ∈ sites, prepare L mv s = prepare K mv s := fun s hs =>
    prepare_congr h hK.quiet hL.quiet mv (site_finite hl (mem_canonicalize.1 (hsh.mem_iff.1 hs)))
  dsimp only
  have key := searchSites_congr (G := G) (SameResult (V := V))
    (by intro e r; cases r <;> simp [SameResult]) (by intro a r; cases r <;> simp [SameResult])
    (fun p g => execute_congr hl hp h p g) sites .noCandidate g1 hs
  cases mv
  · exact sameAnswer_of key.1.1 key.1.2
  · exact sameAnswer_of key.1.1 key.1.2
  · exact sameAnswer_of key.2.1 key.2.2
  · exact sameAnswer_of key.1.1 key.1.2
  · exact sameAnswer_of key.1.1 key.1.2

/-! ### Transitions -/

theorem view_congr (hl : env.Lawful) {m m' : Mfld V} (h : SameObject m m') (hb : buildCaches env m.tri = .ok m.caches)
    (hb' : buildCaches env m'.tri = .ok m'.caches) : m'.view = m.view ∧ m'.geometry = m.geometry := by
  have hg : m'.geometry = m.geometry := geometry_congr hl h.tri hb hb'
  refine ⟨?_, hg⟩
  have hs : slices m'.tri.inf m'.tri.time m'.tri.cells = slices m.tri.inf m.tri.time m.tri.cells := by
    unfold slices
    rw [h.tri.inf, h.tri.cells]
    refine Finset.image_congr ?_
    intro v hv
    obtain ⟨h1, h2⟩ := Finset.mem_erase.1 (Finset.mem_coe.1 hv)
    exact h.tri.times v h2 h1
  obtain ⟨e1, e2⟩ := slices_bounds hl hb hb' hs
  have cnt : ∀ f : Geometry → ℤ, f (geometryOf m'.tri m'.caches) = f (geometryOf m.tri m.caches) :=
    fun f => congrArg f hg
  have l1 : m'.caches.timelikeEdges.length = m.caches.timelikeEdges.length := Int.ofNat.inj (cnt Geometry.N1_TL)
  have l2 : m'.caches.spacelikeEdges.length = m.caches.spacelikeEdges.length := Int.ofNat.inj (cnt Geometry.N1_SL)
  have hc : isStructurallyCorrect m'.tri m'.caches = isStructurallyCorrect m.tri m.caches := by
    obtain ⟨_, hv, hcs, _, _, _, hf, hsf, hes, _, _, _, _⟩ := buildCaches_ok hb
    obtain ⟨_, hv', hcs', _, _, _, hf', hsf', hes', _, _, _, _⟩ := buildCaches_ok hb'
    have t1 : m'.caches.threeOne.length = m.caches.threeOne.length := Int.ofNat.inj (cnt Geometry.N3_31)
    have t2 : m'.caches.oneThree.length = m.caches.oneThree.length := Int.ofNat.inj (cnt Geometry.N3_13)
    have t3 : m'.caches.twoTwo.length = m.caches.twoTwo.length := Int.ofNat.inj (cnt Geometry.N3_22)
    have lv : m'.caches.vertices.length = m.caches.vertices.length := by
      rw [hv, hv']; exact (rawSites_congr hl h.tri .sixTwo).length_eq
    have it : ∀ S : Finset (Finset V), (env.iter m'.tri S).length = (env.iter m.tri S).length := by
      intro S
      refine List.Perm.length_eq ?_
      rw [List.perm_ext_iff_of_nodup (hl.iter_nodup _ _) (hl.iter_nodup _ _)]
      intro s; rw [hl.mem_iter, hl.mem_iter]
    have lc : m'.caches.cells.length = m.caches.cells.length := by
      rw [hcs, hcs', finiteCells_congr h.tri, it]
    have le : m'.caches.edges.length = m.caches.edges.length := by
      rw [hes, hes', finiteEdges_congr h.tri, it]
    have sf : ∀ x : Mfld V, x.caches.spacelikeFacets = collectSpacelikeFacets x.tri x.caches.faces →
        decide (x.caches.spacelikeFacets.length ≤ x.caches.faces.length) = true := by
      intro x hx
      rw [decide_eq_true_eq, hx]
      unfold collectSpacelikeFacets
      rw [List.length_insertionSort]
      exact List.length_filterMap_le _ _
    have ie : m'.caches.vertices.isEmpty = m.caches.vertices.isEmpty := by
      rw [Bool.eq_iff_iff, List.isEmpty_iff_length_eq_zero, List.isEmpty_iff_length_eq_zero, lv]
    have c1 : hasConsistentStructure m'.tri m'.caches = hasConsistentStructure m.tri m.caches := by
      unfold hasConsistentStructure
      rw [lv, finiteVerts_congr h.tri, t1, t2, t3, lc, l1, l2, le, ie, e1, e2, sf m hsf, sf m' hsf']
    have c2 : m'.tri.isValid = m.tri.isValid := by unfold Tri.isValid; rw [h.tri.cells]
    have c3 : checkCells m'.tri = checkCells m.tri := by
      unfold checkCells
      rw [finiteCells_congr h.tri]
      refine decide_eq_decide.2 (forall₂_congr fun c hc => ?_)
      obtain ⟨k1, k2⟩ := mem_finiteCells.1 hc
      rw [typeCorrect_congr h.tri k1 k2]
    unfold isStructurallyCorrect
    rw [c1, c2, c3]
  unfold Mfld.view viewOf
  unfold Mfld.geometry at hg
  rw [hc, h.radius, h.spacing, hg, l1, l2, e1, e2]

theorem wrap_congr (hl : env.Lawful) {m m' : Mfld V} (h : SameObject m m') {r s : Except MoveFailure (Tri V) × G}
    (hrs : SameAnswer r s) :
    (wrapMove env m' s).2 = (wrapMove env m r).2 ∧
    ((∃ e, (wrapMove env m r).1 = .error e ∧ (wrapMove env m' s).1 = .error e) ∨
     (∃ f, (wrapMove env m r).1 = .ok (.error f) ∧ (wrapMove env m' s).1 = .ok (.error f)) ∨
     ∃ c c', (wrapMove env m r).1 = .ok (.ok c) ∧ (wrapMove env m' s).1 = .ok (.ok c') ∧ SameObject c c' ∧
       r.1 = .ok c.tri ∧ s.1 = .ok c'.tri ∧ buildCaches env c.tri = .ok c.caches ∧ c.radius = m.radius ∧
       c.spacing = m.spacing ∧ buildCaches env c'.tri = .ok c'.caches) := by
  obtain ⟨r, g⟩ := r
  obtain ⟨s, g'⟩ := s
  obtain ⟨hg, hf, hm⟩ := hrs
  dsimp only at hg hf hm
  subst hg
  cases r with
  | error e =>
    have := (hf e).2 rfl
    subst this
    exact ⟨rfl, .inr (.inl ⟨e, rfl, rfl⟩)⟩
  | ok K => cases s with
    | error e => have := (hf e).1 rfl; simp at this
    | ok L =>
      have hs := hm K L rfl rfl
      unfold wrapMove
      dsimp only
      have hv := finiteVerts_congr hs
      by_cases h0 : K.finiteVerts = ∅
      · have a1 : buildCaches env K = .error .invalidArgument := by unfold buildCaches; rw [if_pos h0]
        have a2 : buildCaches env L = .error .invalidArgument := by unfold buildCaches; rw [if_pos (hv.trans h0)]
        rw [a1, a2]
        exact ⟨rfl, .inl ⟨_, rfl, rfl⟩⟩
      · obtain ⟨cs, hcs⟩ := buildCaches_total hl h0
        obtain ⟨cs', hcs'⟩ := buildCaches_total (env := env) hl (K := L) (by rw [hv]; exact h0)
        rw [hcs, hcs']
        exact ⟨rfl, .inr (.inr ⟨_, _, rfl, rfl, ⟨hs, h.radius, h.spacing⟩, rfl, rfl, hcs, rfl, rfl, hcs'⟩)⟩

/-- C95.  A Metropolis transition from the same manifold with the same request, trial value, counters and
random state has the same outcome (or throws the same exception), and leaves the same counters, the
same random state and the same manifold. -/
theorem C95_transition (hl : env.Lawful) (hp : PointsOnly env) {R : Rounding} {p : PhysicalParameters}
    {drawMove : G → Fin 5 × G} {drawTrial : G → LD × G} {v w : MetroVars (Mfld V) G} (hv : Fit env v.current)
    (hw : Fit env w.current) (h : SameState v w) (code : ℤ) (u : LD) :
    let eng := metroEngine env R p drawMove drawTrial
    (resolve eng code u w).1 = (resolve eng code u v).1 ∧ SameState (resolve eng code u v).2 (resolve eng code u w).2 := by
  intro eng
  obtain ⟨vc, vcmd, vst, vg⟩ := v
  obtain ⟨wc, wcmd, wst, wg⟩ := w
  obtain ⟨hc, h1, h2, h3⟩ := h
  dsimp only at hc h1 h2 h3 hv hw
  subst h1 h2 h3
  obtain ⟨hview, hgeo⟩ := view_congr hl hc hv.caches hw.caches
  unfold resolve
  split_ifs with ht
  · exact ⟨rfl, hc, rfl, rfl, rfl⟩
  · cases u with
    | fin u =>
      dsimp only
      cases MoveType.ofCode code with
      | none => exact ⟨rfl, hc, rfl, rfl, rfl⟩
      | some mv =>
        dsimp only
        have eg : ∀ m, eng.geometry m = m.geometry := fun _ => rfl
        have ep : ∀ mv m g, eng.propose mv m g = wrapMove env m (propose env mv m.tri g) := fun _ _ _ => rfl
        have ec : ∀ b a mv, eng.check b a mv = checkMove b.view a.view mv := fun _ _ _ => rfl
        rw [ep, ep]
        obtain ⟨k2, k1⟩ := wrap_congr hl hc (C95_propose hl hp hv.sound hw.sound hc.tri mv wg)
        generalize wrapMove env vc (propose env mv vc.tri wg) = a at k1 k2 ⊢
        generalize wrapMove env wc (propose env mv wc.tri wg) = b at k1 k2 ⊢
        obtain ⟨a, ga⟩ := a
        obtain ⟨b, gb⟩ := b
        dsimp only at k2
        subst k2
        simp only [eg, hgeo]
        rcases k1 with ⟨e, rfl, rfl⟩ | ⟨f, rfl, rfl⟩ | ⟨c, c', rfl, rfl, hcc, -, -, b1, r1, s1, b2⟩
        · exact ⟨rfl, hc, rfl, rfl, rfl⟩
        · exact ⟨rfl, hc, rfl, rfl, rfl⟩
        · obtain ⟨v1, g1⟩ := view_congr hl hcc b1 b2
          simp only [ec, hview, v1, g1]
          split_ifs
          · exact ⟨rfl, hc, rfl, rfl, rfl⟩
          · cases eng.prob vc.geometry c.geometry mv with
            | error e => exact ⟨rfl, hc, rfl, rfl, rfl⟩
            | ok q =>
              dsimp only
              split_ifs
              · exact ⟨rfl, hcc, rfl, rfl, rfl⟩
              · exact ⟨rfl, hc, rfl, rfl, rfl⟩
    | _ => exact ⟨rfl, hc, rfl, rfl, rfl⟩

/-! ### Runs -/

theorem fresh_congr {K L : Tri V} (h : SameManifold K L) (hf : FreshCentroids env K) : FreshCentroids env L := by
  intro F hF hc hi
  rw [h.cells] at hF ⊢
  rw [h.inf] at hi ⊢
  exact hf F hF hc hi

theorem fit_resolve (hl : env.Lawful) {R : Rounding} {p : PhysicalParameters}
    {drawMove : G → Fin 5 × G} {drawTrial : G → LD × G} {v : MetroVars (Mfld V) G} (hv : Fit env v.current)
    (hfr : FreshCentroids env v.current.tri) (code : ℤ) (u : LD) :
    Fit env (resolve (metroEngine env R p drawMove drawTrial) code u v).2.current := by
  unfold resolve
  split_ifs with ht
  · exact hv
  · cases u with
    | fin u =>
      dsimp only
      cases MoveType.ofCode code with
      | none => exact hv
      | some mv =>
        dsimp only
        have ep : (metroEngine env R p drawMove drawTrial).propose mv v.current v.gen =
            wrapMove env v.current (Moves.propose env mv v.current.tri v.gen) := rfl
        rw [ep]
        rcases wrapMove_cases (mv := mv) hl hv hfr (r := Moves.propose env mv v.current.tri v.gen)
          (fun K' g' h => ⟨v.gen, g', .inr h⟩) with ⟨f, g', e⟩ | ⟨m', g', e, hret, hb, hr, hs⟩
        · rw [e]; exact hv
        · rw [e]
          dsimp only
          have ec : (metroEngine env R p drawMove drawTrial).check v.current m' mv =
              checkMove v.current.view m'.view mv := rfl
          rw [ec]
          by_cases hc : checkMove v.current.view m'.view mv = true
          · rw [hc]
            simp only [Bool.not_true, Bool.false_eq_true, if_false]
            cases (metroEngine env R p drawMove drawTrial).prob
              ((metroEngine env R p drawMove drawTrial).geometry v.current)
              ((metroEngine env R p drawMove drawTrial).geometry m') mv with
            | error e => exact hv
            | ok q =>
              dsimp only
              split_ifs
              · exact (fit_of_checked hl hv hfr hret hb hr hs hc).1
              · exact hv
          · rw [Bool.eq_false_iff.2 hc]
            exact hv
    | _ => exact hv

/-- C95.  Whole histories: two runs from the same manifold with the same random state visit, transition by
transition, the same manifolds and leave the random source in the same state, as long as no centroid
of the manifolds of the first run is already a vertex. -/
theorem C95_history (hl : env.Lawful) (hp : PointsOnly env) {R : Rounding} {p : PhysicalParameters}
    {drawMove : G → Fin 5 × G} {drawTrial : G → LD × G} {m m' : Mfld V} (hm : Fit env m) (hm' : Fit env m')
    (h : SameObject m m') (g : G) (k : ℕ) :
    let eng := metroEngine env R p drawMove drawTrial
    (∀ j < k, FreshCentroids env (trajectory eng j (m, g)).1.tri) →
    SameObject (trajectory eng k (m, g)).1 (trajectory eng k (m', g)).1 ∧
      (trajectory eng k (m', g)).2 = (trajectory eng k (m, g)).2 := by
  intro eng hfr
  have main : ∀ k, (∀ j < k, FreshCentroids env (trajectory eng j (m, g)).1.tri) →
      (SameObject (trajectory eng k (m, g)).1 (trajectory eng k (m', g)).1 ∧
      (trajectory eng k (m', g)).2 = (trajectory eng k (m, g)).2) ∧
      Fit env (trajectory eng k (m, g)).1 ∧ Fit env (trajectory eng k (m', g)).1 := by
    intro k
    induction k with
    | zero => intro _; exact ⟨⟨h, rfl⟩, hm, hm'⟩
    | succ k ih =>
      intro hf
      obtain ⟨⟨h1, h2⟩, h3, h4⟩ := ih (fun j hj => hf j (by omega))
      have hfk := hf k (by omega)
      have e : ∀ x, trajectory eng (k + 1) x = advance eng (trajectory eng k x) := by
        intro x
        unfold trajectory
        rw [Function.iterate_succ_apply']
      rw [e, e]
      generalize trajectory eng k (m, g) = x at *
      generalize trajectory eng k (m', g) = y at *
      obtain ⟨x, gx⟩ := x
      obtain ⟨y, gy⟩ := y
      dsimp only at h1 h2 h3 h4 hfk
      subst h2
      unfold advance
      rw [sampleTransition_snd, sampleTransition_snd]
      have key := C95_transition (R := R) (p := p) (drawMove := drawMove) (drawTrial := drawTrial) hl hp
        (v := ⟨x, {}, {}, (eng.drawTrial (eng.drawMove gy).2).2⟩)
        (w := ⟨y, {}, {}, (eng.drawTrial (eng.drawMove gy).2).2⟩) h3 h4 ⟨h1, rfl, rfl, rfl⟩
        ((eng.drawMove gy).1.val : ℤ) (eng.drawTrial (eng.drawMove gy).2).1
      exact ⟨⟨key.2.current, key.2.gen⟩, fit_resolve hl (v := ⟨x, {}, {}, _⟩) h3 hfk _ _,
        fit_resolve hl (v := ⟨y, {}, {}, _⟩) h4 (fresh_congr h1.tri hfk) _ _⟩
  exact (main k hfr).1

/-- The orientation tests of the fixture read nothing. -/
theorem fixturePointsOnly : PointsOnly Fixture.env := ⟨fun _ _ _ => rfl, fun _ _ _ => rfl⟩

/-- A (2,2) and a (3,1) tetrahedron stored with other values in the fields at infinity. -/
def stored23 : Tri ℕ :=
  { Fixture.k23 with time := fun v => if v = 0 then 7 else Fixture.k23.time v
                     info := fun c => if 0 ∈ c then 5 else Fixture.k23.info c }

/-- The hypotheses are met by two different representations of a manifold whose (2,3) move succeeds. -/
example : stored23 ≠ Fixture.k23 ∧ SameManifold Fixture.k23 stored23 ∧ Sound Fixture.env stored23 ∧
    (∃ K, (propose Fixture.env .twoThree Fixture.k23 0).1 = .ok K ∧ K.cells = Fixture.k32.cells) ∧
    SameAnswer (propose Fixture.env .twoThree Fixture.k23 0) (propose Fixture.env .twoThree stored23 0) := by
  have hs : SameManifold Fixture.k23 stored23 := by
    refine ⟨rfl, rfl, ?_, ?_⟩
    · intro v _ hv
      have : v ≠ 0 := hv
      simp [stored23, this]
    · intro c _ hc
      have : 0 ∉ c := hc
      simp [stored23, this]
  have hk : Sound Fixture.env stored23 := by
    refine Fixture.sound_of (by decide +kernel) (by decide +kernel) (by decide +kernel) (by decide +kernel)
  refine ⟨?_, hs, hk, ?_, C95_propose Fixture.lawful fixturePointsOnly Fixture.sound23 hk hs _ _⟩
  · intro e
    have : stored23.time 0 = Fixture.k23.time 0 := by rw [e]
    revert this
    decide +kernel
  · have key : ((propose Fixture.env .twoThree Fixture.k23 0).1.toOption.map fun K =>
        decide (K.cells = Fixture.k32.cells)) = some true := by decide +kernel
    cases hr : (propose Fixture.env .twoThree Fixture.k23 0).1 with
    | error e => rw [hr] at key; simp [Except.toOption] at key
    | ok K => rw [hr] at key; exact ⟨K, rfl, by simpa [Except.toOption] using key⟩

end CDT.Props

/-
C98: what happens to a manifold does not depend on the order in which simplices are enumerated nor on
the implementation of `std::nth_element`, for all three strategies.
-/
import Verif.Spec.AnyLibrary
import Verif.Props.Representation

namespace CDT.Props
open CDT Spec Cavity Moves

variable {V G : Type} [LinearOrder V] {env env' : Env V G}

/-! ### The same triangulation object in two builds -/

omit [LinearOrder V] in
theorem iter_any (hl : env.Lawful) (hl' : env'.Lawful) (K : Tri V) (S : Finset (Finset V)) :
    (env'.iter K S).Perm (env.iter K S) := by
  rw [List.perm_ext_iff_of_nodup (hl'.iter_nodup _ _) (hl.iter_nodup _ _)]
  intro s; rw [hl.mem_iter, hl'.mem_iter]

theorem rawSites_any (hl : env.Lawful) (hl' : env'.Lawful) (K : Tri V) (mv : MoveType) :
    (rawSites env' K mv).Perm (rawSites env K mv) := by
  cases mv
  · exact (iter_any hl hl' K _).filter _
  · exact (iter_any hl hl' K _).filter _
  · exact (iter_any hl hl' K _).filter _
  · exact iter_any hl hl' K _
  · exact (iter_any hl hl' K _).filter _

theorem randomElement_any (hl : env.Lawful) (hl' : env'.Lawful) (hd : SameDraws env env') {l l' : List (Finset V)}
    (h : l'.Perm l) (g : G) : canonicalRandomElement env' l' g = canonicalRandomElement env l g := by
  rw [← randomElement_perm hl h g]
  unfold canonicalRandomElement
  rw [hd.index]
  split_ifs
  · rfl
  · rcases env.index l'.length g with ⟨i, g1⟩
    dsimp only
    rw [nth_eq_sorted (hl.nth siteLe l' i siteLe_total (fun _ _ _ => siteLe_trans)),
      nth_eq_sorted (hl'.nth siteLe l' i siteLe_total (fun _ _ _ => siteLe_trans))]

theorem makeManifold_any (hd : SameDraws env env') (K : Tri V) : makeManifold env' K = makeManifold env K := by
  unfold makeManifold; rw [hd.label]

theorem execute_any (hl : env.Lawful) (hl' : env'.Lawful) (hd : SameDraws env env') (K : Tri V) (p : Prepared V) (g : G) :
    execute env' K p g = execute env K p g := by
  cases p with
  | twoThree m =>
    show (executeTwoThree env' K m, g) = (executeTwoThree env K m, g)
    unfold executeTwoThree checkedFlipFacet
    rw [hd.geoFacet]
  | threeTwo m =>
    show (executeThreeTwo env' K m, g) = (executeThreeTwo env K m, g)
    unfold executeThreeTwo checkedFlipEdge
    rw [hd.geoEdge]
  | twoSix m =>
    simp only [execute, executeTwoSix, hd.centroid]
  | sixTwo v =>
    simp only [execute, executeSixTwo, canonicalize_congr (iter_any hl hl' K _), hd.shuffle]
  | fourFour m => rfl

theorem propose_any (hl : env.Lawful) (hl' : env'.Lawful) (hd : SameDraws env env') (mv : MoveType) (K : Tri V) (g : G) :
    propose env' mv K g = propose env mv K g := by
  unfold propose
  rw [randomElement_any hl hl' hd (rawSites_any hl hl' K mv) g]
  simp only [execute_any hl hl' hd, makeManifold_any hd]

theorem doMove_any (hl : env.Lawful) (hl' : env'.Lawful) (hd : SameDraws env env') (mv : MoveType) (K : Tri V) (g : G) :
    doMove env' mv K g = doMove env mv K g := by
  have h1 : execute env' K = execute env K := funext fun p => funext fun g => execute_any hl hl' hd K p g
  have h2 : makeManifold env' = makeManifold env := funext (makeManifold_any hd)
  unfold doMove
  rw [canonicalize_congr (rawSites_any hl hl' K mv), hd.shuffle, h1, h2]

/-- C98.  A proposal from the same manifold with the same random state, in two builds that enumerate
simplices and select the n-th element differently: the same manifold or the same failure, and the same
random state. -/
theorem C98_propose (hl : env.Lawful) (hl' : env'.Lawful) (hd : SameDraws env env') (hp : PointsOnly env) {K L : Tri V}
    (hK : Sound env K) (hL : Sound env L) (h : SameManifold K L) (mv : MoveType) (g : G) :
    SameAnswer (propose env mv K g) (propose env' mv L g) := by
  rw [propose_any hl hl' hd]
  exact C95_propose hl hp hK hL h mv g

/-- C98.  The same for the searching moves. -/
theorem C98_do_move (hl : env.Lawful) (hl' : env'.Lawful) (hd : SameDraws env env') (hp : PointsOnly env) {K L : Tri V}
    (hK : Sound env K) (hL : Sound env L) (h : SameManifold K L) (mv : MoveType) (g : G) :
    SameAnswer (doMove env mv K g) (doMove env' mv L g) := by
  rw [doMove_any hl hl' hd]
  exact C95_do_move hl hp hK hL h mv g

/-! ### Manifold objects -/

theorem view_any (hl : env.Lawful) (hl' : env'.Lawful) {m m' : Mfld V} (h : SameObject m m')
    (hb : buildCaches env m.tri = .ok m.caches) (hb' : buildCaches env' m'.tri = .ok m'.caches) :
    m'.view = m.view ∧ m'.geometry = m.geometry := by
  obtain ⟨h0, hv, hcs, h31, h22, h13, hf, hsf, hes, htl, hsl, _, _⟩ := buildCaches_ok hb'
  obtain ⟨cs, hc⟩ := buildCaches_total hl (K := m'.tri) h0
  -- the object with the caches of the first build
  have key : (⟨m'.tri, cs, m'.radius, m'.spacing⟩ : Mfld V).view = m'.view ∧
      (⟨m'.tri, cs, m'.radius, m'.spacing⟩ : Mfld V).geometry = m'.geometry := by
    obtain ⟨_, kv, kcs, k31, k22, k13, kf, ksf, kes, ktl, ksl, _, _⟩ := buildCaches_ok hc
    have it : ∀ S : Finset (Finset V), (env'.iter m'.tri S).Perm (env.iter m'.tri S) := iter_any hl hl' m'.tri
    have c1 : m'.caches.cells.Perm cs.cells := by rw [hcs, kcs]; exact it _
    have c2 : m'.caches.edges.Perm cs.edges := by rw [hes, kes]; exact it _
    have c3 : m'.caches.vertices.Perm cs.vertices := by rw [hv, kv]; exact it _
    have l31 : cs.threeOne.length = m'.caches.threeOne.length := by rw [h31, k31]; exact (c1.filter _).length_eq.symm
    have l22 : cs.twoTwo.length = m'.caches.twoTwo.length := by rw [h22, k22]; exact (c1.filter _).length_eq.symm
    have l13 : cs.oneThree.length = m'.caches.oneThree.length := by rw [h13, k13]; exact (c1.filter _).length_eq.symm
    have ltl : cs.timelikeEdges.length = m'.caches.timelikeEdges.length := by rw [htl, ktl]; exact (c2.filter _).length_eq.symm
    have lsl : cs.spacelikeEdges.length = m'.caches.spacelikeEdges.length := by rw [hsl, ksl]; exact (c2.filter _).length_eq.symm
    have hmax : cs.maxTime = m'.caches.maxTime ∧ cs.minTime = m'.caches.minTime := by
      obtain ⟨⟨a, ha, ea⟩, a2⟩ := maxTime_spec hl hc
      obtain ⟨⟨b, hb, eb⟩, b2⟩ := maxTime_spec hl' hb'
      obtain ⟨⟨a', ha', ea'⟩, a2'⟩ := minTime_spec hl hc
      obtain ⟨⟨b', hb', eb'⟩, b2'⟩ := minTime_spec hl' hb'
      have := a2 b hb; have := b2 a ha; have := a2' b' hb'; have := b2' a' ha'
      constructor <;> omega
    have hg : (⟨m'.tri, cs, m'.radius, m'.spacing⟩ : Mfld V).geometry = m'.geometry := by
      unfold Mfld.geometry geometryOf
      simp only [l31, l22, l13, ltl, lsl]
    have sf : ∀ cs : Caches V, cs.spacelikeFacets = collectSpacelikeFacets m'.tri cs.faces →
        decide (cs.spacelikeFacets.length ≤ cs.faces.length) = true := by
      intro x hx
      rw [decide_eq_true_eq, hx]
      unfold collectSpacelikeFacets
      rw [List.length_insertionSort]
      exact List.length_filterMap_le _ _
    have ie : cs.vertices.isEmpty = m'.caches.vertices.isEmpty := by
      rw [Bool.eq_iff_iff, List.isEmpty_iff_length_eq_zero, List.isEmpty_iff_length_eq_zero, c3.length_eq]
    have hsc : isStructurallyCorrect m'.tri cs = isStructurallyCorrect m'.tri m'.caches := by
      unfold isStructurallyCorrect hasConsistentStructure
      rw [sf cs ksf, sf m'.caches hsf, ie, c3.length_eq, c1.length_eq, c2.length_eq, l31, l22, l13, ltl, lsl, hmax.1, hmax.2]
    refine ⟨?_, hg⟩
    unfold Mfld.view viewOf
    unfold Mfld.geometry at hg
    dsimp only at hg ⊢
    rw [hsc, hg, lsl, ltl, hmax.1, hmax.2]
  obtain ⟨h1, h2⟩ := view_congr hl (m := m) (m' := ⟨m'.tri, cs, m'.radius, m'.spacing⟩) ⟨h.tri, h.radius, h.spacing⟩ hb hc
  exact ⟨key.1.symm.trans h1, key.2.symm.trans h2⟩

theorem wrap_any (hl : env.Lawful) (hl' : env'.Lawful) {m m' : Mfld V} (h : SameObject m m')
    {r s : Except MoveFailure (Tri V) × G} (hrs : SameAnswer r s) :
    (wrapMove env' m' s).2 = (wrapMove env m r).2 ∧
    ((∃ e, (wrapMove env m r).1 = .error e ∧ (wrapMove env' m' s).1 = .error e) ∨
     (∃ f, (wrapMove env m r).1 = .ok (.error f) ∧ (wrapMove env' m' s).1 = .ok (.error f)) ∨
     ∃ c c', (wrapMove env m r).1 = .ok (.ok c) ∧ (wrapMove env' m' s).1 = .ok (.ok c') ∧ SameObject c c' ∧
       buildCaches env c.tri = .ok c.caches ∧ buildCaches env' c'.tri = .ok c'.caches) := by
  obtain ⟨r, g⟩ := r
  obtain ⟨s, g'⟩ := s
  obtain ⟨hg, hf, hm⟩ := hrs
  dsimp only at hg hf hm
  subst hg
  cases r with
  | error e =>
    have := (hf e).2 rfl
    subst this
    exact ⟨rfl, .inr (.inl ⟨e, rfl, rfl⟩)⟩
  | ok K => cases s with
    | error e => have := (hf e).1 rfl; simp at this
    | ok L =>
      have hs := hm K L rfl rfl
      unfold wrapMove
      dsimp only
      have hv := finiteVerts_congr hs
      by_cases h0 : K.finiteVerts = ∅
      · have a1 : buildCaches env K = .error .invalidArgument := by unfold buildCaches; rw [if_pos h0]
        have a2 : buildCaches env' L = .error .invalidArgument := by unfold buildCaches; rw [if_pos (hv.trans h0)]
        rw [a1, a2]
        exact ⟨rfl, .inl ⟨_, rfl, rfl⟩⟩
      · obtain ⟨cs, hcs⟩ := buildCaches_total hl h0
        obtain ⟨cs', hcs'⟩ := buildCaches_total (env := env') hl' (K := L) (by rw [hv]; exact h0)
        rw [hcs, hcs']
        exact ⟨rfl, .inr (.inr ⟨_, _, rfl, rfl, ⟨hs, h.radius, h.spacing⟩, hcs, hcs'⟩)⟩

theorem sound_any (hd : SameDraws env env') {K : Tri V} (h : Sound env' K) : Sound env K :=
  ⟨h.closed, h.labels, fun v hv hi => by rw [← hd.label]; exact h.times v hv hi, h.quiet⟩

/-- C98.  A Metropolis transition in the two builds: the same outcome or exception, counters, random
state and manifold. -/
theorem C98_transition (hl : env.Lawful) (hl' : env'.Lawful) (hd : SameDraws env env') (hp : PointsOnly env)
    {R : Rounding} {p : PhysicalParameters} {drawMove : G → Fin 5 × G} {drawTrial : G → LD × G}
    {v w : MetroVars (Mfld V) G} (hv : Fit env v.current) (hw : Fit env' w.current) (h : SameState v w) (code : ℤ) (u : LD) :
    let eng := metroEngine env R p drawMove drawTrial
    let eng' := metroEngine env' R p drawMove drawTrial
    (resolve eng' code u w).1 = (resolve eng code u v).1 ∧ SameState (resolve eng code u v).2 (resolve eng' code u w).2 := by
  intro eng eng'
  obtain ⟨vc, vcmd, vst, vg⟩ := v
  obtain ⟨wc, wcmd, wst, wg⟩ := w
  obtain ⟨hc, h1, h2, h3⟩ := h
  dsimp only at hc h1 h2 h3 hv hw
  subst h1 h2 h3
  obtain ⟨hview, hgeo⟩ := view_any hl hl' hc hv.caches hw.caches
  unfold resolve
  split_ifs with ht
  · exact ⟨rfl, hc, rfl, rfl, rfl⟩
  · cases u with
    | fin u =>
      dsimp only
      cases MoveType.ofCode code with
      | none => exact ⟨rfl, hc, rfl, rfl, rfl⟩
      | some mv =>
        dsimp only
        have eg : ∀ m, eng.geometry m = m.geometry := fun _ => rfl
        have eg' : ∀ m, eng'.geometry m = m.geometry := fun _ => rfl
        have ep : ∀ mv m g, eng.propose mv m g = wrapMove env m (propose env mv m.tri g) := fun _ _ _ => rfl
        have ep' : ∀ mv m g, eng'.propose mv m g = wrapMove env' m (propose env' mv m.tri g) := fun _ _ _ => rfl
        have ec : ∀ b a mv, eng.check b a mv = checkMove b.view a.view mv := fun _ _ _ => rfl
        have ec' : ∀ b a mv, eng'.check b a mv = checkMove b.view a.view mv := fun _ _ _ => rfl
        have eP : eng'.prob = eng.prob := rfl
        have eG : eng'.probGe = eng.probGe := rfl
        rw [ep, ep', eP, eG]
        obtain ⟨k2, k1⟩ := wrap_any hl hl' hc
          (C98_propose hl hl' hd hp hv.sound (sound_any hd hw.sound) hc.tri mv wg)
        generalize wrapMove env vc (propose env mv vc.tri wg) = a at k1 k2 ⊢
        generalize wrapMove env' wc (propose env' mv wc.tri wg) = b at k1 k2 ⊢
        obtain ⟨a, ga⟩ := a
        obtain ⟨b, gb⟩ := b
        dsimp only at k2
        subst k2
        simp only [eg, eg', hgeo]
        rcases k1 with ⟨e, rfl, rfl⟩ | ⟨f, rfl, rfl⟩ | ⟨c, c', rfl, rfl, hcc, b1, b2⟩
        · exact ⟨rfl, hc, rfl, rfl, rfl⟩
        · exact ⟨rfl, hc, rfl, rfl, rfl⟩
        · obtain ⟨v1, g1⟩ := view_any hl hl' hcc b1 b2
          simp only [ec, ec', hview, v1, g1]
          split_ifs
          · exact ⟨rfl, hc, rfl, rfl, rfl⟩
          · cases eng.prob vc.geometry c.geometry mv with
            | error e => exact ⟨rfl, hc, rfl, rfl, rfl⟩
            | ok q =>
              dsimp only
              split_ifs
              · exact ⟨rfl, hcc, rfl, rfl, rfl⟩
              · exact ⟨rfl, hc, rfl, rfl, rfl⟩
    | _ => exact ⟨rfl, hc, rfl, rfl, rfl⟩

theorem fresh_any (hd : SameDraws env env') {K L : Tri V} (h : SameManifold K L) (hf : FreshCentroids env K) :
    FreshCentroids env' L := by
  have := fresh_congr h hf
  intro F hF hc hi
  rw [hd.centroid]
  exact this F hF hc hi

/-- C98.  Whole Metropolis histories in the two builds. -/
theorem C98_history (hl : env.Lawful) (hl' : env'.Lawful) (hd : SameDraws env env') (hp : PointsOnly env)
    {R : Rounding} {p : PhysicalParameters} {drawMove : G → Fin 5 × G} {drawTrial : G → LD × G} {m m' : Mfld V}
    (hm : Fit env m) (hm' : Fit env' m') (h : SameObject m m') (g : G) (k : ℕ) :
    let eng := metroEngine env R p drawMove drawTrial
    let eng' := metroEngine env' R p drawMove drawTrial
    (∀ j < k, FreshCentroids env (trajectory eng j (m, g)).1.tri) →
    SameObject (trajectory eng k (m, g)).1 (trajectory eng' k (m', g)).1 ∧
      (trajectory eng' k (m', g)).2 = (trajectory eng k (m, g)).2 := by
  intro eng eng' hfr
  have main : ∀ k, (∀ j < k, FreshCentroids env (trajectory eng j (m, g)).1.tri) →
      (SameObject (trajectory eng k (m, g)).1 (trajectory eng' k (m', g)).1 ∧
      (trajectory eng' k (m', g)).2 = (trajectory eng k (m, g)).2) ∧
      Fit env (trajectory eng k (m, g)).1 ∧ Fit env' (trajectory eng' k (m', g)).1 := by
    intro k
    induction k with
    | zero => intro _; exact ⟨⟨h, rfl⟩, hm, hm'⟩
    | succ k ih =>
      intro hf
      obtain ⟨⟨h1, h2⟩, h3, h4⟩ := ih (fun j hj => hf j (by omega))
      have hfk := hf k (by omega)
      have e : ∀ x, trajectory eng (k + 1) x = advance eng (trajectory eng k x) := by
        intro x
        unfold trajectory
        rw [Function.iterate_succ_apply']
      have e' : ∀ x, trajectory eng' (k + 1) x = advance eng' (trajectory eng' k x) := by
        intro x
        unfold trajectory
        rw [Function.iterate_succ_apply']
      rw [e, e']
      generalize trajectory eng k (m, g) = x at *
      generalize trajectory eng' k (m', g) = y at *
      obtain ⟨x, gx⟩ := x
      obtain ⟨y, gy⟩ := y
      dsimp only at h1 h2 h3 h4 hfk
      subst h2
      unfold advance
      rw [sampleTransition_snd, sampleTransition_snd]
      have d1 : eng'.drawMove = eng.drawMove := rfl
      have d2 : eng'.drawTrial = eng.drawTrial := rfl
      rw [d1, d2]
      have key := C98_transition (R := R) (p := p) (drawMove := drawMove) (drawTrial := drawTrial) hl hl' hd hp
        (v := ⟨x, {}, {}, (eng.drawTrial (eng.drawMove gy).2).2⟩)
        (w := ⟨y, {}, {}, (eng.drawTrial (eng.drawMove gy).2).2⟩) h3 h4 ⟨h1, rfl, rfl, rfl⟩
        ((eng.drawMove gy).1.val : ℤ) (eng.drawTrial (eng.drawMove gy).2).1
      exact ⟨⟨key.2.current, key.2.gen⟩, fit_resolve hl (v := ⟨x, {}, {}, _⟩) h3 hfk _ _,
        fit_resolve hl' (v := ⟨y, {}, {}, _⟩) h4 (fresh_any hd h1.tri hfk) _ _⟩
  exact (main k hfr).1

/-! ### Queued moves and the unconditional strategy -/

/-- C98.  One queued move in the two builds, whatever its code: the same end, counters, queue, random
state and manifold. -/
theorem C98_queued_move (hl : env.Lawful) (hl' : env'.Lawful) (hd : SameDraws env env') (hp : PointsOnly env)
    {c d : Command (Mfld V)} (hc : Fit env c.manifold) (hd' : Fit env' d.manifold) (h : SameCommand c d) (rest : List ℤ)
    (code : ℤ) (g : G) :
    (d.stepBack (commandEngine env') rest code g).2 = (c.stepBack (commandEngine env) rest code g).2 ∧
    SameCommand (c.stepBack (commandEngine env) rest code g).1 (d.stepBack (commandEngine env') rest code g).1 := by
  obtain ⟨cm, cq, cr⟩ := c
  obtain ⟨dm, dq, dr⟩ := d
  obtain ⟨ho, h1, h2⟩ := h
  dsimp only at ho h1 h2 hc hd'
  subst h1 h2
  obtain ⟨hview, -⟩ := view_any hl hl' ho hc.caches hd'.caches
  unfold Command.stepBack
  cases MoveType.ofCode code with
  | none => exact ⟨rfl, ho, rfl, rfl⟩
  | some mv =>
    dsimp only
    have ep : (commandEngine env).applyMove mv cm g = wrapMove env cm (doMove env mv cm.tri g) := rfl
    have ep' : (commandEngine env').applyMove mv dm g = wrapMove env' dm (doMove env' mv dm.tri g) := rfl
    have ec : ∀ b a mv, (commandEngine env).check b a mv = checkMove b.view a.view mv := fun _ _ _ => rfl
    have ec' : ∀ b a mv, (commandEngine env').check b a mv = checkMove b.view a.view mv := fun _ _ _ => rfl
    rw [ep, ep']
    obtain ⟨k2, k1⟩ := wrap_any hl hl' ho (C98_do_move hl hl' hd hp hc.sound (sound_any hd hd'.sound) ho.tri mv g)
    generalize wrapMove env cm (doMove env mv cm.tri g) = a at k1 k2 ⊢
    generalize wrapMove env' dm (doMove env' mv dm.tri g) = b at k1 k2 ⊢
    obtain ⟨a, ga⟩ := a
    obtain ⟨b, gb⟩ := b
    dsimp only at k2
    subst k2
    rcases k1 with ⟨e, rfl, rfl⟩ | ⟨f, rfl, rfl⟩ | ⟨n, n', rfl, rfl, hcc, b1, b2⟩
    · exact ⟨rfl, ho, rfl, rfl⟩
    · exact ⟨rfl, ho, rfl, rfl⟩
    · obtain ⟨v1, -⟩ := view_any hl hl' hcc b1 b2
      simp only [ec, ec', hview, v1]
      split_ifs
      · exact ⟨rfl, hcc, rfl, rfl⟩
      · exact ⟨rfl, ho, rfl, rfl⟩

theorem apply_any (hl : env.Lawful) (hl' : env'.Lawful) (hd : SameDraws env env') (hp : PointsOnly env) {m m' : Mfld V}
    (hm : Fit env m) (hm' : Fit env' m') (h : SameObject m m') (mv : MoveType) (g : G) :
    SameObject (Spec.apply (commandEngine env) mv (m, g)).1 (Spec.apply (commandEngine env') mv (m', g)).1 ∧
    (Spec.apply (commandEngine env') mv (m', g)).2 = (Spec.apply (commandEngine env) mv (m, g)).2 := by
  obtain ⟨hview, -⟩ := view_any hl hl' h hm.caches hm'.caches
  have ep : (commandEngine env).applyMove mv m g = wrapMove env m (doMove env mv m.tri g) := rfl
  have ep' : (commandEngine env').applyMove mv m' g = wrapMove env' m' (doMove env' mv m'.tri g) := rfl
  have ec : ∀ b a mv, (commandEngine env).check b a mv = checkMove b.view a.view mv := fun _ _ _ => rfl
  have ec' : ∀ b a mv, (commandEngine env').check b a mv = checkMove b.view a.view mv := fun _ _ _ => rfl
  unfold Spec.apply
  dsimp only
  rw [ep, ep']
  obtain ⟨k2, k1⟩ := wrap_any hl hl' h (C98_do_move hl hl' hd hp hm.sound (sound_any hd hm'.sound) h.tri mv g)
  generalize wrapMove env m (doMove env mv m.tri g) = a at k1 k2 ⊢
  generalize wrapMove env' m' (doMove env' mv m'.tri g) = b at k1 k2 ⊢
  obtain ⟨a, ga⟩ := a
  obtain ⟨b, gb⟩ := b
  dsimp only at k2
  subst k2
  rcases k1 with ⟨e, rfl, rfl⟩ | ⟨f, rfl, rfl⟩ | ⟨n, n', rfl, rfl, hcc, b1, b2⟩
  · exact ⟨h, rfl⟩
  · exact ⟨h, rfl⟩
  · obtain ⟨v1, -⟩ := view_any hl hl' hcc b1 b2
    simp only [ec, ec', hview, v1]
    split_ifs
    · exact ⟨hcc, trivial⟩
    · exact ⟨h, trivial⟩

/-- C98.  A batch of queued moves in the two builds: the same end, the same counters and queue, the same
random state and the same manifold; and the same for the list of manifolds on which moves were tried. -/
theorem C98_batch (hl : env.Lawful) (hl' : env'.Lawful) (hd : SameDraws env env') (hp : PointsOnly env) :
    ∀ (l : List MoveType) {c d : Command (Mfld V)} (g : G), Fit env c.manifold → Fit env' d.manifold → SameCommand c d →
    (∀ n ∈ tried (commandEngine env) l (c.manifold, g), FreshCentroids env n.tri) →
    let r := Command.executeLoop (commandEngine env) (l.map fun mv => (mv.asInteger.val : ℤ)) c g
    let r' := Command.executeLoop (commandEngine env') (l.map fun mv => (mv.asInteger.val : ℤ)) d g
    r'.2 = r.2 ∧ SameCommand r.1 r'.1 ∧
    List.Forall₂ SameObject (tried (commandEngine env) l (c.manifold, g)) (tried (commandEngine env') l (d.manifold, g)) ∧
    Fit env r.1.manifold ∧ Fit env' r'.1.manifold
  | [], c, d, g, hc, hd', h, _ => ⟨rfl, h, .nil, hc, hd'⟩
  | mv :: l, c, d, g, hc, hd', h, hfr => by
    intro r r'
    have f1 := hfr c.manifold (by simp [tried])
    obtain ⟨n1, s1⟩ := apply_next hl hc f1 mv g
    obtain ⟨n2, s2⟩ := apply_next hl' hd' (fresh_any hd h.manifold.tri f1) mv g
    have hcode : MoveType.ofCode (mv.asInteger.val : ℤ) = some mv := by cases mv <;> rfl
    obtain ⟨c1, e1, e2, e3⟩ := s1 c (l.map fun mv => (mv.asInteger.val : ℤ)).reverse _ hcode rfl
    obtain ⟨d1, e1', e2', e3'⟩ := s2 d (l.map fun mv => (mv.asInteger.val : ℤ)).reverse _ hcode rfl
    obtain ⟨q1, q2⟩ := C98_queued_move hl hl' hd hp hc hd' h (l.map fun mv => (mv.asInteger.val : ℤ)).reverse
      (mv.asInteger.val : ℤ) g
    rw [e1, e1'] at q1 q2
    dsimp only at q1 q2
    have q1 := congrArg Prod.fst q1
    dsimp only at q1
    have ih := C98_batch hl hl' hd hp l (c := c1) (d := d1) (Spec.apply (commandEngine env) mv (c.manifold, g)).2
      (by rw [e2]; exact n1.fit) (by rw [e2']; exact n2.fit) q2 (by
        intro n hn
        refine hfr n ?_
        rw [e2] at hn
        exact List.mem_cons_of_mem _ hn)
    have er : r = Command.executeLoop (commandEngine env) (l.map fun mv => (mv.asInteger.val : ℤ)) c1
        (Spec.apply (commandEngine env) mv (c.manifold, g)).2 := by
      show Command.executeLoop _ (List.map _ (mv :: l)) c g = _
      rw [List.map_cons, Command.executeLoop, e1]
    have er' : r' = Command.executeLoop (commandEngine env') (l.map fun mv => (mv.asInteger.val : ℤ)) d1
        (Spec.apply (commandEngine env) mv (c.manifold, g)).2 := by
      show Command.executeLoop _ (List.map _ (mv :: l)) d g = _
      rw [List.map_cons, Command.executeLoop, e1', q1]
    rw [er, er']
    obtain ⟨i1, i2, i3, i4, i5⟩ := ih
    refine ⟨i1, i2, .cons h.manifold ?_, i4, i5⟩
    rw [e2, e2', ← q1] at i3
    rw [q1] at i3
    have p1 : Spec.apply (commandEngine env) mv (c.manifold, g) =
      ((Spec.apply (commandEngine env) mv (c.manifold, g)).1, (Spec.apply (commandEngine env) mv (c.manifold, g)).2) := rfl
    have p2 : Spec.apply (commandEngine env') mv (d.manifold, g) =
      ((Spec.apply (commandEngine env') mv (d.manifold, g)).1, (Spec.apply (commandEngine env) mv (c.manifold, g)).2) := by
      rw [← q1]
    rw [p1, p2]
    exact i3

theorem applyAll_any (hl : env.Lawful) (hl' : env'.Lawful) (hd : SameDraws env env') (hp : PointsOnly env) :
    ∀ (l : List MoveType) {m m' : Mfld V} (g : G), Fit env m → Fit env' m' → SameObject m m' →
    (∀ n ∈ tried (commandEngine env) l (m, g), FreshCentroids env n.tri) →
    SameObject (applyAll (commandEngine env) l (m, g)).1 (applyAll (commandEngine env') l (m', g)).1 ∧
    (applyAll (commandEngine env') l (m', g)).2 = (applyAll (commandEngine env) l (m, g)).2 ∧
    Fit env (applyAll (commandEngine env) l (m, g)).1 ∧ Fit env' (applyAll (commandEngine env') l (m', g)).1
  | [], m, m', g, hm, hm', h, _ => ⟨h, rfl, hm, hm'⟩
  | mv :: l, m, m', g, hm, hm', h, hfr => by
    have f1 := hfr m (by simp [tried])
    have n1 := (apply_next hl hm f1 mv g).1
    have n2 := (apply_next hl' hm' (fresh_any hd h.tri f1) mv g).1
    obtain ⟨a1, a2⟩ := apply_any hl hl' hd hp hm hm' h mv g
    have hfr' : ∀ n ∈ tried (commandEngine env) l (Spec.apply (commandEngine env) mv (m, g)), FreshCentroids env n.tri :=
      fun n hn => hfr n (List.mem_cons_of_mem _ hn)
    show SameObject (applyAll _ l (Spec.apply _ mv (m, g))).1 (applyAll _ l (Spec.apply _ mv (m', g))).1 ∧
      (applyAll _ l (Spec.apply _ mv (m', g))).2 = (applyAll _ l (Spec.apply _ mv (m, g))).2 ∧
      Fit env (applyAll _ l (Spec.apply _ mv (m, g))).1 ∧ Fit env' (applyAll _ l (Spec.apply _ mv (m', g))).1
    generalize Spec.apply (commandEngine env) mv (m, g) = x at *
    generalize Spec.apply (commandEngine env') mv (m', g) = y at *
    obtain ⟨x, gx⟩ := x
    obtain ⟨y, gy⟩ := y
    dsimp only at a1 a2 n1 n2
    subst a2
    exact applyAll_any hl hl' hd hp l gy n1.fit n2.fit a1 hfr'

/-- C98.  Any number of passes of the unconditional strategy in the two builds: the same manifold and the
same random state. -/
theorem C98_always {F : Type} (hl : env.Lawful) (hl' : env'.Lawful) (hd : SameDraws env env') (hp : PointsOnly env)
    {drawMove : G → Fin 5 × G} {report : Mfld V → CommandResults → Eff (G × F) Unit}
    {checkpoint : Mfld V → CommandResults → Int → Eff (G × F) Unit} {m m' : Mfld V} (hm : Fit env m) (hm' : Fit env' m')
    (h : SameObject m m') (g : G) (k : ℕ) :
    let eng := alwaysEngine env drawMove report checkpoint
    let eng' := alwaysEngine env' drawMove report checkpoint
    (∀ p < k, ∀ n ∈ alwaysTried eng ((alwaysPass eng)^[p] (m, g)), FreshCentroids env n.tri) →
    SameObject ((alwaysPass eng)^[k] (m, g)).1 ((alwaysPass eng')^[k] (m', g)).1 ∧
      ((alwaysPass eng')^[k] (m', g)).2 = ((alwaysPass eng)^[k] (m, g)).2 := by
  intro eng eng' hfr
  have main : ∀ k, (∀ p < k, ∀ n ∈ alwaysTried eng ((alwaysPass eng)^[p] (m, g)), FreshCentroids env n.tri) →
      (SameObject ((alwaysPass eng)^[k] (m, g)).1 ((alwaysPass eng')^[k] (m', g)).1 ∧
      ((alwaysPass eng')^[k] (m', g)).2 = ((alwaysPass eng)^[k] (m, g)).2) ∧
      Fit env ((alwaysPass eng)^[k] (m, g)).1 ∧ Fit env' ((alwaysPass eng')^[k] (m', g)).1 := by
    intro k
    induction k with
    | zero => intro _; exact ⟨⟨h, rfl⟩, hm, hm'⟩
    | succ k ih =>
      intro hf
      obtain ⟨⟨h1, h2⟩, h3, h4⟩ := ih (fun j hj => hf j (by omega))
      have hfk := hf k (by omega)
      rw [Function.iterate_succ_apply', Function.iterate_succ_apply']
      generalize (alwaysPass eng)^[k] (m, g) = x at *
      generalize (alwaysPass eng')^[k] (m', g) = y at *
      obtain ⟨x, gx⟩ := x
      obtain ⟨y, gy⟩ := y
      dsimp only at h1 h2 h3 h4 hfk
      subst h2
      obtain ⟨-, hgeo⟩ := view_any hl hl' h1 h3.caches h4.caches
      have hn : eng'.n3 y = eng.n3 x := by
        show y.geometry.N3 = x.geometry.N3
        rw [hgeo]
      have d1 : eng'.drawMove = eng.drawMove := rfl
      unfold alwaysTried at hfk
      unfold alwaysPass
      dsimp only at hfk ⊢
      rw [hn, d1]
      obtain ⟨a1, a2, a3, a4⟩ := applyAll_any hl hl' hd hp (drawn eng.drawMove (eng.n3 x).toNat gy).1
        (drawn eng.drawMove (eng.n3 x).toNat gy).2 h3 h4 h1 hfk
      exact ⟨⟨a1, a2⟩, a3, a4⟩
  exact (main k hfr).1

/-! ### A concrete pair of builds -/

namespace AnyLibraryExample
open Fixture

/-- The fixture's environment with the simplices enumerated backwards and another `nth_element`. -/
def backwards : Env ℕ ℕ :=
  { Fixture.env with
    iter := fun K S => (Fixture.env.iter K S).reverse
    nth := fun le l i => Fixture.env.nth le l.reverse i }

theorem backwardsLawful : backwards.Lawful where
  iter_nodup K S := List.nodup_reverse.2 (lawful.iter_nodup K S)
  mem_iter K S s := List.mem_reverse.trans (lawful.mem_iter K S s)
  index_lt := lawful.index_lt
  shuffle_perm := lawful.shuffle_perm
  nth le l i h1 h2 := by
    obtain ⟨p1, p2⟩ := lawful.nth le l.reverse i h1 h2
    exact ⟨p1.trans l.reverse_perm, p2⟩

theorem backwardsDraws : SameDraws Fixture.env backwards := ⟨rfl, rfl, rfl, rfl, rfl, fun _ _ => rfl⟩

/-- The hypotheses are met: the octahedron around a spacelike edge in two builds that enumerate its
tetrahedra in different orders, and a batch of moves that changes it. -/
example : Fixture.env.iter k44 k44.finiteCells ≠ backwards.iter k44 k44.finiteCells ∧
    ∃ m m' : Mfld ℕ, Fit Fixture.env m ∧ Fit backwards m' ∧ SameObject m m' ∧ m.caches.cells ≠ m'.caches.cells ∧
    (∀ n ∈ tried (commandEngine Fixture.env) [.fourFour, .twoThree, .fourFour] (m, 0), FreshCentroids Fixture.env n.tri) ∧
    (applyAll (commandEngine Fixture.env) [.fourFour, .twoThree] (m, 0)).1.tri.cells ≠ m.tri.cells ∧
    SameObject (applyAll (commandEngine Fixture.env) [.fourFour, .twoThree] (m, 0)).1
      (applyAll (commandEngine backwards) [.fourFour, .twoThree] (m', 0)).1 := by
  have hne : Fixture.env.iter k44 k44.finiteCells ≠ backwards.iter k44 k44.finiteCells := by decide +kernel
  refine ⟨hne, ?_⟩
  have key : ((buildCaches Fixture.env k44).toOption.map fun cs =>
      decide ((∀ n ∈ tried (commandEngine Fixture.env) [.fourFour, .twoThree, .fourFour] (⟨k44, cs, 0, 0⟩, 0),
          FreshCentroids Fixture.env n.tri) ∧
        (applyAll (commandEngine Fixture.env) [.fourFour, .twoThree] (⟨k44, cs, 0, 0⟩, 0)).1.tri.cells ≠ k44.cells)) =
      some true := by decide +kernel
  cases hb : buildCaches Fixture.env k44 with
  | error e => rw [hb] at key; simp [Except.toOption] at key
  | ok cs =>
    rw [hb] at key
    simp only [Except.toOption, Option.map_some, Option.some.injEq, decide_eq_true_eq] at key
    obtain ⟨h1, h2⟩ := key
    obtain ⟨cs', hb'⟩ := buildCaches_total backwardsLawful (K := k44) (buildCaches_ok hb).1
    have f1 : Fit Fixture.env (⟨k44, cs, 0, 0⟩ : Mfld ℕ) := ⟨sound44, hb⟩
    have f2 : Fit backwards (⟨k44, cs', 0, 0⟩ : Mfld ℕ) := ⟨⟨sound44.closed, sound44.labels, sound44.times, sound44.quiet⟩, hb'⟩
    have so : SameObject (⟨k44, cs, 0, 0⟩ : Mfld ℕ) ⟨k44, cs', 0, 0⟩ :=
      ⟨⟨rfl, rfl, fun _ _ _ => rfl, fun _ _ _ => rfl⟩, rfl, rfl⟩
    refine ⟨_, _, f1, f2, so, ?_, h1, h2, (applyAll_any lawful backwardsLawful backwardsDraws fixturePointsOnly
      [.fourFour, .twoThree] 0 f1 f2 so fun n hn => h1 n ?_).1⟩
    · show cs.cells ≠ cs'.cells
      rw [(buildCaches_ok hb).2.2.1, (buildCaches_ok hb').2.2.1]
      exact hne
    · have sub : ∀ (l l' : List MoveType) (x : Mfld ℕ × ℕ),
          ∀ n ∈ tried (commandEngine Fixture.env) l x, n ∈ tried (commandEngine Fixture.env) (l ++ l') x := by
        intro l l'
        induction l with
        | nil => intro x n hn; cases hn
        | cons mv l ih =>
          intro x n hn
          rcases List.mem_cons.1 hn with rfl | hn
          · exact List.mem_cons_self
          · exact List.mem_cons_of_mem _ (ih _ n hn)
      exact sub [.fourFour, .twoThree] [.fourFour] _ n hn

end AnyLibraryExample

end CDT.Props

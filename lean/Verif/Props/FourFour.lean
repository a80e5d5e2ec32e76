/-
C86: the (4,4) move changes no count, so its candidates are accepted with probability one; the
published tallies of a Metropolis strategy show it.
-/
import Verif.Props.Transition
import Verif.Lemmas.MetroRun

namespace CDT.Props
open CDT Spec Mp
variable {V G : Type} [LinearOrder V] {F : Type}

/-- C86.  Two geometries with the counts the action and the (4,4) proposal depend on have
acceptance probability exactly one, whatever the couplings (even infinite or NaN ones) and in every
lawful arithmetic: the computation, with all its roundings, gives the number 1 and nothing else. -/
theorem C86_probability_one {R : Rounding} (hR : R.Lawful) (p : PhysicalParameters) {g g' : Geometry}
    (h1 : g'.N1_TL = g.N1_TL) (h2 : g'.N3_31_13 = g.N3_31_13) (h3 : g'.N3_22 = g.N3_22)
    (h4 : g'.N1_SL = g.N1_SL) {A : Mp} (h : acceptanceProbability R p g g' .fourFour = .ok A) :
    A = .fin 1 := by
  have e1 : fromInteger R 1 = .fin 1 := by have := small_int hR 1; push_cast at this; exact this
  have r1 : R.rnd 1 = .fin 1 := by simpa [fromInteger] using e1
  have r0 : R.rnd 0 = .fin 0 := by have := small_int hR 0; simpa [fromInteger] using this
  have hq : proposalProbability R g' MoveType.fourFour.reverse = proposalProbability R g .fourFour := by
    by_cases hc : g.N1_SL ≤ 0 <;> simp [proposalProbability, MoveType.reverse, proposalSiteCount, h4, hc]
  have ratio : actionRatio R p g g' = .fin 1 ∨ actionRatio R p g g' = .nan := by
    unfold actionRatio
    rw [h1, h2, h3]
    cases s3BulkAction R g.N1_TL g.N3_31_13 g.N3_22 p with
    | nan => right; rfl
    | inf b => right; simp [Mp.sub, Mp.exp]
    | fin x => left; simp [Mp.sub, Mp.exp, r0, r1]
  unfold acceptanceProbability hastingsRatio at h
  rw [hq, e1] at h
  simp only [Bool.or_self] at h
  cases hx : proposalProbability R g .fourFour with
  | nan =>
    rw [hx] at h
    simp [isZero, Mp.div, Mp.mul, cmpNeg] at h
    exact h.symm
  | inf b =>
    rw [hx] at h
    simp [isZero, Mp.div, Mp.mul, cmpNeg] at h
    exact h.symm
  | fin x =>
    rw [hx] at h
    by_cases x0 : x = 0
    · simp [isZero, x0] at h
    · rcases ratio with e | e <;>
        · rw [e] at h
          simp [isZero, Mp.div, x0, r1, Mp.mul, cmpNeg] at h
          exact h.symm

/-- C86.  And the computation does succeed whenever there is a spacelike edge to propose. -/
theorem C86_probability_defined {R : Rounding} (hR : R.Lawful) (p : PhysicalParameters) {g g' : Geometry}
    (h1 : g'.N1_TL = g.N1_TL) (h2 : g'.N3_31_13 = g.N3_31_13) (h3 : g'.N3_22 = g.N3_22)
    (h4 : g'.N1_SL = g.N1_SL) (hg : Counts32 g) (hg' : Counts32 g') (pos : 0 < g.N1_SL) :
    acceptanceProbability R p g g' .fourFour = .ok (.fin 1) := by
  cases h : acceptanceProbability R p g g' .fourFour with
  | ok A => rw [C86_probability_one hR p h1 h2 h3 h4 h]
  | error e =>
    exfalso
    have := ((C07_error_iff hR p hg hg' .fourFour e).1 h).2
    simp only [MoveType.reverse, proposalSiteCount, h4, or_self] at this
    omega

/-- A Metropolis engine never turns down a (4,4) candidate that passed its postcondition. -/
def NeverDeclines {M G P : Type} (eng : MetroEngine M G P) : Prop :=
  ∀ (a b : M) (p : P) (u : ℚ), eng.check a b .fourFour = true → u ≤ 1 →
    eng.prob (eng.geometry a) (eng.geometry b) .fourFour = .ok p → eng.probGe p u = true

theorem metroEngine_neverDeclines (env : Env V G) {R : Rounding} (hR : R.Lawful) (p : PhysicalParameters)
    (drawMove : G → Fin 5 × G) (drawTrial : G → LD × G) :
    NeverDeclines (metroEngine env R p drawMove drawTrial) := by
  intro a b A u hc hu hp
  have c := (C32_check_move_iff_contract a.view b.view .fourFour).1 hc
  have e1 := c.n1tl; have e2 := c.n31; have e3 := c.n13; have e4 := c.n22; have e5 := c.n1sl
  simp only [Mfld.view, viewOf, publishedDelta, add_zero] at e1 e2 e3 e4 e5
  have := C86_probability_one hR p (g := a.geometry) (g' := b.geometry) (A := A)
    (by simpa [Mfld.geometry, geometryOf] using e1)
    (by simp only [Mfld.geometry, geometryOf] at *; omega)
    (by simpa [Mfld.geometry] using e4)
    (by simpa [Mfld.geometry, geometryOf] using e5) hp
  show Mp.cmpLdGe A u = true
  rw [this]
  simp only [cmpLdGe, decide_eq_true_eq]
  exact_mod_cast hu

section
variable {M P : Type}

theorem trial_le_one {u : ℚ} (h : ¬(!(LD.fin u).isFinite || (LD.fin u).lt (.fin 0) || (LD.fin 1).lt (.fin u)) = true) :
    u ≤ 1 := by
  simp [LD.isFinite, LD.lt] at h
  linarith [h.2]

/-- What one transition does to the (4,4) tallies. -/
theorem resolve_tally {eng : MetroEngine M G P} (hN : NeverDeclines eng) (code : ℤ) (u : LD) (v : MetroVars M G) :
    let r := resolve eng code u v
    (code = 4 → r.1 ≠ .ok .metropolisRejected) ∧
    r.2.stats.rejected.get .fourFour - r.2.cmd.failed.get .fourFour =
      v.stats.rejected.get .fourFour - v.cmd.failed.get .fourFour ∧
    ((∃ o, r.1 = .ok o) → r.2.cmd.succeeded.get .fourFour - r.2.stats.accepted.get .fourFour =
      v.cmd.succeeded.get .fourFour - v.stats.accepted.get .fourFour) := by
  intro r
  have hr : resolve eng code u v = r := rfl
  clear_value r
  unfold resolve at hr
  split at hr
  · subst hr; simp
  rename_i hu
  cases u with
  | nan => subst hr; simp
  | inf b => subst hr; simp
  | fin q =>
    have hq := trial_le_one hu
    simp only at hr
    cases hc : MoveType.ofCode code with
    | none => rw [hc] at hr; simp only at hr; subst hr; simp [outcomeFrom]
    | some mv =>
      rw [hc] at hr
      simp only at hr
      have h4 : code = 4 → mv = .fourFour := by
        rintro rfl; simp [MoveType.ofCode] at hc; exact hc.symm
      have get_inc : ∀ (t : Tracker) (mv : MoveType), (t.inc mv).get .fourFour =
          t.get .fourFour + (if mv = .fourFour then 1 else 0) := by
        intro t mv
        cases mv <;> simp [Tracker.inc, Tracker.get, MoveType.asInteger, Function.update]
      rcases hp : eng.propose mv v.current v.gen with ⟨(e | (fl | cand)), g'⟩ <;> rw [hp] at hr <;> simp only at hr
      · subst hr; simp
      · subst hr
        simp only [RunStats.record, get_inc]
        refine ⟨fun _ => by cases fl <;> simp [outcomeFrom], by ring, fun _ => trivial⟩
      · split at hr
        · subst hr
          simp only [RunStats.record, get_inc]
          exact ⟨fun _ => by simp, by ring, fun _ => trivial⟩
        · rename_i hck
          simp only [Bool.not_eq_true', Bool.not_eq_false] at hck
          cases hpr : eng.prob (eng.geometry v.current) (eng.geometry cand) mv with
          | error e => rw [hpr] at hr; simp only at hr; subst hr; simp
          | ok A =>
            rw [hpr] at hr
            simp only at hr
            split at hr
            · subst hr
              simp only [RunStats.record, get_inc]
              exact ⟨fun _ => by simp, trivial, fun _ => by ring⟩
            · rename_i hge
              have hne : mv ≠ .fourFour := by
                rintro rfl
                exact hge (hN _ _ A q hck hq hpr)
              subst hr
              simp only [RunStats.record, get_inc, if_neg hne]
              exact ⟨fun h => absurd (h4 h) hne, by ring, fun _ => by ring⟩

theorem sample_tally {eng : MetroEngine M G P} (hN : NeverDeclines eng) (v : MetroVars M G) :
    let r := sampleTransition eng v
    r.2.stats.rejected.get .fourFour - r.2.cmd.failed.get .fourFour =
      v.stats.rejected.get .fourFour - v.cmd.failed.get .fourFour ∧
    ((∃ o, r.1 = .ok o) → r.2.cmd.succeeded.get .fourFour - r.2.stats.accepted.get .fourFour =
      v.cmd.succeeded.get .fourFour - v.stats.accepted.get .fourFour) := by
  intro r
  have hr : sampleTransition eng v = r := rfl
  clear_value r
  unfold sampleTransition at hr
  simp only at hr
  have t := resolve_tally hN ((eng.drawMove v.gen).1.val : ℤ) (eng.drawTrial (eng.drawMove v.gen).2).1
    { v with gen := (eng.drawTrial (eng.drawMove v.gen).2).2 }
  rcases hx : resolve eng ((eng.drawMove v.gen).1.val : ℤ) (eng.drawTrial (eng.drawMove v.gen).2).1
    { v with gen := (eng.drawTrial (eng.drawMove v.gen).2).2 } with ⟨e | o, v'⟩
  · rw [hx] at hr t; simp only at hr; subst hr
    exact ⟨t.2.1, by simp⟩
  · rw [hx] at hr t; simp only at hr; subst hr
    exact ⟨t.2.1, fun _ => t.2.2 ⟨o, rfl⟩⟩

theorem passLoop_tally {eng : MetroEngine M G P} (hN : NeverDeclines eng) :
    ∀ (n : ℕ) (v v' : MetroVars M G) (x : Unit), passLoop eng n v = (.ok x, v') →
    v'.stats.rejected.get .fourFour - v'.cmd.failed.get .fourFour =
      v.stats.rejected.get .fourFour - v.cmd.failed.get .fourFour ∧
    v'.cmd.succeeded.get .fourFour - v'.stats.accepted.get .fourFour =
      v.cmd.succeeded.get .fourFour - v.stats.accepted.get .fourFour
  | 0, v, v', x, h => by
    simp only [passLoop, Prod.mk.injEq] at h
    rw [← h.2]; exact ⟨rfl, rfl⟩
  | n + 1, v, v', x, h => by
    unfold passLoop at h
    have t := sample_tally hN v
    rcases hs : sampleTransition eng v with ⟨e | o, v1⟩
    · rw [hs] at h; simp at h
    · rw [hs] at h t
      simp only at h t
      have ih := passLoop_tally hN n v1 v' x h
      have t2 := t.2 ⟨o, rfl⟩
      exact ⟨ih.1.trans t.1, ih.2.trans t2⟩

/-- The tallies of (4,4) moves agree: every proposal that failed is a rejection and conversely, and
every candidate produced was accepted. -/
def TalliesAgree (cmd : CommandResults) (st : RunStats) : Prop :=
  st.rejected.get .fourFour = cmd.failed.get .fourFour ∧
  st.accepted.get .fourFour = cmd.succeeded.get .fourFour

theorem run_tally {eng : MetroEngine M G P} (hN : NeverDeclines eng) {out : MetroOutput M G F}
    {s s' : MetroStrategy G} {f f' : F} {m m' : M} (ok : s.run eng out m f = (.ok m', s', f')) :
    TalliesAgree s'.cmd s'.stats := by
  rcases metro_run_cases eng out s m f with ⟨y, g', f'', hr'⟩ | ⟨r, g', f'', hx, hr'⟩
  · rw [hr'] at ok; cases ok
  · rw [hr'] at ok; cases ok
    obtain ⟨v, w1, hl, hr, rfl⟩ := executeMoveRun_ok hx
    refine runLoop_ind (metroOps eng out) s.cadence s.writesFiles
      (fun _ v _ => TalliesAgree v.totals v.state) ?_ s.cadence.passes.toNat 0
      ⟨m, {}, { geometry := eng.geometry m }, 0⟩ (s.gen, f) v w1 ⟨rfl, rfl⟩ hl
    rintro k v w v' w' ⟨i1, i2⟩ hp
    obtain ⟨p, w1, hpass, h1, h2, h3, h4⟩ := runPass_ok hp
    obtain ⟨g, f⟩ := w
    simp only [metroPass] at hpass
    rcases hq : passLoop eng (eng.n3 v.current).toNat ⟨v.current, {}, v.state, g⟩ with ⟨e | x, v1⟩
    · rw [hq] at hpass; simp at hpass
    · rw [hq] at hpass
      simp only [Prod.mk.injEq, Except.ok.injEq] at hpass
      have t := passLoop_tally hN _ _ _ _ hq
      rw [h2, h3, ← hpass.1]
      have z : (Tracker.zero).get .fourFour = 0 := rfl
      have a : ∀ x y : Tracker, (x.add y).get .fourFour = x.get .fourFour + y.get .fourFour := fun _ _ => rfl
      simp only [TalliesAgree, CommandResults.accumulate, a] at *
      have z1 : (({} : CommandResults).failed).get .fourFour = 0 := rfl
      rw [z1] at t
      omega

end

/-- C86.  One transition of the program: whatever the state, the couplings, the trial value and the
generator, a (4,4) attempt never ends as a Metropolis rejection. -/
theorem C86_four_four_never_rejected (env : Env V G) {R : Rounding} (hR : R.Lawful) (p : PhysicalParameters)
    (drawMove : G → Fin 5 × G) (drawTrial : G → LD × G) (u : LD) (v : MetroVars (Mfld V) G) :
    (resolve (metroEngine env R p drawMove drawTrial) 4 u v).1 ≠ .ok .metropolisRejected :=
  (resolve_tally (metroEngine_neverDeclines env hR p drawMove drawTrial) 4 u v).1 rfl

/-- C86.  And whenever the proposal of a (4,4) attempt on a manifold in order returns a
triangulation, that triangulation is the new state: the attempt is accepted for every trial value in
[0, 1] and all couplings. -/
theorem C86_four_four_accepted {env : Env V G} (hl : env.Lawful) {R : Rounding} (hR : R.Lawful)
    (p : PhysicalParameters) (drawMove : G → Fin 5 × G) (drawTrial : G → LD × G) {u : ℚ} (h0 : 0 ≤ u) (h1 : u ≤ 1)
    (v : MetroVars (Mfld V) G) (hm : Fit env v.current) (hroom : Counts32 v.current.geometry)
    {K : Tri V} {g : G} (hp : Moves.propose env .fourFour v.current.tri v.gen = (.ok K, g)) :
    ∃ v', resolve (metroEngine env R p drawMove drawTrial) 4 (.fin u) v = (.ok .metropolisAccepted, v') ∧
      v'.current.tri = K ∧ v'.gen = g := by
  have hret : MoveReturns env .fourFour v.current.tri K := ⟨v.gen, g, .inr hp⟩
  obtain ⟨cs, hcs⟩ := buildCaches_total hl
    (finiteVerts_of_move hl hm.sound (buildCaches_ok hm.caches).1 (fun h => by cases h) hret)
  have hck := published_contract hl (by decide) hm.sound hret hm.caches hcs v.current.radius v.current.spacing
  have c := (C32_check_move_iff_contract _ _ _).1 hck
  have e1 := c.n1tl; have e2 := c.n31; have e3 := c.n13; have e4 := c.n22; have e5 := c.n1sl; have e6 := c.n0
  simp only [viewOf, publishedDelta, add_zero] at e1 e2 e3 e4 e5 e6
  have hpos := (C08_site_counts_positive hl hm.sound (fun h => by cases h) hret hm.caches hcs).1
  have hA : acceptanceProbability R p (geometryOf v.current.tri v.current.caches) (geometryOf K cs) .fourFour =
      .ok (.fin 1) := by
    refine C86_probability_defined hR p ?_ ?_ ?_ ?_ hroom ?_ hpos
    · simpa [geometryOf] using e1
    · simp only [geometryOf] at *; omega
    · simpa [geometryOf] using e4
    · simpa [geometryOf] using e5
    · simp only [Mfld.geometry, geometryOf, Counts32, InInt32] at *
      rw [e1, e3, e4, e5, e6, show (cs.threeOne.length : ℤ) = v.current.caches.threeOne.length from e2]
      exact hroom
  unfold resolve
  have hg : (!(LD.fin u).isFinite || (LD.fin u).lt (.fin 0) || (LD.fin 1).lt (.fin u)) = false := by
    simp [LD.isFinite, LD.lt, h0, h1]
  rw [hg]
  simp only [Bool.false_eq_true, if_false, show MoveType.ofCode 4 = some .fourFour from rfl]
  have hpr : (metroEngine env R p drawMove drawTrial).propose .fourFour v.current v.gen =
      (.ok (.ok ⟨K, cs, v.current.radius, v.current.spacing⟩), g) := by
    show wrapMove env v.current (Moves.propose env .fourFour v.current.tri v.gen) = _
    rw [hp]; simp only [wrapMove, hcs]
  rw [hpr]
  have hce : (metroEngine env R p drawMove drawTrial).check v.current ⟨K, cs, v.current.radius, v.current.spacing⟩
    .fourFour = true := hck
  have hpr' : (metroEngine env R p drawMove drawTrial).prob
      ((metroEngine env R p drawMove drawTrial).geometry v.current)
      ((metroEngine env R p drawMove drawTrial).geometry ⟨K, cs, v.current.radius, v.current.spacing⟩) .fourFour =
      .ok (.fin 1) := hA
  have hge : (metroEngine env R p drawMove drawTrial).probGe (.fin 1) u = true :=
    (C07_accepts_iff 1 u).2 (by exact_mod_cast h1)
  simp only [hce, Bool.not_true, Bool.false_eq_true, if_false, hpr', hge, if_true]
  exact ⟨_, rfl, rfl, rfl⟩

/-- C86.  A successful Metropolis run publishes, for the (4,4) move, as many acceptances as
successful candidates and as many rejections as failed ones. -/
theorem C86_run_tallies (env : Env V G) {R : Rounding} (hR : R.Lawful) (p : PhysicalParameters)
    (drawMove : G → Fin 5 × G) (drawTrial : G → LD × G) (out : MetroOutput (Mfld V) G F)
    {s s' : MetroStrategy G} {f f' : F} {m m' : Mfld V}
    (ok : s.run (metroEngine env R p drawMove drawTrial) out m f = (.ok m', s', f')) :
    TalliesAgree s'.cmd s'.stats :=
  run_tally (metroEngine_neverDeclines env hR p drawMove drawTrial) ok

/-- C86.  The same after every history of calls on a strategy object: rejections and failures of
(4,4) moves always agree, even after calls that threw, and acceptances and successes agree if no
call threw. -/
theorem C86_history_tallies (env : Env V G) {R : Rounding} (hR : R.Lawful) (p : PhysicalParameters)
    (drawMove : G → Fin 5 × G) (drawTrial : G → LD × G) (out : MetroOutput (Mfld V) G F)
    (cs : List (MetroCall (Mfld V))) (s : MetroStrategy G) (f : F) (fresh : TalliesAgree s.cmd s.stats) :
    let r := s.calls (metroEngine env R p drawMove drawTrial) out cs f
    r.2.1.stats.rejected.get .fourFour = r.2.1.cmd.failed.get .fourFour ∧
    ((∀ x ∈ r.1, ∃ y, x.report = .ok y) →
      r.2.1.stats.accepted.get .fourFour = r.2.1.cmd.succeeded.get .fourFour) := by
  have hN := metroEngine_neverDeclines env hR p drawMove drawTrial
  generalize metroEngine env R p drawMove drawTrial = eng at hN ⊢
  have gen : ∀ (cs : List (MetroCall (Mfld V))) (s : MetroStrategy G) (f : F),
      s.stats.rejected.get .fourFour = s.cmd.failed.get .fourFour →
      let r := s.calls eng out cs f
      r.2.1.stats.rejected.get .fourFour = r.2.1.cmd.failed.get .fourFour ∧
      ((∀ x ∈ r.1, ∃ y, x.report = .ok y) → s.stats.accepted.get .fourFour = s.cmd.succeeded.get .fourFour →
        r.2.1.stats.accepted.get .fourFour = r.2.1.cmd.succeeded.get .fourFour) := by
    intro cs
    induction cs with
    | nil => intro s f h; exact ⟨h, fun _ h => h⟩
    | cons c cs ih =>
      intro s f h
      have one : (s.call eng out f c).2.1.stats.rejected.get .fourFour =
            (s.call eng out f c).2.1.cmd.failed.get .fourFour ∧
          ((∃ y, (s.call eng out f c).1.report = .ok y) →
            s.stats.accepted.get .fourFour = s.cmd.succeeded.get .fourFour →
            (s.call eng out f c).2.1.stats.accepted.get .fourFour =
              (s.call eng out f c).2.1.cmd.succeeded.get .fourFour) := by
        cases c with
        | attempt cur code trial =>
          have t := resolve_tally hN code trial ⟨cur, s.cmd, s.stats, s.gen⟩
          simp only [MetroStrategy.call] at t ⊢
          refine ⟨by linarith [t.2.1], ?_⟩
          rintro ⟨y, hy⟩ ha
          have := t.2.2 (by
            cases ht : (resolve eng code trial ⟨cur, s.cmd, s.stats, s.gen⟩).1 with
            | error e => rw [ht] at hy; simp [Except.map] at hy
            | ok o => exact ⟨o, rfl⟩)
          linarith
        | sample cur =>
          have t := sample_tally hN ⟨cur, s.cmd, s.stats, s.gen⟩
          simp only [MetroStrategy.call] at t ⊢
          refine ⟨by linarith [t.1], ?_⟩
          rintro ⟨y, hy⟩ ha
          have := t.2 (by
            cases ht : (sampleTransition eng ⟨cur, s.cmd, s.stats, s.gen⟩).1 with
            | error e => rw [ht] at hy; simp [Except.map] at hy
            | ok o => exact ⟨o, rfl⟩)
          linarith
        | «initialize» m => exact ⟨h, fun _ h => h⟩
        | run m =>
          rcases metro_run_cases eng out s m f with ⟨y, g', f'', hr'⟩ | ⟨r, g', f'', -, hr'⟩
          · simp only [MetroStrategy.call, hr']
            exact ⟨h, fun _ h => h⟩
          · have := run_tally hN hr'
            simp only [MetroStrategy.call, hr']
            exact ⟨this.1, fun _ _ => this.2⟩
      have rest := ih (s.call eng out f c).2.1 (s.call eng out f c).2.2 one.1
      simp only [MetroStrategy.calls] at rest ⊢
      refine ⟨rest.1, fun hok ha => ?_⟩
      refine rest.2 (fun x hx => hok x (by simp [hx])) ?_
      exact one.2 (hok _ (by simp)) ha
  have := gen cs s f fresh.1
  exact ⟨this.1, fun h => this.2 h fresh.2⟩

/-- The hypotheses are met: the octahedron around a spacelike edge, couplings that overflow, and the
largest trial value; the move is accepted and changes the complex. -/
example (drawMove : ℕ → Fin 5 × ℕ) (drawTrial : ℕ → LD × ℕ) : ∃ v v' : MetroVars (Mfld ℕ) ℕ,
    resolve (metroEngine Fixture.env Fixture.nearest ⟨.inf false, .nan, .fin 0⟩ drawMove drawTrial) 4 (.fin 1) v =
      (.ok .metropolisAccepted, v') ∧ v'.current.tri.cells ≠ v.current.tri.cells := by
  have key : ((Moves.propose Fixture.env .fourFour Fixture.k44 0).1.toOption.bind fun L =>
      (buildCaches Fixture.env Fixture.k44).toOption.map fun cs =>
        decide (L.cells ≠ Fixture.k44.cells ∧ Counts32 (geometryOf Fixture.k44 cs))) = some true := by decide +kernel
  rcases hr : Moves.propose Fixture.env .fourFour Fixture.k44 0 with ⟨e | L, g⟩
  · rw [hr] at key; simp [Except.toOption] at key
  · rw [hr] at key
    cases hb : buildCaches Fixture.env Fixture.k44 with
    | error e => rw [hb] at key; simp [Except.toOption] at key
    | ok cs =>
      simp only [Except.toOption, hb, Option.bind_some, Option.map_some, Option.some.injEq, decide_eq_true_eq] at key
      obtain ⟨v', h1, h2, -⟩ := C86_four_four_accepted Fixture.lawful Fixture.nearestLawful ⟨.inf false, .nan, .fin 0⟩
        drawMove drawTrial (u := 1) (by norm_num) le_rfl ⟨⟨Fixture.k44, cs, 0, 0⟩, {}, {}, 0⟩
        ⟨Fixture.sound44, hb⟩ key.2 hr
      exact ⟨_, v', h1, by rw [h2]; exact key.1⟩

/-- A fresh strategy object has agreeing tallies. -/
example (c : Cadence) (w : Bool) (g : ℕ) :
    TalliesAgree (MetroStrategy.cmd ⟨c, w, g, {}, {}, 0⟩) (MetroStrategy.stats ⟨c, w, g, {}, {}, 0⟩) := ⟨rfl, rfl⟩

/-- The conclusion is not met by a strategy that turned a (4,4) candidate down. -/
example : ¬ TalliesAgree { attempted := Tracker.zero.inc .fourFour, succeeded := Tracker.zero.inc .fourFour }
    { proposed := Tracker.zero.inc .fourFour, rejected := Tracker.zero.inc .fourFour } := by
  simp [TalliesAgree, Tracker.get, Tracker.inc, Tracker.zero]

end CDT.Props

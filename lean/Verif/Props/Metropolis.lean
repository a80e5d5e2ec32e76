/-
C01-C06: the Metropolis transition and histories of calls on a strategy object.
Quantifiers: every engine (so every candidate construction result, postcondition, action
and random stream), every manifold type, every call history.
-/
import Verif.Lemmas.Calls
import Verif.Lemmas.Fnv2
import Verif.Props.CheckMove
import Mathlib.Tactic.NormNum
import Mathlib.Tactic.Ring

namespace CDT
open Spec
variable {M G P F : Type}

/-! ### C01 accounting -/

/-- C01. After every history of calls on a fresh strategy in which no exception escapes from
a transition, the documented identities hold for all five moves and the
transition count is the total number of proposals. -/
theorem C01_accounting_identities (eng : MetroEngine M G P) (out : MetroOutput M G F)
    (cs : List (MetroCall M)) (s : MetroStrategy G) (f : F) (fresh : Fresh s)
    (clean : ∀ p ∈ cs.zip (MetroStrategy.calls eng out cs s f).1, Clean p) :
    let s' := (MetroStrategy.calls eng out cs s f).2.1
    Balanced s'.cmd s'.stats ∧ (s'.stats.count : Int) = s'.stats.proposed.total := by
  obtain ⟨h1, h2, _⟩ := fresh
  obtain ⟨h, d⟩ := calls_describes cs s f [] (by rw [h1, h2]; exact describes_nil) clean
  exact ⟨describes_balanced d, describes_total d⟩

/-- C01. With no assumption about exceptions the inequalities still hold. -/
theorem C01_accounting_under_exceptions (eng : MetroEngine M G P) (out : MetroOutput M G F)
    (cs : List (MetroCall M)) (s : MetroStrategy G) (f : F) (fresh : Fresh s) :
    let s' := (MetroStrategy.calls eng out cs s f).2.1
    Weak s'.cmd s'.stats := by
  obtain ⟨h1, h2, _⟩ := fresh
  exact calls_weak cs s f (by rw [h1, h2]; exact describes_weak describes_nil)

/-- C01. Each counter is the number of reports of its kind: a history of single transitions is
described exactly by the published statistics. -/
theorem C01_counters_count_reports (eng : MetroEngine M G P) (out : MetroOutput M G F) :
    ∀ (cs : List (MetroCall M)) (s : MetroStrategy G) (f : F) (h),
      Describes s.cmd s.stats h →
      (∀ c ∈ cs, (∀ m, c ≠ .run m)) →
      (∀ p ∈ cs.zip (MetroStrategy.calls eng out cs s f).1, Clean p) →
      Describes (MetroStrategy.calls eng out cs s f).2.1.cmd
        (MetroStrategy.calls eng out cs s f).2.1.stats
        (h ++ (MetroStrategy.calls eng out cs s f).1.flatMap reported)
  | [], s, f, h, d, _, _ => by simpa [MetroStrategy.calls] using d
  | c :: cs, s, f, h, d, hn, hc => by
    have step : Describes (s.call eng out f c).2.1.cmd (s.call eng out f c).2.1.stats
        (h ++ reported (s.call eng out f c).1) := by
      have hc1 : Clean (c, (s.call eng out f c).1) := hc _ (by simp [MetroStrategy.calls])
      cases c with
      | attempt cur code u =>
        refine attempt_describes d ?_
        rcases hc1 with hc1 | ⟨m, hm⟩ | ⟨cur', code', u', e, hu⟩
        · exact .inl hc1
        · cases hm
        · cases e; exact .inr hu
      | sample cur =>
        have hr : ∃ r, (s.call eng out f (.sample cur)).1.report = .ok r := by
          rcases hc1 with hc1 | ⟨m, hm⟩ | ⟨cur', code', u', e, hu⟩
          · exact hc1
          · cases hm
          · cases e
        rw [call_sample] at hr ⊢
        exact attempt_describes (h := h) (s := { s with gen := _ }) d (.inl hr)
      | «initialize» m =>
        simpa [MetroStrategy.call, reported] using ⟨d.1, describesStats_geometry _ d.2⟩
      | run m => exact absurd rfl (hn _ (by simp) m)
    unfold MetroStrategy.calls at hc ⊢
    rcases h1 : s.call eng out f c with ⟨r, s1, f1⟩
    simp only [h1, List.zip_cons_cons, List.mem_cons, forall_eq_or_imp] at hc step ⊢
    rw [List.flatMap_cons, ← List.append_assoc]
    exact C01_counters_count_reports eng out cs s1 f1 _ step
      (fun c hc' => hn c (by simp [hc'])) hc.2

/-- Finding: an exception that escapes from candidate construction or from the acceptance
computation leaves `proposed` and `attempted` incremented, so the documented
identities fail on the published counters of that strategy object. -/
theorem C01_exception_breaks_identities :
    ∃ (eng : MetroEngine ManifoldView Nat ℚ) (cs : List (MetroCall ManifoldView)),
      let s' := (MetroStrategy.calls eng Toy.output cs Toy.strategy0 []).2.1
      ¬ Balanced s'.cmd s'.stats := by
  refine ⟨{ Toy.engine with propose := fun _ _ g => (.error (.other 0), g) },
    [.attempt Toy.view0 0 (.fin 0)], ?_⟩
  intro s' h
  exact absurd (h .twoThree).1 (by decide)

/-- Non-vacuity: a history with a run, single attempts, an illegal trial and an unknown move,
all clean, and it really counts something. -/
example :
    let cs : List (MetroCall ManifoldView) :=
      [.initialize Toy.view1, .attempt Toy.view0 2 (.fin (1/4)), .attempt Toy.view0 7 (.fin 0),
       .attempt Toy.view0 1 .nan, .sample Toy.view0]
    Fresh Toy.strategy0 ∧
    (MetroStrategy.calls Toy.calm Toy.output cs Toy.strategy0 []).2.1.stats.proposed.total = 2 ∧
    (MetroStrategy.calls Toy.calm Toy.output cs Toy.strategy0 []).1.map
      (fun r => match r.report with | .ok _ => true | .error _ => false) =
      [true, true, true, false, true] := by
  refine ⟨⟨rfl, rfl, rfl⟩, by decide +kernel, by decide +kernel⟩

/-! ### C02 only accepted proposals change the state -/

/-- C02. For a single attempt with any state, move code and trial: if the report is
METROPOLIS_ACCEPTED then the caller's manifold becomes the proposed candidate, which
passed the postcondition; in every other case, exceptions included, it is unchanged. -/
theorem C02_only_accepted_changes_state (eng : MetroEngine M G P) (out : MetroOutput M G F)
    (s : MetroStrategy G) (f : F) (cur : M) (code : Int) (u : LD) :
    let r := (s.call eng out f (.attempt cur code u)).1
    (r.report = .ok (some (code, .metropolisAccepted)) →
      ∃ mv cand g', MoveType.ofCode code = some mv ∧ eng.propose mv cur s.gen = (.ok (.ok cand), g') ∧
        eng.check cur cand mv = true ∧ r.manifold = cand) ∧
    (r.report ≠ .ok (some (code, .metropolisAccepted)) → r.manifold = cur) := by
  obtain ⟨r, v, hr, e⟩ := call_attempt eng out s f cur code u
  rw [e]
  simp only
  cases hr with
  | illegal _ => simp [Except.map]
  | unknown _ hc => simp [Except.map]
  | threw => simp [Except.map]
  | probThrew => simp [Except.map]
  | failed mv o g' hl hc ho' hp =>
    rcases ho' with rfl | rfl <;> simp [Except.map]
  | accepted mv q p c g' hl hu hc hp hk he hge =>
    simp only [Except.map, ne_eq, not_true_eq_false, false_implies, and_true, forall_const]
    exact ⟨mv, c, g', hc, hp, hk, rfl⟩
  | rejected mv q p c g' hl hu hc hp hk he hge => simp [Except.map]

/-- C02 for the sampling overload: the same with the sampled move. -/
theorem C02_sampled (eng : MetroEngine M G P) (out : MetroOutput M G F)
    (s : MetroStrategy G) (f : F) (cur : M) :
    let r := (s.call eng out f (.sample cur)).1
    let code : Int := (eng.drawMove s.gen).1.val
    (r.report = .ok (some (code, .metropolisAccepted)) →
      ∃ mv cand g g', MoveType.ofCode code = some mv ∧ eng.propose mv cur g = (.ok (.ok cand), g') ∧
        eng.check cur cand mv = true ∧ r.manifold = cand) ∧
    (r.report ≠ .ok (some (code, .metropolisAccepted)) → r.manifold = cur) := by
  rw [call_sample]
  have := C02_only_accepted_changes_state eng out
    { s with gen := (eng.drawTrial (eng.drawMove s.gen).2).2 } f cur
      ((eng.drawMove s.gen).1.val : Int) (eng.drawTrial (eng.drawMove s.gen).2).1
  refine ⟨fun h => ?_, this.2⟩
  obtain ⟨mv, c, g', h1, h2, h3, h4⟩ := this.1 h
  exact ⟨mv, c, _, g', h1, h2, h3, h4⟩

/-- C02 for whole runs and `initialize`: the caller's object is never modified by a failing run, and
by a successful one only through a replayable sequence of accepted, checked steps. -/
theorem C02_run (eng : MetroEngine M G P) (out : MetroOutput M G F)
    (s : MetroStrategy G) (f : F) (m : M) :
    let r := (s.call eng out f (.run m)).1
    (∀ e, r.report = .error e → r.manifold = m) ∧
    (∀ x, r.report = .ok x → ∃ h, Evolves (Checked eng) m h r.manifold) := by
  rcases hr : s.run eng out m f with ⟨x, s', f'⟩
  cases x with
  | error e => rw [call_run_error hr]; simp
  | ok m' =>
    rw [call_run_ok hr]
    refine ⟨by simp, fun x _ => ?_⟩
    rcases metro_run_cases eng out s m f with ⟨y, g', f'', hr'⟩ | ⟨r, g', f'', hx, hr'⟩
    · rw [hr'] at hr; cases hr
    · rw [hr'] at hr; cases hr
      obtain ⟨v, w1, hl, _, rfl⟩ := executeMoveRun_ok hx
      exact runLoop_ind (metroOps eng out) s.cadence s.writesFiles
        (fun k v _ => ∃ h, Evolves (Checked eng) m h v.current)
        (by
          rintro k v w v' w' ⟨h0, hd⟩ hp
          obtain ⟨p, w1, hpass, h1, h2, h3, h4⟩ := runPass_ok hp
          obtain ⟨h, hn, dc, ds, he, hgeo⟩ := metroPass_ok hpass
          exact ⟨h0 ++ h, by rw [h1]; exact Evolves.append hd he⟩)
        s.cadence.passes.toNat 0 ⟨m, {}, { geometry := eng.geometry m }, 0⟩ (s.gen, f) v w1
        ⟨[], .nil m⟩ hl

/-- Non-vacuity: an accepted move changes the toy manifold, a rejected one does not. -/
example : (Toy.strategy0.call Toy.engine Toy.output [] (.attempt Toy.view0 2 (.fin (1/4)))).1.report
      = .ok (some (2, .metropolisAccepted)) ∧
    (Toy.strategy0.call Toy.engine Toy.output [] (.attempt Toy.view0 2 (.fin (1/4)))).1.manifold
      = Toy.shift Toy.view0 .twoSix ∧ Toy.shift Toy.view0 .twoSix ≠ Toy.view0 ∧
    (Toy.strategy0.call Toy.engine Toy.output [] (.attempt Toy.view0 2 (.fin (3/4)))).1.report
      = .ok (some (2, .metropolisRejected)) := by
  refine ⟨?_, ?_, by decide, ?_⟩ <;> decide +kernel

/-! ### C03 committed states -/

theorem sumOfDeltas_of_evolves {M : Type} {view : M → ManifoldView} {R : M → M → MoveType → Prop}
    (hR : ∀ a b mv, R a b mv → Contract (publishedDelta mv) (view a) (view b))
    {m m' : M} {h} (e : Evolves R m h m') :
    SumOfDeltas (fun mv => countIf h mv (fun o => o.accepted)) (view m) (view m') := by
  induction e with
  | nil => constructor <;> simp [weighted]
  | @accept m₁ m₂ h mv _ c ih =>
    have hc := hR _ _ _ c
    have acc : MoveOutcome.accepted .metropolisAccepted = true := rfl
    constructor
    · rw [hc.radius, ih.radius]
    · rw [hc.spacing, ih.spacing]
    · rw [hc.maxTime, ih.maxTime]
    · rw [hc.minTime, ih.minTime]
    · rw [hc.n0, ih.n0]; cases mv <;>
        simp [weighted, countIf_append, countIf_single, publishedDelta, acc] <;> ring
    · rw [hc.n1, ih.n1]; cases mv <;>
        simp [weighted, countIf_append, countIf_single, publishedDelta, acc] <;> ring
    · rw [hc.n1sl, ih.n1sl]; cases mv <;>
        simp [weighted, countIf_append, countIf_single, publishedDelta, acc] <;> ring
    · rw [hc.n1tl, ih.n1tl]; cases mv <;>
        simp [weighted, countIf_append, countIf_single, publishedDelta, acc] <;> ring
    · rw [hc.n2, ih.n2]; cases mv <;>
        simp [weighted, countIf_append, countIf_single, publishedDelta, acc] <;> ring
    · rw [hc.n31, ih.n31]; cases mv <;>
        simp [weighted, countIf_append, countIf_single, publishedDelta, acc] <;> ring
    · rw [hc.n22, ih.n22]; cases mv <;>
        simp [weighted, countIf_append, countIf_single, publishedDelta, acc] <;> ring
    · rw [hc.n13, ih.n13]; cases mv <;>
        simp [weighted, countIf_append, countIf_single, publishedDelta, acc] <;> ring
    · rw [hc.n3, ih.n3]; cases mv <;>
        simp [weighted, countIf_append, countIf_single, publishedDelta, acc] <;> ring
  | @stay m₁ h mv o _ ho ih =>
    have e : ∀ mv', countIf (h ++ [(mv, o)]) mv' (fun o => o.accepted) =
        countIf h mv' (fun o => o.accepted) := by
      intro mv'; rw [countIf_append, countIf_single]; simp [ho]
    simpa [e] using ih

/-- C03. In every successful run of an engine whose postcondition is `check_move`, the reported
history replays from the initial to the final manifold with every accepted step
satisfying the published contract of its move; the published counters describe that
history; and the final counts are the initial counts plus, for each move type, the
number of accepted moves times the published delta. -/
theorem C03_committed_states (view : M → ManifoldView) (eng : MetroEngine M G P)
    (hcheck : ∀ a b mv, eng.check a b mv = checkMove (view a) (view b) mv)
    (out : MetroOutput M G F) (s s' : MetroStrategy G) (f f' : F) (m m' : M)
    (hc : 0 < s.cadence.checkpoint)
    (ok : s.run eng out m f = (.ok m', s', f')) :
    ∃ h, Evolves (fun a b mv => Contract (publishedDelta mv) (view a) (view b)) m h m' ∧
      Describes s'.cmd s'.stats h ∧
      SumOfDeltas (fun mv => s'.stats.accepted.get mv) (view m) (view m') ∧
      ((∃ mv, 0 < s'.stats.accepted.get mv) → (view m').structurallyCorrect = true) := by
  rcases metro_run_cases eng out s m f with ⟨y, g', f'', hr'⟩ | ⟨r, g', f'', hx, hr'⟩
  · rw [hr'] at ok; cases ok
  · rw [hr'] at ok; cases ok
    obtain ⟨hs, _, hch, hd, _, _⟩ := metro_executeMoveRun hc hx
    have hev := PassChain.evolves hch
    have hR : ∀ a b mv, Checked eng a b mv → Contract (publishedDelta mv) (view a) (view b) := by
      intro a b mv h
      rw [← C32_check_move_iff_contract, ← hcheck]; exact h
    have hev' : Evolves (fun a b mv => Contract (publishedDelta mv) (view a) (view b)) m hs.flatten
        r.manifold := by
      clear hch hd hx hr'
      generalize hs.flatten = h at hev
      generalize r.manifold = m' at hev
      induction hev with
      | nil => exact .nil _
      | accept _ c ih => exact .accept ih (hR _ _ _ c)
      | stay _ ho ih => exact .stay ih ho
    refine ⟨hs.flatten, hev', hd, ?_, ?_⟩
    · have := sumOfDeltas_of_evolves hR hev
      have e : (fun mv => r.strategyState.accepted.get mv) =
          fun mv => countIf hs.flatten mv (fun o => o.accepted) := funext hd.2.accepted
      simp only [e]; exact this
    · rintro ⟨mv, hmv⟩
      rw [hd.2.accepted] at hmv
      clear hch hd hx hr' hev
      generalize hs.flatten = h at hev' hmv
      generalize r.manifold = m' at hev'
      induction hev' with
      | nil => simp at hmv
      | accept _ c ih => exact c.correct
      | @stay m₁ h mv' o _ ho ih =>
        rw [countIf_append, countIf_single] at hmv
        simp only [ho, Bool.false_eq_true, and_false, if_false, add_zero] at hmv
        exact ih hmv

/-- Non-vacuity: the calm toy run succeeds and commits something. -/
example :
    let r := Toy.strategy0.run Toy.calm Toy.output Toy.view1 []
    (match r.1 with | .ok _ => true | .error _ => false) = true ∧
    0 < r.2.1.stats.accepted.total ∧ r.2.2 = [2] ∧ 0 < Toy.strategy0.cadence.checkpoint := by
  refine ⟨?_, ?_, ?_, ?_⟩ <;> decide +kernel

/-! ### C04 geometry used for decisions -/

/-- C04. What an attempt reports and commits depends only on the manifold, move, trial and random
stream: it is independent of the cached statistics (in particular of a stale cached
geometry) of the strategy object. -/
theorem C04_decision_ignores_cached_state (eng : MetroEngine M G P) (out : MetroOutput M G F)
    (s₁ s₂ : MetroStrategy G) (f : F) (cur : M) (code : Int) (u : LD) (hg : s₁.gen = s₂.gen) :
    (s₁.call eng out f (.attempt cur code u)).1 = (s₂.call eng out f (.attempt cur code u)).1 ∧
    (s₁.call eng out f (.attempt cur code u)).2.1.gen =
      (s₂.call eng out f (.attempt cur code u)).2.1.gen := by
  unfold MetroStrategy.call resolve
  simp only [hg]
  split
  · exact ⟨rfl, rfl⟩
  · split
    · cases MoveType.ofCode code with
      | none => exact ⟨rfl, rfl⟩
      | some mv =>
        simp only
        rcases eng.propose mv cur s₂.gen with ⟨r, g'⟩
        match r with
        | .error e => exact ⟨rfl, rfl⟩
        | .ok (.error fl) => exact ⟨rfl, rfl⟩
        | .ok (.ok c) =>
          simp only
          cases eng.check cur c mv with
          | false => exact ⟨rfl, rfl⟩
          | true =>
            simp only [Bool.not_true, Bool.false_eq_true, if_false]
            cases eng.prob (eng.geometry cur) (eng.geometry c) mv with
            | error e => exact ⟨rfl, rfl⟩
            | ok p =>
              simp only
              split <;> exact ⟨rfl, rfl⟩
    · exact ⟨rfl, rfl⟩

/-- C04. A candidate that reached the decision was accepted exactly when the acceptance
probability from the geometry of the *current* manifold to that of the candidate is at
least the trial. -/
theorem C04_acceptance_rule (eng : MetroEngine M G P) (out : MetroOutput M G F)
    (s : MetroStrategy G) (f : F) (cur : M) (code : Int) (u : LD) (o : MoveOutcome)
    (hrep : (s.call eng out f (.attempt cur code u)).1.report = .ok (some (code, o)))
    (ho : o = .metropolisAccepted ∨ o = .metropolisRejected) :
    ∃ mv cand g' p q, MoveType.ofCode code = some mv ∧ u = .fin q ∧
      eng.propose mv cur s.gen = (.ok (.ok cand), g') ∧ eng.check cur cand mv = true ∧
      eng.prob (eng.geometry cur) (eng.geometry cand) mv = .ok p ∧
      (o = .metropolisAccepted ↔ eng.probGe p q = true) := by
  obtain ⟨r, v, hr, e⟩ := call_attempt eng out s f cur code u
  rw [e] at hrep
  simp only at hrep
  cases hr with
  | illegal _ => cases hrep
  | unknown _ hc => simp [Except.map] at hrep; subst hrep; simp at ho
  | threw => cases hrep
  | probThrew => cases hrep
  | failed mv o' g' hl hc ho' hp =>
    simp [Except.map] at hrep; subst hrep
    rcases ho' with rfl | rfl <;> simp at ho
  | accepted mv q p c g' hl hu hc hp hk he hge =>
    simp [Except.map] at hrep; subst hrep
    exact ⟨mv, c, g', p, q, hc, hu, hp, hk, he, by simp [hge]⟩
  | rejected mv q p c g' hl hu hc hp hk he hge =>
    simp [Except.map] at hrep; subst hrep
    exact ⟨mv, c, g', p, q, hc, hu, hp, hk, he, by simp [hge]⟩

/-- C04. After every attempt with a legal trial and a known move - exceptions included - the
cached geometry is that of the caller's manifold. -/
theorem C04_cached_geometry (eng : MetroEngine M G P) (out : MetroOutput M G F)
    (s : MetroStrategy G) (f : F) (cur : M) (code : Int) (u : LD) (hl : LegalTrial u)
    (mv : MoveType) (hc : MoveType.ofCode code = some mv) :
    let r := s.call eng out f (.attempt cur code u)
    r.2.1.stats.geometry = eng.geometry r.1.manifold := by
  obtain ⟨r, v, hr, e⟩ := call_attempt eng out s f cur code u
  rw [e]
  cases hr with
  | illegal h => exact absurd hl h
  | unknown _ h => rw [hc] at h; cases h
  | threw => rfl
  | probThrew => rfl
  | failed => rfl
  | accepted => rfl
  | rejected => rfl

/-- C04. The same after `initialize`, after every sampled attempt whose draw is a legal
trial, and after every successful run. -/
theorem C04_cached_geometry_other_calls (eng : MetroEngine M G P) (out : MetroOutput M G F)
    (s : MetroStrategy G) (f : F) (m : M) :
    (s.call eng out f (.initialize m)).2.1.stats.geometry = eng.geometry m ∧
    (LegalTrial (eng.drawTrial (eng.drawMove s.gen).2).1 →
      (s.call eng out f (.sample m)).2.1.stats.geometry =
        eng.geometry (s.call eng out f (.sample m)).1.manifold) ∧
    (0 < s.cadence.checkpoint → ∀ x, (s.call eng out f (.run m)).1.report = .ok x →
      (s.call eng out f (.run m)).2.1.stats.geometry =
        eng.geometry (s.call eng out f (.run m)).1.manifold) := by
  refine ⟨rfl, fun hl => ?_, fun hc x hx => ?_⟩
  · rw [call_sample]
    obtain ⟨mv, hm, _⟩ := ofCode_fin (eng.drawMove s.gen).1
    exact C04_cached_geometry eng out _ f m _ _ hl mv hm
  · rcases hr : s.run eng out m f with ⟨y, s', f'⟩
    cases y with
    | error e => rw [call_run_error hr] at hx; cases hx
    | ok m' =>
      rw [call_run_ok hr]
      rcases metro_run_cases eng out s m f with ⟨y, g', f'', hr'⟩ | ⟨r, g', f'', hx, hr'⟩
      · rw [hr'] at hr; cases hr
      · rw [hr'] at hr; cases hr
        obtain ⟨hs, _, _, _, hg, _⟩ := metro_executeMoveRun hc hx
        exact hg

/-! ### C05 illegal trials and unknown moves -/

/-- C05. A trial that is NaN, infinite or outside [0,1] throws and changes nothing at all. -/
theorem C05_illegal_trial (eng : MetroEngine M G P) (out : MetroOutput M G F)
    (s : MetroStrategy G) (f : F) (cur : M) (code : Int) (u : LD) (hu : ¬ LegalTrial u) :
    s.call eng out f (.attempt cur code u) = (⟨cur, .error .invalidArgument⟩, s, f) := by
  obtain ⟨r, v, hr, e⟩ := call_attempt eng out s f cur code u
  rw [e]
  cases hr with
  | illegal _ => rfl
  | unknown h => exact absurd h hu
  | threw _ _ _ h => exact absurd h hu
  | probThrew _ _ _ _ h => exact absurd h hu
  | failed _ _ _ h => exact absurd h hu
  | accepted _ _ _ _ _ h => exact absurd h hu
  | rejected _ _ _ _ _ h => exact absurd h hu

/-- C05. With a legal trial, an integer that is not a move type is reported as EXECUTION_FAILED and
changes nothing at all. -/
theorem C05_unknown_move (eng : MetroEngine M G P) (out : MetroOutput M G F)
    (s : MetroStrategy G) (f : F) (cur : M) (code : Int) (u : LD) (hu : LegalTrial u)
    (hc : code < 0 ∨ 4 < code) :
    s.call eng out f (.attempt cur code u) =
      (⟨cur, .ok (some (code, .executionFailed))⟩, s, f) := by
  have hn : MoveType.ofCode code = none := by
    unfold MoveType.ofCode; split <;> first | rfl | omega
  obtain ⟨r, v, hr, e⟩ := call_attempt eng out s f cur code u
  rw [e]
  cases hr with
  | illegal h => exact absurd hu h
  | unknown _ _ => rfl
  | threw _ _ _ _ h => rw [hn] at h; cases h
  | probThrew _ _ _ _ _ h => rw [hn] at h; cases h
  | failed _ _ _ _ h => rw [hn] at h; cases h
  | accepted _ _ _ _ _ _ _ h => rw [hn] at h; cases h
  | rejected _ _ _ _ _ _ _ h => rw [hn] at h; cases h

/-- C05. Legal trials are exactly the finite values of [0,1]; they never raise the validation
error by themselves: an exception with a legal trial comes from candidate
construction or from the acceptance computation. -/
theorem C05_legal_trial_errors (eng : MetroEngine M G P) (out : MetroOutput M G F)
    (s : MetroStrategy G) (f : F) (cur : M) (code : Int) (u : LD) (hu : LegalTrial u) (e : Exc)
    (he : (s.call eng out f (.attempt cur code u)).1.report = .error e) :
    ∃ mv, MoveType.ofCode code = some mv ∧
      ((eng.propose mv cur s.gen).1 = .error e ∨
       ∃ c, eng.prob (eng.geometry cur) (eng.geometry c) mv = .error e) := by
  obtain ⟨r, v, hr, eq⟩ := call_attempt eng out s f cur code u
  rw [eq] at he
  cases hr with
  | illegal h => exact absurd hu h
  | unknown _ _ => cases he
  | threw mv e' g' _ h hp =>
    simp [Except.map] at he; subst he
    exact ⟨mv, h, .inl (by rw [hp])⟩
  | probThrew mv e' c g' _ h hp hk hx =>
    simp [Except.map] at he; subst he
    exact ⟨mv, h, .inr ⟨c, hx⟩⟩
  | failed _ _ _ _ h => cases he
  | accepted _ _ _ _ _ _ _ h => cases he
  | rejected _ _ _ _ _ _ _ h => cases he

example : LegalTrial (.fin (1/3)) ∧ ¬ LegalTrial .nan ∧ ¬ LegalTrial (.inf false) ∧
    ¬ LegalTrial (.fin (11/10)) ∧ ¬ LegalTrial (.fin (-1/2)) ∧ LegalTrial (.fin 1) ∧
    LegalTrial (.fin 0) := by
  unfold LegalTrial
  refine ⟨⟨_, rfl, by norm_num, by norm_num⟩, by simp, by simp, ?_, ?_, ⟨_, rfl, by norm_num,
    by norm_num⟩, ⟨_, rfl, by norm_num, by norm_num⟩⟩
  · rintro ⟨q, h, h0, h1⟩; cases h; norm_num at h1
  · rintro ⟨q, h, h0, h1⟩; cases h; norm_num at h0

/-! ### C06 transition trace -/

/-- C06. The trace of a strategy after a history of single transitions is the FNV-1a digest of the
bytes of all reported (move, outcome) pairs in order, and the count is their
number. -/
theorem C06_trace_is_digest (eng : MetroEngine M G P) (out : MetroOutput M G F)
    (cs : List (MetroCall M)) (s : MetroStrategy G) (f : F) (fresh : Fresh s)
    (norun : ∀ c ∈ cs, ∀ m, c ≠ .run m)
    (clean : ∀ p ∈ cs.zip (MetroStrategy.calls eng out cs s f).1, Clean p) :
    let res := MetroStrategy.calls eng out cs s f
    res.2.1.stats.trace = fnv1a (traceBytes (res.1.flatMap reported)) ∧
    res.2.1.stats.count = (res.1.flatMap reported).length := by
  obtain ⟨h1, h2, _⟩ := fresh
  have d := C01_counters_count_reports eng out cs s f []
    (by rw [h1, h2]; exact describes_nil) norun clean
  simp only [List.nil_append] at d
  exact ⟨d.2.trace, d.2.count⟩

/-- C06. Two histories that differ in exactly one entry (in move, in outcome, or in both) have
different digests. -/
theorem C06_one_entry_changes_digest (h k : List (MoveType × MoveOutcome))
    (x y : MoveType × MoveOutcome) (hxy : x ≠ y) :
    fnv1a (traceBytes (h ++ x :: k)) ≠ fnv1a (traceBytes (h ++ y :: k)) := by
  intro e
  apply hxy
  rw [show h ++ x :: k = (h ++ [x]) ++ k by simp, show h ++ y :: k = (h ++ [y]) ++ k by simp] at e
  simp only [traceBytes_append, fnv1a, fnvFold_append] at e
  exact fnv_history_step _ x y (fnvFold_state_inj _ e)

/-- C06. Two byte strings of equal length that differ in one byte have different digests. -/
theorem C06_one_byte_changes_digest (h k : List (BitVec 8)) (x y : BitVec 8) (hxy : x ≠ y) :
    fnv1a (h ++ x :: k) ≠ fnv1a (h ++ y :: k) := by
  exact fnvFold_single_byte _ h k x y hxy

/-- C06. Extending a history extends the digest: the digest of `h ++ k` is computed from the
digest of `h` and `k` alone. -/
theorem C06_extension (h h' k : List (MoveType × MoveOutcome))
    (e : fnv1a (traceBytes h) = fnv1a (traceBytes h')) :
    fnv1a (traceBytes (h ++ k)) = fnv1a (traceBytes (h' ++ k)) := by
  simp only [fnv1a] at *
  rw [traceBytes_append, traceBytes_append, fnvFold_append, fnvFold_append, e]

example : fnv1a (traceBytes [(.twoThree, .metropolisAccepted)]) ≠
    fnv1a (traceBytes [(.twoSix, .metropolisRejected)]) :=
  C06_one_entry_changes_digest [] [] _ _ (by decide)

end CDT

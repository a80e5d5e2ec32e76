import Verif.Lemmas.Tracker

namespace CDT
open Spec
variable {M G P F : Type}

theorem trial_check_iff (trial : LD) :
    (!trial.isFinite || trial.lt (.fin 0) || (LD.fin 1).lt trial) = false ↔ LegalTrial trial := by
  unfold LegalTrial
  cases trial with
  | nan => simp [LD.isFinite]
  | inf b => simp [LD.isFinite]
  | fin q => simp [LD.isFinite, LD.lt]

/-- The engine's postcondition as a relation. -/
abbrev Checked (eng : MetroEngine M G P) : M → M → MoveType → Prop :=
  fun a b mv => eng.check a b mv = true

/-- The seven ways `resolve` can end. -/
inductive Resolved (eng : MetroEngine M G P) (code : Int) (trial : LD) (v : MetroVars M G) :
    Except Exc MoveOutcome → MetroVars M G → Prop
  | illegal (h : ¬ LegalTrial trial) : Resolved eng code trial v (.error .invalidArgument) v
  | unknown (h : LegalTrial trial) (hc : MoveType.ofCode code = none) :
      Resolved eng code trial v (.ok .executionFailed) v
  | threw (mv : MoveType) (e : Exc) (g' : G) (h : LegalTrial trial)
      (hc : MoveType.ofCode code = some mv) (hp : eng.propose mv v.current v.gen = (.error e, g')) :
      Resolved eng code trial v (.error e)
        { v with cmd := { v.cmd with attempted := v.cmd.attempted.inc mv },
                 stats := { v.stats with geometry := eng.geometry v.current,
                                         proposed := v.stats.proposed.inc mv },
                 gen := g' }
  | failed (mv : MoveType) (o : MoveOutcome) (g' : G) (h : LegalTrial trial)
      (hc : MoveType.ofCode code = some mv)
      (ho : o = .inapplicable ∨ o = .executionFailed)
      (hp : (∃ f, eng.propose mv v.current v.gen = (.ok (.error f), g') ∧ o = outcomeFrom f) ∨
        (∃ c, eng.propose mv v.current v.gen = (.ok (.ok c), g') ∧ eng.check v.current c mv = false ∧
          o = .executionFailed)) :
      Resolved eng code trial v (.ok o)
        { v with cmd := { v.cmd with attempted := v.cmd.attempted.inc mv,
                                     failed := v.cmd.failed.inc mv },
                 stats := { v.stats with geometry := eng.geometry v.current,
                                         proposed := v.stats.proposed.inc mv,
                                         rejected := v.stats.rejected.inc mv }.record mv o,
                 gen := g' }
  | probThrew (mv : MoveType) (e : Exc) (c : M) (g' : G) (h : LegalTrial trial)
      (hc : MoveType.ofCode code = some mv)
      (hp : eng.propose mv v.current v.gen = (.ok (.ok c), g'))
      (hk : eng.check v.current c mv = true)
      (he : eng.prob (eng.geometry v.current) (eng.geometry c) mv = .error e) :
      Resolved eng code trial v (.error e)
        { v with cmd := { v.cmd with attempted := v.cmd.attempted.inc mv,
                                     succeeded := v.cmd.succeeded.inc mv },
                 stats := { v.stats with geometry := eng.geometry v.current,
                                         proposed := v.stats.proposed.inc mv },
                 gen := g' }
  | accepted (mv : MoveType) (u : ℚ) (p : P) (c : M) (g' : G) (h : LegalTrial trial)
      (hu : trial = .fin u)
      (hc : MoveType.ofCode code = some mv)
      (hp : eng.propose mv v.current v.gen = (.ok (.ok c), g'))
      (hk : eng.check v.current c mv = true)
      (he : eng.prob (eng.geometry v.current) (eng.geometry c) mv = .ok p)
      (hge : eng.probGe p u = true) :
      Resolved eng code trial v (.ok .metropolisAccepted)
        { current := c,
          cmd := { v.cmd with attempted := v.cmd.attempted.inc mv,
                              succeeded := v.cmd.succeeded.inc mv },
          stats := { v.stats with geometry := eng.geometry c,
                                  proposed := v.stats.proposed.inc mv,
                                  accepted := v.stats.accepted.inc mv }.record mv .metropolisAccepted,
          gen := g' }
  | rejected (mv : MoveType) (u : ℚ) (p : P) (c : M) (g' : G) (h : LegalTrial trial)
      (hu : trial = .fin u)
      (hc : MoveType.ofCode code = some mv)
      (hp : eng.propose mv v.current v.gen = (.ok (.ok c), g'))
      (hk : eng.check v.current c mv = true)
      (he : eng.prob (eng.geometry v.current) (eng.geometry c) mv = .ok p)
      (hge : eng.probGe p u = false) :
      Resolved eng code trial v (.ok .metropolisRejected)
        { v with cmd := { v.cmd with attempted := v.cmd.attempted.inc mv,
                                     succeeded := v.cmd.succeeded.inc mv },
                 stats := { v.stats with geometry := eng.geometry v.current,
                                         proposed := v.stats.proposed.inc mv,
                                         rejected := v.stats.rejected.inc mv }.record mv
                                           .metropolisRejected,
                 gen := g' }

theorem outcomeFrom_cases (f : MoveFailure) :
    outcomeFrom f = .inapplicable ∨ outcomeFrom f = .executionFailed := by
  cases f <;> simp [outcomeFrom]

theorem resolve_resolved (eng : MetroEngine M G P) (code : Int) (trial : LD) (v : MetroVars M G) :
    Resolved eng code trial v (resolve eng code trial v).1 (resolve eng code trial v).2 := by
  unfold resolve
  by_cases hl : LegalTrial trial
  · rw [if_neg (by rw [(trial_check_iff trial).2 hl]; simp)]
    obtain ⟨u, rfl, h0, h1⟩ := hl
    have hl : LegalTrial (.fin u) := ⟨u, rfl, h0, h1⟩
    simp only
    cases hc : MoveType.ofCode code with
    | none => exact .unknown hl hc
    | some mv =>
      simp only
      rcases hp : eng.propose mv v.current v.gen with ⟨r, g'⟩
      match r, hp with
      | .error e, hp => exact .threw mv e g' hl hc hp
      | .ok (.error f), hp =>
        exact .failed mv (outcomeFrom f) g' hl hc (outcomeFrom_cases f) (.inl ⟨f, hp, rfl⟩)
      | .ok (.ok c), hp =>
        simp only
        cases hk : eng.check v.current c mv with
        | false =>
          exact .failed mv .executionFailed g' hl hc (.inr rfl) (.inr ⟨c, hp, hk, rfl⟩)
        | true =>
          simp only [Bool.not_true, Bool.false_eq_true, if_false]
          cases he : eng.prob (eng.geometry v.current) (eng.geometry c) mv with
          | error e => exact .probThrew mv e c g' hl hc hp hk he
          | ok p =>
            simp only
            cases hge : eng.probGe p u with
            | true => exact .accepted mv u p c g' hl rfl hc hp hk he hge
            | false => exact .rejected mv u p c g' hl rfl hc hp hk he hge
  · rw [if_pos]
    · exact .illegal hl
    · by_contra hcon
      exact hl ((trial_check_iff trial).1 (by simpa using hcon))

/-- A recorded transition extends the described history by one entry. -/
theorem describesCmd_extend {cmd cmd' : CommandResults} {h} (d : DescribesCmd cmd h)
    (mv : MoveType) (o : MoveOutcome)
    (h2 : cmd'.attempted = cmd.attempted.inc mv)
    (h5 : ∀ m, cmd'.succeeded.get m =
      cmd.succeeded.get m + if mv = m ∧ o.successful = true then 1 else 0)
    (h6 : ∀ m, cmd'.failed.get m =
      cmd.failed.get m + if mv = m ∧ (!o.successful) = true then 1 else 0) :
    DescribesCmd cmd' (h ++ [(mv, o)]) where
  attempted m := by rw [h2, Tracker.get_inc, d.attempted, countMove_append, countMove_single]
  succeeded m := by rw [h5, d.succeeded, countIf_append, countIf_single]
  failed m := by rw [h6, d.failed, countIf_append, countIf_single]

theorem describesStats_extend {st st' : RunStats} {h} (d : DescribesStats st h)
    (mv : MoveType) (o : MoveOutcome)
    (h1 : st'.proposed = st.proposed.inc mv)
    (h3 : ∀ m, st'.accepted.get m = st.accepted.get m + if mv = m ∧ o.accepted = true then 1 else 0)
    (h4 : ∀ m, st'.rejected.get m = st.rejected.get m + if mv = m ∧ (!o.accepted) = true then 1 else 0)
    (h7 : st'.trace = fnvStep (fnvStep st.trace (BitVec.ofNat 8 mv.asInteger.val))
      (BitVec.ofNat 8 o.code))
    (h8 : st'.count = st.count + 1) : DescribesStats st' (h ++ [(mv, o)]) where
  proposed m := by rw [h1, Tracker.get_inc, d.proposed, countMove_append, countMove_single]
  accepted m := by rw [h3, d.accepted, countIf_append, countIf_single]
  rejected m := by rw [h4, d.rejected, countIf_append, countIf_single]
  trace := by
    rw [h7, d.trace, traceBytes_append]
    simp [fnv1a, fnvFold, traceBytes]
  count := by rw [h8, d.count]; simp

theorem describes_of_resolved {eng : MetroEngine M G P} {code : Int} {trial : LD} {v v' : MetroVars M G}
    {r} (hr : Resolved eng code trial v r v') {o : MoveOutcome} (ho : r = .ok o) :
    (∀ h, DescribesCmd v.cmd h → DescribesCmd v'.cmd (h ++ entryOf (code, o))) ∧
    (∀ h, DescribesStats v.stats h → DescribesStats v'.stats (h ++ entryOf (code, o))) := by
  cases hr with
  | illegal _ => cases ho
  | unknown _ hc => simp [entryOf, hc]
  | threw => cases ho
  | probThrew => cases ho
  | failed mv o' g' hl hc ho' hp =>
    cases ho
    simp only [entryOf, hc]
    refine ⟨fun h d => describesCmd_extend d mv o rfl ?_ ?_,
      fun h d => describesStats_extend d mv o rfl ?_ ?_ rfl rfl⟩ <;> intro m <;>
      rcases ho' with rfl | rfl <;>
      simp [RunStats.record, Tracker.get_inc, MoveOutcome.accepted, MoveOutcome.successful]
  | accepted mv u p c g' hl hu hc hp hk he hge =>
    cases ho
    simp only [entryOf, hc]
    refine ⟨fun h d => describesCmd_extend d mv _ rfl ?_ ?_,
      fun h d => describesStats_extend d mv _ rfl ?_ ?_ rfl rfl⟩ <;> intro m <;>
      simp [RunStats.record, Tracker.get_inc, MoveOutcome.accepted, MoveOutcome.successful]
  | rejected mv u p c g' hl hu hc hp hk he hge =>
    cases ho
    simp only [entryOf, hc]
    refine ⟨fun h d => describesCmd_extend d mv _ rfl ?_ ?_,
      fun h d => describesStats_extend d mv _ rfl ?_ ?_ rfl rfl⟩ <;> intro m <;>
      simp [RunStats.record, Tracker.get_inc, MoveOutcome.accepted, MoveOutcome.successful]

theorem describesStats_geometry {st : RunStats} {h} (g : Geometry) (d : DescribesStats st h) :
    DescribesStats { st with geometry := g } h := ⟨d.1, d.2, d.3, d.4, d.5⟩

/-- A sampled code is always one of the five moves. -/
theorem ofCode_fin (i : Fin 5) : ∃ m, MoveType.ofCode (i.val : Int) = some m ∧ m.asInteger = i := by
  match i with
  | 0 => exact ⟨.twoThree, rfl, rfl⟩
  | 1 => exact ⟨.threeTwo, rfl, rfl⟩
  | 2 => exact ⟨.twoSix, rfl, rfl⟩
  | 3 => exact ⟨.sixTwo, rfl, rfl⟩
  | 4 => exact ⟨.fourFour, rfl, rfl⟩

theorem ofCode_asInteger (m : MoveType) : MoveType.ofCode (m.asInteger.val : Int) = some m := by
  cases m <;> rfl

theorem sample_eq (eng : MetroEngine M G P) (v : MetroVars M G) :
    ∃ (i : Fin 5) (u : LD) (g2 : G),
      sampleTransition eng v =
        ((resolve eng (i.val : Int) u { v with gen := g2 }).1.map (fun o => (i, o)),
         (resolve eng (i.val : Int) u { v with gen := g2 }).2) := by
  unfold sampleTransition
  rcases h1 : eng.drawMove v.gen with ⟨i, g1⟩
  rcases h2 : eng.drawTrial g1 with ⟨u, g2⟩
  refine ⟨i, u, g2, ?_⟩
  simp only [h2]
  rcases h3 : resolve eng (i.val : Int) u { v with gen := g2 } with ⟨r, v'⟩
  cases r <;> rfl

theorem evolves_of_resolved {eng : MetroEngine M G P} {code : Int} {trial : LD} {v v' : MetroVars M G}
    {r} (hr : Resolved eng code trial v r v') {o : MoveOutcome} (ho : r = .ok o) {mv : MoveType}
    (hc : MoveType.ofCode code = some mv) {m0 h} (e : Evolves (Checked eng) m0 h v.current) :
    Evolves (Checked eng) m0 (h ++ [(mv, o)]) v'.current ∧ v'.stats.geometry = eng.geometry v'.current := by
  cases hr with
  | illegal _ => cases ho
  | unknown _ hc' => rw [hc'] at hc; cases hc
  | threw => cases ho
  | probThrew => cases ho
  | failed mv' o' g' hl hc' ho' hp =>
    cases ho
    rw [hc'] at hc; cases hc
    exact ⟨.stay e (by rcases ho' with rfl | rfl <;> rfl), rfl⟩
  | accepted mv' u p c g' hl hu hc' hp hk he hge =>
    cases ho
    rw [hc'] at hc; cases hc
    exact ⟨.accept e hk, rfl⟩
  | rejected mv' u p c g' hl hu hc' hp hk he hge =>
    cases ho
    rw [hc'] at hc; cases hc
    exact ⟨.stay e rfl, rfl⟩

/-- What a block of transitions with reports `hp` does to the run variables. -/
structure Block (eng : MetroEngine M G P) (v : MetroVars M G) (hp : List (MoveType × MoveOutcome))
    (v' : MetroVars M G) : Prop where
  cmd : ∀ h, DescribesCmd v.cmd h → DescribesCmd v'.cmd (h ++ hp)
  stats : ∀ h, DescribesStats v.stats h → DescribesStats v'.stats (h ++ hp)
  evolves : ∀ m0 h, Evolves (Checked eng) m0 h v.current → Evolves (Checked eng) m0 (h ++ hp) v'.current
  geom : v.stats.geometry = eng.geometry v.current → v'.stats.geometry = eng.geometry v'.current

theorem block_sample {eng : MetroEngine M G P} {v v' : MetroVars M G} {i o}
    (hs : sampleTransition eng v = (.ok (i, o), v')) :
    ∃ m, MoveType.ofCode (i.val : Int) = some m ∧ Block eng v [(m, o)] v' := by
  obtain ⟨j, u, g2, e⟩ := sample_eq eng v
  rw [e] at hs
  obtain ⟨m, hm, _⟩ := ofCode_fin i
  simp only [Prod.mk.injEq] at hs
  obtain ⟨h1, rfl⟩ := hs
  have hres := resolve_resolved eng (j.val : Int) u { v with gen := g2 }
  rcases h3 : resolve eng (j.val : Int) u { v with gen := g2 } with ⟨r, w⟩
  rw [h3] at h1 hres
  cases r with
  | error e => cases h1
  | ok o' =>
    cases h1
    have h4 := describes_of_resolved hres (o := o) rfl
    simp only [entryOf, hm] at h4
    exact ⟨m, hm, h4.1, h4.2,
      fun m0 h he => (evolves_of_resolved hres rfl hm he).1,
      fun _ => (evolves_of_resolved hres rfl hm (.nil _)).2⟩

theorem Block.nil (eng : MetroEngine M G P) (v : MetroVars M G) : Block eng v [] v :=
  ⟨fun h d => by simpa using d, fun h d => by simpa using d, fun m0 h d => by simpa using d, id⟩

theorem Block.trans {eng : MetroEngine M G P} {v w x : MetroVars M G} {h k}
    (a : Block eng v h w) (b : Block eng w k x) : Block eng v (h ++ k) x :=
  ⟨fun l d => by simpa using b.cmd _ (a.cmd l d), fun l d => by simpa using b.stats _ (a.stats l d),
   fun m0 l d => by simpa using b.evolves _ _ (a.evolves m0 l d), fun e => b.geom (a.geom e)⟩

theorem block_passLoop {eng : MetroEngine M G P} : ∀ (n : Nat) {v v' : MetroVars M G},
    passLoop eng n v = (.ok (), v') →
    ∃ hp : List (MoveType × MoveOutcome), hp.length = n ∧ Block eng v hp v'
  | 0, v, v', e => by cases e; exact ⟨[], rfl, Block.nil eng v⟩
  | n + 1, v, v', e => by
    unfold passLoop at e
    rcases hs : sampleTransition eng v with ⟨r, w⟩
    rw [hs] at e
    cases r with
    | error x => cases e
    | ok x =>
      obtain ⟨i, o⟩ := x
      obtain ⟨hp, hl, hb⟩ := block_passLoop n e
      obtain ⟨m, hm, h1⟩ := block_sample hs
      exact ⟨[(m, o)] ++ hp, by simp [hl], h1.trans hb⟩

theorem Evolves.append {M : Type} {check : M → M → MoveType → Prop} {a b c : M} {h k}
    (e₁ : Evolves check a h b) (e₂ : Evolves check b k c) : Evolves check a (h ++ k) c := by
  induction e₂ with
  | nil => simpa using e₁
  | accept _ hc ih => rw [← List.append_assoc]; exact .accept ih hc
  | stay _ ho ih => rw [← List.append_assoc]; exact .stay ih ho

theorem metroPass_ok {eng : MetroEngine M G P} {m : M} {st : RunStats} {n : Int} {w w' : G × F}
    {r : PassResult M RunStats} (e : metroPass eng m st n w = (.ok r, w')) :
    ∃ hp : List (MoveType × MoveOutcome), hp.length = n.toNat ∧
      DescribesCmd r.commandResults hp ∧
      (∀ h, DescribesStats st h → DescribesStats r.strategyState (h ++ hp)) ∧
      Evolves (Checked eng) m hp r.manifold ∧
      (st.geometry = eng.geometry m → r.strategyState.geometry = eng.geometry r.manifold) := by
  obtain ⟨g, f⟩ := w
  unfold metroPass at e
  rcases hl : passLoop eng n.toNat ⟨m, {}, st, g⟩ with ⟨x, v⟩
  simp only [hl] at e
  cases x with
  | error x => cases e
  | ok x =>
    cases e
    obtain ⟨hp, hn, hb⟩ := block_passLoop _ hl
    exact ⟨hp, hn, by simpa using hb.cmd [] describesCmd_nil, hb.stats,
      by simpa using hb.evolves m [] (.nil m), hb.geom⟩

end CDT

import Verif.Model.Processes
/-
A program by its accesses, run alone, is the function of `Verif.Model.Storage` or `Verif.Model.Program`.
-/
namespace CDT

section
variable {α β : Type}

theorem Proc.run_step (p : Proc α) (w : Machine) : p.run w = (p.step w).1.run (p.step w).2 := by
  cases p with
  | rename s t b k =>
    cases h : w.disk.fs s <;> cases b <;> simp [Proc.run, Proc.step, h]
  | _ => rfl

theorem Proc.run_follow (p : Proc α) (f : Except Exc α → Proc β) (w : Machine) :
    (p.follow f).run w = (f (p.run w).1).run (p.run w).2 := by
  induction p generalizing w with
  | done r => rfl
  | fate k ih => exact ih _ _
  | clock k ih => exact ih _ _
  | look p k ih => exact ih _ _
  | put p c k ih => exact ih _
  | rename s t b k ih => cases h : w.disk.fs s <;> cases b <;> simp [Proc.run, Proc.follow, h, ih]
  | note p k ih => exact ih _

/-- The program by its accesses does what the function does. -/
def Runs (p : Proc α) (io : Io α) : Prop := ∀ w, p.run w = ((io w.disk).1, { w with disk := (io w.disk).2 })

theorem Io.bind_eq {γ : Type} (p : Io α) (f : α → Io γ) (d : Disk) : (p >>= f) d = match p d with
    | (.ok a, d') => f a d'
    | (.error e, d') => (.error e, d') := rfl

theorem Runs.bind {p : Proc α} {io : Io α} {f : α → Proc β} {g : α → Io β} (h : Runs p io) (hf : ∀ a, Runs (f a) (g a)) :
    Runs (p >>= f) (io >>= g) := by
  intro w
  show Proc.run (p.follow _) w = _
  rw [Proc.run_follow, h w, Io.bind_eq]
  rcases io w.disk with ⟨r, d⟩
  cases r with
  | error e => rfl
  | ok a => exact hf a _

theorem Runs.pure (a : α) : Runs (Pure.pure a) (Pure.pure a) := fun _ => rfl
theorem Runs.lift (x : Except Exc α) : Runs (Proc.lift x) (Io.lift x) := fun _ => rfl

theorem Runs.remove (p : Path) : Runs (Proc.remove p) (Io.remove p) := by
  intro w
  simp only [Proc.remove, Proc.run, Io.remove, Io.bind_eq, Io.nextFate]
  split <;> rfl

theorem Runs.replace (s t : Path) : Runs (Proc.replace s t) (Io.rename s t) := by
  intro w
  simp only [Proc.replace, Proc.run, Io.rename, Io.bind_eq, Io.nextFate, Io.look]
  cases h : w.disk.fs s with
  | none => rfl
  | some c =>
    cases hb : (w.disk.fates w.disk.clock).renamed <;> simp [Proc.run, Io.throw]

theorem Runs.putAll (p : Path) : ∀ cs, Runs (Proc.putAll p cs) (Io.putAll p cs)
  | [] => fun _ => rfl
  | c :: cs => by
    intro w
    exact Runs.putAll p cs _

theorem Runs.writeWhole (p : Path) (c : Bytes) : Runs (Proc.writeWhole p c) (Io.writeWhole p c) := by
  intro w
  simp only [Proc.writeWhole, Proc.run, Io.writeWhole, Io.bind_eq, Io.nextFate]
  split
  · have key : ∀ f : Fate, Runs (do
        Proc.putAll p f.partials
        match f.interrupted with
        | some e => .put p (some f.leftover) (.done (.error e))
        | none => .put p (some c) (.done (.ok ()))) (do
        Io.putAll p f.partials
        match f.interrupted with
        | some e => do Io.put p (some f.leftover); Io.throw e
        | none => Io.put p (some c)) := by
      intro f
      refine (Runs.putAll p _).bind fun _ => ?_
      cases f.interrupted <;> exact fun _ => rfl
    exact key _ _
  · rfl

theorem Runs.readWhole (p : Path) : Runs (Proc.readWhole p) (Io.readWhole p) := by
  intro w
  simp only [Proc.readWhole, Proc.run, Io.readWhole, Io.bind_eq, Io.nextFate, Io.look]
  cases h : w.disk.fs p with
  | none => rfl
  | some c => cases hb : (w.disk.fates w.disk.clock).opened <;> rfl

theorem Runs.tryRethrow {body : Proc α} {io : Io α} {cleanup : Proc Unit} {io' : Io Unit} (h : Runs body io)
    (h' : Runs cleanup io') : Runs (Proc.tryRethrow body cleanup) (Io.tryRethrow io io') := by
  intro w
  unfold Proc.tryRethrow Io.tryRethrow
  rw [Proc.run_follow, h w]
  rcases io w.disk with ⟨r, d⟩
  cases r with
  | ok a => rfl
  | error e =>
    dsimp only
    rw [Proc.run_follow, h']
    rfl

variable {T : Type} (codec : Codec T) (ft : FloatText) (build : BuildInfo) (filename : Path) (t : T)

theorem Runs.publishManifest (m : Metadata) :
    Runs (publishManifestSteps codec ft build filename t m) (publishManifest codec ft build filename t m) :=
  (Runs.readWhole _).bind fun _ => (Runs.writeWhole _ _).bind fun _ => (Runs.readWhole _).bind fun _ =>
    (Runs.lift _).bind fun _ => (Runs.lift _).bind fun _ => (Runs.lift _).bind fun _ => Runs.replace _ _

theorem Runs.writeBody (r : Option Metadata) :
    Runs (writeBodySteps codec ft build filename t r) (writeBody codec ft build filename t r) := by
  cases r with
  | none => exact (Runs.writeWhole _ _).bind fun _ => (Runs.readWhole _).bind fun _ => (Runs.lift _).bind fun _ =>
      (Runs.pure _).bind fun _ => (Runs.replace _ _).bind fun _ => Runs.remove _
  | some m => exact (Runs.writeWhole _ _).bind fun _ => (Runs.readWhole _).bind fun _ => (Runs.lift _).bind fun _ =>
      (Runs.publishManifest codec ft build filename t m).bind fun _ => (Runs.replace _ _).bind fun _ => Runs.pure _

/-- `write_payload`, run alone. -/
theorem Runs.writePayload (metadata : Option Metadata) :
    Runs (writePayloadSteps codec ft build filename t metadata) (writePayload codec ft build filename t metadata) :=
  (Runs.lift _).bind fun _ => (Runs.remove _).bind fun _ => (Runs.remove _).bind fun _ =>
    (Runs.writeBody codec ft build filename t _).tryRethrow ((Runs.remove _).bind fun _ => Runs.remove _)

end

section
variable {M S P T : Type} (host : Host M S P T) (out : Outside M S)

theorem writeArtifact_steps (m : M) (md : Metadata) (w : Machine) :
    (writeArtifactSteps host out m md).run w = writeArtifact host out m md w := by
  unfold writeArtifactSteps writeArtifact
  rw [Proc.run]
  split
  · rename_i e h
    rw [h]; rfl
  · rename_i path h
    rw [h]
    dsimp only
    rw [Proc.run_follow, Runs.writePayload]
    rcases writePayload host.codec host.text host.build path (host.snapshot m) (some md) w.disk with ⟨r, d⟩
    cases r <;> rfl

theorem metroPass_world {F : Type} (eng : MetroEngine M (Random S) P) (m : M) (st : RunStats) (n : ℤ) (g : Random S) (f : F) :
    metroPass eng m st n (g, f) = ((metroPass (F := Unit) eng m st n (g, ())).1,
      (metroPass (F := Unit) eng m st n (g, ())).2.1, f) := by
  unfold metroPass
  dsimp only
  rcases passLoop eng n.toNat ⟨m, {}, st, g⟩ with ⟨r, v⟩
  cases r <;> rfl

/-- The callables of a run (include/Metropolis.hpp:697-708). -/
def runCallables (eng : MetroEngine M (Random S) P) (base : Metadata) : RunOps M RunStats (Random S × Machine) :=
  { n3 := eng.n3, pass := metroPass eng, report := (Sampler.output host out base).report,
    checkpoint := (Sampler.output host out base).checkpoint }

theorem passes_steps (eng : MetroEngine M (Random S) P) (base : Metadata) (cad : Cadence) (writes : Bool) :
    ∀ (n : ℕ) (i : ℤ) (v : RunVars M RunStats) (g : Random S) (w : Machine),
    let x := (passesSteps host out eng base cad writes n i v g).run w
    let y := runLoop (runCallables host out eng base) cad writes n i v (g, w)
    x.2 = y.2.2 ∧ match y with
      | (.ok v', (g', _)) => x.1 = .ok (v', g')
      | (.error e, _) => x.1 = .error e
  | 0, _, _, _, _ => ⟨rfl, rfl⟩
  | n + 1, i, v, g, w => by
    have ih := passes_steps eng base cad writes n (i + 1)
    dsimp only at ih ⊢
    unfold passesSteps runLoop runPass
    dsimp only
    have e : (runCallables host out eng base).pass v.current v.state ((runCallables host out eng base).n3 v.current) (g, w) =
        ((metroPass (F := Unit) eng v.current v.state (eng.n3 v.current) (g, ())).1,
          (metroPass (F := Unit) eng v.current v.state (eng.n3 v.current) (g, ())).2.1, w) := metroPass_world eng _ _ _ _ _
    rw [e]
    rcases metroPass (F := Unit) eng v.current v.state (eng.n3 v.current) (g, ()) with ⟨r, g1, u⟩
    cases r with
    | error e => exact ⟨rfl, rfl⟩
    | ok p =>
      dsimp only
      split
      · have hr : ∀ a b c, (runCallables host out eng base).report a b c (g1, w) = (.ok (), (g1, w)) := fun _ _ _ => rfl
        rw [hr]
        dsimp only
        split
        · have hc : (runCallables host out eng base).checkpoint p.manifold (v.totals.accumulate p.commandResults) p.strategyState (i + 1) (g1, w) =
              match Sampler.metadata host base p.manifold .checkpoint (i + 1) p.strategyState with
              | .error e => (.error e, (g1, w))
              | .ok md =>
                match writeArtifact host out p.manifold md w with
                | (.error e, w') => (.error e, (g1, w'))
                | (.ok _, w') => (.ok (), (g1, w')) := rfl
          rw [hc]
          cases Sampler.metadata host base p.manifold .checkpoint (i + 1) p.strategyState with
          | error e => exact ⟨rfl, rfl⟩
          | ok md =>
            dsimp only
            rw [Proc.run_follow, writeArtifact_steps]
            rcases writeArtifact host out p.manifold md w with ⟨r, w'⟩
            cases r with
            | error e => exact ⟨rfl, rfl⟩
            | ok u => exact ih _ _ _
        · exact ih _ _ _
      · exact ih _ _ _

/-- `cdt`, run alone. -/
theorem cdt_steps (parsed : Option Options) (disk : Disk) :
    (cdtSteps host out parsed).run ⟨disk, []⟩ = (.ok (cdtMain host out parsed disk).1, (cdtMain host out parsed disk).2) := by
  unfold cdtSteps cdtMain
  cases parsed with
  | none => rfl
  | some o =>
    dsimp only
    split
    · rfl
    · split
      · rfl
      · cases cdtConfig host out o with
        | error e => rfl
        | ok cfg =>
          dsimp only
          rw [Proc.run_follow]
          have key : (cdtRunSteps host out (rootRandom host out o) cfg).run ⟨disk, []⟩ =
              cdtRun host out (rootRandom host out o) cfg ⟨disk, []⟩ := by
            unfold cdtRunSteps cdtRun
            dsimp only
            split
            · rename_i e h
              rw [h]; rfl
            · rename_i start h
              rw [h]
              dsimp only
              cases cdtSampler host (rootRandom host out o) cfg start with
              | error e => rfl
              | ok s =>
                dsimp only
                rw [Proc.run_follow]
                have h1 := passes_steps host out (host.engine s.parameters) s.reproducibility s.strategy.cadence
                  s.strategy.writesFiles s.strategy.cadence.passes.toNat 0
                  ⟨start, {}, { geometry := (host.engine s.parameters).geometry start }, 0⟩ s.strategy.gen ⟨disk, []⟩
                dsimp only at h1
                unfold Sampler.run MetroStrategy.run executeMoveRun
                dsimp only
                unfold runCallables at h1
                generalize Proc.run _ _ = x at h1 ⊢
                generalize runLoop _ _ _ _ _ _ _ = y at h1 ⊢
                obtain ⟨x1, x2⟩ := x
                obtain ⟨y1, g', w'⟩ := y
                obtain ⟨h1, h2⟩ := h1
                cases y1 with
                | error e => subst h1; dsimp only at h2; subst h2; rfl
                | ok v =>
                  subst h1; dsimp only at h2; subst h2
                  dsimp only
                  have hr : ∀ a b c, (Sampler.output host out s.reproducibility).report a b c (g', x2) = (.ok (), (g', x2)) :=
                    fun _ _ _ => rfl
                  rw [hr]
                  dsimp only
                  split
                  · rfl
                  · split
                    · cases Sampler.metadata host s.reproducibility v.current .finalTriangulation cfg.passes v.state with
                      | error e => rfl
                      | ok md => exact writeArtifact_steps host out _ _ _
                    · rfl
          rw [key]
          rcases cdtRun host out (rootRandom host out o) cfg ⟨disk, []⟩ with ⟨r, w⟩
          cases r <;> rfl

/-- `initialize`, run alone. -/
theorem initialize_steps (parsed : Option Options) (disk : Disk) :
    (initializeSteps host out parsed).run ⟨disk, []⟩ =
      (.ok (initializeMain host out parsed disk).1, (initializeMain host out parsed disk).2) := by
  unfold initializeSteps initializeMain
  cases parsed with
  | none => rfl
  | some o =>
    dsimp only
    split
    · rfl
    · split
      · rfl
      · cases initializeConfig host out o with
        | error e => rfl
        | ok cfg =>
          dsimp only
          rw [Proc.run_follow]
          have key : (initializeRunSteps host out (rootRandom host out o) cfg o.output).run ⟨disk, []⟩ =
              initializeRun host out (rootRandom host out o) cfg o.output ⟨disk, []⟩ := by
            unfold initializeRunSteps initializeRun
            split
            · rename_i e h
              rw [h]; rfl
            · rename_i start h
              rw [h]
              dsimp only
              split
              · cases makeMetadata host start cfg.seed .initialTriangulation with
                | error e => rfl
                | ok md => exact writeArtifact_steps host out _ _ _
              · rfl
          rw [key]
          rcases initializeRun host out (rootRandom host out o) cfg o.output ⟨disk, []⟩ with ⟨r, w⟩
          cases r <;> rfl

end
end CDT

import Verif.Spec.Transcript
import Verif.Lemmas.ConsoleRun
import Verif.Lemmas.ProgramRun
/-
Lemmas for C93.
-/
namespace CDT
open Spec
variable {M S P T : Type} {voice : Voice M S} {faults : PrintFaults} (host : Host M S P T) (out : Outside M S)

theorem writingLine_eq (path : Path) : writingLine path = fileText path := by
  unfold writingLine fileText
  rw [format_eq _ ["Writing to file ", "\n"] _ (by decide +kernel) rfl]

theorem fileText_injective : Function.Injective fileText := by
  intro a b h
  simp only [fileText, sentence, List.append_nil, List.append_assoc, List.append_cancel_left_eq] at h
  simpa using h

/-! ### Writing one artifact -/

theorem writeArtifactAloud_erases (m : M) (md : Metadata) :
    SameUnlessPrintFails faults (writeArtifactAloud faults host out m md) (writeArtifact host out m md) := by
  intro w c hok
  unfold writeArtifactAloud at hok ⊢
  unfold writeArtifact
  dsimp only at hok ⊢
  generalize artifactPath host m md (out.now w.disk.clock) = q at hok ⊢
  rcases q with e | path
  · rfl
  · simp only at hok ⊢
    rcases say_cases faults (writingLine path) c with ⟨c1, hs⟩ | ⟨⟨e, c1, hs⟩, hf⟩
    swap
    · simp [hs, hf] at hok
    simp only [hs]
    rcases writePayload host.codec host.text host.build path (host.snapshot m) (some md) w.disk with ⟨r, d⟩
    cases r <;> rfl

theorem writeArtifactAloud_error {m : M} {md : Metadata} {w w' : Machine} {c c' : Console} {e : Exc}
    (h : writeArtifactAloud faults host out m md (w, c) = (.error e, (w', c'))) :
    w' = w ∨ writeArtifact host out m md w = (.error e, w') := by
  unfold writeArtifactAloud at h
  unfold writeArtifact
  dsimp only at h ⊢
  generalize artifactPath host m md (out.now w.disk.clock) = q at h ⊢
  rcases q with e1 | path
  · cases h; exact .inl rfl
  · simp only at h ⊢
    rcases hs : say faults (writingLine path) c with ⟨r, c1⟩
    rw [hs] at h
    cases r with
    | error e => cases h; exact .inl rfl
    | ok _ =>
      simp only at h
      rcases hw : writePayload host.codec host.text host.build path (host.snapshot m) (some md) w.disk with ⟨r, d⟩
      simp only [hw] at h ⊢
      cases r with
      | error e => cases h; exact .inr rfl
      | ok _ => cases h

/-- What writing an artifact prints and logs. -/
theorem writeArtifactAloud_tells (m : M) (md : Metadata) (w : Machine) (c : Console) :
    (∃ w' c' a, writeArtifactAloud faults host out m md (w, c) = (.ok (), (w', c')) ∧
      w'.log = w.log ++ [a] ∧ c'.text = c.text ++ fileText a.path) ∨
    ∃ e w' c' path t, writeArtifactAloud faults host out m md (w, c) = (.error e, (w', c')) ∧
      w'.log = w.log ∧ c'.text = c.text ++ t ∧ t <+: fileText path := by
  unfold writeArtifactAloud
  dsimp only
  rcases artifactPath host m md (out.now w.disk.clock) with e1 | path
  · exact .inr ⟨e1, w, c, [], [], rfl, rfl, by simp, by simp⟩
  · simp only [writingLine_eq]
    obtain ⟨t, h1, h2⟩ := say_text faults (fileText path) c
    rcases hs : say faults (fileText path) c with ⟨r, c1⟩
    rw [hs] at h1
    cases r with
    | error e => exact .inr ⟨e, w, c1, path, t, rfl, rfl, h1, h2⟩
    | ok _ =>
      simp only
      have h3 := say_ok hs
      rcases writePayload host.codec host.text host.build path (host.snapshot m) (some md) w.disk with ⟨r, d⟩
      cases r with
      | error e => exact .inr ⟨e, _, c1, path, fileText path, rfl, rfl, h3, List.prefix_refl _⟩
      | ok _ => exact .inl ⟨_, c1, _, rfl, rfl, h3⟩

/-! ### Checkpoints -/

/-- The log grows by artifacts announced with these texts. -/
def Announced (w : Random S × Machine) (ts : List Bytes) (w' : Random S × Machine) : Prop :=
  ∃ as : List Written, w'.2.log = w.2.log ++ as ∧ ts = as.map fun a => fileText a.path

theorem checkpointAloud_tells (rec : Metadata) :
    CheckpointTells (Sampler.checkpointAloud faults host out rec) Announced (fun b => ∃ path, b = fileText path) where
  any := ⟨_, [], rfl⟩
  refl w := ⟨[], by simp, rfl⟩
  trans := by
    rintro a s b t c ⟨as, h1, rfl⟩ ⟨bs, h2, rfl⟩
    exact ⟨as ++ bs, by rw [h2, h1, List.append_assoc], by simp⟩
  moves g g' f := ⟨[], by simp, rfl⟩
  gen := by
    rintro m cmd s n ⟨g, w⟩ c
    unfold Sampler.checkpointAloud
    dsimp only
    rcases Sampler.metadata host rec m .checkpoint n s with e | md
    · rfl
    · simp only
      rcases writeArtifactAloud faults host out m md (w, c) with ⟨r, w', c'⟩
      cases r <;> rfl
  checkpoint := by
    rintro m cmd s n ⟨g, w⟩ c
    unfold Sampler.checkpointAloud
    dsimp only
    rcases Sampler.metadata host rec m .checkpoint n s with e | md
    · exact ⟨fileText [], [], by simp, by simp, ⟨_, rfl⟩, fun _ => ⟨[], by simp, rfl⟩, by simp⟩
    · simp only
      rcases writeArtifactAloud_tells (faults := faults) host out m md w c with
        ⟨w', c', a, e, h1, h2⟩ | ⟨x, w', c', path, t, e, h1, h2, h3⟩
      · rw [e]
        exact ⟨fileText a.path, _, h2, List.prefix_refl _, ⟨_, rfl⟩, by simp, fun _ => ⟨rfl, [a], h1, rfl⟩⟩
      · rw [e]
        exact ⟨fileText path, t, h2, h3, ⟨_, rfl⟩, fun _ => ⟨[], by simpa using h1, rfl⟩, by simp⟩

theorem checkpointAloud_erases (rec : Metadata) (m : M) (cmd : CommandResults) (st : RunStats) (n : ℤ) :
    SameUnlessPrintFails faults (Sampler.checkpointAloud faults host out rec m cmd st n)
      ((Sampler.output host out rec).checkpoint m cmd st n) := by
  rintro ⟨g, w⟩ c hok
  unfold Sampler.checkpointAloud at hok ⊢
  simp only [Sampler.output] at hok ⊢
  generalize Sampler.metadata host rec m .checkpoint n st = q at hok ⊢
  rcases q with e | md
  · rfl
  · simp only at hok ⊢
    have h := writeArtifactAloud_erases (faults := faults) host out m md w c
    rcases hw : writeArtifactAloud faults host out m md (w, c) with ⟨r, w', c'⟩
    rw [hw] at h hok
    cases r with
    | error e => rw [← h (by simpa using hok)]
    | ok _ => rw [← h (by simp)]

theorem checkpointAloud_error (rec : Metadata) (m : M) (cmd : CommandResults) (st : RunStats) (n : ℤ)
    (w w' : Random S × Machine) (c : Console) (e : Exc)
    (h : (Sampler.checkpointAloud faults host out rec m cmd st n (w, c)).1 = .error e) (hk : w.2 = w'.2) :
    w'.2 = (Sampler.checkpointAloud faults host out rec m cmd st n (w, c)).2.1.2 ∨
      (Sampler.output host out rec).checkpoint m cmd st n w =
        (.error e, (Sampler.checkpointAloud faults host out rec m cmd st n (w, c)).2.1) := by
  obtain ⟨g, w⟩ := w
  unfold Sampler.checkpointAloud at h ⊢
  simp only [Sampler.output] at h ⊢
  generalize Sampler.metadata host rec m .checkpoint n st = q at h ⊢
  rcases q with e | md
  · exact .inl hk.symm
  · simp only at h ⊢
    rcases hw : writeArtifactAloud faults host out m md (w, c) with ⟨r, w1, c1⟩
    rw [hw] at h
    cases r with
    | ok _ => cases h
    | error x =>
      cases h
      rcases writeArtifactAloud_error host out hw with rfl | h1
      · exact .inl hk.symm
      · rw [h1]; exact .inr rfl

theorem checkpoint_erases (eng : MetroEngine M (Random S) P) (rec : Metadata) :
    Erases faults (W := Random S × Machine)
      { n3 := eng.n3, pass := fun m st n => besideConsole (metroPass eng m st n),
        report := fun _ cmd st => onConsole (sayAll faults (metroResultLines cmd st)),
        checkpoint := Sampler.checkpointAloud faults host out rec }
      (metroOps eng (Sampler.output host out rec)) metroResultLines :=
  ⟨rfl, fun _ _ _ _ _ => rfl, fun _ _ _ => rfl, fun _ _ _ _ => rfl, checkpointAloud_erases host out rec⟩

/-! ### The sampler -/

variable (cfg : SimConfig) (start : M)

/-- A run with output whose universe was built, up to the end of the run of the sampler. -/
theorem samplerAloud_log {sampler : Sampler S} (s1 : sampler.parameters = ⟨cfg.alpha, cfg.k, cfg.lambda⟩)
    (s2 : sampler.strategy = { cadence := ⟨cfg.passes, cfg.checkpoint⟩, writesFiles := cfg.writeFiles, gen := Random.make host.pcg cfg.triangulation.seed 1 })
    (hrec : GoodRecord host cfg sampler.reproducibility) (hc : 1 ≤ cfg.checkpoint) (hP : 1 ≤ cfg.passes)
    (d0 : Disk) (c : Console) :
    (∃ result sampler' w' c', sampler.runAloud faults host out start ⟨d0, []⟩ c = (.ok result, sampler', w', c') ∧
      sampler'.reproducibility = sampler.reproducibility ∧ result = stateAfter host cfg start cfg.passes ∧
      DescribesStats sampler'.strategy.stats (history (engineOf host cfg) (transitionsAfter host cfg start cfg.passes)
        (origin host cfg start)) ∧
      (history (engineOf host cfg) (transitionsAfter host cfg start cfg.passes) (origin host cfg start)).length =
        transitionsAfter host cfg start cfg.passes ∧
      LogOk host cfg start d0 (dueUpTo cfg cfg.passes.toNat) w') ∨
    ∃ e sampler' w' c' done, sampler.runAloud faults host out start ⟨d0, []⟩ c = (.error e, sampler', w', c') ∧
      done <+: dueUpTo cfg cfg.passes.toNat ∧ LogOk host cfg start d0 done w' := by
  have h0 : LogOk host cfg start d0 [] ⟨d0, []⟩ := ⟨.nil, by simp, fun _ _ => rfl⟩
  have hPz : ((cfg.passes.toNat : ℕ) : ℤ) = cfg.passes := Int.toNat_of_nonneg (by omega)
  have hb : Between host cfg start d0 0 ⟨start, {}, { geometry := (engineOf host cfg).geometry start }, 0⟩
      ((Random.make host.pcg cfg.triangulation.seed 1 : Random S), ⟨d0, []⟩) := by
    refine ⟨rfl, ?_, rfl, ?_⟩
    · exact describesStats_nil _
    · unfold dueUpTo; rw [schedule_zero]; simpa using h0
  have step := pass_step host out cfg start hrec hc d0
  have key := fun c1 => runLoopAloud_cases (faults := faults) (cad := ⟨cfg.passes, cfg.checkpoint⟩) (writes := cfg.writeFiles)
    (K := fun a b => a.2 = b.2)
    (checkpoint_erases (faults := faults) host out (engineOf host cfg) sampler.reproducibility) (fun _ => rfl)
    (fun m s n w => (metroPass_keeps (engineOf host cfg) m s n w.1 w.2).symm)
    (fun m cmd s n w w' c e h hk => checkpointAloud_error host out sampler.reproducibility m cmd s n w w' c e h hk.symm)
    (Between host cfg start d0) (fun j w => LogOk host cfg start d0 (dueUpTo cfg j) w.2)
    (fun k v w v' w' hi hr => by
      rcases step k v w hi with ⟨v1, w1, h1, h2⟩ | ⟨e1, w1, h1, h2⟩
      · rw [hr] at h1; cases h1; exact h2
      · rw [hr] at h1; cases h1)
    (fun k v w e w' hi hr => by
      rcases step k v w hi with ⟨v1, w1, h1, h2⟩ | ⟨e1, w1, h1, h2⟩
      · rw [hr] at h1; cases h1
      · rw [hr] at h1; cases h1; exact h2)
    (fun k v w w' hi hk => by rw [← hk]; exact hi.2.2.2) cfg.passes.toNat 0 _ _ c1 hb
  unfold Sampler.runAloud MetroStrategy.runAloud
  rw [s1, s2]
  simp only
  unfold executeMoveRunAloud
  simp only [onConsole]
  rcases sayAll faults (RunIdentity.lines _) c with ⟨r, c1⟩
  cases r with
  | error e => exact .inr ⟨e, _, _, _, [], rfl, List.nil_prefix, h0⟩
  | ok _ =>
    simp only
    rcases key c1 with ⟨v', ⟨g', w'⟩, c', e, hbt⟩ | ⟨e, ⟨g', w'⟩, c', j, he, hj, hz⟩
    · rw [Nat.cast_zero] at e
      change runLoopAloud faults { n3 := (host.engine ⟨cfg.alpha, cfg.k, cfg.lambda⟩).n3, .. } _ _ _ _ _ _ = _ at e
      simp only [engineOf] at e
      simp only [e]
      rw [Nat.zero_add] at hbt
      obtain ⟨t1, t2, t3, hl⟩ := hbt
      rw [hPz] at t1 t2 t3
      rcases say faults runResultsLine c' with ⟨r, c2⟩
      cases r with
      | error e => exact .inr ⟨e, _, _, _, _, rfl, List.prefix_refl _, hl⟩
      | ok _ =>
        simp only
        rcases sayAll faults (metroResultLines v'.totals v'.state) c2 with ⟨r, c3⟩
        cases r with
        | error e => exact .inr ⟨e, _, _, _, _, rfl, List.prefix_refl _, hl⟩
        | ok _ => exact .inl ⟨_, _, _, _, rfl, rfl, congrArg Prod.fst t1, t2, t3, hl⟩
    · rw [Nat.cast_zero] at he
      simp only [engineOf] at he
      simp only [he]
      exact .inr ⟨e, _, _, _, _, rfl, dueUpTo_prefix cfg hc (by omega), hz⟩

/-! ### Texts -/

theorem cdtHeading_eq (voice : Voice M S) {cfg : SimConfig} (h1 : cfg.triangulation.topology = .spherical)
    (h2 : cfg.triangulation.dimensions = 3) : (cdtParameterLines voice cfg).flatten = cdtHeading voice cfg := by
  unfold cdtParameterLines cdtHeading
  simp only [List.flatten_cons, List.flatten_nil, List.append_nil, h1, h2, topologyText]
  rw [show format "Topology is {}\n" [ascii "spherical"] = sentence ["Topology is spherical\n"] [] by decide +kernel,
    show format "Dimensionality: {}+{}\n" [decimalInt (3 - 1), decimalInt 1] = sentence ["Dimensionality: 2+1\n"] [] by
      decide +kernel,
    format_eq _ ["Initial radius: ", "\n"] _ (by decide +kernel) rfl,
    format_eq _ ["Foliation spacing: ", "\n"] _ (by decide +kernel) rfl,
    format_eq _ ["Number of desired simplices: ", "\n"] _ (by decide +kernel) rfl,
    format_eq _ ["Number of desired timeslices: ", "\n"] _ (by decide +kernel) rfl,
    format_eq _ ["Number of passes: ", "\n"] _ (by decide +kernel) rfl,
    format_eq _ ["Checkpoint every ", " passes.\n"] _ (by decide +kernel) rfl,
    format_eq _ ["Effective random seed: ", "\n"] _ (by decide +kernel) rfl,
    format_eq _ ["Maximum Delaunay threads: ", "\n"] _ (by decide +kernel) rfl,
    format_eq _ ["=== Parameters ===\n"] _ (by decide +kernel) rfl,
    format_eq _ ["Alpha: ", "\n"] _ (by decide +kernel) rfl,
    format_eq _ ["K: ", "\n"] _ (by decide +kernel) rfl,
    format_eq _ ["Lambda: ", "\n"] _ (by decide +kernel) rfl,
    format_eq _ ["cdt started at ", "\n"] _ (by decide +kernel) rfl]
  simp only [List.append_assoc]

theorem look_eq (voice : Voice M S) (m : M) : (voice.look m).flatten = lookText voice m := by
  simp [Voice.look, lookText]

theorem shortfall_eq (maxTime wanted : ℤ) : (shortfallLines maxTime wanted).flatten =
    if maxTime < wanted then
      sentence ["You wanted ", " timeslices, but only got ", ".\n"] [decimalInt wanted, decimalInt maxTime] else [] := by
  unfold shortfallLines
  split
  · rw [format_eq _ ["You wanted ", " timeslices, but only got ", ".\n"] _ (by decide +kernel) rfl]; simp
  · rfl

theorem cdtResult_eq (voice : Voice M S) (m : M) : (cdtResultLines voice m).flatten =
    sentence ["=== Run Results ===\n"] [] ++ sentence ["Running time is ", " seconds.\n"] [voice.elapsed] ++
      lookText voice m := by
  unfold cdtResultLines
  rw [format_eq _ ["=== Run Results ===\n"] _ (by decide +kernel) rfl,
    format_eq _ ["Running time is ", " seconds.\n"] _ (by decide +kernel) rfl]
  simp [look_eq]

theorem initializeHeading_eq (voice : Voice M S) {t : TriConfig} (save : Bool) (h1 : t.topology = .spherical)
    (h2 : t.dimensions = 3) : (initializeParameterLines voice t.seed t save).flatten = initializeHeading voice t save := by
  unfold initializeParameterLines initializeHeading
  simp only [List.flatten_append, List.flatten_cons, List.flatten_nil, List.append_nil, h1, h2, topologyText]
  rw [show format "Topology is {}\n" [ascii "spherical"] = sentence ["Topology is spherical\n"] [] by decide +kernel,
    show format "Number of dimensions = {}\n" [decimalInt 3] = sentence ["Number of dimensions = 3\n"] [] by
      decide +kernel,
    format_eq _ ["Number of desired simplices = ", "\n"] _ (by decide +kernel) rfl,
    format_eq _ ["Number of desired timeslices = ", "\n"] _ (by decide +kernel) rfl,
    format_eq _ ["Initial radius = ", "\n"] _ (by decide +kernel) rfl,
    format_eq _ ["Foliation spacing = ", "\n"] _ (by decide +kernel) rfl,
    format_eq _ ["Effective random seed: ", "\n"] _ (by decide +kernel) rfl,
    format_eq _ ["Maximum Delaunay threads: ", "\n"] _ (by decide +kernel) rfl,
    format_eq _ ["Output will be saved.\n"] _ (by decide +kernel) rfl]
  simp only [List.append_assoc]
  cases save <;> simp

theorem initializeResult_eq (voice : Voice M S) (m : M) : (initializeResultLines voice host m).flatten =
    voice.print m ++ (voice.volumes m).flatten ++
      sentence ["Final number of simplices: ", "\n"] [decimalInt (host.summary m).N3] := by
  unfold initializeResultLines
  rw [format_eq _ ["Final number of simplices: ", "\n"] _ (by decide +kernel) rfl]
  simp

/-! ### Due checkpoints -/

theorem dueNotes_snoc (i : ℤ) (writes : Bool) (note : ℕ → Bytes) : ∀ (n k : ℕ),
    dueNotes i writes note (n + 1) k = dueNotes i writes note n k ++
      (if i ∣ ((k + n + 1 : ℕ) : ℤ) ∧ writes = true then [note (k + n + 1)] else [])
  | 0, k => by simp [dueNotes]
  | n + 1, k => by
    rw [dueNotes, dueNotes_snoc i writes note n (k + 1), dueNotes, List.append_assoc,
      show k + 1 + n + 1 = k + (n + 1) + 1 by omega]

theorem dueNotes_dueUpTo (hc : 1 ≤ cfg.checkpoint) (note : ℕ → Bytes) (n : ℕ) :
    dueNotes cfg.checkpoint cfg.writeFiles note n 0 = (dueUpTo cfg n).map fun x => note x.1.toNat := by
  induction n with
  | zero => unfold dueUpTo; rw [schedule_zero]; simp [dueNotes]
  | succ n ih =>
    rw [dueNotes_snoc, ih, dueUpTo_succ cfg hc, List.map_append]
    congr 1
    have e : ((0 + n + 1 : ℕ) : ℤ) = (n : ℤ) + 1 := by push_cast; ring
    by_cases h : cfg.checkpoint ∣ (n : ℤ) + 1 ∧ cfg.writeFiles = true
    · rw [if_pos (by rw [e]; exact h), if_pos ⟨h.2, Int.emod_eq_zero_of_dvd h.1⟩]
      simp
    · rw [if_neg (by rw [e]; exact h), if_neg (fun x => h ⟨Int.dvd_of_emod_eq_zero x.2, x.1⟩)]
      rfl

end CDT

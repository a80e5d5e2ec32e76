import Verif.Spec.Restart
import Verif.Spec.Killed
import Verif.Props.Repeat
/-
C111: the initial universe can be built again from any manifest.
-/
namespace CDT.Props
open CDT Spec

section
variable {M S P T : Type} {host : Host M S P T} {out₁ out₂ out : Outside M S} {F : CastFloats}
variable {isDouble isLong : LD → Prop} {o : Options} {cfg : SimConfig} {tc : TriConfig} {start : M}

theorem initializeConfig_facts (h : initializeConfig host out o = .ok tc) :
    o.spherical = true ∧ o.toroidal = false ∧ o.dimensions = 3 ∧ o.simplices = some tc.simplices ∧
    o.timeslices = some tc.timeslices ∧ o.initialRadius = tc.initialRadius ∧ o.foliationSpacing = tc.foliationSpacing ∧
    tc.seed = o.seed.getD out.entropy ∧ o.threads = tc.threads ∧
    (2 ≤ tc.simplices ∧ tc.simplices ≤ 2 ^ 31 - 1) ∧ (2 ≤ tc.timeslices ∧ tc.timeslices ≤ 2 ^ 31 - 1) ∧
    (∃ r, tc.initialRadius = .fin r) ∧ ∃ s, tc.foliationSpacing = .fin s := by
  unfold initializeConfig at h
  simp only [bind_ok] at h
  obtain ⟨N, h4, T', h5, h6⟩ := h
  have h4 := required_ok h4; have h5 := required_ok h5
  obtain ⟨rfl, hN, hT, hth⟩ := makeTriangulation_ok h6
  unfold RuntimeConfig.makeTriangulation at h6
  simp only [bind_ok] at h6
  obtain ⟨top, h7, N1, -, T1, -, d1, hd, h6⟩ := h6
  have htop : o.spherical = true ∧ o.toroidal = false := by
    revert h7
    cases o.spherical <;> cases o.toroidal <;> simp [RuntimeConfig.selectTopology]
  obtain ⟨-, rfl⟩ := checkedInt_ok.1 hd
  split at h6
  · cases h6
  · rename_i hdim
    split at h6
    · cases h6
    · simp only [bind_ok] at h6
      obtain ⟨r1, h8, s1, h9, -⟩ := h6
      exact ⟨htop.1, htop.2, by omega, h4, h5, rfl, rfl, rfl, by dsimp only; omega, hN, hT, (checkedFinite_ok.1 h8).1, (checkedFinite_ok.1 h9).1⟩

/-- What the quoted lines say. -/
theorem start_settings {ft : FloatText} {b : BuildInfo} {m : Metadata} {p : PayloadIntegrity} {line : String → Bytes}
    (hF : CastsBack F ft isDouble isLong)
    (hq : QuotesStart (presentFields (metadataFields ft b m p)) line) {seed : BitVec 64} {r s : ℚ} {N Ts : ℤ} {th : ℕ}
    (m1 : m.seed = seed.toNat) (m2 : m.desiredSimplices = N) (m3 : m.desiredTimeslices = Ts)
    (m4 : m.initialRadius = .fin r) (m5 : m.foliationSpacing = .fin s) (m11 : m.maxThreads = some th)
    (hr : isDouble (.fin r)) (hs : isDouble (.fin s))
    (hN : 0 ≤ N ∧ N < 2 ^ 63) (hT : 0 ≤ Ts ∧ Ts < 2 ^ 63) (hth : th < 2 ^ 63) :
    SettingsOf F (startUses line)
      { spherical := true, output := true, simplices := some N, timeslices := some Ts, initialRadius := .fin r,
        foliationSpacing := .fin s, seed := some seed, threads := th } := by
  have f1 := mem_field (hq "random.seed" (by simp [startLines]))
  have f2 := mem_field (hq "desired.simplices" (by simp [startLines]))
  have f3 := mem_field (hq "desired.timeslices" (by simp [startLines]))
  have f4 := mem_field (hq "initial_radius" (by simp [startLines]))
  have f5 := mem_field (hq "foliation_spacing" (by simp [startLines]))
  have f11 := mem_field (hq "parallel.max_threads" (by simp [startLines]))
  rw [field16, m1] at f1
  rw [field21, m2] at f2
  rw [field22, m3] at f3
  rw [field29, m4] at f4
  rw [field30, m5] at f5
  rw [field38, m11] at f11
  simp only [Option.map_some, Option.some.injEq] at f1 f2 f3 f4 f5 f11
  unfold startUses
  rw [← f1, ← f2, ← f3, ← f4, ← f5, ← f11]
  have absent : ∀ (name : String) (vs : List (Option Bytes)), vs.length = 8 →
      ascii name ∉ [ascii "spherical", ascii "output", ascii "simplices", ascii "timeslices", ascii "init", ascii "foliate",
        ascii "seed", ascii "threads"] → ∀ u ∈ ([⟨ascii "spherical", none⟩, ⟨ascii "output", none⟩,
          ⟨ascii "simplices", some (decimalInt N)⟩, ⟨ascii "timeslices", some (decimalInt Ts)⟩,
          ⟨ascii "init", some (ft.showDouble (.fin r))⟩, ⟨ascii "foliate", some (ft.showDouble (.fin s))⟩,
          ⟨ascii "seed", some (decimal seed.toNat)⟩, ⟨ascii "threads", some (decimal th)⟩] : List CliUse), u.name ≠ ascii name := by
    intro name vs _ hn u hu e
    apply hn
    rw [← e]
    simp only [List.mem_cons, List.not_mem_nil, or_false] at hu ⊢
    rcases hu with rfl | rfl | rfl | rfl | rfl | rfl | rfl | rfl <;> simp
  constructor
  · simp only [List.map_cons, List.map_nil]
    decide +kernel
  all_goals first
    | (unfold Switch
       simp only [List.mem_cons, exists_eq_or_imp, List.not_mem_nil, or_false, Bool.false_eq_true, false_iff, true_iff, exists_eq_left]
       decide +kernel)
    | exact .inr ⟨absent _ (List.replicate 8 none) (by simp) (by decide +kernel), rfl⟩
    | skip
  · exact .inl ⟨_, N, by simp, written_integer hN.1 hN.2, rfl⟩
  · exact .inl ⟨_, Ts, by simp, written_integer hT.1 hT.2, rfl⟩
  · exact .inl ⟨_, (th : ℤ), by simp, written_natural hth, rfl⟩
  · exact .inl ⟨_, seed, by simp, written_word seed, rfl⟩
  · exact .inl ⟨_, .fin r, by simp, hF.double r hr, rfl⟩
  · exact .inl ⟨_, .fin s, by simp, hF.double s hs, rfl⟩

/-- `initialize` with the options that the lines of a manifest give builds the universe again. -/
theorem start_again {m : Metadata} {p : PayloadIntegrity} (hF : CastsBack F host.text isDouble isLong)
    (hbuild : out₂.construct = out₁.construct) (hc : initializeConfig host out₁ o = .ok tc)
    (hb : out₁.construct tc.simplices tc.timeslices (Random.make host.pcg tc.seed 0) tc.initialRadius
      tc.foliationSpacing = .ok start) (hthr : o.threads < 2 ^ 63)
    (m1 : m.seed = tc.seed.toNat) (m2 : m.desiredSimplices = tc.simplices) (m3 : m.desiredTimeslices = tc.timeslices)
    (m4 : m.initialRadius = tc.initialRadius) (m5 : m.foliationSpacing = tc.foliationSpacing) (m6 : m.maxThreads = some tc.threads)
    (d1 : isDouble tc.initialRadius) (d2 : isDouble tc.foliationSpacing)
    {line : String → Bytes} (hq : QuotesStart (presentFields (metadataFields host.text host.build m p)) line)
    {uses : List CliUse} (hu : uses.Perm (startUses line)) {words' : List Bytes} (hw : Spells initializeTable uses words')
    (disk : Disk) :
    let y := initializeProgram host out₂ F words' disk
    (y.1 = 0 ∧ ∃ b, y.2.log = [b] ∧ InitialTruthful host tc start b ∧ InPlace y.2.disk.fs b) ∨ (y.1 = 1 ∧ y.2.log = []) := by
  obtain ⟨f1, f2, f3, f4, f5, f6, f7, f8, f9, f10, f11, ⟨r, hr⟩, s, hs⟩ := initializeConfig_facts hc
  have hset := start_settings hF hq (seed := tc.seed) m1 m2 m3 (m4.trans hr) (m5.trans hs) m6 (hr ▸ d1) (hs ▸ d2)
    ⟨by omega, by omega⟩ ⟨by omega, by omega⟩ (by
      have : (tc.threads : ℤ) < 2 ^ 63 := by omega
      exact_mod_cast this)
  have hread := (C104_initialize F words' _).2 ⟨uses, hw, means_perm hu.symm hset⟩
  have hcfg : initializeConfig host out₂ ({
      spherical := true, output := true, simplices := some tc.simplices, timeslices := some tc.timeslices,
      initialRadius := .fin r, foliationSpacing := .fin s, seed := some tc.seed, threads := (tc.threads : ℤ) } : Options) =
        .ok tc := by
    rw [← hc]
    unfold initializeConfig
    rw [f1, f2, f3, f4, f5, f6, f7, f9, hr, hs]
    have e : (rootRandom host out₁ o).seed = tc.seed := f8.symm
    rw [e]
    rfl
  dsimp only
  unfold initializeProgram
  rw [hread]
  have := (C68_initialize rfl rfl hcfg (by rw [hbuild]; exact hb) disk).2.1 rfl
  rcases this with ⟨h1, a, h2, h3, h4, h5⟩ | h
  · exact .inl ⟨h1, a, h2, h3, h4, h5⟩
  · exact .inr h

theorem initial_same {a b : Written} (ha : InitialTruthful host tc start a) (hb : InitialTruthful host tc start b) :
    SameButTime a b := by
  obtain ⟨lo, hi, f, h1, h2, h3⟩ := ha.manifest
  obtain ⟨lo', hi', f', k1, k2, k3⟩ := hb.manifest
  obtain ⟨rfl, rfl⟩ := labelRange_unique h1 k1
  rw [h2] at k2
  cases k2
  obtain ⟨n, hn⟩ := ha.name
  obtain ⟨n', hn'⟩ := hb.name
  exact ⟨ha.payload.trans hb.payload.symm, h3.trans k3.symm, nameInfo host start, tc.seed.toNat, n, n', .inl ⟨hn, hn'⟩⟩

/-- An artifact was written: the universe was built, and the artifact is the truth about it. -/
theorem initialize_wrote {disk : Disk} {a : Written} (ha : a ∈ (initializeMain host out (some o) disk).2.log) :
    ∃ tc start, initializeConfig host out o = .ok tc ∧
      out.construct tc.simplices tc.timeslices (Random.make host.pcg tc.seed 0) tc.initialRadius tc.foliationSpacing = .ok start ∧
      InitialTruthful host tc start a := by
  by_cases h1 : o.help = true
  · unfold initializeMain at ha; simp [h1] at ha
  by_cases h2 : o.version = true
  · unfold initializeMain at ha; simp [h1, h2] at ha
  rw [Bool.not_eq_true] at h1 h2
  cases hc : initializeConfig host out o with
  | error e => unfold initializeMain at ha; simp [h1, h2, hc] at ha
  | ok tc =>
    cases hb : out.construct tc.simplices tc.timeslices (Random.make host.pcg tc.seed 0) tc.initialRadius tc.foliationSpacing with
    | error e =>
      unfold initializeMain at ha
      simp only [h1, h2, Bool.false_eq_true, if_false, hc] at ha
      unfold initializeRun at ha
      rw [show (rootRandom host out o).split host.pcg initializationStream = Random.make host.pcg tc.seed 0 by
        rw [initializeConfig_ok hc]; rfl, hb] at ha
      simp at ha
    | ok start =>
      obtain ⟨k1, k2, -⟩ := C68_initialize h1 h2 hc hb disk
      cases ho : o.output with
      | false => rw [k1 ho] at ha; simp at ha
      | true =>
        rcases k2 ho with ⟨-, b, hb', hb2, -⟩ | ⟨-, h⟩
        · rw [hb', List.mem_singleton] at ha
          exact ⟨tc, start, rfl, hb, ha ▸ hb2⟩
        · rw [h] at ha; simp at ha

/-- **C111.** The universe that `initialize` has written can be built again from its manifest.  Take the values on
the lines of the manifest as options, in any order and spelling, and run `initialize` with them, whatever the
entropy, the clock and the files, on a machine that builds the same universe from the same arguments.  Then it
writes the same artifact, byte for byte and with the same name up to the time of writing, or it fails and
writes none. -/
theorem C111_initialize_again (hft : FloatTextLawful host.text isDouble isLong) (hb : BuildLegible host.build)
    (hF : CastsBack F host.text isDouble isLong) (hk : KeepsFoliation host out₁ isDouble)
    (hbuild : out₂.construct = out₁.construct) {words words' : List Bytes} {disk₁ disk₂ : Disk} {a : Written}
    (ha : a ∈ (initializeProgram host out₁ F words disk₁).2.log) {text : Bytes} (ht : a.manifest = some text)
    {fields : List (Bytes × Bytes)} (hf : ManifestText text fields) {line : String → Bytes} (hq : QuotesStart fields line)
    {uses : List CliUse} (hu : uses.Perm (startUses line)) (hw : Spells initializeTable uses words') :
    let y := initializeProgram host out₂ F words' disk₂
    (y.1 = 0 ∧ ∃ b, y.2.log = [b] ∧ SameButTime a b ∧ InPlace y.2.disk.fs b) ∨ (y.1 = 1 ∧ y.2.log = []) := by
  unfold initializeProgram at ha
  cases hr : readCommandLine initializeTable F words with
  | none => rw [hr] at ha; simp [initializeMain] at ha
  | some o =>
    rw [hr] at ha
    obtain ⟨u₀, hs₀, hset⟩ := (C104_initialize F words o).1 hr
    obtain ⟨tc, start, hc, hbu, hT⟩ := initialize_wrote ha
    obtain ⟨f1, f2, f3, f4, f5, f6, f7, f8, f9, f10, f11, ⟨r, hr'⟩, s, hs'⟩ := initializeConfig_facts hc
    have d1 : isDouble tc.initialRadius := f6 ▸ setting_double hF hset.initialRadius
    have d2 : isDouble tc.foliationSpacing := f7 ▸ setting_double hF hset.foliationSpacing
    have hbu' := hbu
    rw [hr', hs'] at hbu'
    obtain ⟨g1, g2⟩ := hk.built (hr' ▸ d1) (hs' ▸ d2) hbu'
    obtain ⟨lo, hi, f, -, -, hman⟩ := hT.manifest
    rw [ht] at hman
    obtain rfl := Option.some.inj hman
    have e1 : (initialTruth host tc start lo hi f).initialRadius = tc.initialRadius := by rw [hr']; exact congrArg _ g1
    have e2 : (initialTruth host tc start lo hi f).foliationSpacing = tc.foliationSpacing := by rw [hs']; exact congrArg _ g2
    have hmf : MetadataFloats isDouble isLong (initialTruth host tc start lo hi f) :=
      ⟨e1 ▸ d1, e2 ▸ d2, by rintro x ⟨⟩, by rintro x ⟨⟩, by rintro x ⟨⟩⟩
    obtain rfl := ManifestText.unique hf (manifestText_write _ _ _ _ hft hb hmf)
    have hthr : o.threads < 2 ^ 63 := by
      rcases hset.threads with ⟨v, z, -, ⟨-, hz, -⟩, e⟩ | ⟨-, e⟩
      · rw [e]; exact hz
      · omega
    rcases start_again hF hbuild hc hbu hthr rfl rfl rfl e1 e2 rfl d1 d2 hq hu hw disk₂ with ⟨h1, b, h2, h3, h4⟩ | h
    · exact .inl ⟨h1, b, h2, initial_same hT h3, h4⟩
    · exact .inr h

/-- **C111.** The universe from which a run of `cdt` started can be built from the manifest of any of its artifacts:
`initialize` with the values on those lines writes exactly that universe, or fails and writes nothing. -/
theorem C111_start_of_run (hft : FloatTextLawful host.text isDouble isLong) (hb : BuildLegible host.build)
    (hF : CastsBack F host.text isDouble isLong) (hk : KeepsFoliation host out₁ isDouble)
    (hbuild : out₂.construct = out₁.construct) {words words' : List Bytes} {disk₁ disk₂ : Disk} {a : Written}
    (ha : a ∈ (cdtProgram host out₁ F words disk₁).2.log) {text : Bytes} (ht : a.manifest = some text)
    {fields : List (Bytes × Bytes)} (hf : ManifestText text fields) {line : String → Bytes} (hq : QuotesStart fields line)
    {uses : List CliUse} (hu : uses.Perm (startUses line)) (hw : Spells initializeTable uses words') :
    let y := initializeProgram host out₂ F words' disk₂
    ∃ o cfg start due, readCommandLine cdtTable F words = some o ∧ Launched host out₁ o cfg start ∧
      due ∈ duties cfg ∧ Truthful host cfg start due a ∧
      ((y.1 = 0 ∧ ∃ b, y.2.log = [b] ∧ InitialTruthful host cfg.triangulation start b ∧ InPlace y.2.disk.fs b) ∨
        (y.1 = 1 ∧ y.2.log = [])) := by
  unfold cdtProgram at ha
  cases hr : readCommandLine cdtTable F words with
  | none => rw [hr] at ha; simp [C66_nothing_written (o := {})] at ha
  | some o =>
    rw [hr] at ha
    obtain ⟨u₀, hs₀, hset⟩ := (C104_cdt F words o).1 hr
    obtain ⟨cfg, start, hl, due, hdue, hT⟩ := written_launched ha
    have hc := C66_configured_by hl.config
    obtain ⟨lo, hi, f, -, -, hman⟩ := hT.manifest
    rw [ht] at hman
    obtain rfl := Option.some.inj hman
    have d1 : isDouble cfg.triangulation.initialRadius := hc.radius ▸ setting_double hF hset.initialRadius
    have d2 : isDouble cfg.triangulation.foliationSpacing := hc.spacing ▸ setting_double hF hset.foliationSpacing
    obtain ⟨hrad, hspa⟩ := foliation_kept hk hl d1 d2 due.1
    have hmf : MetadataFloats isDouble isLong (truth host cfg start due lo hi f) := by
      refine ⟨?_, ?_, ?_, ?_, ?_⟩
      · show isDouble (.fin _); rw [hrad]; exact d1
      · show isDouble (.fin _); rw [hspa]; exact d2
      · rintro x ⟨⟩; exact setting_long hF (hc.alpha.1 ▸ hset.alpha)
      · rintro x ⟨⟩; exact setting_long hF (hc.k.1 ▸ hset.k)
      · rintro x ⟨⟩; exact setting_long hF (hc.lambda.1 ▸ hset.lambda)
    obtain rfl := ManifestText.unique hf (manifestText_write _ _ _ _ hft hb hmf)
    have hthr : o.threads < 2 ^ 63 := by
      rcases hset.threads with ⟨v, z, -, ⟨-, hz, -⟩, e⟩ | ⟨-, e⟩
      · rw [e]; exact hz
      · omega
    exact ⟨o, cfg, start, due, rfl, hl, hdue, hT, start_again hF hbuild (C68_same_configuration hl.config) hl.built hthr
      rfl rfl rfl hrad hspa rfl d1 d2 hq hu hw disk₂⟩

end

/-! ### A concrete restart -/

open Fixture

def startWords : List Bytes := (startUses pointLine).reverse.map plainWord

-- The words spell the options in another order.
example : ∃ uses, uses.Perm (startUses pointLine) ∧ Spells initializeTable uses startWords :=
  ⟨_, List.reverse_perm _, (C104_words C104_tables.2.1 _ _).1 (by decide +kernel)⟩
-- `initialize` succeeds with them, with other entropy than the run of `cdt` of C106, and writes its initial universe; the
-- lines of the manifest are the same again.
example : (initializeProgram pointHost (pointOutside 5) integerCasts startWords goodDisk).1 = 0 ∧
    (initializeProgram pointHost (pointOutside 5) integerCasts startWords goodDisk).2.log.map Written.payload =
      [some (payloadText pointSet [1, 2, 3])] ∧
    (∀ a ∈ (initializeProgram pointHost (pointOutside 5) integerCasts startWords goodDisk).2.log,
      ∀ n ∈ startLines, (ascii n ++ equalsSign :: pointLine n) ∈ (a.manifest.getD []).splitOn 10#8) := by
  decide +kernel

end CDT.Props

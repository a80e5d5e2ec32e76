import Verif.Props.CommandLine
import Verif.Props.Program
import Verif.Props.Whole
import Verif.Spec.Repeat
/-
C106: a run of `cdt` can be repeated from any one of its manifests.
-/
namespace CDT.Props
open CDT Spec

section
variable {M S P T : Type} {host : Host M S P T} {out₁ out₂ out : Outside M S} {F : CastFloats}
variable {isDouble isLong : LD → Prop} {o : Options} {cfg : SimConfig} {start : M}

theorem written_integer {z : ℤ} (h0 : 0 ≤ z) (h1 : z < 2 ^ 63) : WritesInteger (decimalInt z) z := by
  refine ⟨by omega, h1, z.natAbs, .inl ⟨by omega, .inl ⟨0, ?_⟩⟩⟩
  unfold decimalInt
  rw [if_neg (by omega)]
  simp

theorem written_natural {n : ℕ} (h1 : n < 2 ^ 63) : WritesInteger (decimal n) n := by
  refine ⟨by omega, by exact_mod_cast h1, n, .inl ⟨rfl, .inl ⟨0, by simp⟩⟩⟩

theorem written_word (w : BitVec 64) : WritesWord (decimal w.toNat) w :=
  ⟨w.toNat, w.isLt, .inl ⟨rfl, .inl ⟨0, by simp⟩⟩⟩

theorem config_finite (h : cdtConfig host out o = .ok cfg) :
    (∃ r, cfg.triangulation.initialRadius = .fin r) ∧ ∃ s, cfg.triangulation.foliationSpacing = .fin s := by
  have hc := C66_configured_by h
  rw [← hc.radius, ← hc.spacing]
  unfold cdtConfig at h
  simp only [bind_ok] at h
  obtain ⟨a, -, k, -, l, -, N, -, T', -, t, h6, -⟩ := h
  unfold RuntimeConfig.makeTriangulation at h6
  simp only [bind_ok] at h6
  obtain ⟨top, -, N1, -, T1, -, d1, -, h⟩ := h6
  split at h
  · cases h
  · split at h
    · cases h
    · simp only [bind_ok] at h
      obtain ⟨r1, h5, s1, h6, -⟩ := h
      exact ⟨(checkedFinite_ok.1 h5).1, (checkedFinite_ok.1 h6).1⟩

theorem foliation_kept (hk : KeepsFoliation host out isDouble) (h : Launched host out o cfg start)
    (d1 : isDouble cfg.triangulation.initialRadius) (d2 : isDouble cfg.triangulation.foliationSpacing) (p : ℤ) :
    .fin (host.summary (stateAfter host cfg start p)).radius = cfg.triangulation.initialRadius ∧
    .fin (host.summary (stateAfter host cfg start p)).spacing = cfg.triangulation.foliationSpacing := by
  have key : ∀ n (x : M × Random S), (host.summary (trajectory (engineOf host cfg) n x).1).radius = (host.summary x.1).radius ∧
      (host.summary (trajectory (engineOf host cfg) n x).1).spacing = (host.summary x.1).spacing := by
    intro n
    induction n with
    | zero => exact fun x => ⟨rfl, rfl⟩
    | succ n ih =>
      intro x
      have e : trajectory (engineOf host cfg) (n + 1) x = trajectory (engineOf host cfg) n (advance (engineOf host cfg) x) := rfl
      rw [e, (ih _).1, (ih _).2]
      exact hk.moved _ _
  obtain ⟨h1, h2⟩ := key (transitionsAfter host cfg start p) (origin host cfg start)
  obtain ⟨⟨r, hr⟩, s, hs⟩ := config_finite h.config
  have hb := h.built
  rw [hr, hs] at hb
  obtain ⟨h3, h4⟩ := hk.built (hr ▸ d1) (hs ▸ d2) hb
  unfold stateAfter
  rw [h1, h2, hr, hs]
  exact ⟨congrArg _ h3, congrArg _ h4⟩

/-- An artifact was written: the run was launched, and the artifact is one of those that were due. -/
theorem written_launched {disk : Disk} {a : Written} (ha : a ∈ (cdtMain host out (some o) disk).2.log) :
    ∃ cfg start, Launched host out o cfg start ∧ ∃ due ∈ duties cfg, Truthful host cfg start due a := by
  by_cases h1 : o.help = true
  · rw [(C66_nothing_written disk).2.1 (.inl h1)] at ha; simp at ha
  by_cases h2 : o.version = true
  · rw [(C66_nothing_written disk).2.1 (.inr h2)] at ha; simp at ha
  rw [Bool.not_eq_true] at h1 h2
  by_cases hl : ∃ cfg start, Launched host out o cfg start
  · obtain ⟨cfg, start, hl⟩ := hl
    obtain ⟨done, hp, ht, -⟩ := C64_provenance_true hl disk
    obtain ⟨x, hx, hxa⟩ : ∃ x ∈ done, Truthful host cfg start x a := by
      obtain ⟨i, hi, rfl⟩ := List.getElem_of_mem ha
      have hle := ht.length_eq
      exact ⟨done[i], List.getElem_mem _, (List.forall₂_iff_get.1 ht).2 i (by omega) hi⟩
    exact ⟨cfg, start, hl, x, hp.subset hx, hxa⟩
  · rw [(C66_nothing_written (host := host) (out := out) (o := o) disk).2.2 h1 h2
      (fun cfg start h => hl ⟨cfg, start, h⟩)] at ha
    simp at ha

theorem mem_field {ft : FloatText} {b : BuildInfo} {m : Metadata} {p : PayloadIntegrity} {n : String} {v : Bytes}
    (h : (ascii n, v) ∈ presentFields (metadataFields ft b m p)) :
    fieldOf (presentFields (metadataFields ft b m p)) n = some v := by
  have hn := present_nodup ft b m p
  unfold fieldOf
  generalize presentFields (metadataFields ft b m p) = l at *
  induction l with
  | nil => simp at h
  | cons a l ih =>
    obtain ⟨k, w⟩ := a
    simp only [List.map_cons, List.nodup_cons] at hn
    rcases List.mem_cons.1 h with h | h
    · cases h; simp
    · have : (ascii n == k) = false := by
        rw [beq_eq_false_iff_ne]
        rintro rfl
        exact hn.1 (List.mem_map.2 ⟨_, ‹(ascii n, v) ∈ l›, rfl⟩)
      rw [List.lookup_cons, this]
      exact ih h hn.2

theorem repeat_settings {ft : FloatText} {b : BuildInfo} {m : Metadata} {p : PayloadIntegrity} {line : String → Bytes}
    (hF : CastsBack F ft isDouble isLong)
    (hq : Quotes (presentFields (metadataFields ft b m p)) line) {seed : BitVec 64} {r s al k la : ℚ} {N Ts P C : ℤ} {th : ℕ}
    (m1 : m.seed = seed.toNat) (m2 : m.desiredSimplices = N) (m3 : m.desiredTimeslices = Ts)
    (m4 : m.initialRadius = .fin r) (m5 : m.foliationSpacing = .fin s) (m6 : m.alpha = some (.fin al))
    (m7 : m.k = some (.fin k)) (m8 : m.lambda = some (.fin la)) (m9 : m.configuredPasses = some P)
    (m10 : m.checkpointInterval = some C) (m11 : m.maxThreads = some th)
    (hr : isDouble (.fin r)) (hs : isDouble (.fin s)) (hal : isLong (.fin al)) (hk : isLong (.fin k)) (hla : isLong (.fin la))
    (hN : 0 ≤ N ∧ N < 2 ^ 63) (hT : 0 ≤ Ts ∧ Ts < 2 ^ 63) (hP : 0 ≤ P ∧ P < 2 ^ 63) (hC : 0 ≤ C ∧ C < 2 ^ 63) (hth : th < 2 ^ 63) :
    SettingsOf F (repeatUses line)
      { spherical := true, simplices := some N, timeslices := some Ts, initialRadius := .fin r, foliationSpacing := .fin s,
        seed := some seed, threads := th, alpha := some (.fin al), k := some (.fin k), lambda := some (.fin la),
        passes := P, checkpoint := C } := by
  have f1 := mem_field (hq "random.seed" (by simp [quotedLines]))
  have f2 := mem_field (hq "desired.simplices" (by simp [quotedLines]))
  have f3 := mem_field (hq "desired.timeslices" (by simp [quotedLines]))
  have f4 := mem_field (hq "initial_radius" (by simp [quotedLines]))
  have f5 := mem_field (hq "foliation_spacing" (by simp [quotedLines]))
  have f6 := mem_field (hq "alpha" (by simp [quotedLines]))
  have f7 := mem_field (hq "k" (by simp [quotedLines]))
  have f8 := mem_field (hq "lambda" (by simp [quotedLines]))
  have f9 := mem_field (hq "configured_passes" (by simp [quotedLines]))
  have f10 := mem_field (hq "checkpoint_interval" (by simp [quotedLines]))
  have f11 := mem_field (hq "parallel.max_threads" (by simp [quotedLines]))
  rw [field16, m1] at f1
  rw [field21, m2] at f2
  rw [field22, m3] at f3
  rw [field29, m4] at f4
  rw [field30, m5] at f5
  rw [field31, m6] at f6
  rw [field32, m7] at f7
  rw [field33, m8] at f8
  rw [field34, m9] at f9
  rw [field36, m10] at f10
  rw [field38, m11] at f11
  simp only [Option.map_some, Option.some.injEq] at f1 f2 f3 f4 f5 f6 f7 f8 f9 f10 f11
  unfold repeatUses
  rw [← f1, ← f2, ← f3, ← f4, ← f5, ← f6, ← f7, ← f8, ← f9, ← f10, ← f11]
  constructor
  · simp only [List.map_cons, List.map_nil]
    decide +kernel
  all_goals first
    | (unfold Switch
       simp only [List.mem_cons, exists_eq_or_imp, List.not_mem_nil, or_false, Bool.false_eq_true, false_iff, true_iff, exists_eq_left]
       decide +kernel)
    | skip
  · exact .inl ⟨_, N, by simp, written_integer hN.1 hN.2, rfl⟩
  · exact .inl ⟨_, Ts, by simp, written_integer hT.1 hT.2, rfl⟩
  · refine .inr ⟨?_, rfl⟩
    simp only [List.forall_mem_cons]
    refine ⟨?_, ?_, ?_, ?_, ?_, ?_, ?_, ?_, ?_, ?_, ?_, ?_, by simp⟩ <;> decide +kernel
  · exact .inl ⟨_, (th : ℤ), by simp, written_natural hth, rfl⟩
  · exact .inl ⟨_, P, by simp, written_integer hP.1 hP.2, rfl⟩
  · exact .inl ⟨_, C, by simp, written_integer hC.1 hC.2, rfl⟩
  · exact .inl ⟨_, seed, by simp, written_word seed, rfl⟩
  · exact .inl ⟨_, .fin r, by simp, hF.double r hr, rfl⟩
  · exact .inl ⟨_, .fin s, by simp, hF.double s hs, rfl⟩
  · exact .inl ⟨_, .fin al, by simp, hF.long al hal, rfl⟩
  · exact .inl ⟨_, .fin k, by simp, hF.long k hk, rfl⟩
  · exact .inl ⟨_, .fin la, by simp, hF.long la hla, rfl⟩

theorem setting_double {ft : FloatText} (hF : CastsBack F ft isDouble isLong) {uses : List CliUse} {name : String} {x : LD}
    (h : Setting uses name (fun v x => F.double v = some x) id (.fin 1) x) : isDouble x := by
  rcases h with ⟨v, a, -, h, e⟩ | ⟨-, rfl⟩
  · rw [e]; exact hF.doubles v a h
  · exact hF.one

theorem setting_long {ft : FloatText} (hF : CastsBack F ft isDouble isLong) {uses : List CliUse} {name : String} {x : LD}
    (h : Setting uses name (fun v x => F.longDouble v = some x) some none (some x)) : isLong x := by
  rcases h with ⟨v, a, -, h, e⟩ | ⟨-, e⟩
  · cases e; exact hF.longs v _ h
  · cases e

theorem no_output_option {uses : List CliUse} {words : List Bytes} (h : Spells cdtTable uses words) :
    ∀ u ∈ uses, u.name ≠ ascii "output" := by
  intro u hu e
  have hk : ∀ o ∈ cdtTable, (o.long, o.valued) ∈ knownOptions.filter (fun x => x.1 ≠ ascii "output") := by
    decide +kernel
  have := spells_fits h hk u hu
  unfold Fits at this
  rw [e] at this
  simp at this

/-- C106.  A run of `cdt` can be repeated from any one of its artifacts.  Take the values on the lines of the
artifact's manifest as options, in any order and spelling, and run `cdt` with them, whatever the entropy, the
clock and the files, on a machine that builds the same universe.  Then the two runs write the same
artifacts: as far as both get these have the same contents, byte for byte, and the same names up to the
time of writing; and if the repetition succeeds it writes this artifact again. -/
theorem C106_repeat (hft : FloatTextLawful host.text isDouble isLong) (hb : BuildLegible host.build)
    (hF : CastsBack F host.text isDouble isLong) (hk : KeepsFoliation host out₁ isDouble)
    (hbuild : out₂.construct = out₁.construct) {words words' : List Bytes} {disk₁ disk₂ : Disk} {a : Written}
    (ha : a ∈ (cdtProgram host out₁ F words disk₁).2.log) {text : Bytes} (ht : a.manifest = some text)
    {fields : List (Bytes × Bytes)} (hf : ManifestText text fields) {line : String → Bytes} (hq : Quotes fields line)
    {uses : List CliUse} (hu : uses.Perm (repeatUses line)) (hw : Spells cdtTable uses words') :
    let x := cdtProgram host out₁ F words disk₁
    let y := cdtProgram host out₂ F words' disk₂
    let n := min x.2.log.length y.2.log.length
    List.Forall₂ SameButTime (x.2.log.take n) (y.2.log.take n) ∧
      (x.1 = 0 → y.1 = 0 → x.2.log.length = y.2.log.length) ∧
      (y.1 = 0 → ∃ b ∈ y.2.log, SameButTime a b) := by
  unfold cdtProgram at ha
  cases hr : readCommandLine cdtTable F words with
  | none => rw [hr] at ha; simp [C66_nothing_written (o := {})] at ha
  | some o =>
    rw [hr] at ha
    obtain ⟨u₀, hs₀, hset⟩ := (C104_cdt F words o).1 hr
    obtain ⟨cfg, start, hl, due, hdue, hT⟩ := written_launched ha
    have hc := C66_configured_by hl.config
    obtain ⟨lo, hi, f, -, -, hman⟩ := hT.manifest
    rw [ht] at hman
    obtain rfl := Option.some.inj hman
    obtain ⟨ha1, qa, ha2, -⟩ := hc.alpha
    obtain ⟨hk1, qk, hk2⟩ := hc.k
    obtain ⟨hl1, ql, hl2⟩ := hc.lambda
    have d1 : isDouble cfg.triangulation.initialRadius := hc.radius ▸ setting_double hF hset.initialRadius
    have d2 : isDouble cfg.triangulation.foliationSpacing := hc.spacing ▸ setting_double hF hset.foliationSpacing
    obtain ⟨hrad, hspa⟩ := foliation_kept hk hl d1 d2 due.1
    have d3 : isLong cfg.alpha := setting_long hF (ha1 ▸ hset.alpha)
    have d4 : isLong cfg.k := setting_long hF (hk1 ▸ hset.k)
    have d5 : isLong cfg.lambda := setting_long hF (hl1 ▸ hset.lambda)
    have hmf : MetadataFloats isDouble isLong (truth host cfg start due lo hi f) := by
      refine ⟨?_, ?_, ?_, ?_, ?_⟩
      · show isDouble (.fin _); rw [hrad]; exact d1
      · show isDouble (.fin _); rw [hspa]; exact d2
      · rintro x ⟨⟩; exact d3
      · rintro x ⟨⟩; exact d4
      · rintro x ⟨⟩; exact d5
    obtain rfl := ManifestText.unique hf (manifestText_write _ _ _ _ hft hb hmf)
    have hwrites : o.noOutput = false := by
      have := hc.output
      unfold duties at hdue
      cases ho : o.noOutput with
      | false => rfl
      | true => rw [this, ho] at hdue; simp at hdue
    have houtput : o.output = false := by
      have := hset.output
      cases ho : o.output with
      | false => rfl
      | true =>
        obtain ⟨u, hu, e⟩ := this.1 ho
        exact absurd e (no_output_option hs₀ u hu)
    have hthr : cfg.triangulation.threads < 2 ^ 63 := by
      have h1 := hset.threads
      have h2 := hc.threads.1
      rcases h1 with ⟨v, z, -, ⟨-, hz, -⟩, e⟩ | ⟨-, e⟩
      · simp only [id] at e
        have : (cfg.triangulation.threads : ℤ) < 2 ^ 63 := by omega
        exact_mod_cast this
      · have : (cfg.triangulation.threads : ℤ) < 2 ^ 63 := by omega
        exact_mod_cast this
    have hset' := repeat_settings (F := F) hF hq (seed := cfg.triangulation.seed) (N := cfg.triangulation.simplices)
      (Ts := cfg.triangulation.timeslices) rfl rfl rfl rfl rfl
      (congrArg some ha2) (congrArg some hk2) (congrArg some hl2) rfl rfl rfl
      (hrad ▸ d1) (hspa ▸ d2) (ha2 ▸ d3) (hk2 ▸ d4) (hl2 ▸ d5)
      ⟨by have := hc.simplices.2; omega, by have := hc.simplices.2; omega⟩
      ⟨by have := hc.timeslices.2; omega, by have := hc.timeslices.2; omega⟩
      ⟨by have := hc.passes.2; omega, by have := hc.passes.2; omega⟩
      ⟨by have := hc.checkpoint.2; omega, by have := hc.checkpoint.2; omega⟩ hthr
    rw [hrad, hspa, ← ha2, ← hk2, ← hl2] at hset'
    have hopt : (
        { spherical := true, simplices := some cfg.triangulation.simplices,
          timeslices := some cfg.triangulation.timeslices, initialRadius := cfg.triangulation.initialRadius,
          foliationSpacing := cfg.triangulation.foliationSpacing, seed := some cfg.triangulation.seed,
          threads := (cfg.triangulation.threads : ℤ), alpha := some cfg.alpha, k := some cfg.k, lambda := some cfg.lambda,
          passes := cfg.passes, checkpoint := cfg.checkpoint } : Options) =
        { o with seed := some cfg.triangulation.seed } := by
      have e1 := hl.help; have e2 := hl.version
      obtain ⟨e3, e4, -⟩ := hc.topology
      have e5 := hc.simplices.1; have e6 := hc.timeslices.1; have e7 := hc.dimensions.1
      have e8 := hc.radius; have e9 := hc.spacing; have e10 := hc.threads.1
      have e11 := hc.passes.1; have e12 := hc.checkpoint.1
      cases o
      simp_all
    have hread : readCommandLine cdtTable F words' = some { o with seed := some cfg.triangulation.seed } :=
      (C104_cdt F words' _).2 ⟨uses, hw, means_perm hu.symm (hopt ▸ hset')⟩
    have hb2 : out₂.construct cfg.triangulation.simplices cfg.triangulation.timeslices
        (Random.make host.pcg cfg.triangulation.seed 0) cfg.triangulation.initialRadius
        cfg.triangulation.foliationSpacing = .ok start := by rw [hbuild]; exact hl.built
    have hrep := C67_replay hl hb2 disk₁ disk₂
    unfold cdtProgram
    rw [hr, hread]
    refine ⟨hrep.1, hrep.2, fun h0 => ?_⟩
    have hl' : Launched host out₂ { o with seed := some cfg.triangulation.seed } cfg start :=
      ⟨hl.help, hl.version, C67_recorded_seed hl.config, hb2⟩
    obtain ⟨done, -, htr, hall⟩ := C64_provenance_true hl' disk₂
    obtain ⟨rfl, -⟩ := hall h0
    obtain ⟨i, hi, rfl⟩ := List.getElem_of_mem hdue
    have hle := htr.length_eq
    exact ⟨_, List.getElem_mem (by omega), truthful_same hT ((List.forall₂_iff_get.1 htr).2 i hi (by omega))⟩

end

/-! ### The program with its modelled components -/

theorem advance_cases {M G P : Type} (eng : MetroEngine M G P) (x : M × G) :
    (advance eng x).1 = x.1 ∨ ∃ mv g g' m', eng.propose mv x.1 g = (.ok (.ok m'), g') ∧ (advance eng x).1 = m' := by
  unfold advance
  rw [sampleTransition_snd]
  generalize ((eng.drawMove x.2).1.val : ℤ) = code
  generalize (eng.drawTrial (eng.drawMove x.2).2).1 = u
  generalize (eng.drawTrial (eng.drawMove x.2).2).2 = g
  unfold resolve
  dsimp only
  split
  · exact .inl rfl
  · split
    · split
      · exact .inl rfl
      · rename_i mv _
        split
        · exact .inl rfl
        · exact .inl rfl
        · rename_i m' g' hp
          split
          · exact .inl rfl
          · split
            · exact .inl rfl
            · split
              · exact .inr ⟨mv, g, g', m', hp, rfl⟩
              · exact .inl rfl
    · exact .inl rfl

/-- C106.  The modelled manifolds report the radius and spacing they were built with, whatever the moves,
when `value` reads the doubles that `bits` represents. -/
theorem C106_foliation_kept {V S T G : Type} [LinearOrder V] (base : Host (Mfld V) S Mp T) (env : Env V (Random S))
    (R : Rounding) (drawMove : Random S → Fin 5 × Random S) (drawTrial : Random S → LD × Random S)
    (value : BitVec 64 → ℚ) (snapshot : Tri V → T) (other : Outside (Mfld V) S) (env' : Env V G) (re : RepairEnv V)
    (ie : InsertEnv V) (F : Floats) (bits : LD → BitVec 64) (gen : Random S → ℕ → ℕ → V) {isDouble : LD → Prop}
    (hv : ∀ q, isDouble (.fin q) → value (bits (.fin q)) = q) :
    KeepsFoliation (assembled base env R drawMove drawTrial value snapshot) (builds other env' re ie F bits gen) isDouble := by
  constructor
  · intro N Ts g r s m hr hs h
    obtain ⟨h1, h2, -⟩ := universe_parts (show buildUniverse env' re ie F bits (gen g) N Ts (.fin r) (.fin s) = .ok m from h)
    refine ⟨?_, ?_⟩
    · show value m.radius = r
      rw [h1, hv r hr]
    · show value m.spacing = s
      rw [h2, hv s hs]
  · intro p x
    have key : (advance (metroEngine env R p drawMove drawTrial) x).1.radius = x.1.radius ∧
        (advance (metroEngine env R p drawMove drawTrial) x).1.spacing = x.1.spacing := by
      rcases advance_cases (metroEngine env R p drawMove drawTrial) x with e | ⟨mv, g, g', m', hp, e⟩
      · rw [e]; exact ⟨rfl, rfl⟩
      · rw [e]
        change wrapMove env x.1 _ = _ at hp
        generalize Moves.propose env mv x.1.tri g = r at hp
        obtain ⟨r, g1⟩ := r
        cases r with
        | error f => simp [wrapMove] at hp
        | ok K =>
          unfold wrapMove at hp
          dsimp only at hp
          cases hb : buildCaches env K with
          | error e => rw [hb] at hp; simp at hp
          | ok cs =>
            rw [hb] at hp
            simp only [Prod.mk.injEq, Except.ok.injEq] at hp
            rw [← hp.1]
            exact ⟨rfl, rfl⟩
    exact ⟨congrArg value key.1, congrArg value key.2⟩

/-! ### A concrete repetition -/

open Fixture

/-- A command line that reads the texts of `integerText`; the only double is 1. -/
def integerCasts : CastFloats where
  double t := if t = ascii "1" then some (.fin 1) else none
  longDouble t := match parseInt t with
    | some i => if -2 ^ 31 ≤ i ∧ i < 2 ^ 31 then some (.fin i) else none
    | none => none

theorem integerText_one : FloatTextLawful integerText (· = .fin 1) IntegralValue := by
  have h1 : ∀ x : LD, x = .fin 1 → IntegralValue x := by
    rintro _ rfl q ⟨rfl⟩
    simp only [IsInt32]
    decide
  have h := integerText_lawful
  exact ⟨fun x hx => h.lineDouble x (h1 x hx), h.lineLong, fun q hq => h.double q (h1 _ hq), h.long,
    fun x hx => h.doubleSpecial x (h1 x hx), h.longSpecial⟩

theorem integerCasts_back : CastsBack integerCasts integerText (· = .fin 1) IntegralValue where
  double q hq := by cases hq; decide +kernel
  long q hq := by
    obtain ⟨h1, h2⟩ := hq q rfl
    show (match parseInt (decimalInt q.num) with
      | some i => if -2 ^ 31 ≤ i ∧ i < 2 ^ 31 then some (LD.fin i) else none
      | none => none) = _
    rw [parseInt_decimalInt h2]
    simp only
    rw [if_pos (show -2 ^ 31 ≤ q.num ∧ q.num < 2 ^ 31 from h2), Rat.coe_int_num_of_den_eq_one h1]
  doubles v x h := by
    unfold integerCasts at h
    simp only at h
    split at h
    · exact (Option.some.inj h).symm
    · cases h
  longs v x h := by
    unfold integerCasts at h
    simp only at h
    split at h
    · split at h
      · rename_i hi
        obtain rfl := Option.some.inj h
        rintro q ⟨rfl⟩
        exact ⟨by simp, by simpa [IsInt32] using hi⟩
      · cases h
    · cases h
  one := rfl

theorem point_foliation_kept (e : BitVec 64) : KeepsFoliation pointHost (pointOutside e) (· = .fin 1) :=
  ⟨by rintro _ _ _ _ _ _ ⟨⟩ ⟨⟩ -; exact ⟨rfl, rfl⟩, fun _ _ => ⟨rfl, rfl⟩⟩

def pointWords : List Bytes :=
  [ascii "-s", ascii "-n", ascii "640", ascii "-t4", ascii "--alpha", ascii "1", ascii "-k2", ascii "--lambda=3",
   ascii "-p3", ascii "-c2"]

/-- The values on the lines of the manifests of this run. -/
def pointLine (n : String) : Bytes :=
  ((["desired.simplices", "desired.timeslices", "random.seed", "alpha", "k", "lambda", "configured_passes",
     "checkpoint_interval"].zip
    [ascii "640", ascii "4", ascii "92", ascii "1", ascii "2", ascii "3", ascii "3", ascii "2"]).lookup n).getD (ascii "1")

def repeatWords : List Bytes := (repeatUses pointLine).reverse.map plainWord

-- The run writes two artifacts, and the lines of their manifests are these.
example : (cdtProgram pointHost (pointOutside 92) integerCasts pointWords goodDisk).1 = 0 ∧
    (cdtProgram pointHost (pointOutside 92) integerCasts pointWords goodDisk).2.log.length = 2 ∧
    ∀ a ∈ (cdtProgram pointHost (pointOutside 92) integerCasts pointWords goodDisk).2.log,
      ∀ n ∈ quotedLines, (ascii n ++ equalsSign :: pointLine n) ∈ (a.manifest.getD []).splitOn 10#8 := by
  decide +kernel
-- The words of the repetition spell its options in another order.
example : ∃ uses, uses.Perm (repeatUses pointLine) ∧ Spells cdtTable uses repeatWords :=
  ⟨_, List.reverse_perm _, (C104_words C104_tables.1 _ _).1 (C104_plain _ (by decide +kernel))⟩
-- The repetition succeeds, with other entropy.
example : (cdtProgram pointHost (pointOutside 5) integerCasts repeatWords goodDisk).1 = 0 := by decide +kernel

end CDT.Props

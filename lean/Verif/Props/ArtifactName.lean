import Verif.Spec.ArtifactName
import Verif.Lemmas.Filename
import Verif.Props.Restart
/-
C113: the name of an artifact says what it is.
-/
namespace CDT.Props
open CDT Spec

theorem wide_padded (k n : ℕ) : Wide k n (padded k n) := by
  refine ⟨k - (decimal n).length, rfl, ?_, fun h => ?_⟩
  · simp only [padded, List.length_append, List.length_replicate]; omega
  · simp only [padded, List.length_append, List.length_replicate]; omega

theorem six_fixed6 (q : ℚ) : SixDecimals q (fixed6 q) := by
  refine ⟨millionths q, padded 6 (millionths q % 1000000), ?_, wide_padded _ _, ?_⟩
  · have h1 : ascii "-" = [minusSign] := by decide +kernel
    have h2 : ascii "." = [dot] := by decide +kernel
    simp [fixed6, millionths, h1, h2]
  · have h1 := roundEven_nonneg (x := |q| * 1000000) (by positivity)
    have h2 := roundEven_near (|q| * 1000000)
    have h3 : ((millionths q : ℕ) : ℚ) = (roundEven (|q| * 1000000) : ℚ) := by
      have : ((millionths q : ℕ) : ℤ) = roundEven (|q| * 1000000) := Int.toNat_of_nonneg h1
      exact_mod_cast this
    rw [h3, abs_le] at *
    constructor <;> linarith [h2.1, h2.2]

theorem time_text (now : Stamp) : TimeText now (stampText now) := by
  refine ⟨_, _, _, _, _, _, wide_padded _ _, wide_padded _ _, wide_padded _ _, wide_padded _ _, wide_padded _ _,
    wide_padded _ _, ?_⟩
  have h1 : ascii "-" = [minusSign] := by decide +kernel
  have h2 : ascii "." = [dot] := by decide +kernel
  simp [stampText, h1, h2]

section
variable {M S P T : Type} {host : Host M S P T} {out : Outside M S} {F : CastFloats}

theorem name_body (m : M) (now : Stamp) (rest : Bytes) :
    nameBody (nameInfo host m) now ++ rest =
      ascii "S3-" ++ decimalInt (host.summary m).maxTime ++ ascii "-" ++ decimalInt (host.summary m).N3 ++ ascii "-I" ++
        fixed6 (host.summary m).radius ++ ascii "-R" ++ fixed6 (host.summary m).spacing ++ ascii "-" ++ stampText now ++ rest := by
  have h0 : ascii "S3-" = 83#8 :: (decimalInt 3 ++ [minusSign]) := by decide +kernel
  have h1 : ascii "-" = [minusSign] := by decide +kernel
  have h2 : ascii "-I" = [minusSign, 73#8] := by decide +kernel
  have h3 : ascii "-R" = [minusSign, 82#8] := by decide +kernel
  simp [nameBody, nameInfo, h0, h1, h2, h3]

theorem name_seed (m : M) (seed : ℕ) (now : Stamp) :
    NameTells (host.summary m) seed none now (makeFilenameSeed (nameInfo host m) seed now) := by
  refine ⟨_, _, _, six_fixed6 _, six_fixed6 _, time_text now, ?_⟩
  rw [makeFilenameSeed_eq]
  simp only [List.append_assoc, List.append_nil, name_body]

theorem name_pass (m : M) (seed : ℕ) (p : ℤ) (now : Stamp) :
    NameTells (host.summary m) seed (some p) now (makeFilenamePass (nameInfo host m) seed p now) := by
  refine ⟨_, _, _, six_fixed6 _, six_fixed6 _, time_text now, ?_⟩
  rw [makeFilenamePass_eq]
  simp only [List.append_assoc, name_body]

/-- **C113.** The file of every artifact that `cdt` has written holds the state after some pass the run owes an
artifact for, and its name tells that state's number of simplices and last time slice, its radius and spacing to
six decimals, the seed (given or drawn), a time, and the pass exactly if it is a checkpoint. -/
theorem C113_cdt {words : List Bytes} {disk : Disk} {a : Written}
    (ha : a ∈ (cdtProgram host out F words disk).2.log) :
    ∃ o cfg start due now, readCommandLine cdtTable F words = some o ∧ ConfiguredBy out o cfg ∧
      Launched host out o cfg start ∧ due ∈ duties cfg ∧
      a.payload = some (payloadText host.codec (host.snapshot (stateAfter host cfg start due.1))) ∧
      NameTells (host.summary (stateAfter host cfg start due.1)) cfg.triangulation.seed.toNat
        (if due.2 = .checkpoint then some due.1 else none) now a.path := by
  unfold cdtProgram at ha
  cases hr : readCommandLine cdtTable F words with
  | none => rw [hr] at ha; simp [C66_nothing_written (o := {})] at ha
  | some o =>
    rw [hr] at ha
    obtain ⟨cfg, start, hl, due, hdue, hT⟩ := written_launched ha
    obtain ⟨now, hn⟩ := hT.name
    refine ⟨o, cfg, start, due, now, rfl, C66_configured_by hl.config, hl, hdue, hT.payload, ?_⟩
    rw [hn]
    cases due.2 with
    | checkpoint => exact name_pass _ _ _ _
    | initialTriangulation => exact name_seed _ _ _
    | finalTriangulation => exact name_seed _ _ _

/-- **C113.** The same for `initialize`. -/
theorem C113_initialize {words : List Bytes} {disk : Disk} {a : Written}
    (ha : a ∈ (initializeProgram host out F words disk).2.log) :
    ∃ o tc start now, readCommandLine initializeTable F words = some o ∧ initializeConfig host out o = .ok tc ∧
      tc.seed = o.seed.getD out.entropy ∧
      out.construct tc.simplices tc.timeslices (Random.make host.pcg tc.seed 0) tc.initialRadius tc.foliationSpacing =
        .ok start ∧
      a.payload = some (payloadText host.codec (host.snapshot start)) ∧
      NameTells (host.summary start) tc.seed.toNat none now a.path := by
  unfold initializeProgram at ha
  cases hr : readCommandLine initializeTable F words with
  | none => rw [hr] at ha; simp [initializeMain] at ha
  | some o =>
    rw [hr] at ha
    obtain ⟨tc, start, hc, hb, hT⟩ := initialize_wrote ha
    obtain ⟨-, -, -, -, -, -, -, k3, -, -⟩ := initializeConfig_facts hc
    obtain ⟨now, hn⟩ := hT.name
    exact ⟨o, tc, start, now, rfl, hc, k3, hb, hT.payload, hn ▸ name_seed _ _ _⟩

end

/-! ### Concrete names -/

open Fixture

-- The names of the two artifacts of the run of C106.
example : (cdtProgram pointHost (pointOutside 92) integerCasts pointWords goodDisk).2.log.map (fun a => a.path) =
    [ascii "S3-7-0-I1.000000-R1.000000-2026-01-02.03-04-00UTC-seed-92-pass-2.off",
     ascii "S3-11-0-I1.000000-R1.000000-2026-01-02.03-04-09UTC-seed-92.off"] := by
  decide +kernel

end CDT.Props

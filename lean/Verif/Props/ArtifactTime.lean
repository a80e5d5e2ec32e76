import Verif.Lemmas.ArtifactTime
import Verif.Props.ArtifactName
/-
C113: the time in the name of an artifact is the clock's when it was written.
-/
namespace CDT.Props
open CDT Spec
section
variable {M S P T : Type} {host : Host M S P T} {out : Outside M S} {F : CastFloats}

theorem forall₂_and_mem {α β : Type} {R Q : α → β → Prop} : ∀ {l : List α} {l' : List β},
    List.Forall₂ R l l' → (∀ a ∈ l, ∀ b, R a b → Q a b) → List.Forall₂ Q l l'
  | _, _, .nil, _ => .nil
  | _, _, .cons h t, hq => .cons (hq _ (by simp) _ h) (forall₂_and_mem t fun a ha => hq a (by simp [ha]))

/-- **C113** (time). The artifacts `cdt` wrote, in the order of writing, got their names from readings of the
clock made during the run, in that order: each name tells the state in the file, the seed, the pass of a
checkpoint, and the time read. -/
theorem C113_time_cdt (words : List Bytes) (disk : Disk) :
    ∃ readings : List ℕ, readings.Pairwise (· ≤ ·) ∧
      (∀ k ∈ readings, disk.clock ≤ k ∧ k ≤ (cdtProgram host out F words disk).2.disk.clock) ∧
      List.Forall₂ (fun a k => ∃ o cfg start due, readCommandLine cdtTable F words = some o ∧
          Launched host out o cfg start ∧ due ∈ duties cfg ∧
          a.payload = some (payloadText host.codec (host.snapshot (stateAfter host cfg start due.1))) ∧
          NameTells (host.summary (stateAfter host cfg start due.1)) cfg.triangulation.seed.toNat
            (if due.2 = .checkpoint then some due.1 else none) (out.now k) a.path)
        (cdtProgram host out F words disk).2.log readings := by
  have hd : Dated host out disk.clock (cdtProgram host out F words disk).2 := dated_cdtMain _ _
  obtain ⟨-, ks, h2, h3, h4⟩ := hd
  refine ⟨ks, h2, h3, forall₂_and_mem h4 fun a ha k ⟨m, md, hp⟩ => ?_⟩
  unfold cdtProgram at ha
  cases hr : readCommandLine cdtTable F words with
  | none => rw [hr] at ha; simp [C66_nothing_written (o := {})] at ha
  | some o =>
    rw [hr] at ha
    obtain ⟨cfg, start, hl, due, hdue, hT⟩ := written_launched ha
    obtain ⟨now, hn⟩ := hT.name
    refine ⟨o, cfg, start, due, rfl, hl, hdue, hT.payload, ?_⟩
    cases hk : due.2 with
    | checkpoint =>
      rw [hk] at hn
      rw [← dated_pass hp hn, hn]
      exact name_pass _ _ _ _
    | initialTriangulation =>
      rw [hk] at hn
      rw [← dated_seed hp hn, hn]
      exact name_seed _ _ _
    | finalTriangulation =>
      rw [hk] at hn
      rw [← dated_seed hp hn, hn]
      exact name_seed _ _ _

/-- **C113** (time). The same for `initialize`. -/
theorem C113_time_initialize (words : List Bytes) (disk : Disk) :
    ∃ readings : List ℕ, readings.Pairwise (· ≤ ·) ∧
      (∀ k ∈ readings, disk.clock ≤ k ∧ k ≤ (initializeProgram host out F words disk).2.disk.clock) ∧
      List.Forall₂ (fun a k => ∃ o tc start, readCommandLine initializeTable F words = some o ∧
          initializeConfig host out o = .ok tc ∧
          out.construct tc.simplices tc.timeslices (Random.make host.pcg tc.seed 0) tc.initialRadius
            tc.foliationSpacing = .ok start ∧
          a.payload = some (payloadText host.codec (host.snapshot start)) ∧
          NameTells (host.summary start) tc.seed.toNat none (out.now k) a.path)
        (initializeProgram host out F words disk).2.log readings := by
  have hd : Dated host out disk.clock (initializeProgram host out F words disk).2 := dated_initializeMain _ _
  obtain ⟨-, ks, h2, h3, h4⟩ := hd
  refine ⟨ks, h2, h3, forall₂_and_mem h4 fun a ha k ⟨m, md, hp⟩ => ?_⟩
  unfold initializeProgram at ha
  cases hr : readCommandLine initializeTable F words with
  | none => rw [hr] at ha; simp [initializeMain] at ha
  | some o =>
    rw [hr] at ha
    obtain ⟨tc, start, hc, hb, hT⟩ := initialize_wrote ha
    obtain ⟨now, hn⟩ := hT.name
    refine ⟨o, tc, start, rfl, hc, hb, hT.payload, ?_⟩
    rw [← dated_seed hp hn, hn]
    exact name_seed _ _ _

end

/-! ### A concrete run -/

open Fixture

-- The run of C106 writes a checkpoint and a final artifact, nine file operations apart.
example : (cdtProgram pointHost (pointOutside 92) integerCasts pointWords goodDisk).2.log.length = 2 ∧
    (cdtProgram pointHost (pointOutside 92) integerCasts pointWords goodDisk).2.disk.clock = 18 := by
  decide +kernel

end CDT.Props

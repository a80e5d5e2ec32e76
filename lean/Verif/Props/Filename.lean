import Verif.Lemmas.Filename

namespace CDT.Props
open CDT Spec

/-- **C59**: two checkpoints with the same name have the same seed, the same pass, the same second
of creation, the same topology, dimension and counts, and radii equal to a millionth.  So different
passes of one run, different seeds and different counts give different names. -/
theorem C59_checkpoint_names {i j : NameInfo} {seed seed' : ℕ} {pass pass' : ℤ} {now now' : Stamp}
    (h : makeFilenamePass i seed pass now = makeFilenamePass j seed' pass' now') :
    seed = seed' ∧ pass = pass' ∧ now = now' ∧ SameUpToMillionths i j := by
  rw [makeFilenamePass_eq, makeFilenamePass_eq] at h
  simp only [List.append_assoc] at h
  obtain ⟨h1, h2, h⟩ := body_delimited h
  have h := List.append_cancel_left h
  have e : ascii "-pass-" = minusSign :: ascii "pass-" := by decide +kernel
  rw [e] at h
  simp only [List.cons_append] at h
  obtain ⟨h3, -, h⟩ := decimal_delimited not_digit_minus not_digit_minus h
  have h := List.append_cancel_left h
  have e' : ascii ".off" = dot :: ascii "off" := by decide +kernel
  rw [e'] at h
  obtain ⟨h4, -, -⟩ := decimalInt_delimited not_digit_dot not_digit_dot h
  exact ⟨h3, h4, h2, h1⟩

/-- **C59**: initial and final artifacts with the same name have the same seed, second of creation
and parameters. -/
theorem C59_artifact_names {i j : NameInfo} {seed seed' : ℕ} {now now' : Stamp}
    (h : makeFilenameSeed i seed now = makeFilenameSeed j seed' now') :
    seed = seed' ∧ now = now' ∧ SameUpToMillionths i j := by
  rw [makeFilenameSeed_eq, makeFilenameSeed_eq] at h
  simp only [List.append_assoc] at h
  obtain ⟨h1, h2, h⟩ := body_delimited h
  have h := List.append_cancel_left h
  have e' : ascii ".off" = dot :: ascii "off" := by decide +kernel
  rw [e'] at h
  obtain ⟨h3, -, -⟩ := decimal_delimited not_digit_dot not_digit_dot h
  exact ⟨h3, h2, h1⟩

/-- **C59**: the same for names without a seed. -/
theorem C59_unseeded_names {i j : NameInfo} {now now' : Stamp}
    (h : makeFilename i now = makeFilename j now') : now = now' ∧ SameUpToMillionths i j := by
  rw [makeFilename_eq, makeFilename_eq] at h
  obtain ⟨h1, h2, -⟩ := body_delimited h
  exact ⟨h2, h1⟩

/-- **C59**: names of the three kinds never coincide: a checkpoint never replaces an initial or
final artifact, whatever the seed, state and time. -/
theorem C59_kinds_distinct (i j : NameInfo) (seed seed' : ℕ) (pass : ℤ) (now now' : Stamp) :
    makeFilenamePass i seed pass now ≠ makeFilenameSeed j seed' now' ∧
    makeFilenamePass i seed pass now ≠ makeFilename j now' ∧
    makeFilenameSeed i seed now ≠ makeFilename j now' := by
  have e : ascii "-pass-" = minusSign :: ascii "pass-" := by decide +kernel
  have e' : ascii ".off" = dot :: ascii "off" := by decide +kernel
  have e'' : ascii "-seed-" = minusSign :: ascii "seed-" := by decide +kernel
  have hne : minusSign ≠ dot := by decide
  refine ⟨fun h => ?_, fun h => ?_, fun h => ?_⟩
  · rw [makeFilenamePass_eq, makeFilenameSeed_eq] at h
    simp only [List.append_assoc] at h
    have h := List.append_cancel_left (body_delimited h).2.2
    rw [e, e'] at h
    simp only [List.cons_append] at h
    exact hne (decimal_delimited not_digit_minus not_digit_dot h).2.1
  · rw [makeFilenamePass_eq, makeFilename_eq] at h
    simp only [List.append_assoc] at h
    have h := (body_delimited h).2.2
    rw [e'', e'] at h
    exact hne (List.cons.inj h).1
  · rw [makeFilenameSeed_eq, makeFilename_eq] at h
    simp only [List.append_assoc] at h
    have h := (body_delimited h).2.2
    rw [e'', e'] at h
    exact hne (List.cons.inj h).1

/-- **C59**: names contain no directory separator, so artifacts land in the working directory. -/
theorem C59_no_directories (i : NameInfo) (seed : ℕ) (pass : ℤ) (now : Stamp) :
    slash ∉ makeFilenamePass i seed pass now ∧ slash ∉ makeFilenameSeed i seed now ∧
      slash ∉ makeFilename i now := by
  have h1 := slash_notMem_body i now
  have h2 : slash ∉ ascii ".off" := by decide +kernel
  have h3 : slash ∉ ascii "-seed-" := by decide +kernel
  have h4 : slash ∉ ascii "-pass-" := by decide +kernel
  have h5 := slash_notMem_decimal seed
  have h6 := slash_notMem_decimalInt pass
  rw [makeFilenamePass_eq, makeFilenameSeed_eq, makeFilename_eq]
  simp [h1, h2, h3, h4, h5, h6]

/-! ### Concrete names and limits -/

def sampleInfo : NameInfo := ⟨.spherical, 3, 640, 4, 1, 1 / 2⟩
def sampleStamp : Stamp := ⟨2026, 11, 18, 1, 41, 5⟩

example : makeFilenamePass sampleInfo 92 10 sampleStamp =
    ascii "S3-4-640-I1.000000-R0.500000-2026-11-18.01-41-05UTC-seed-92-pass-10.off" := by
  decide +kernel
example : makeFilenamePass sampleInfo 92 10 sampleStamp ≠
    makeFilenamePass sampleInfo 92 1 sampleStamp := fun h =>
  absurd (C59_checkpoint_names h).2.1 (by decide)

/-- **C59**, limit: radii that differ by less than a millionth are not distinguished. -/
theorem C59_close_radii_collide : ∃ i j : NameInfo, i.radius ≠ j.radius ∧
    ∀ seed pass now, makeFilenamePass i seed pass now = makeFilenamePass j seed pass now := by
  refine ⟨sampleInfo, { sampleInfo with radius := 1 + 1 / 10000000 }, by decide +kernel, ?_⟩
  intro seed pass now
  have : fixed6 1 = fixed6 (1 + 1 / 10000000) := by decide +kernel
  rw [makeFilenamePass_eq, makeFilenamePass_eq]
  simp only [nameBody, sampleInfo, this]

end CDT.Props

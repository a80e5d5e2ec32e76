import Verif.Props.Storage
/-
C60: what is too large for the manifest is refused.
-/
namespace CDT.Props
open CDT Spec
variable {T : Type} {codec : Codec T} {ft : FloatText} {build : BuildInfo} {dest : Path} {t : T}

theorem narrow32_fits {n : ℕ} {a : ℤ} (h : narrow32 n = .ok a) : (n : ℤ) ≤ 2147483647 := by
  unfold narrow32 at h
  split_ifs at h with hn
  omega

/-- **C60.** A write with a manifest succeeds only if the numbers of vertices, edges, triangles and tetrahedra all
fit the 32-bit counters of the manifest. -/
theorem C60_counts_fit (fs₀ : Files) (fates : ℕ → Fate) (m : Metadata) {d' : Disk}
    (h : writePayload codec ft build dest t (some m) (startingWith fs₀ fates) = (.ok (), d')) :
    ((codec.view t).nv : ℤ) ≤ 2147483647 ∧ (codec.edges t : ℤ) ≤ 2147483647 ∧
      (codec.facets t : ℤ) ≤ 2147483647 ∧ ((codec.view t).nc : ℤ) ≤ 2147483647 := by
  cases hm : reconcile codec m t with
  | error e =>
    rw [writePayload_reconcile_error fs₀ fates hm, Prod.mk.injEq] at h
    exact absurd h.1 (by simp)
  | ok m' =>
    simp only [reconcile, deriveState, bind, Except.bind] at hm
    cases h1 : narrow32 (codec.view t).nv with
    | error e => simp [h1] at hm
    | ok a =>
      cases h2 : narrow32 (codec.edges t) with
      | error e => simp [h1, h2] at hm
      | ok b =>
        cases h3 : narrow32 (codec.facets t) with
        | error e => simp [h1, h2, h3] at hm
        | ok c =>
          cases h4 : narrow32 (codec.view t).nc with
          | error e => simp [h1, h2, h3, h4] at hm
          | ok d => exact ⟨narrow32_fits h1, narrow32_fits h2, narrow32_fits h3, narrow32_fits h4⟩

/-! ### A write that succeeds, and the boundary -/

open Fixture

example : (writePayload pointSet integerText sampleBuild samplePath newPoints (some sampleMetadata)
    (startingWith (withArtifact samplePath none none) noFaults)).1 = .ok () := by decide +kernel
example : narrow32 2147483647 = .ok 2147483647 ∧ narrow32 2147483648 = .error (.other 0) := by decide +kernel

end CDT.Props

import Verif.Spec.Repeat
/-
Building again, with `initialize`, the universe a manifest speaks of.
-/
namespace CDT.Spec

/-- The lines of a manifest that say how the initial universe was built. -/
def startLines : List String :=
  ["desired.simplices", "desired.timeslices", "initial_radius", "foliation_spacing", "random.seed", "parallel.max_threads"]

/-- The values on those lines. -/
def QuotesStart (fields : List (Bytes × Bytes)) (line : String → Bytes) : Prop :=
  ∀ n ∈ startLines, (ascii n, line n) ∈ fields

/-- The options of `initialize`: `--spherical --output`, and every value as the manifest spells it. -/
def startUses (line : String → Bytes) : List CliUse :=
  [⟨ascii "spherical", none⟩, ⟨ascii "output", none⟩,
   ⟨ascii "simplices", some (line "desired.simplices")⟩, ⟨ascii "timeslices", some (line "desired.timeslices")⟩,
   ⟨ascii "init", some (line "initial_radius")⟩, ⟨ascii "foliate", some (line "foliation_spacing")⟩,
   ⟨ascii "seed", some (line "random.seed")⟩, ⟨ascii "threads", some (line "parallel.max_threads")⟩]

end CDT.Spec

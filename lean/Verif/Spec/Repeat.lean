import Verif.Spec.CommandLine
import Verif.Spec.Program
/-
Repeating a run of `cdt` from the lines of one of its manifests.
-/
namespace CDT.Spec
variable {M S P T : Type}

/-- The lines of a manifest that the repetition copies. -/
def quotedLines : List String :=
  ["desired.simplices", "desired.timeslices", "initial_radius", "foliation_spacing", "random.seed",
   "parallel.max_threads", "alpha", "k", "lambda", "configured_passes", "checkpoint_interval"]

/-- The values on those lines. -/
def Quotes (fields : List (Bytes × Bytes)) (line : String → Bytes) : Prop :=
  ∀ n ∈ quotedLines, (ascii n, line n) ∈ fields

/-- The options of the repetition: `--spherical`, and every value as the manifest spells it. -/
def repeatUses (line : String → Bytes) : List CliUse :=
  [⟨ascii "spherical", none⟩,
   ⟨ascii "simplices", some (line "desired.simplices")⟩, ⟨ascii "timeslices", some (line "desired.timeslices")⟩,
   ⟨ascii "init", some (line "initial_radius")⟩, ⟨ascii "foliate", some (line "foliation_spacing")⟩,
   ⟨ascii "seed", some (line "random.seed")⟩, ⟨ascii "threads", some (line "parallel.max_threads")⟩,
   ⟨ascii "alpha", some (line "alpha")⟩, ⟨ascii "k", some (line "k")⟩, ⟨ascii "lambda", some (line "lambda")⟩,
   ⟨ascii "passes", some (line "configured_passes")⟩, ⟨ascii "checkpoint", some (line "checkpoint_interval")⟩]

/-- The command line reads the floating-point texts of the manifest: what it reads are values of the types,
and the text of a finite value is read as that value. -/
structure CastsBack (F : CastFloats) (ft : FloatText) (isDouble isLong : LD → Prop) : Prop where
  double : ∀ q, isDouble (.fin q) → F.double (ft.showDouble (.fin q)) = some (.fin q)
  long : ∀ q, isLong (.fin q) → F.longDouble (ft.showLong (.fin q)) = some (.fin q)
  doubles : ∀ v x, F.double v = some x → isDouble x
  longs : ∀ v x, F.longDouble v = some x → isLong x
  one : isDouble (.fin 1)

/-- A universe reports the radius and the spacing it was built with, and a transition changes neither. -/
structure KeepsFoliation (host : Host M S P T) (out : Outside M S) (isDouble : LD → Prop) : Prop where
  built : ∀ {N Ts g r s m}, isDouble (.fin r) → isDouble (.fin s) → out.construct N Ts g (.fin r) (.fin s) = .ok m →
    (host.summary m).radius = r ∧ (host.summary m).spacing = s
  moved : ∀ p x, (host.summary (advance (host.engine p) x).1).radius = (host.summary x.1).radius ∧
    (host.summary (advance (host.engine p) x).1).spacing = (host.summary x.1).spacing

end CDT.Spec

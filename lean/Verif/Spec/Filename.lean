import Verif.Model.Filename
/-
Vocabulary for C59.
-/
namespace CDT.Spec
open CDT

/-- The states agree in everything a file name mentions; radii to a millionth. -/
def SameUpToMillionths (i j : NameInfo) : Prop :=
  i.topology = j.topology ∧ i.dimension = j.dimension ∧ i.simplices = j.simplices ∧
    i.timeslices = j.timeslices ∧ |i.radius - j.radius| ≤ 1 / 1000000 ∧
    |i.spacing - j.spacing| ≤ 1 / 1000000

end CDT.Spec

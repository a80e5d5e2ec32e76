/-
A concrete transition engine used only to show that the hypotheses of the general
theorems are met by non-trivial states.  It is not part of the model of the repository.
-/
import Verif.Spec.Accounting

namespace CDT.Toy

/-- A small manifold view: ten (2,2), eight (3,1) and eight (1,3) cells. -/
def view0 : ManifoldView where
  structurallyCorrect := true
  radius := 1#64
  spacing := 1#64
  geom := { N0 := 20, N1 := 60, N1_SL := 30, N1_TL := 30, N2 := 70, N3 := 26, N3_31 := 8,
            N3_13 := 8, N3_22 := 10, N3_31_13 := 16 }
  triN1_SL := 30
  triN1_TL := 30
  maxTime := 5
  minTime := 1

/-- The view after one move with the published deltas. -/
def shift (v : ManifoldView) (m : MoveType) : ManifoldView :=
  let d := Spec.publishedDelta m
  { v with
    geom := { N0 := v.geom.N0 + d.dN0, N1 := v.geom.N1 + d.dN1SL + d.dN1TL,
              N1_SL := v.geom.N1_SL + d.dN1SL, N1_TL := v.geom.N1_TL + d.dN1TL,
              N2 := v.geom.N2 + d.dN2, N3 := v.geom.N3 + d.dN3, N3_31 := v.geom.N3_31 + d.dN31,
              N3_13 := v.geom.N3_13 + d.dN13, N3_22 := v.geom.N3_22 + d.dN22,
              N3_31_13 := v.geom.N3_31_13 + d.dN31 + d.dN13 },
    triN1_SL := v.triN1_SL + d.dN1SL, triN1_TL := v.triN1_TL + d.dN1TL }

/-- A deterministic engine: the generator is a counter; some proposals find an
inapplicable site, every eleventh throws, acceptance probability is one half. -/
def engine : MetroEngine ManifoldView Nat ℚ where
  propose mv v g :=
    if g % 11 = 10 then (.error (.other 1), g + 1)
    else if g % 4 = 1 then (.ok (.error .causalInvalidity), g + 1)
    else (.ok (.ok (shift v mv)), g + 1)
  check := checkMove
  geometry v := v.geom
  prob _ _ _ := .ok (1 / 2)
  probGe p u := decide (u ≤ p)
  drawMove g := (⟨g % 5, Nat.mod_lt _ (by decide)⟩, g + 1)
  drawTrial g := (.fin (if g % 4 = 3 then 3 / 4 else 1 / 4), g + 1)
  n3 v := v.geom.N3

/-- Console and checkpoint output that only logs the checkpointed pass numbers. -/
def output : MetroOutput ManifoldView Nat (List Int) where
  report _ _ _ := fun w => (.ok (), w)
  checkpoint _ _ _ n := fun (g, l) => (.ok (), (g, l ++ [n]))

/-- The same engine without exceptions, on a tiny manifold. -/
def calm : MetroEngine ManifoldView Nat ℚ :=
  { engine with
    propose := fun mv v g =>
      if g % 4 = 1 then (.ok (.error .causalInvalidity), g + 1) else (.ok (.ok (shift v mv)), g + 1) }

def view1 : ManifoldView :=
  { view0 with geom := { view0.geom with N3 := 2, N3_31 := 1, N3_13 := 1, N3_22 := 0 } }

def strategy0 : MetroStrategy Nat :=
  { cadence := { passes := 3, checkpoint := 2 }, writesFiles := true, gen := 0 }

end CDT.Toy

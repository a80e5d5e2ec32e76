/-
The published move contract (docs/ergodic-moves.md), stated on observations of manifolds.
-/
import Verif.Spec.Accounting

namespace CDT.Spec

/-- `a` is a legal successor of `b` under a move with delta `d`: structurally correct, same
foliation parameters and time bounds, and every published count differs by its delta. -/
structure Contract (d : Delta) (b a : ManifoldView) : Prop where
  correct : a.structurallyCorrect = true
  radius : a.radius = b.radius
  spacing : a.spacing = b.spacing
  maxTime : a.maxTime = b.maxTime
  minTime : a.minTime = b.minTime
  n0 : a.geom.N0 = b.geom.N0 + d.dN0
  n1 : a.geom.N1 = b.geom.N1 + d.dN1SL + d.dN1TL
  n1sl : a.triN1_SL = b.triN1_SL + d.dN1SL
  n1tl : a.triN1_TL = b.triN1_TL + d.dN1TL
  n2 : a.geom.N2 = b.geom.N2 + d.dN2
  n31 : a.geom.N3_31 = b.geom.N3_31 + d.dN31
  n22 : a.geom.N3_22 = b.geom.N3_22 + d.dN22
  n13 : a.geom.N3_13 = b.geom.N3_13 + d.dN13
  n3 : a.geom.N3 = b.geom.N3 + d.dN3

/-- Sum over the five moves of (number of accepted moves of that type) times a delta. -/
def weighted (acc : MoveType → Int) (d : MoveType → Int) : Int :=
  acc .twoThree * d .twoThree + acc .threeTwo * d .threeTwo + acc .twoSix * d .twoSix +
    acc .sixTwo * d .sixTwo + acc .fourFour * d .fourFour

/-- The count vector of `a` is that of `b` plus the deltas of `acc m` moves of each type `m`, and
foliation parameters and time bounds are the same. -/
structure SumOfDeltas (acc : MoveType → Int) (b a : ManifoldView) : Prop where
  radius : a.radius = b.radius
  spacing : a.spacing = b.spacing
  maxTime : a.maxTime = b.maxTime
  minTime : a.minTime = b.minTime
  n0 : a.geom.N0 = b.geom.N0 + weighted acc (fun m => (publishedDelta m).dN0)
  n1 : a.geom.N1 = b.geom.N1 + weighted acc (fun m => (publishedDelta m).dN1SL + (publishedDelta m).dN1TL)
  n1sl : a.triN1_SL = b.triN1_SL + weighted acc (fun m => (publishedDelta m).dN1SL)
  n1tl : a.triN1_TL = b.triN1_TL + weighted acc (fun m => (publishedDelta m).dN1TL)
  n2 : a.geom.N2 = b.geom.N2 + weighted acc (fun m => (publishedDelta m).dN2)
  n31 : a.geom.N3_31 = b.geom.N3_31 + weighted acc (fun m => (publishedDelta m).dN31)
  n22 : a.geom.N3_22 = b.geom.N3_22 + weighted acc (fun m => (publishedDelta m).dN22)
  n13 : a.geom.N3_13 = b.geom.N3_13 + weighted acc (fun m => (publishedDelta m).dN13)
  n3 : a.geom.N3 = b.geom.N3 + weighted acc (fun m => (publishedDelta m).dN3)

end CDT.Spec

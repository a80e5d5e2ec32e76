/-
Model of include/S3Action.hpp: parameter validation and the three straight-line action programs,
statement by statement, and of the acceptance probability of include/Metropolis.hpp.
-/
import Verif.Model.Mpfr
import Verif.Model.Metropolis

namespace CDT

/-- `PhysicalParameters` (include/S3Action.hpp:36-59): constructed only by
`make_physical_parameters`. -/
structure PhysicalParameters where
  alpha : LD
  k : LD
  lambda : LD

/-- `make_physical_parameters` (include/S3Action.hpp:68-82). -/
def makePhysicalParameters (alpha k lambda : LD) : Except Exc PhysicalParameters :=
  if !alpha.isFinite || !k.isFinite || !lambda.isFinite then .error .invalidArgument
  else if alpha.le (.fin (1 / 2)) then .error .domainError
  else .ok ⟨alpha, k, lambda⟩

/-- `make_finite_couplings` (include/S3Action.hpp:86-95). -/
def makeFiniteCouplings (k lambda : LD) : Except Exc (LD × LD) :=
  if !k.isFinite || !lambda.isFinite then .error .invalidArgument else .ok (k, lambda)

open Mp in
/-- `s3_bulk_action_alpha_minus_one_imaginary_coefficient` (include/S3Action.hpp:118-163). -/
noncomputable def s3ActionAlphaMinusOne (R : Rounding) (n1 n31 n22 : ℤ) (kv lv : LD) : Except Exc Mp :=
  match makeFiniteCouplings kv lv with
  | .error e => .error e
  | .ok (ck, cl) =>
    let n1_tl := fromInteger R n1
    let n3_31 := fromInteger R n31
    let n3_22 := fromInteger R n22
    let k := fromLongDouble R ck
    let lambda := fromLongDouble R cl
    let two := fromInteger R 2
    let pi := Mp.pi R
    let const2673 := fromDecimal R (2673 / 1000)
    let const118 := fromDecimal R (118 / 1000)
    let const7386 := fromDecimal R (7386 / 1000)
    let r1 := mul R two pi
    let r2 := mul R r1 k
    let r3 := mul R r2 n1_tl
    let r4 := mul R const2673 k
    let r5 := mul R const118 lambda
    let r6 := add R r4 r5
    let r7 := mul R n3_31 r6
    let r8 := mul R const7386 k
    let r9 := mul R const118 lambda
    let r10 := add R r8 r9
    let r11 := mul R n3_22 r10
    let r12 := sub R r7 r3
    .ok (add R r11 r12)

open Mp in
/-- `s3_bulk_action_alpha_one` (include/S3Action.hpp:180-225). -/
noncomputable def s3ActionAlphaOne (R : Rounding) (n1 n31 n22 : ℤ) (kv lv : LD) : Except Exc Mp :=
  match makeFiniteCouplings kv lv with
  | .error e => .error e
  | .ok (ck, cl) =>
    let n1_tl := fromInteger R n1
    let n3_31 := fromInteger R n31
    let n3_22 := fromInteger R n22
    let k := fromLongDouble R ck
    let lambda := fromLongDouble R cl
    let two := fromInteger R 2
    let pi := Mp.pi R
    let const3548 := fromDecimal R (-3548 / 1000)
    let const167 := fromDecimal R (-167 / 1000)
    let const5355 := fromDecimal R (-5355 / 1000)
    let const204 := fromDecimal R (-204 / 1000)
    let r1 := mul R two pi
    let r2 := mul R r1 k
    let r3 := mul R r2 n1_tl
    let r4 := mul R const3548 k
    let r5 := mul R const167 lambda
    let r6 := add R r4 r5
    let r7 := mul R n3_31 r6
    let r8 := mul R const5355 k
    let r9 := mul R const204 lambda
    let r10 := add R r8 r9
    let r11 := mul R n3_22 r10
    let r12 := add R r3 r7
    .ok (add R r11 r12)

open Mp in
/-- `s3_bulk_action` (include/S3Action.hpp:253-358). -/
noncomputable def s3BulkAction (R : Rounding) (n1 n31 n22 : ℤ) (p : PhysicalParameters) : Mp :=
  let n1_tl := fromInteger R n1
  let n3_31 := fromInteger R n31
  let n3_22 := fromInteger R n22
  let alpha := fromLongDouble R p.alpha
  let k := fromLongDouble R p.k
  let lambda := fromLongDouble R p.lambda
  let two := fromInteger R 2
  let pi := Mp.pi R
  let three := fromInteger R 3
  let four := fromInteger R 4
  let one := fromInteger R 1
  let twelve := fromInteger R 12
  -- first term
  let r1 := mul R two pi
  let r2 := mul R r1 k
  let r3 := sqrt R alpha
  let r4 := mul R r3 r2
  let r5 := mul R r4 n1_tl
  -- second term
  let r6 := sqrt R three
  let r7 := mul R four alpha
  let r8 := add R one r7
  let r9 := sqrt R r8
  let r10 := mul R r6 r9
  let r11 := div R one r10
  let r12 := asinh R r11
  let r13 := neg R three
  let r14 := mul R r13 k
  let r15 := mul R r14 r12
  let r16 := mul R two alpha
  let r17 := add R r16 one
  let r18 := div R r17 r8
  let r19 := acos R r18
  let r20 := mul R r14 r3
  let r21 := mul R r20 r19
  let r22 := mul R three alpha
  let r23 := add R r22 one
  let r24 := sqrt R r23
  let r25 := neg R lambda
  let r26 := div R r25 twelve
  let r27 := mul R r26 r24
  let r28 := add R r15 r21
  let r29 := add R r28 r27
  let r30 := mul R n3_31 r29
  -- third term
  let r31 := mul R two k
  let r32 := sqrt R two
  let r33 := mul R two r32
  let r34 := sqrt R r17
  let r35 := mul R r33 r34
  let r36 := div R r35 r8
  let r37 := asinh R r36
  let r38 := mul R r31 r37
  let r39 := neg R one
  let r40 := div R r39 r8
  let r41 := acos R r40
  let r42 := neg R four
  let r43 := mul R r42 k
  let r44 := mul R r43 r3
  let r45 := mul R r44 r41
  let r46 := add R r7 two
  let r47 := sqrt R r46
  let r48 := mul R r26 r47
  let r49 := add R r38 r45
  let r50 := add R r49 r48
  let r51 := mul R n3_22 r50
  let r52 := add R r5 r30
  add R r51 r52

open Mp in
/-- `proposal_probability` (include/Metropolis.hpp:348-359); `NUMBER_OF_3D_MOVES` is 5
(include/Move_tracker.hpp:29). -/
noncomputable def proposalProbability (R : Rounding) (g : Geometry) (m : MoveType) : Mp :=
  let sites := proposalSiteCount g m
  if sites ≤ 0 then zero
  else
    let moveCount := fromInteger R 5
    let siteCount := fromInteger R sites
    let denominator := mul R moveCount siteCount
    div R (fromInteger R 1) denominator

open Mp in
/-- `hastings_ratio` (include/Metropolis.hpp:371-390) for a declared move. -/
noncomputable def hastingsRatio (R : Rounding) (current proposed : Geometry) (m : MoveType) :
    Except Exc Mp :=
  let forward := proposalProbability R current m
  let reverse := proposalProbability R proposed m.reverse
  if forward.isZero || reverse.isZero then .error .logicError
  else .ok (div R reverse forward)

open Mp in
/-- `action_ratio` (include/Metropolis.hpp:397-408). -/
noncomputable def actionRatio (R : Rounding) (p : PhysicalParameters) (current proposed : Geometry) : Mp :=
  exp R (sub R (s3BulkAction R current.N1_TL current.N3_31_13 current.N3_22 p)
    (s3BulkAction R proposed.N1_TL proposed.N3_31_13 proposed.N3_22 p))

open Mp in
/-- `acceptance_probability` (include/Metropolis.hpp:416-426). -/
noncomputable def acceptanceProbability (R : Rounding) (p : PhysicalParameters)
    (current proposed : Geometry) (m : MoveType) : Except Exc Mp :=
  match hastingsRatio R current proposed m with
  | .error e => .error e
  | .ok h =>
    let ratio := mul R h (actionRatio R p current proposed)
    let one := fromInteger R 1
    .ok (if ratio.cmpNeg one then ratio else one)

end CDT

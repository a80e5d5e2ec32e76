/-
Sizing of a generated triangulation: include/Utilities.hpp:2058-2292 and the layer loop of
include/Foliated_triangulation.hpp:1231-1303.  64-bit unsigned arithmetic wraps.
-/
import Verif.Model.Float

namespace CDT

/-- `std::uint64_t` arithmetic: the low 64 bits. -/
def wrap64 (n : ℕ) : ℕ := n % 2 ^ 64

/-- Is `x` finite and positive, as the guards test it: `!isfinite(x) || x <= 0` fails
(include/Utilities.hpp:2085-2086, 2190-2191). -/
def LD.finitePositive (x : LD) : Bool := x.isFinite && !x.le (.fin 0)

/-- The radius of a layer, in `double`: `initial_radius + static_cast<double>(layer) *
foliation_spacing` (include/Utilities.hpp:2095-2096, include/Foliated_triangulation.hpp:1270-1271). -/
def layerRadius (F : Floats) (r s : LD) (layer : ℕ) : LD :=
  F.dbl.add r (F.dbl.mul (F.dbl.ofInt layer) s)

/-- The untruncated point count of a layer, in `long double` (include/Utilities.hpp:2097-2098,
include/Foliated_triangulation.hpp:1272-1273). -/
def layerPoints (F : Floats) (p : ℤ) (r s : LD) (layer : ℕ) : LD :=
  F.ext.mul (F.ext.ofInt p) (layerRadius F r s layer)

/-- One iteration of the loop of `generated_input_vertex_count` (include/Utilities.hpp:2095-2113). -/
def addLayer (F : Floats) (p : ℤ) (r s : LD) (total : ℕ) (layer : ℕ) : Except Exc ℕ :=
  let pts := layerPoints F p r s layer
  if !pts.isFinite || pts.lt (.fin 0) || (F.ext.ofInt intMax).lt pts then .error .outOfRange
  else
    let narrowed := toU64 pts.toInt32
    if narrowed > (2 ^ 64 - 1) - total then .error .outOfRange
    else .ok (wrap64 (total + narrowed))

/-- `generated_input_vertex_count` (include/Utilities.hpp:2075-2115). -/
def generatedInputVertexCount (F : Floats) (p T : ℤ) (r s : LD) : Except Exc ℕ :=
  if p ≤ 0 ∨ T ≤ 0 then .error .invalidArgument
  else if !r.finitePositive || !s.finitePositive then .error .invalidArgument
  else (List.range T.toNat).foldlM (addLayer F p r s) 0

/-- `delaunay_tetrahedron_upper_bound` (include/Utilities.hpp:2126-2143). -/
def delaunayUpperBound (vertices : ℕ) : Option ℕ :=
  if vertices < 4 then some 0
  else
    let first := if vertices % 2 = 0 then vertices / 2 else vertices
    let second := if vertices % 2 = 0 then vertices - 3 else (vertices - 3) / 2
    if second ≠ 0 ∧ first > (2 ^ 64 - 1) / second then none
    else some (wrap64 (wrap64 (first * second) + (2 ^ 64 - 1)))

/-- `scaled_floor` (include/Utilities.hpp:2221-2226). -/
def scaledFloor (timeslices bounded numerator denominator : ℕ) : ℕ :=
  wrap64 (bounded * numerator) / wrap64 (timeslices * denominator)

/-- `historical_upper_envelope` (include/Utilities.hpp:2227-2231). -/
def upperEnvelope (N T : ℕ) : ℕ :=
  max (max (scaledFloor T (min N 1000) 2 5) (scaledFloor T (min N 10000) 1 5))
    (max (scaledFloor T (min N 100000) 3 20) (scaledFloor T N 1 10))

/-- `last_radius`, in `long double` (include/Utilities.hpp:2201-2204, 2280-2282). -/
def lastRadius (F : Floats) (T : ℤ) (r s : LD) : LD :=
  F.ext.add r (F.ext.mul (F.ext.ofInt (T - 1)) s)

/-- `maximum` (include/Utilities.hpp:2210-2217). -/
def maximumPopulation (F : Floats) (last : LD) : ℤ :=
  let byRadius := F.ext.div (F.ext.ofInt intMax) last
  if (F.ext.ofInt intMax).le byRadius then intMax else byRadius.toInt32

/-- `expected_points_per_timeslice` (include/Utilities.hpp:2166-2245). -/
def expectedPointsPerTimeslice (F : Floats) (dim N T : ℤ) (r s : LD) : Except Exc ℤ :=
  if dim ≠ 3 then .error .invalidArgument
  else if N ≤ 0 ∨ T ≤ 0 then .error .invalidArgument
  else if !r.finitePositive || !s.finitePositive then .error .invalidArgument
  else
    let minimum : ℤ := if N ≤ T then 2 else 8
    let last := lastRadius F T r s
    if !last.isFinite then .error .outOfRange
    else
      let maximum := maximumPopulation F last
      if maximum < minimum then .error .outOfRange
      else
        let margin := wrap64 (wrap64 (5 * upperEnvelope (toU64 N) (toU64 T)) + 3) / 4
        let estimated := max (toU64 minimum) margin
        if estimated > toU64 maximum then .error .outOfRange
        else
          let population := Int.bmod estimated (2 ^ 32)
          match generatedInputVertexCount F population T r s with
          | .error e => .error e
          | .ok _ => .ok population

/-- `Generated_population_bounds` (include/Utilities.hpp:2248-2258). -/
structure PopulationBounds where
  pointsPerTimeslice : ℤ
  lastLayerPoints : LD
  inputVertices : ℕ
  tetrahedraUpperBound : Option ℕ
  deriving DecidableEq

/-- `generated_population_bounds` (include/Utilities.hpp:2272-2292). -/
def generatedPopulationBounds (F : Floats) (dim N T : ℤ) (r s : LD) : Except Exc PopulationBounds :=
  match expectedPointsPerTimeslice F dim N T r s with
  | .error e => .error e
  | .ok p =>
    match generatedInputVertexCount F p T r s with
    | .error e => .error e
    | .ok v => .ok ⟨p, F.ext.mul (F.ext.ofInt p) (lastRadius F T r s), v, delaunayUpperBound v⟩

/-- One iteration of the layer loop of `make_foliated_ball`
(include/Foliated_triangulation.hpp:1268-1296).  `gen i j` is the `j`-th point the sphere generator
returns for layer `i`; the layer's vertices carry time value `i + 1`. -/
def ballLayer {P : Type} (F : Floats) (p : ℤ) (r s : LD) (gen : ℕ → ℕ → P) (acc : List (P × ℤ)) (i : ℕ) :
    Except Exc (List (P × ℤ)) :=
  let radius := layerRadius F r s i
  let pts := layerPoints F p r s i
  if !radius.isFinite || pts.lt (.fin 2) then .error .invalidArgument
  else if (F.ext.ofInt intMax).lt pts then .error .outOfRange
  else .ok (acc ++ (List.range pts.toInt32.toNat).map fun j => (gen i j, (i : ℤ) + 1))

/-- `make_foliated_ball` (include/Foliated_triangulation.hpp:1231-1303), for `dimension` = 3.  The
point generator is arbitrary and does not throw. -/
def makeFoliatedBall {P : Type} (F : Floats) (N T : ℤ) (r s : LD) (gen : ℕ → ℕ → P) :
    Except Exc (List (P × ℤ)) :=
  if N < 2 ∨ T < 2 then .error .invalidArgument
  else if !r.finitePositive then .error .invalidArgument
  else if !s.finitePositive then .error .invalidArgument
  else
    match generatedPopulationBounds F 3 N T r s with
    | .error e => .error e
    | .ok b =>
      if b.pointsPerTimeslice < 2 then .error .invalidArgument
      else if !b.lastLayerPoints.isFinite || (F.ext.ofInt intMax).lt b.lastLayerPoints then .error .outOfRange
      else
        match (List.range T.toNat).foldlM (ballLayer F b.pointsPerTimeslice r s gen) [] with
        | .error e => .error e
        | .ok vs => if vs.length < 4 then .error .invalidArgument else .ok vs

end CDT

import Verif.Model.Text
import Verif.Model.RuntimeConfig
import Mathlib.Data.Rat.Floor
/-
Artifact file names (include/Utilities.hpp:1617-1721).
-/
namespace CDT

/-- A decimal number with at least `k` digits, zero-padded. -/
def padded (k n : ℕ) : Bytes := List.replicate (k - (decimal n).length) (digitByte 0) ++ decimal n

/-- `.` -/
def dot : Byte := 46#8
/-- `/` -/
def slash : Byte := 47#8
/-- `:` -/
def timeColon : Byte := 58#8

/-- Nearest integer, ties to even: how `%f` rounds. -/
def roundEven (x : ℚ) : ℤ :=
  if x - ⌊x⌋ < 1 / 2 then ⌊x⌋
  else if 1 / 2 < x - ⌊x⌋ then ⌊x⌋ + 1
  else if ⌊x⌋ % 2 = 0 then ⌊x⌋ else ⌊x⌋ + 1

/-- `std::to_string(double)`, that is `%f`, for a finite value: six decimals.  Negative zero is not
modelled. -/
def fixed6 (q : ℚ) : Bytes :=
  let n := (roundEven (|q| * 1000000)).toNat
  (if q < 0 then [minusSign] else []) ++ decimal (n / 1000000) ++ dot :: padded 6 (n % 1000000)

/-- A calendar date and time in UTC, to the second. -/
structure Stamp where
  year : ℕ
  month : ℕ
  day : ℕ
  hour : ℕ
  minute : ℕ
  second : ℕ
  deriving DecidableEq

/-- `current_date_time` (include/Utilities.hpp:1617-1625): `%Y-%m-%d.%TUTC`.  The conversion of the
system clock to a date is not modelled. -/
def currentDateTime (s : Stamp) : Bytes :=
  padded 4 s.year ++ minusSign :: padded 2 s.month ++ minusSign :: padded 2 s.day ++
    dot :: padded 2 s.hour ++ timeColon :: padded 2 s.minute ++ timeColon :: padded 2 s.second ++ ascii "UTC"

/-- The arguments of `make_filename`; `make_filename(manifold)` passes `N3()` and `max_time()`
(include/Utilities.hpp:1679-1687). -/
structure NameInfo where
  topology : Topology
  dimension : ℤ
  simplices : ℤ
  timeslices : ℤ
  radius : ℚ
  spacing : ℚ
  deriving DecidableEq

/-- `make_filename` (include/Utilities.hpp:1635-1674), at the given time. -/
def makeFilename (i : NameInfo) (now : Stamp) : Bytes :=
  (if i.topology = .spherical then ascii "S" else ascii "T") ++ decimalInt i.dimension ++
    ascii "-" ++ decimalInt i.timeslices ++ ascii "-" ++ decimalInt i.simplices ++
    ascii "-I" ++ fixed6 i.radius ++ ascii "-R" ++ fixed6 i.spacing ++ ascii "-" ++
    (currentDateTime now).map (fun b => if b = timeColon then minusSign else b) ++ ascii ".off"

/-- `path::parent_path()` of a relative path. -/
def parentPath (p : Bytes) : Bytes := ((splitLast slash p).map Prod.fst).getD []
/-- `path::filename()`. -/
def lastComponent (p : Bytes) : Bytes := ((splitLast slash p).map Prod.snd).getD p
/-- `path::stem()`: the last component up to its last dot, unless that is the first character. -/
def stem (p : Bytes) : Bytes :=
  match splitLast dot (lastComponent p) with
  | some (l, _) => if l = [] then lastComponent p else l
  | none => lastComponent p
/-- `path::extension()`: from the last dot, unless that is the first character. -/
def extension (p : Bytes) : Bytes :=
  match splitLast dot (lastComponent p) with
  | some (l, r) => if l = [] then [] else dot :: r
  | none => []
/-- `operator/` for a relative second path. -/
def joinPath (a b : Bytes) : Bytes := if a = [] then b else a ++ slash :: b

/-- `make_filename` with the seed (include/Utilities.hpp:1694-1702). -/
def makeFilenameSeed (i : NameInfo) (seed : ℕ) (now : Stamp) : Bytes :=
  let base := makeFilename i now
  joinPath (parentPath base) (stem base ++ ascii "-seed-" ++ decimal seed ++ extension base)

/-- `make_filename` with seed and pass (include/Utilities.hpp:1710-1719). -/
def makeFilenamePass (i : NameInfo) (seed : ℕ) (pass : ℤ) (now : Stamp) : Bytes :=
  let base := makeFilenameSeed i seed now
  joinPath (parentPath base) (stem base ++ ascii "-pass-" ++ decimalInt pass ++ extension base)

end CDT

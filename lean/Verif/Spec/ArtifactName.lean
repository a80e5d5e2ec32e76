import Verif.Model.Program
/-
The names of artifacts, as text.
-/
namespace CDT.Spec
open CDT

/-- `t` is the decimal notation of `n`, with zeros in front if it would have less than `k` digits. -/
def Wide (k n : ℕ) (t : Bytes) : Prop :=
  ∃ z, t = List.replicate z 48#8 ++ decimal n ∧ k ≤ t.length ∧ (0 < z → t.length = k)

/-- `t` is the number with six decimals, rounded to a nearest one. -/
def SixDecimals (q : ℚ) (t : Bytes) : Prop :=
  ∃ (n : ℕ) (fraction : Bytes),
    t = (if q < 0 then ascii "-" else []) ++ decimal (n / 1000000) ++ ascii "." ++ fraction ∧
    Wide 6 (n % 1000000) fraction ∧ abs ((n : ℚ) / 1000000 - abs q) ≤ 1 / 2000000

/-- `t` is `2026-11-18.01-41-05UTC` for that time. -/
def TimeText (now : Stamp) (t : Bytes) : Prop :=
  ∃ y mo d h mi s, Wide 4 now.year y ∧ Wide 2 now.month mo ∧ Wide 2 now.day d ∧ Wide 2 now.hour h ∧
    Wide 2 now.minute mi ∧ Wide 2 now.second s ∧
    t = y ++ ascii "-" ++ mo ++ ascii "-" ++ d ++ ascii "." ++ h ++ ascii "-" ++ mi ++ ascii "-" ++ s ++ ascii "UTC"

/-- `S3-4-640-I1.000000-R0.500000-2026-11-18.01-41-05UTC-seed-92-pass-10.off`: spherical topology in three
dimensions, the last time slice, the number of simplices, radius, spacing, time, seed and, for a checkpoint, pass. -/
def NameTells (s : Summary) (seed : ℕ) (pass : Option ℤ) (now : Stamp) (path : Bytes) : Prop :=
  ∃ radius spacing time, SixDecimals s.radius radius ∧ SixDecimals s.spacing spacing ∧ TimeText now time ∧
    path = ascii "S3-" ++ decimalInt s.maxTime ++ ascii "-" ++ decimalInt s.N3 ++ ascii "-I" ++ radius ++
      ascii "-R" ++ spacing ++ ascii "-" ++ time ++ ascii "-seed-" ++ decimal seed ++
      (match pass with | some p => ascii "-pass-" ++ decimalInt p | none => []) ++ ascii ".off"

end CDT.Spec

import Verif.Spec.Watch
/-
What a power loss leaves of the files in a directory where programs are running.
-/
namespace CDT.Spec
variable {M S P T I : Type} [DecidableEq I]

/-- A power loss in a directory whose files were `fs` when the programs were started, after the accesses of the
schedule.  The programs flush their streams but never ask the operating system to put data on the disk
(include/Utilities.hpp:1502, 1558), so every name, independently of the others, has lost its file or holds
the beginning of a contents that it had at some moment up to then: neither is the order of the writes of
different files kept, nor that of the data and of the renaming of one file. -/
def AfterPowerLoss (host : Host M S P T) (F : CastFloats) (jobs : I → Job M S) (fs : Files) (schedule : List I)
    (fs' : Files) : Prop :=
  ∀ p c', fs' p = some c' → ∃ moment c, moment <+: schedule ∧ filesAfter host F jobs fs moment p = some c ∧ c' <+: c

end CDT.Spec

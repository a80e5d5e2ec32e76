import Mathlib.Data.Nat.Basic
/-
C58: how much work the search for a canonical numbering may take.
-/
namespace CDT.Spec

/-- An upper bound for the number of work units the search spends on `n` nodes of which at most
`spare + 1` share a label: every round looks at the nodes at most `n` times (and costs one unit
itself), and then tries each of the at most `spare + 1` nodes that still share a label, which leaves
one fewer to tell apart. -/
def searchWork (n : ℕ) : ℕ → ℕ
  | 0 => n + 1
  | spare + 1 => n + 1 + (spare + 2) * searchWork n spare

end CDT.Spec

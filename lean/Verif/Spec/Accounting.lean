/-
Independent specification of counters, histories and the published move table.
Nothing here refers to how the code updates its state.
-/
import Verif.Model.CheckMove
import Mathlib.Algebra.BigOperators.Group.List.Basic

namespace CDT.Spec

/-- One row of the delta table of docs/ergodic-moves.md ("Move-by-move record"). -/
structure Delta where
  dN0 : Int
  dN1SL : Int
  dN1TL : Int
  dN2 : Int
  dN31 : Int
  dN22 : Int
  dN13 : Int
  dN3 : Int
  deriving DecidableEq

/-- The published table, docs/ergodic-moves.md: `(N0, N1_SL, N1_TL, N2, N3_31, N3_22, N3_13, N3)`. -/
def publishedDelta : MoveType → Delta
  | .twoThree => ⟨0, 0, 1, 2, 0, 1, 0, 1⟩
  | .threeTwo => ⟨0, 0, -1, -2, 0, -1, 0, -1⟩
  | .twoSix => ⟨1, 3, 2, 8, 2, 0, 2, 4⟩
  | .sixTwo => ⟨-1, -3, -2, -8, -2, 0, -2, -4⟩
  | .fourFour => ⟨0, 0, 0, 0, 0, 0, 0, 0⟩

/-- The documented counter identities (docs/metropolis-hastings.md, "Counters"), per move. -/
def Balanced (cmd : CommandResults) (st : RunStats) : Prop :=
  ∀ m : MoveType,
    st.proposed.get m = st.accepted.get m + st.rejected.get m ∧
    cmd.attempted.get m = cmd.succeeded.get m + cmd.failed.get m ∧
    cmd.attempted.get m = st.proposed.get m ∧
    0 ≤ st.accepted.get m ∧ st.accepted.get m ≤ cmd.succeeded.get m ∧
    0 ≤ cmd.failed.get m ∧ cmd.failed.get m ≤ st.rejected.get m

/-- Number of entries of a history with a given move type. -/
def countMove (h : List (MoveType × MoveOutcome)) (m : MoveType) : Int :=
  (h.filter (fun x => x.1 = m)).length

/-- Number of entries of a history with a given move type and an outcome satisfying `p`. -/
def countIf (h : List (MoveType × MoveOutcome)) (m : MoveType) (p : MoveOutcome → Bool) : Int :=
  (h.filter (fun x => x.1 = m && p x.2)).length

/-- The byte string digested for a history: two bytes per transition, in order. -/
def traceBytes (h : List (MoveType × MoveOutcome)) : List (BitVec 8) :=
  h.flatMap (fun x => [BitVec.ofNat 8 x.1.asInteger.val, BitVec.ofNat 8 x.2.code])

end CDT.Spec

namespace CDT.Spec

/-- The candidate-construction counters describe exactly the history `h` of
(move, outcome) reports: every counter is the number of reports of that kind. -/
structure DescribesCmd (cmd : CommandResults) (h : List (MoveType × MoveOutcome)) : Prop where
  attempted : ∀ m, cmd.attempted.get m = countMove h m
  succeeded : ∀ m, cmd.succeeded.get m = countIf h m (fun o => o.successful)
  failed : ∀ m, cmd.failed.get m = countIf h m (fun o => !o.successful)

/-- The Metropolis counters, digest and count describe exactly the history `h`. -/
structure DescribesStats (st : RunStats) (h : List (MoveType × MoveOutcome)) : Prop where
  proposed : ∀ m, st.proposed.get m = countMove h m
  accepted : ∀ m, st.accepted.get m = countIf h m (fun o => o.accepted)
  rejected : ∀ m, st.rejected.get m = countIf h m (fun o => !o.accepted)
  trace : st.trace = fnv1a (traceBytes h)
  count : st.count = h.length

/-- All published run statistics describe exactly the history `h`. -/
def Describes (cmd : CommandResults) (st : RunStats) (h : List (MoveType × MoveOutcome)) : Prop :=
  DescribesCmd cmd h ∧ DescribesStats st h

/-- `Evolves R m h m'`: replaying the reported history `h` from state `m` ends in `m'`, where
an accepted entry with move `mv` goes from the state `a` just before it to some `b` with
`R a b mv`, and every other entry stays put. -/
inductive Evolves {M : Type} (check : M → M → MoveType → Prop) :
    M → List (MoveType × MoveOutcome) → M → Prop
  | nil (m : M) : Evolves check m [] m
  | accept {m m₁ m₂ : M} {h : List (MoveType × MoveOutcome)} {mv : MoveType}
      (e : Evolves check m h m₁) (c : check m₁ m₂ mv) :
      Evolves check m (h ++ [(mv, .metropolisAccepted)]) m₂
  | stay {m m₁ : M} {h : List (MoveType × MoveOutcome)} {mv : MoveType} {o : MoveOutcome}
      (e : Evolves check m h m₁) (ho : o.accepted = false) :
      Evolves check m (h ++ [(mv, o)]) m₁

/-- `PassChain n3 E m hs m'`: a run from `m` to `m'` made of one history per pass, the pass that
starts in state `a` having exactly `n3 a` entries (none if `n3 a` is negative) and
leading from `a` to `b` with `E a h b`. -/
inductive PassChain {M α : Type} (n3 : M → Int) (E : M → List α → M → Prop) :
    M → List (List α) → M → Prop
  | nil (m : M) : PassChain n3 E m [] m
  | snoc {m a b : M} {hs : List (List α)} {h : List α}
      (c : PassChain n3 E m hs a) (len : (h.length : Int) = max 0 (n3 a)) (e : E a h b) :
      PassChain n3 E m (hs ++ [h]) b

/-- `Applied R m h m'`: performing the moves of `h` in order from `m` ends in `m'`; an entry flagged
`true` goes from the state `a` just before it to some `b` with `R a b mv`, an entry flagged
`false` stays put. -/
inductive Applied {M : Type} (R : M → M → MoveType → Prop) :
    M → List (MoveType × Bool) → M → Prop
  | nil (m : M) : Applied R m [] m
  | success {m a b : M} {h : List (MoveType × Bool)} {mv : MoveType}
      (e : Applied R m h a) (c : R a b mv) : Applied R m (h ++ [(mv, true)]) b
  | failure {m a : M} {h : List (MoveType × Bool)} {mv : MoveType}
      (e : Applied R m h a) : Applied R m (h ++ [(mv, false)]) a

/-- Number of entries of a flagged history with a given move. -/
def countFlag (h : List (MoveType × Bool)) (m : MoveType) (b : Bool) : Int :=
  (h.filter (fun x => x.1 = m && x.2 = b)).length

/-- The command counters describe exactly the flagged history. -/
structure DescribesFlags (cmd : CommandResults) (h : List (MoveType × Bool)) : Prop where
  attempted : ∀ m, cmd.attempted.get m = countFlag h m true + countFlag h m false
  succeeded : ∀ m, cmd.succeeded.get m = countFlag h m true
  failed : ∀ m, cmd.failed.get m = countFlag h m false

/-- A legal acceptance draw: a finite number in [0,1]. -/
def LegalTrial (u : LD) : Prop := ∃ q : ℚ, u = .fin q ∧ 0 ≤ q ∧ q ≤ 1

/-- The report, if it names one of the five moves, as a history entry. -/
def entryOf : Int × MoveOutcome → List (MoveType × MoveOutcome)
  | (code, o) => match MoveType.ofCode code with
    | some m => [(m, o)]
    | none => []

end CDT.Spec

import Verif.Model.Console
import Verif.Spec.Program
/-
What a truthful report of a run looks like, stated from the history of its moves.
-/
namespace CDT.Spec

/-- Words with numbers (already written out) between them. -/
def sentence : List String → List Bytes → Bytes
  | w :: ws, n :: ns => ascii w ++ n ++ sentence ws ns
  | w :: ws, [] => ascii w ++ sentence ws []
  | [], _ => []

/-- How many entries of a history satisfy `p`, written out. -/
def howMany {α : Type} (h : List α) (p : α → Bool) : Bytes := decimal (h.countP p)

/-- The five kinds of moves as they are displayed. -/
def displayed : List (String × MoveType) :=
  [("(2,3)", .twoThree), ("(3,2)", .threeTwo), ("(2,6)", .twoSix), ("(6,2)", .sixTwo), ("(4,4)", .fourFour)]

/-- The report of a Metropolis run after the transitions `h`. -/
def reportText (h : List (MoveType × MoveOutcome)) : Bytes :=
  sentence ["=== Move Results ===\n"] [] ++
  sentence ["There were ", " proposed moves with ", " accepted moves and ", " rejected moves.\n"]
    [howMany h fun _ => true, howMany h fun x => x.2.accepted, howMany h fun x => !x.2.accepted] ++
  sentence ["There were ", " candidate construction attempts with ", " successful candidates and ",
      " failed candidates.\n"]
    [howMany h fun _ => true, howMany h fun x => x.2.successful, howMany h fun x => !x.2.successful] ++
  displayed.flatMap fun (name, m) =>
    let mine := h.filter fun x => x.1 = m
    sentence [name ++ " moves: ", " proposed (", " accepted and ",
        " rejected); candidate construction: ", " attempted (", " succeeded and ", " failed).\n"]
      [howMany mine fun _ => true, howMany mine fun x => x.2.accepted, howMany mine fun x => !x.2.accepted,
       howMany mine fun _ => true, howMany mine fun x => x.2.successful, howMany mine fun x => !x.2.successful]

/-- The report of a move-always run after the moves `h`, flagged with their success. -/
def flagReportText (h : List (MoveType × Bool)) : Bytes :=
  sentence ["=== Move Results ===\n"] [] ++
  displayed.flatMap fun (name, m) =>
    let mine := h.filter fun x => x.1 = m
    sentence [name ++ " moves: ", " attempted = ", " successful and ", " failed.\n"]
      [howMany mine fun _ => true, howMany mine fun x => x.2, howMany mine fun x => !x.2]

/-- The opening lines of a run. -/
def openingText (algorithm : String) (seed stream : BitVec 64) : Bytes :=
  ascii "Starting " ++ ascii algorithm ++ ascii " algorithm in 2+1 dimensions ...\n" ++
  sentence ["Effective random seed: ", " (stream ", ").\n"] [decimal seed.toNat, decimal stream.toNat] ++
  ascii "Making random moves ...\n"

/-- The heading of a pass. -/
def passHeading (n : ℕ) : Bytes := sentence ["=== Pass ", " ===\n"] [decimal n]

/-- What a run prints for the passes `hs` (one history each) that follow `k` passes with history `h`:
headings in order; after every `interval`-th pass the report on all moves so far and, if files are
written, the announcement of the checkpoint followed by what writing it prints. -/
def passesText {α : Type} (report : List α → Bytes) (interval : ℤ) (writes : Bool) (writing : ℕ → Bytes) :
    ℕ → List α → List (List α) → Bytes
  | _, _, [] => []
  | k, h, p :: ps =>
    passHeading (k + 1) ++
    (if interval ∣ ((k + 1 : ℕ) : ℤ) then
      report (h ++ p) ++
      (if writes then
        sentence ["Writing checkpoint for pass ", ".\n"] [decimal (k + 1)] ++ writing (k + 1)
       else [])
     else []) ++
    passesText report interval writes writing (k + 1) (h ++ p) ps

/-- What a complete run prints. -/
def runText {α : Type} (report : List α → Bytes) (opening : Bytes) (interval : ℤ) (writes : Bool)
    (writing : ℕ → Bytes) (hs : List (List α)) : Bytes :=
  opening ++ passesText report interval writes writing 0 [] hs ++ ascii "=== Run results ===\n" ++
    report hs.flatten

/-- What is printed before the run ends early: a run of `total` passes of which `hs` were completed. -/
def begunText {α : Type} (report : List α → Bytes) (opening : Bytes) (interval : ℤ) (writes : Bool)
    (writing : ℕ → Bytes) (total : ℕ) (hs : List (List α)) : Bytes :=
  opening ++ passesText report interval writes writing 0 [] hs ++
    (if hs.length < total then passHeading (hs.length + 1)
     else ascii "=== Run results ===\n" ++ report hs.flatten)

/-- The transitions of pass `p` (counting from 0) of a run from `x`: as many as its first manifold has
tetrahedra. -/
def passHistory {M G P : Type} (eng : MetroEngine M G P) (x : M × G) (p : ℕ) : List (MoveType × MoveOutcome) :=
  let y := trajectory eng (passStart eng x p) x
  history eng (eng.n3 y.1).toNat y

/-- An effect that, as far as standard output is concerned, only adds to it. -/
def OnlyPrints {W α : Type} (e : Eff (W × Console) α) : Prop :=
  ∀ w c, ∃ t, (e (w, c)).2.2.text = c.text ++ t

/-- Two effects are the same apart from standard output, unless printing fails: they agree whenever no
print fails, and whenever the printing one succeeds. -/
def SameUnlessPrintFails {W α : Type} (faults : PrintFaults) (aloud : Eff (W × Console) α) (silent : Eff W α) : Prop :=
  ∀ w c, ((∀ n, faults n = none) ∨ ∃ v, (aloud (w, c)).1 = .ok v) →
    ((aloud (w, c)).1, (aloud (w, c)).2.1) = silent w

end CDT.Spec

import Verif.Model.Values
/-
The move functions of include/Ergodic_moves_3.hpp as programs over storage: which triangulation
bodies they create, mutate in place and destroy, and in which order.  `Verif.Model.Moves` describes
the same functions by their results only.

The world of `Verif.Model.Values` holds all manifolds and all storage bodies of the process.  Every
single mutation pushes the previous world onto `past`, so that `past` and `world` together are all
the states another piece of code, or an exception handler, could ever observe.
-/
namespace CDT.Atomic
open CDT Val Moves

variable {V G : Type} [LinearOrder V]

/-- The process in the middle of a call: current world, caller's generator, earlier worlds. -/
structure St (V G : Type) where
  world : World V
  gen : G
  past : List (World V)

/-- All worlds that have existed since the call began, newest first. -/
def St.moments (σ : St V G) : List (World V) := σ.world :: σ.past

/-- One observable mutation. -/
def St.put (σ : St V G) (w : World V) : St V G := ⟨w, σ.gen, σ.world :: σ.past⟩

/-- In-place mutation of body `b`. -/
def St.write (σ : St V G) (b : ℕ) (K : Tri V) : St V G :=
  σ.put { σ.world with body := Function.update σ.world.body b (some K) }

/-- Construction of a local `Delaunay` with content `K`, in body `σ.world.next`. -/
def St.alloc (σ : St V G) (K : Tri V) : St V G :=
  σ.put { σ.world with
    body := Function.update σ.world.body σ.world.next (some K), next := σ.world.next + 1 }

/-- Destruction of a local `Delaunay`. -/
def St.free (σ : St V G) (b : ℕ) : St V G :=
  σ.put { σ.world with body := Function.update σ.world.body b none }

/-- `execute` of a (2,3) move (include/Ergodic_moves_3.hpp:591-621) on the working copy `c`; the
result is the body holding the moved triangulation.  `Triangulation_3::flip` mutates only when it
returns true (CGAL). -/
def execute23 (env : Env V G) (c : ℕ) (m : Finset V × V) (σ : St V G) :
    Except MoveFailure ℕ × St V G :=
  match σ.world.body c with
  | none => (.error .staleCandidate, σ)
  | some K =>
    if m.1 ∉ K.cells ∨ m.2 ∉ m.1 then (.error .staleCandidate, σ)
    else match checkedFlipFacet env K m.1 m.2 with
      | none => (.error .executionFailure, σ)
      | some K' => (.ok c, σ.write c K')

/-- `execute` of a (3,2) move (include/Ergodic_moves_3.hpp:779-791) on the working copy `c`. -/
def execute32 (env : Env V G) (c : ℕ) (m : V × V) (σ : St V G) :
    Except MoveFailure ℕ × St V G :=
  match σ.world.body c with
  | none => (.error .staleCandidate, σ)
  | some K =>
    if !K.isEdge m.1 m.2 then (.error .staleCandidate, σ)
    else match checkedFlipEdge env K m.1 m.2 with
      | none => (.error .executionFailure, σ)
      | some K' => (.ok c, σ.write c K')

/-- `execute` of a (2,6) move (include/Ergodic_moves_3.hpp:966-1027) on the working copy `c`, with
an arbitrary validator.  The copy is mutated twice (`insert_in_facet`, lines 1001-1002; `set_point`
and `info`, lines 1016-1019) and checked afterwards, so a failure leaves it mutated. -/
def execute26 (env : Env V G) (validator : Tri V → Bool) (c : ℕ) (m : Finset V × V) (σ : St V G) :
    Except MoveFailure ℕ × St V G :=
  match σ.world.body c with
  | none => (.error .staleCandidate, σ)
  | some K =>
    if m.1 ∉ K.cells ∨ m.2 ∉ m.1 then (.error .staleCandidate, σ)
    else
      let F := m.1.erase m.2
      let center := env.centroid F
      match K.insertInFacet m.1 m.2 center with
      | none => (.error .invariantViolation, σ)
      | some K1 =>
        let σ := σ.write c K1
        if (K1.vertexCells center).card ≠ 6 then (.error .invariantViolation, σ)
        else
          let K2 := { K1 with time := fun x =>
            if x = center then (match (canonicalPoints F).head? with
              | some v1 => K.time v1
              | none => K.time x) else K.time x }
          let σ := σ.write c K2
          if !validator K2 then (.error .invariantViolation, σ) else (.ok c, σ)

/-- The relabelling loops (include/Ergodic_moves_3.hpp:1292-1300 with `strict`, 1664-1668 without):
one cell at a time, in place; the strict one stops at a cell of no causal type. -/
def labelLoop (strict : Bool) (p : ℕ) : List (Finset V) → St V G → Bool × St V G
  | [], σ => (true, σ)
  | c :: cs, σ =>
    match σ.world.body p with
    | none => (false, σ)
    | some K =>
      if strict ∧ (K.expectedType c = .acausal ∨ K.expectedType c = .unclassified) then (false, σ)
      else labelLoop strict p cs
        (σ.write p { K with info := Function.update K.info c (K.expectedType c).code })

/-- The edge loop of the (6,2) `execute` (include/Ergodic_moves_3.hpp:1268-1277), in place on the
private copy `p`: did an edge flip?  `tds.flip` mutates only when it returns true (CGAL). -/
def flipLoop (v : V) (p : ℕ) : List (Finset V) → St V G → Bool × St V G
  | [], σ => (false, σ)
  | e :: es, σ =>
    match σ.world.body p with
    | none => (false, σ)
    | some K =>
      match (canonicalPoints (e.erase v)).head? with
      | none => flipLoop v p es σ
      | some w =>
        if K.time v ≠ K.time w then
          match K.flipEdge v w with
          | some K' => (true, σ.write p K')
          | none => flipLoop v p es σ
        else flipLoop v p es σ

/-- The tail of the (6,2) `execute` (include/Ergodic_moves_3.hpp:1278-1302): `old` is the content of
the copy before the flips, whose sizes were recorded at lines 1255-1256. -/
def finish62 (S : Setting V G) (r s : BitVec 64) (validator : Tri V → Bool) (v : V) (p : ℕ)
    (old : Tri V) (σ : St V G) : Except MoveFailure ℕ × St V G :=
  match σ.world.body p with
  | none => (.error .executionFailure, σ.free p)
  | some K1 =>
    if K1.degree v ≠ 4 || !K1.isValid then (.error .executionFailure, σ.free p)
    else
      let K2 := K1.removeVertex v
      let σ := σ.write p K2
      if !validator K2 || !K2.isValid || K2.finiteCells.card + 4 ≠ old.finiteCells.card
          || K2.finiteVerts.card + 1 ≠ old.finiteVerts.card then
        (.error .invariantViolation, σ.free p)
      else
        match labelLoop true p ((S.env p r s).iter K2 K2.finiteCells) σ with
        | (false, σ) => (.error .invariantViolation, σ.free p)
        | (true, σ) => (.ok p, σ)

/-- `execute` of a (6,2) move (include/Ergodic_moves_3.hpp:1239-1303): a private copy of the working
copy is mutated; every failure destroys it. -/
def execute62 (S : Setting V G) (r s : BitVec 64) (validator : Tri V → Bool) (c : ℕ) (v : V)
    (σ : St V G) : Except MoveFailure ℕ × St V G :=
  match σ.world.body c with
  | none => (.error .staleCandidate, σ)
  | some K =>
    let p := σ.world.next
    let σ := σ.alloc K
    if v ∉ K.finiteVerts then (.error .staleCandidate, σ.free p)
    else
      let (edges, g) := (S.env p r s).shuffle
        (canonicalize ((S.env p r s).iter K (incidentEdges K v))) σ.gen
      match flipLoop v p edges { σ with gen := g } with
      | (false, σ) => (.error .executionFailure, σ.free p)
      | (true, σ) => finish62 S r s validator v p K σ

/-- `execute` of a (4,4) move (include/Ergodic_moves_3.hpp:1603-1671): two flips in place on a
private copy; every failure destroys it. -/
def execute44 (S : Setting V G) (r s : BitVec 64) (validator : Tri V → Bool) (c : ℕ)
    (m : FourFour V) (σ : St V G) : Except MoveFailure ℕ × St V G :=
  match σ.world.body c with
  | none => (.error .staleCandidate, σ)
  | some K =>
    let p := σ.world.next
    let σ := σ.alloc K
    if !K.isEdge m.a m.b ∨ m.top ∉ K.finiteVerts ∨ m.bottom ∉ K.finiteVerts then
      (.error .staleCandidate, σ.free p)
    else
      let F : Finset V := {m.a, m.b, m.bottom}
      match (K.verts.filter (fun x => x ∉ F ∧ insert x F ∈ K.cells)).min with
      | none => (.error .staleCandidate, σ.free p)
      | some x =>
        match K.flipFacet (insert x F) x with
        | none => (.error .executionFailure, σ.free p)
        | some K1 =>
          let σ := σ.write p K1
          if !K1.isEdge m.a m.b then (.error .executionFailure, σ.free p)
          else match K1.flipEdge m.a m.b with
          | none => (.error .executionFailure, σ.free p)
          | some K2 =>
            let σ := σ.write p K2
            if !validator K2 || !K2.isValid then (.error .invariantViolation, σ.free p)
            else
              match labelLoop false p ((S.env p r s).iter K2 K2.finiteCells) σ with
              | (false, σ) => (.error .invariantViolation, σ.free p)
              | (true, σ) => (.ok p, σ)

/-- The `execute` overloads on the working copy `c`. -/
def execute (S : Setting V G) (r s : BitVec 64) (validator : Tri V → Bool) (c : ℕ)
    (q : Prepared V) (σ : St V G) : Except MoveFailure ℕ × St V G :=
  match q with
  | .twoThree m => execute23 (S.env c r s) c m σ
  | .threeTwo m => execute32 (S.env c r s) c m σ
  | .twoSix m => execute26 (S.env c r s) validator c m σ
  | .sixTwo v => execute62 S r s validator c v σ
  | .fourFour m => execute44 S r s validator c m σ

/-- The site loops (include/Ergodic_moves_3.hpp:666-684, 832-850, 1080-1094, 1381-1400, 1782-1801).
All sites are tried on the same working copy `c`, read afresh each time; only the (2,6) loop
(`stop`) ends at the first execution failure. -/
def siteLoop (S : Setting V G) (r s : BitVec 64) (validator : Tri V → Bool) (mv : MoveType)
    (stop : Bool) (c : ℕ) : List (Finset V) → MoveFailure → St V G → Except MoveFailure ℕ × St V G
  | [], last, σ => (.error last, σ)
  | x :: xs, _, σ =>
    match σ.world.body c with
    | none => (.error .staleCandidate, σ)
    | some K =>
      match prepare K mv x with
      | .error e => siteLoop S r s validator mv stop c xs e σ
      | .ok q =>
        match execute S r s validator c q σ with
        | (.ok b, σ) => (.ok b, σ)
        | (.error e, σ) =>
          if stop then (.error e, σ) else siteLoop S r s validator mv stop c xs e σ

/-- How a call ends: a moved manifold in the result slot, a structured failure, or an exception. -/
inductive Outcome where
  | moved
  | failed (e : MoveFailure)
  | threw (e : Exc)
deriving DecidableEq

/-- `make_manifold(std::move(body), source)` (include/Ergodic_moves_3.hpp:198-206) into the result
slot, then the destructors of the moved-from `b` and of the working copy `c`. -/
def deliver (S : Setting V G) (r s : BitVec 64) (slot c b : ℕ) (σ : St V G) : Outcome × St V G :=
  match σ.world.body b with
  | none => (.threw .invalidArgument, σ.free c)
  | some K =>
    match constructObject S σ.world slot K r s with
    | .error e => (.threw e, (σ.free b).free c)
    | .ok w => (.moved, ((σ.put w).free b).free c)

/-- The end of every call: build the result or destroy the working copy. -/
def finish (S : Setting V G) (r s : BitVec 64) (slot c : ℕ) :
    Except MoveFailure ℕ × St V G → Outcome × St V G
  | (.error e, σ) => (.failed e, σ.free c)
  | (.ok b, σ) => deliver S r s slot c b σ

/-- `do_23_move`, `do_32_move`, `do_26_move`, `do_62_move`, `do_44_move`
(include/Ergodic_moves_3.hpp:650-685, 816-851, 1044-1122, 1367-1401, 1766-1802) on the manifold in
slot `src`, result in slot `slot`.  `delaunay_snapshot`
(include/Foliated_triangulation.hpp:1794-1800) is the working copy. -/
def doMove (S : Setting V G) (validator : Tri V → Bool) (mv : MoveType) (src slot : ℕ)
    (w : World V) (g : G) : Outcome × St V G :=
  match w.obj src with
  | none => (.threw .invalidArgument, ⟨w, g, []⟩)
  | some x =>
    match x.tri.body.bind w.body with
    | none => (.threw .invalidArgument, ⟨w, g, []⟩)
    | some K =>
      let r := x.tri.radius
      let s := x.tri.spacing
      let c := w.next
      let σ : St V G := St.alloc ⟨w, g, []⟩ K
      let (sites, g1) := (S.env c r s).shuffle (canonicalize (rawSites (S.env c r s) K mv)) σ.gen
      finish S r s slot c (siteLoop S r s validator mv (mv = .twoSix) c sites .noCandidate
        { σ with gen := g1 })

/-- `propose_23_move`, `propose_32_move`, `propose_26_move`, `propose_62_move`, `propose_44_move`
(include/Ergodic_moves_3.hpp:696-714, 861-880, 1133-1138, 1410-1428, 1812-1836): one site. -/
def propose (S : Setting V G) (validator : Tri V → Bool) (mv : MoveType) (src slot : ℕ)
    (w : World V) (g : G) : Outcome × St V G :=
  match w.obj src with
  | none => (.threw .invalidArgument, ⟨w, g, []⟩)
  | some x =>
    match x.tri.body.bind w.body with
    | none => (.threw .invalidArgument, ⟨w, g, []⟩)
    | some K =>
      let r := x.tri.radius
      let s := x.tri.spacing
      let c := w.next
      let σ : St V G := St.alloc ⟨w, g, []⟩ K
      match canonicalRandomElement (S.env c r s) (rawSites (S.env c r s) K mv) σ.gen with
      | (none, g1) => finish S r s slot c (.error .noCandidate, { σ with gen := g1 })
      | (some x, g1) =>
        finish S r s slot c (siteLoop S r s validator mv true c [x] .noCandidate
          { σ with gen := g1 })

end CDT.Atomic

import Mathlib.Logic.Function.Basic
import Mathlib.Data.Fin.Basic
/-
Who owns the lock grid a triangulation refers to: `Delaunay_state`
(include/Foliated_triangulation.hpp:173-349) and the snapshot functions.

Objects live in slots.  A slot holds what a `Delaunay_state`, a `Pending_state`, a local
`std::unique_ptr` or a local `Delaunay` holds: possibly the ownership of a grid, possibly a
triangulation with its raw pointer to a grid.  The bounding box of a grid is modelled in `LockBox`.
-/
namespace CDT.Own

/-- A named object, or one of the temporaries inside one operation. -/
inductive Slot where
  | var (n : ℕ)
  | temp (k : Fin 5)
  deriving DecidableEq

/-- A CGAL triangulation: its contents and its non-owning lock pointer. -/
structure Delaunay (T : Type) where
  content : T
  pointer : Option ℕ
  deriving DecidableEq

/-- The objects of a program and the lock grids that exist. -/
structure Mem (T : Type) where
  owner : Slot → Option ℕ
  tri : Slot → Option (Delaunay T)
  live : ℕ → Bool
  next : ℕ

/-- The elementary effects on these objects. -/
inductive Instr (T : Type) where
  /-- `auto a = std::make_unique<Lock_data_structure>(...)` -/
  | makeGrid (a : Slot)
  /-- `Delaunay a{Kernel{}, b.get()}`; without `b`, `Delaunay a{}` -/
  | newTri (a : Slot) (b : Option Slot) (content : T)
  /-- `a.set_lock_data_structure(b.get())`; without `b`, `nullptr` -/
  | setLock (a : Slot) (b : Option Slot)
  /-- move construction of a `std::unique_ptr` -/
  | moveOwner (a b : Slot)
  /-- move construction of a `Delaunay`: CGAL leaves the pointer in the source -/
  | moveTri (a b : Slot)
  /-- copy construction of a `Delaunay`: CGAL copies the pointer -/
  | copyTri (a b : Slot)
  /-- `Delaunay::swap`: everything including the pointer -/
  | swapTri (a b : Slot)
  /-- `std::swap` of two `std::unique_ptr` -/
  | swapOwner (a b : Slot)
  /-- `a.reset()` or the destructor of a `std::unique_ptr` -/
  | resetOwner (a : Slot)
  /-- the destructor of a `Delaunay` -/
  | destroyTri (a : Slot)
  /-- a change of the contents through CGAL -/
  | mutate (a : Slot) (f : T → T)

variable {T : Type}

/-- Effect of one instruction; `husk` gives the contents of a moved-from triangulation. -/
def exec (husk : T → T) (m : Mem T) : Instr T → Mem T
  | .makeGrid a => { m with
      owner := Function.update m.owner a (some m.next),
      live := Function.update m.live m.next true, next := m.next + 1 }
  | .newTri a b c => { m with tri := Function.update m.tri a (some ⟨c, b.bind m.owner⟩) }
  | .setLock a b => { m with
      tri := Function.update m.tri a ((m.tri a).map fun t => { t with pointer := b.bind m.owner }) }
  | .moveOwner a b => { m with
      owner := Function.update (Function.update m.owner a (m.owner b)) b none }
  | .moveTri a b => { m with
      tri := Function.update (Function.update m.tri a (m.tri b)) b ((m.tri b).map fun t => { t with content := husk t.content }) }
  | .copyTri a b => { m with tri := Function.update m.tri a (m.tri b) }
  | .swapTri a b => { m with
      tri := Function.update (Function.update m.tri a (m.tri b)) b (m.tri a) }
  | .swapOwner a b => { m with
      owner := Function.update (Function.update m.owner a (m.owner b)) b (m.owner a) }
  | .resetOwner a => { m with
      owner := Function.update m.owner a none,
      live := fun g => if m.owner a = some g then false else m.live g }
  | .destroyTri a => { m with tri := Function.update m.tri a none }
  | .mutate a f => { m with
      tri := Function.update m.tri a ((m.tri a).map fun t => { t with content := f t.content }) }

/-- Effect of a sequence. -/
def run (husk : T → T) (m : Mem T) (p : List (Instr T)) : Mem T := p.foldl (exec husk) m

/-- `state`, a `Pending_state`. -/
abbrev pending : Slot := .temp 0
/-- `lock`, the local owner. -/
abbrev lockLocal : Slot := .temp 1
/-- `triangulation`, the local triangulation. -/
abbrev triLocal : Slot := .temp 2
/-- `source` of `make_adopted_state`. -/
abbrev source : Slot := .temp 3
/-- `source` of the converting constructor, or the temporary copy of the copy constructor. -/
abbrev argument : Slot := .temp 4

/-- `make_empty_state` and `make_insertion_state`
(include/Foliated_triangulation.hpp:213-239), with and without
`CDT_ENABLE_PARALLEL_TRIANGULATION`. -/
def makeEmptyState (parallel : Bool) (empty : T) : List (Instr T) :=
  if parallel then
    [.makeGrid lockLocal, .newTri triLocal (some lockLocal) empty, .moveOwner pending lockLocal,
      .moveTri pending triLocal, .destroyTri triLocal, .resetOwner lockLocal]
  else [.newTri pending none empty]

/-- `make_adopted_state` (include/Foliated_triangulation.hpp:241-254). -/
def makeAdoptedState (parallel : Bool) : List (Instr T) :=
  if parallel then
    [.makeGrid lockLocal, .setLock source (some lockLocal), .moveOwner pending lockLocal,
      .moveTri pending source, .resetOwner lockLocal, .destroyTri source]
  else [.setLock source none, .moveTri pending source, .destroyTri source]

/-- `Delaunay_state(Pending_state)` (include/Foliated_triangulation.hpp:256-259), then the
destruction of the parameter. -/
def fromPending (a : Slot) : List (Instr T) :=
  [.moveOwner a pending, .moveTri a pending, .setLock pending none, .destroyTri pending,
    .resetOwner pending]

/-- `Delaunay_state(Delaunay source)` (include/Foliated_triangulation.hpp:277-279) once its argument
is constructed. -/
def adoptArgument (parallel : Bool) (a : Slot) : List (Instr T) :=
  .moveTri source argument :: makeAdoptedState parallel ++ fromPending a ++ [.destroyTri argument]

/-- Operations a program can perform on named objects.  Constructors build a dead slot; `x` stands
for a plain `Delaunay` outside any `Delaunay_state`. -/
inductive Op (T : Type) where
  /-- `Delaunay_state()` (include/Foliated_triangulation.hpp:262) -/
  | default (a : ℕ)
  /-- `Delaunay_state(Causal_vertices)`; `ok` is false when points coincide and the constructor
  throws (include/Foliated_triangulation.hpp:264-275) -/
  | insert (a : ℕ) (f : T → T) (ok : Bool)
  /-- a plain `Delaunay` built by the caller -/
  | plain (x : ℕ) (content : T)
  /-- `Delaunay_state(std::move(x))` (include/Foliated_triangulation.hpp:277-279) -/
  | adopt (a x : ℕ)
  /-- copy constructor (include/Foliated_triangulation.hpp:281-283) -/
  | copy (a b : ℕ)
  /-- move constructor (include/Foliated_triangulation.hpp:285-288) -/
  | move (a b : ℕ)
  /-- `swap` (include/Foliated_triangulation.hpp:290-295) -/
  | swap (a b : ℕ)
  /-- copy assignment `a = b`, with its local `copy`
  (include/Foliated_triangulation.hpp:297-305) -/
  | copyAssign (a b copy : ℕ)
  /-- move assignment `a = std::move(b)` (include/Foliated_triangulation.hpp:307-311) -/
  | moveAssign (a b : ℕ)
  /-- `x = std::move(a).into_detached_triangulation()`
  (include/Foliated_triangulation.hpp:339-347) -/
  | detach (x a : ℕ)
  /-- `x = delaunay_snapshot()` (include/Foliated_triangulation.hpp:1794-1800) -/
  | snapshot (x a : ℕ)
  /-- mutation through `mutable_triangulation_unchecked`
  (include/Foliated_triangulation.hpp:318-321), under its precondition -/
  | mutate (a : ℕ) (f : T → T)
  /-- end of life (include/Foliated_triangulation.hpp:313): members in reverse order -/
  | destroy (a : ℕ)

/-- Destruction of a `Delaunay_state`. -/
def destroyState (a : Slot) : List (Instr T) := [.destroyTri a, .resetOwner a]

/-- The copy constructor (include/Foliated_triangulation.hpp:281-283). -/
def copyState (parallel : Bool) (a b : Slot) : List (Instr T) :=
  .copyTri argument b :: adoptArgument parallel a

/-- The function `swap` (include/Foliated_triangulation.hpp:290-295). -/
def swapStates (a b : Slot) : List (Instr T) := [.swapTri a b, .swapOwner a b]

/-- The instructions of an operation. -/
def Op.code (parallel : Bool) (empty : T) : Op T → List (Instr T)
  | .default a => makeEmptyState parallel empty ++ fromPending (.var a)
  | .insert a f ok => makeEmptyState parallel empty ++ fromPending (.var a) ++
      .mutate (.var a) f :: (if ok then [] else destroyState (.var a))
  | .plain x c => [.newTri (.var x) none c]
  | .adopt a x => .moveTri argument (.var x) :: adoptArgument parallel (.var a)
  | .copy a b => copyState parallel (.var a) (.var b)
  | .move a b => [.moveOwner (.var a) (.var b), .moveTri (.var a) (.var b), .setLock (.var b) none]
  | .swap a b => swapStates (.var a) (.var b)
  | .copyAssign a b c =>
      if a = b then []
      else copyState parallel (.var c) (.var b) ++ swapStates (.var a) (.var c) ++
        destroyState (.var c)
  | .moveAssign a b => if a = b then [] else swapStates (.var a) (.var b)
  | .detach x a => [.setLock (.var a) none, .resetOwner (.var a), .moveTri (.var x) (.var a)]
  | .snapshot x a => [.copyTri (.var x) (.var a), .setLock (.var x) none]
  | .mutate a f => [.mutate (.var a) f]
  | .destroy a => destroyState (.var a)

/-- Nothing exists. -/
def Mem.initial : Mem T := ⟨fun _ => none, fun _ => none, fun _ => false, 0⟩

end CDT.Own

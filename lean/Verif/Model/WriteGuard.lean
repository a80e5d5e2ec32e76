import Verif.Model.Effect
import Mathlib.Logic.Function.Basic
/-
The guard and the mutex around `write_payload` (include/Utilities.hpp:1223-1253, 1515-1521,
1612-1614), for any number of threads.
-/
namespace CDT

/-- How far one active `write_payload` call has come. -/
inductive WritePhase where
  /-- the `WriteFileOperation` is constructed, the mutex not yet locked
  (include/Utilities.hpp:1519-1521) -/
  | guarded
  /-- the mutex is locked: file operations happen (include/Utilities.hpp:1522-1613) -/
  | locked
  /-- the lock has been destroyed, the `WriteFileOperation` not yet (end of the function or stack
  unwinding, include/Utilities.hpp:1614) -/
  | unlocked
  deriving DecidableEq

/-- One thread: its `thread_local` flag (include/Utilities.hpp:1229-1233) and its active calls,
innermost first. -/
structure WriterThread where
  active : Bool
  calls : List WritePhase

/-- What can be observed of the calls. -/
inductive WriteEvent (Tid : Type) where
  /-- the mutex was locked -/
  | begin (i : Tid)
  /-- a file operation, or the end of the serializer, validation or cleanup -/
  | operation (i : Tid)
  /-- the mutex was unlocked -/
  | finish (i : Tid)
  /-- a call threw `logic_error` -/
  | refused (i : Tid)

/-- A process: its threads, the owner of `write_file_mutex`
(include/Utilities.hpp:1223-1227) and the events so far, newest first. -/
structure Writers (Tid : Type) where
  threads : Tid → WriterThread
  owner : Option Tid
  log : List (WriteEvent Tid)

/-- The constructor of `WriteFileOperation` (include/Utilities.hpp:1238-1245): the new value of the
flag. -/
def guardConstruct (active : Bool) : Except Exc Bool :=
  if active then .error .logicError else .ok true

/-- The destructor of `WriteFileOperation` (include/Utilities.hpp:1247): the new value of the
flag. -/
def guardDestroy : Bool := false

variable {Tid : Type} [DecidableEq Tid]

/-- Replace one thread. -/
def Writers.set (w : Writers Tid) (i : Tid) (t : WriterThread) : Writers Tid :=
  { w with threads := Function.update w.threads i t }

/-- One step of the process.  A thread may call `write_payload` at any time, in particular from
within an active call (a serializer that writes a file).  Leaving a call, normally or by an
exception, destroys the lock if it was constructed and then the guard. -/
inductive WriterStep : Writers Tid → Writers Tid → Prop where
  /-- a call is refused by the constructor of the guard (include/Utilities.hpp:1240-1243, 1519) -/
  | refuse {w : Writers Tid} {i : Tid} {e : Exc}
      (h : guardConstruct (w.threads i).active = .error e) :
      WriterStep w { w with log := .refused i :: w.log }
  /-- a call constructs its guard (include/Utilities.hpp:1244, 1519) -/
  | enter {w : Writers Tid} {i : Tid} {a : Bool}
      (h : guardConstruct (w.threads i).active = .ok a) :
      WriterStep w (w.set i ⟨a, .guarded :: (w.threads i).calls⟩)
  /-- the innermost call locks the mutex (include/Utilities.hpp:1521), which blocks while it is
  owned -/
  | lock {w : Writers Tid} {i : Tid} {rest : List WritePhase}
      (h : (w.threads i).calls = .guarded :: rest) (hfree : w.owner = none) :
      WriterStep w { w.set i ⟨(w.threads i).active, .locked :: rest⟩ with
        owner := some i, log := .begin i :: w.log }
  /-- printing or locking throws: only the guard is destroyed (include/Utilities.hpp:1520-1521) -/
  | abandon {w : Writers Tid} {i : Tid} {rest : List WritePhase}
      (h : (w.threads i).calls = .guarded :: rest) :
      WriterStep w (w.set i ⟨guardDestroy, rest⟩)
  /-- work under the lock (include/Utilities.hpp:1522-1613) -/
  | operate {w : Writers Tid} {i : Tid} {rest : List WritePhase}
      (h : (w.threads i).calls = .locked :: rest) :
      WriterStep w { w with log := .operation i :: w.log }
  /-- the body ends or throws: the lock is destroyed (include/Utilities.hpp:1606-1614) -/
  | unlock {w : Writers Tid} {i : Tid} {rest : List WritePhase}
      (h : (w.threads i).calls = .locked :: rest) :
      WriterStep w { w.set i ⟨(w.threads i).active, .unlocked :: rest⟩ with
        owner := none, log := .finish i :: w.log }
  /-- the guard is destroyed and the call returns or propagates its exception
  (include/Utilities.hpp:1247, 1614) -/
  | leave {w : Writers Tid} {i : Tid} {rest : List WritePhase}
      (h : (w.threads i).calls = .unlocked :: rest) :
      WriterStep w (w.set i ⟨guardDestroy, rest⟩)

/-- A process that has not written yet. -/
def Writers.initial : Writers Tid := ⟨fun _ => ⟨false, []⟩, none, []⟩

end CDT

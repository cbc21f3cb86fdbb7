import Verif.Model.Counter
/-!
# Model of `Patro/Common/Singleton.py`

Interleaving semantics as in `Verif/Model/Counter.lean`.  Objects are identified by fresh numbers.  The
constructor of the class (`type.__call__`, `self._cls(...)`) is one step that either returns a new object or
raises; it is assumed not to instantiate the same singleton class recursively, so that the re-entrancy of the
`RLock` is never used. The last section is about the constructors which do it.
-/

namespace Patro.Singleton

open Patro
open Patro.Counter (upd)

/-- Where a thread stands inside a call `cls(...)`; `k` identifies the call (ghost). -/
inductive Pc where
  | idle
  /-- before `with cls._rlock` (Singleton.py:56) -/
  | acquiring (k : Nat)
  /-- about to evaluate `cls._instance is None` (57; 81 and 96 without lock) -/
  | checking (k : Nat)
  /-- about to run the constructor (58; 82, 97) -/
  | constructing (k : Nat)
  /-- about to store the new object (58; 82, 97) -/
  | storing (k : Nat) (x : Nat)
  /-- about to leave the `with` block -/
  | releasing (k : Nat)
  /-- about to leave the `with` block because the constructor raised -/
  | raising (k : Nat)
  /-- about to evaluate `return cls._instance` (59; 83, 98) -/
  | returning (k : Nat)
  deriving DecidableEq, Repr

/-- Observable events. `ret k none` would be a call returning `None`. -/
inductive Event where
  | start (k : Nat)
  | created (x : Nat)
  | ret (k : Nat) (x : Option Nat)
  | raised (k : Nat)
  deriving DecidableEq, Repr

/-- The class attribute `_instance`, the lock, the threads. -/
structure Sys (T : Type _) where
  inst : Option Nat
  lock : Option T
  pc : T → Pc
  log : List Event
  freshCall : Nat
  freshObj : Nat

variable {T : Type _} [DecidableEq T]

/-- Initial state (Singleton.py:47-48; 74-75). -/
def init : Sys T :=
  { inst := none, lock := none, pc := fun _ => .idle, log := [], freshCall := 0, freshObj := 0 }

/-- `SingletonMetaClass.__call__` (Singleton.py:52-59), one atomic step of thread `t`. -/
inductive Step : Sys T → T → Sys T → Prop where
  | start (s : Sys T) (t : T) : s.pc t = .idle →
      Step s t { s with pc := upd s.pc t (.acquiring s.freshCall),
                        log := s.log ++ [.start s.freshCall], freshCall := s.freshCall + 1 }
  | acquire (s : Sys T) (t : T) (k : Nat) : s.pc t = .acquiring k → s.lock = none →
      Step s t { s with lock := some t, pc := upd s.pc t (.checking k) }
  | checkNone (s : Sys T) (t : T) (k : Nat) : s.pc t = .checking k → s.inst = none →
      Step s t { s with pc := upd s.pc t (.constructing k) }
  | checkSome (s : Sys T) (t : T) (k x : Nat) : s.pc t = .checking k → s.inst = some x →
      Step s t { s with pc := upd s.pc t (.releasing k) }
  | constructOk (s : Sys T) (t : T) (k : Nat) : s.pc t = .constructing k →
      Step s t { s with pc := upd s.pc t (.storing k s.freshObj), freshObj := s.freshObj + 1,
                        log := s.log ++ [.created s.freshObj] }
  | constructRaise (s : Sys T) (t : T) (k : Nat) : s.pc t = .constructing k →
      Step s t { s with pc := upd s.pc t (.raising k) }
  | store (s : Sys T) (t : T) (k x : Nat) : s.pc t = .storing k x →
      Step s t { s with inst := some x, pc := upd s.pc t (.releasing k) }
  | release (s : Sys T) (t : T) (k : Nat) : s.pc t = .releasing k →
      Step s t { s with lock := none, pc := upd s.pc t (.returning k) }
  | releaseRaise (s : Sys T) (t : T) (k : Nat) : s.pc t = .raising k →
      Step s t { s with lock := none, pc := upd s.pc t .idle, log := s.log ++ [.raised k] }
  | ret (s : Sys T) (t : T) (k : Nat) : s.pc t = .returning k →
      Step s t { s with pc := upd s.pc t .idle, log := s.log ++ [.ret k s.inst] }

/-- States reachable with the metaclass by any interleaving of any number of calls. -/
inductive Reachable : Sys T → Prop where
  | init : Reachable init
  | step {s s' : Sys T} {t : T} : Reachable s → Step s t s' → Reachable s'

/-- `singleton.__call__` (Singleton.py:79-83) and `singleton_func.get_instance` (94-98): the same without
any lock.  One atomic step of thread `t`. -/
inductive DStep : Sys T → T → Sys T → Prop where
  | start (s : Sys T) (t : T) : s.pc t = .idle →
      DStep s t { s with pc := upd s.pc t (.checking s.freshCall),
                         log := s.log ++ [.start s.freshCall], freshCall := s.freshCall + 1 }
  | checkNone (s : Sys T) (t : T) (k : Nat) : s.pc t = .checking k → s.inst = none →
      DStep s t { s with pc := upd s.pc t (.constructing k) }
  | checkSome (s : Sys T) (t : T) (k x : Nat) : s.pc t = .checking k → s.inst = some x →
      DStep s t { s with pc := upd s.pc t (.returning k) }
  | constructOk (s : Sys T) (t : T) (k : Nat) : s.pc t = .constructing k →
      DStep s t { s with pc := upd s.pc t (.storing k s.freshObj), freshObj := s.freshObj + 1,
                         log := s.log ++ [.created s.freshObj] }
  | constructRaise (s : Sys T) (t : T) (k : Nat) : s.pc t = .constructing k →
      DStep s t { s with pc := upd s.pc t .idle, log := s.log ++ [.raised k] }
  | store (s : Sys T) (t : T) (k x : Nat) : s.pc t = .storing k x →
      DStep s t { s with inst := some x, pc := upd s.pc t (.returning k) }
  | ret (s : Sys T) (t : T) (k : Nat) : s.pc t = .returning k →
      DStep s t { s with pc := upd s.pc t .idle, log := s.log ++ [.ret k s.inst] }

/-- States reachable with the decorator by any interleaving. -/
inductive DReachable : Sys T → Prop where
  | init : DReachable init
  | step {s s' : Sys T} {t : T} : DReachable s → DStep s t s' → DReachable s'

/-- States reachable with the decorator when a call only starts while no other call is running. -/
inductive DSequential : Sys T → Prop where
  | init : DSequential init
  | step {s s' : Sys T} {t : T} : DSequential s → DStep s t s' →
      (s.pc t = .idle → ∀ u, s.pc u = .idle) → DSequential s'

/-! ## Constructors which use their own class

The lock is re-entrant (Singleton.py:48): the constructor of a singleton class can instantiate the class. One thread is followed, the others
wait for the lock. -/

/-- What is left of a run of the constructor: it returns, raises, or instantiates its own class, where the constructor behaves as `inner` if it is
run again, and goes on as `rest`; an exception of the inner call is not caught. -/
inductive Run where
  | done
  | raise
  | call (inner rest : Run)
  deriving DecidableEq, Repr

/-- The class attribute `_instance`, the next object, and the objects returned by the calls so far, in the order of their returns. -/
structure Seq where
  inst : Option Nat := none
  fresh : Nat := 0
  returned : List Nat := []
  deriving DecidableEq, Repr

/-- The end of `__call__` (Singleton.py:58-59) when the constructor of the object `x` has been run. -/
def Seq.finish (x : Nat) : Seq × Bool → Seq × Bool
  | (s, false) => (s, false)
  | (s, true) => ({ s with inst := some x, returned := s.returned ++ [x] }, true)

/-- The rest of a run of the constructor; the boolean is false when it raises. The calls of the class are those of `SingletonMetaClass.__call__`
(Singleton.py:52-59). The object is made before the constructor is run (`__new__`); its number plays no other part. -/
def Run.exec : Run → Seq → Seq × Bool
  | .done, s => (s, true)
  | .raise, s => (s, false)
  | .call inner rest, s =>
    match s.inst with
    | some x => rest.exec { s with returned := s.returned ++ [x] }
    | none =>
      match Seq.finish s.fresh (inner.exec { s with fresh := s.fresh + 1 }) with
      | (s, true) => rest.exec s
      | (s, false) => (s, false)

/-- `cls(...)` (Singleton.py:52-59) when the constructor, if it is run, behaves as given: `none` when it raises. -/
def Seq.call (r : Run) (s : Seq) : Seq × Option Nat :=
  match s.inst with
  | some x => ({ s with returned := s.returned ++ [x] }, some x)
  | none =>
    match Seq.finish s.fresh (r.exec { s with fresh := s.fresh + 1 }) with
    | (s', true) => (s', s'.inst)
    | (s', false) => (s', none)

/-- Calls one after the other, and what each returns. -/
def Seq.calls : List Run → Seq → Seq × List (Option Nat)
  | [], s => (s, [])
  | r :: rs, s =>
    let (s', x) := s.call r
    let (s'', xs) := Seq.calls rs s'
    (s'', x :: xs)

end Patro.Singleton

import Verif.Model.Py
/-!
# Model of `Patro/Common/AtomicCounter.py` and of the id allocation in `Patro/Common/Object.py`

Two models: a small-step interleaving semantics for threads (each attribute read, attribute write, lock
acquisition and lock release is one atomic step, as under CPython's GIL), and the sequential functions used
by a single thread.
-/

namespace Patro.Counter

open Patro

/-- A method call on the counter: `increment(v)` (AtomicCounter.py:49-55) or `set(v)` (59-64). -/
inductive Call where
  | inc (v : Int)
  | set (v : Int)
  deriving DecidableEq, Repr

/-- Where a thread stands inside a call.  `k` identifies the call (ghost), `c` is the call. -/
inductive Pc where
  /-- between calls -/
  | idle
  /-- call entered, waiting for `self._lock` (AtomicCounter.py:53, 61) -/
  | acquiring (k : Nat) (c : Call)
  /-- lock held, about to read `self._value` (54, 62) -/
  | reading (k : Nat) (c : Call)
  /-- lock held, about to store `w` in `self._value` (54, 64) -/
  | writing (k : Nat) (c : Call) (w : Int)
  /-- lock held, leaving the `with` block; `raised` when `ValueError` is propagating (63) -/
  | releasing (k : Nat) (c : Call) (raised : Bool)
  /-- lock released, about to read `self._value` again for `return self._value` (55) -/
  | returning (k : Nat)
  deriving DecidableEq, Repr

/-- Observable events: a call starts, an `increment` returns a value, a `set` returns, a `set` raises. -/
inductive Event where
  | start (k : Nat) (c : Call)
  | ret (k : Nat) (r : Int)
  | done (k : Nat)
  | raised (k : Nat)
  deriving DecidableEq, Repr

/-- A counter shared by threads of type `T`; `todo` is what each thread is still going to call, `log` the
events so far, in order. -/
structure Sys (T : Type _) where
  value : Int
  lock : Option T
  pc : T → Pc
  todo : T → List Call
  log : List Event
  fresh : Nat

variable {T : Type _} [DecidableEq T]

/-- Function update. -/
def upd {β : Type _} (f : T → β) (t : T) (b : β) : T → β := fun x => if x = t then b else f x

/-- One atomic step of thread `t`. -/
inductive Step : Sys T → T → Sys T → Prop where
  /-- enter the next call -/
  | start (s : Sys T) (t : T) (c : Call) (cs : List Call) :
      s.pc t = .idle → s.todo t = c :: cs →
      Step s t { s with pc := upd s.pc t (.acquiring s.fresh c), todo := upd s.todo t cs,
                        log := s.log ++ [.start s.fresh c], fresh := s.fresh + 1 }
  /-- `with self._lock` (AtomicCounter.py:53, 61): only when the lock is free -/
  | acquire (s : Sys T) (t : T) (k : Nat) (c : Call) :
      s.pc t = .acquiring k c → s.lock = none →
      Step s t { s with lock := some t, pc := upd s.pc t (.reading k c) }
  /-- load `self._value` and add (54) -/
  | readInc (s : Sys T) (t : T) (k : Nat) (v : Int) :
      s.pc t = .reading k (.inc v) →
      Step s t { s with pc := upd s.pc t (.writing k (.inc v) (s.value + v)) }
  /-- `if value <= self._value` false (62) -/
  | readSetOk (s : Sys T) (t : T) (k : Nat) (v : Int) :
      s.pc t = .reading k (.set v) → ¬ v ≤ s.value →
      Step s t { s with pc := upd s.pc t (.writing k (.set v) v) }
  /-- `if value <= self._value: raise ValueError` (62-63) -/
  | readSetBad (s : Sys T) (t : T) (k : Nat) (v : Int) :
      s.pc t = .reading k (.set v) → v ≤ s.value →
      Step s t { s with pc := upd s.pc t (.releasing k (.set v) true) }
  /-- store `self._value` (54, 64) -/
  | write (s : Sys T) (t : T) (k : Nat) (c : Call) (w : Int) :
      s.pc t = .writing k c w →
      Step s t { s with value := w, pc := upd s.pc t (.releasing k c false) }
  /-- leave the `with` block of `increment` -/
  | releaseInc (s : Sys T) (t : T) (k : Nat) (v : Int) (b : Bool) :
      s.pc t = .releasing k (.inc v) b →
      Step s t { s with lock := none, pc := upd s.pc t (.returning k) }
  /-- leave the `with` block of `set`; nothing is returned -/
  | releaseSet (s : Sys T) (t : T) (k : Nat) (v : Int) :
      s.pc t = .releasing k (.set v) false →
      Step s t { s with lock := none, pc := upd s.pc t .idle, log := s.log ++ [.done k] }
  /-- leave the `with` block of `set` with the exception propagating -/
  | releaseRaise (s : Sys T) (t : T) (k : Nat) (v : Int) :
      s.pc t = .releasing k (.set v) true →
      Step s t { s with lock := none, pc := upd s.pc t .idle, log := s.log ++ [.raised k] }
  /-- `return self._value` (55), outside of the lock -/
  | ret (s : Sys T) (t : T) (k : Nat) :
      s.pc t = .returning k →
      Step s t { s with pc := upd s.pc t .idle, log := s.log ++ [.ret k s.value] }

/-- `AtomicCounter(initial)` (AtomicCounter.py:37-40) shared by threads about to run `todo`. -/
def init (initial : Int) (todo : T → List Call) : Sys T :=
  { value := initial, lock := none, pc := fun _ => .idle, todo := todo, log := [], fresh := 0 }

/-- States reachable by any interleaving. -/
inductive Reachable (initial : Int) (todo : T → List Call) : Sys T → Prop where
  | init : Reachable initial todo (init initial todo)
  | step {s s' : Sys T} {t : T} : Reachable initial todo s → Step s t s' → Reachable initial todo s'

/-! ## Sequential use -/

/-- `increment` in a single thread: new counter value, returned value (AtomicCounter.py:49-55). -/
def increment (value : Int) (v : Int := 1) : Int × Int :=
  let value' := value + v
  (value', value')

/-- `set` in a single thread (AtomicCounter.py:59-64): the new counter value, or `ValueError` (counter
unchanged). -/
def set (value : Int) (v : Int) : Except PyErr Int :=
  if v ≤ value then .error .valueError else .ok v

/-- `ObjectGlobalIdMixin.__init__` (Object.py:71-78): the shared counter before and after, and the object's
id or the exception. -/
def newId (counter : Int) (id : Option Int) : Int × Except PyErr Int :=
  match id with
  | some i =>
    match set counter i with
    | .ok c => (c, .ok i)
    | .error e => (counter, .error e)
  | none =>
    let (c, r) := increment counter
    (c, .ok r)

/-- `SketchOperation.__init__` lines 83-86 (SketchOperation.py): `ValueError` becomes `NameError`. -/
def newOperationId (counter : Int) (id : Option Int) : Int × Except PyErr Int :=
  match newId counter id with
  | (c, .error .valueError) => (c, .error .nameError)
  | r => r

/-- Initial value of the shared counter (Object.py:67). -/
def initialCounter : Int := -1

/-- Create objects one after the other in one thread, an exception being caught by the caller. -/
def createAll (counter : Int) : List (Option Int) → Int × List (Except PyErr Int)
  | [] => (counter, [])
  | q :: qs =>
    let (c, r) := newId counter q
    let (c', rs) := createAll c qs
    (c', r :: rs)

end Patro.Counter

import Verif.Model.Py
import Verif.Model.Text
import Verif.Model.Xml
/-!
# Model of `Platform` of `Patro/Common/Platform.py` on Linux

What is read of `/proc/cpuinfo` and `/proc/meminfo`, given as the lists of their lines, with the line feeds. The node, the machine, the
architecture and the version of Python, read by the module `platform`, are not modelled, nor are the screens of Qt.
-/

namespace Patro.Platform

open Xml (Text)

/-- `pattern in line`. -/
def isIn (pattern line : Text) : Bool := (Text.find pattern line 0).isSome

/-- `line.split(':')[1]`. -/
def afterColon (line : Text) : Except PyErr Text :=
  match (Xml.split ':' line)[1]? with
  | some s => .ok s
  | none => .error .indexError

/-- The loops over the lines of a file: the first line with `pattern` is read by `read`, `None` is returned without one. -/
def firstLine {α : Type _} (pattern : Text) (read : Text → Except PyErr α) : List Text → Except PyErr (Option α)
  | [] => .ok none
  | line :: rest => if isIn pattern line then (read line).map some else firstLine pattern read rest

/-- `_get_cpu()` (Platform.py:87-97). -/
def cpu (cpuinfo : List Text) : Except PyErr (Option Text) :=
  firstLine "model name".toList (fun line => do return Xml.strip (← afterColon line)) cpuinfo

/-- `_get_number_of_cores()` (Platform.py:101-112). -/
def cores (cpuinfo : List Text) : Nat :=
  cpuinfo.foldl (fun n line => if isIn "processor".toList line then n + 1 else n) 0

/-- `_get_cpu_khz()` (Platform.py:116-126). `khz` is the value of `int(1000 * float(text))`, or what it raises. -/
def cpuKhz (khz : Text → Except PyErr Int) (cpuinfo : List Text) : Except PyErr (Option Int) :=
  firstLine "cpu MHz".toList (fun line => do khz (← afterColon line)) cpuinfo

/-- `_get_memory_size_kb()` (Platform.py:130-140). -/
def memoryKb (meminfo : List Text) : Except PyErr (Option Int) :=
  firstLine "MemTotal".toList (fun line => do
    let s ← afterColon line
    Xml.intFromText (s.take (s.length - 3))) meminfo

/-- What a platform holds (Platform.py:62-69). -/
structure Platform where
  cpu : Option Text
  cores : Nat
  khz : Int
  mhz : Int
  memoryKb : Int
  memoryMb : Int
deriving DecidableEq

/-- A division by a floating point number then `int`: of `None` it raises `TypeError` (Platform.py:65, 69). The numbers are small enough
to be exact before they are truncated. -/
def divide (x : Option Int) (d : Int) : Except PyErr (Int × Int) :=
  match x with
  | some x => .ok (x, x.tdiv d)
  | none => .error .typeError

/-- `Platform()` on Linux (Platform.py:50-69). -/
def new (khz : Text → Except PyErr Int) (cpuinfo meminfo : List Text) : Except PyErr Platform := do
  let name ← cpu cpuinfo
  let n := cores cpuinfo
  let (k, m) ← divide (← cpuKhz khz cpuinfo) 1000
  let (kb, mb) ← divide (← memoryKb meminfo) 1024
  return ⟨name, n, k, m, kb, mb⟩

end Patro.Platform

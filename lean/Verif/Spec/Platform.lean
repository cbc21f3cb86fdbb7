import Verif.Model.Platform
/-! # Specification for the platform: the files of Linux -/

namespace Patro.Platform

open Xml (Text)

/-- A line of `/proc/cpuinfo`: a key, a tabulation, a colon and a value. -/
def cpuLine (key value : String) : Text := key.toList ++ ['\t', ':', ' '] ++ value.toList ++ ['\n']

/-- What `/proc/cpuinfo` says of a processor: its index first, then its other lines. -/
structure Processor where
  index : String
  others : List (String × String)

/-- The lines of a processor. -/
def Processor.lines (p : Processor) : List Text := cpuLine "processor" p.index :: p.others.map fun (k, v) => cpuLine k v

/-- `/proc/cpuinfo`: an empty line after each processor. -/
def cpuinfo (ps : List Processor) : List Text := ps.flatMap fun p => p.lines ++ [['\n']]

/-- The line of the memory in `/proc/meminfo`, with any number of spaces before the number. -/
def memLine (spaces kb : Nat) : Text := "MemTotal:".toList ++ List.replicate spaces ' ' ++ Xml.natToText kb ++ " kB\n".toList

end Patro.Platform

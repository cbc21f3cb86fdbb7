import Verif.Model.Save
/-! # What a save does to the disk -/

namespace Patro.Save

open Xml (Text)

/-- At every moment the other files are as they were. -/
def OthersKept (disk : Disk) (path : Text) (states : List Disk) : Prop := ∀ d ∈ states, ∀ q, q ≠ path → d.get? q = disk.get? q

/-- At every moment the file is as it was or has a beginning of the new bytes. -/
def OldOrBeginning (disk : Disk) (path : Text) (new : Bytes) (states : List Disk) : Prop :=
  ∀ d ∈ states, d.get? path = disk.get? path ∨ ∃ b, d.get? path = some b ∧ b <+: new

/-- At the end the file has all the new bytes. -/
def Saved (path : Text) (new : Bytes) (states : List Disk) : Prop := ∃ d, states.getLast? = some d ∧ d.get? path = some new

/-- At every moment the disk is as it was. -/
def Untouched (disk : Disk) (states : List Disk) : Prop := states ≠ [] ∧ ∀ d ∈ states, d = disk

end Patro.Save

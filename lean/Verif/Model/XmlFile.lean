import Verif.Model.Save
/-!
# Model of `XmlFileMixin` (Patro/Common/Xml/XmlFile.py) and of the reading of a Valentina file from the disk
-/

namespace Patro.Save

open Xml (Text)

/-- The argument `data`: bytes, or another object, of which `str` is taken. -/
inductive Data where
  | bytes (b : Bytes)
  | text (t : Text)

/-- `bytes(text, 'utf-8')`. -/
def utf8 (t : Text) : Bytes := (String.ofList t).toUTF8.toList

/-- `str(self._path)` (XmlFile.py:42-48, 63): `Path(path)`, or `None`. The paths of the model are those which `Path` keeps as they are. -/
def strPath : Option Text → Text
  | some path => path
  | none => "None".toList

/-- The source of `parse()` (XmlFile.py:58-69). A file which cannot be read is one that is not on the disk. -/
def source (disk : Disk) (path : Option Text) (data : Option Data) : Except PyErr Bytes :=
  match data with
  | none =>
    match disk.get? (strPath path) with
    | some b => .ok b
    | none => .error .osError
  | some (.bytes b) => .ok b
  | some (.text t) => .ok (utf8 (Xml.strip t))

/-- `parse()` (XmlFile.py:58-71): `fromstring` is `etree.fromstring`. -/
def parse {X : Type} (fromstring : Bytes → Except PyErr X) (disk : Disk) (path : Option Text) (data : Option Data) : Except PyErr X := do
  let b ← source disk path data
  fromstring b

/-- `ValFileReader(path)` (Pattern.py:201-263, 351-372) on a disk: the file is parsed, then read (`Valentina.readFile`). -/
def loadValentina {F : Type} (env : Valentina.Env F) (fromstring : Bytes → Except PyErr Valentina.Document) (vit : Text → Except PyErr Unit)
    (eval : List (Valentina.Operation F) → Except PyErr Unit) (counter : Int) (disk : Disk) (path : Text) :
    Int × Except PyErr (Valentina.Pat F) :=
  match parse fromstring disk (some path) none with
  | .error e => (counter, .error e)
  | .ok document => Valentina.readFile env vit eval counter document

end Patro.Save

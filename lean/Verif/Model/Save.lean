import Verif.Model.Valentina
import Verif.Model.Tex
/-!
# Model of the files written by Patro

`ValFileWriter` (Patro/FileFormat/Valentina/Pattern.py), `SvgFileWriter` (Patro/FileFormat/Svg/SvgFile.py) and `Document.write`
(Patro/GraphicEngine/TeX/Document.py). A save is the list of the states of the disk, from the first to the last, and what it raises. The program can
be stopped after any of these states.

What is external is a parameter: whether a file can be opened, the bytes of a tree or of a text, and the pieces in which the system writes
the bytes.
-/

namespace Patro.Save

open Xml (Text)

/-- Bytes. -/
abbrev Bytes := List UInt8

/-- The files, by path. -/
abbrev Disk := Dict Text Bytes

/-- The world: `open(path, 'w')` succeeds or raises, and the bytes are written in pieces. -/
structure World where
  canOpen : Disk → Text → Except PyErr Unit
  pieces : Bytes → List Bytes
  whole : ∀ b, (pieces b).flatten = b

/-- The states of the disk while the pieces are appended to an open file. -/
def appendAll (disk : Disk) (path : Text) : Bytes → List Bytes → List Disk
  | _, [] => []
  | old, b :: l => disk.set path (old ++ b) :: appendAll disk path (old ++ b) l

/-- `with open(path, 'w') as fh: fh.write(…)` (Pattern.py:428-432, Document.py:105-108): the file is emptied when it is opened; the content is
computed then. -/
def openWrite (w : World) (disk : Disk) (path : Text) (content : Except PyErr Bytes) : List Disk × Except PyErr Unit :=
  match w.canOpen disk path with
  | .error e => ([disk], .error e)
  | .ok () =>
    match content with
    | .error e => ([disk, disk.set path []], .error e)
    | .ok b => (disk :: disk.set path [] :: appendAll disk path [] (w.pieces b), .ok ())

/-- `ValFileWriter(path, vit_file, pattern)` (Pattern.py:376-432): the tree is built before the file is opened. `tostring` is
`etree.tostring(root, pretty_print=True)`. -/
def saveValentina {F : Type} (env : Valentina.Env F) (tostring : Valentina.Document → Bytes) (w : World) (disk : Disk) (path : Text)
    (vit : Option Text) (pattern : Valentina.Pat F) : List Disk × Except PyErr Unit :=
  match Valentina.writeFile env vit pattern with
  | .error e => ([disk], .error e)
  | .ok document => openWrite w disk path (.ok (tostring document))

/-- `SvgFileWriter._write(paper, root_tree, transformation)` (SvgFile.py:419-443): the group, if there is a transformation, and each element are
made, or raise, before the file is written. `toXml` is the method `to_xml` of the elements, `tostring` the bytes of the tree. -/
def saveSvg {E X : Type} (toXml : E → Except PyErr X) (tostring : Option X → List X → Bytes) (w : World) (disk : Disk) (path : Text)
    (group : Option E) (elements : List E) : List Disk × Except PyErr Unit :=
  match group.toList.mapM toXml with
  | .error e => ([disk], .error e)
  | .ok g =>
    match elements.mapM toXml with
    | .error e => ([disk], .error e)
    | .ok l => openWrite w disk path (.ok (tostring g.head? l))

/-- `Document.write()` (Document.py:105-108): the text is computed, and encoded, once the file is opened. `encode` is the encoding of the
locale, which raises `UnicodeEncodeError` (a `ValueError`) if it does not have a character. -/
def saveTex (encode : Text → Except PyErr Bytes) (w : World) (disk : Disk) (d : Tex.Document) : List Disk × Except PyErr Unit :=
  openWrite w disk d.texFilename (do encode (← d.str))

end Patro.Save

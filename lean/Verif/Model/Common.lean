import Verif.Model.Xml
import Verif.Model.Text
/-!
# Model of `Patro/Common/Path.py`, of the monostate of `Common/Singleton.py`, of `Common/Logging/Logging.py` and of the root of a SVG file

Paths are those of POSIX systems. Directories have no links.
-/

namespace Patro.Common

open Xml (Text)

/-! ## Paths -/

/-- `os.path.dirname(path)` (Python's posixpath): what is before the last slash, this one included, without the slashes at its end unless there is
nothing else. -/
def dirname (path : Text) : Text :=
  let head := (path.reverse.dropWhile (· ≠ '/')).reverse
  if head.all (· = '/') then head else (head.reverse.dropWhile (· = '/')).reverse

/-- `parent_directory_of(file_name, step)` (Common/Path.py:33-37). -/
def parentDirectoryOf (fileName : Text) (step : Nat := 1) : Text := (List.range step).foldl (fun directory _ => dirname directory) fileName

/-- `os.path.join(a, b)` (Python's posixpath). -/
def pathJoin (a b : Text) : Text :=
  if b.head? = some '/' then b else if a.isEmpty || a.getLast? = some '/' then a ++ b else a ++ '/' :: b

/-- What is in a directory, in the order of the system. -/
inductive Listing where
  | nil
  | file (name : Text) (rest : Listing)
  | dir (name : Text) (children rest : Listing)

/-- The names of the files of a directory, as given by `os.walk`. -/
def Listing.files : Listing → List Text
  | .nil => []
  | .file name rest => name :: rest.files
  | .dir _ _ rest => rest.files

/-- The part of `os.walk` for what is under a directory. -/
def Listing.walkDirs (path : Text) : Listing → List (Text × List Text)
  | .nil => []
  | .file _ rest => rest.walkDirs path
  | .dir name children rest => (pathJoin path name, children.files) :: children.walkDirs (pathJoin path name) ++ rest.walkDirs path

/-- `os.walk(path)`, top down, without the names of the directories; nothing for a path that is not a directory. -/
def walk (system : Text → Option Listing) (path : Text) : List (Text × List Text) :=
  match system path with
  | none => []
  | some listing => (path, listing.files) :: listing.walkDirs path

/-- The parameter `directories`: a tuple or a list of paths, a text, or bytes. -/
inductive Directories where
  | paths (l : List Text)
  | text (t : Text)
  | bytes

/-- What `for directory in directories` gives (Common/Path.py:42-44): the characters of a text. -/
def Directories.iter : Directories → List Text
  | .paths l => l
  | .text t => t.map fun c => [c]
  | .bytes => []

/-- `find(file_name, directories)` (Common/Path.py:41-48) for a name that is a text: under bytes the names are bytes, which are never equal to a text. -/
def find (system : Text → Option Listing) (fileName : Text) (directories : Directories) : Except PyErr Text :=
  match (directories.iter.flatMap (walk system)).find? fun entry => entry.2.contains fileName with
  | some entry => .ok (pathJoin entry.1 fileName)
  | none => .error .nameError

/-! ## The monostate -/

/-- Objects of classes derived from `monostate` (Common/Singleton.py:103-116): each object has the dictionary of its class; `dicts` are the
dictionaries. -/
structure World (V : Type) where
  objects : List Nat := []
  dicts : Nat → Dict Text V := fun _ => []

/-- `cls(*args)` (Common/Singleton.py:112-116) for a class without `__init__`, where `state` is the dictionary that `cls._shared_state` gives, its own
or that of a class it derives from. `object.__new__` refuses arguments since `__new__` is redefined. -/
def World.new {V : Type} (w : World V) (state arguments : Nat) : Except PyErr (World V) :=
  if arguments = 0 then .ok { w with objects := w.objects ++ [state] } else .error .typeError

/-- `object.name = value`. -/
def World.setAttr {V : Type} (w : World V) (object : Nat) (name : Text) (value : V) : World V :=
  match w.objects[object]? with
  | none => w
  | some d => { w with dicts := fun i => if i = d then (w.dicts d).set name value else w.dicts i }

/-- `object.name`. -/
def World.getAttr {V : Type} (w : World V) (object : Nat) (name : Text) : Except PyErr V :=
  match w.objects[object]? with
  | none => .error .nameError
  | some d =>
    match (w.dicts d).get? name with
    | some v => .ok v
    | none => .error .attributeError

/-- What a program does with them. -/
inductive Action (V : Type) where
  | new (state arguments : Nat)
  | set (object : Nat) (name : Text) (value : V)

/-- A program that goes on when a class raises. -/
def World.run {V : Type} (w : World V) : List (Action V) → World V
  | [] => w
  | .new state arguments :: rest =>
    match w.new state arguments with
    | .ok w' => w'.run rest
    | .error _ => w.run rest
  | .set object name value :: rest => (w.setAttr object name value).run rest

/-! ## Logging -/

/-- The configuration read from a YAML file: sections, their entries, and the options of these; what has another form is left out. -/
abbrev Config := Dict Text (Dict Text (Dict Text Text))

/-- The systems (Config/ConfigInstall.py:37-62); on another system the attribute `_name` is missing. -/
inductive Os where
  | linux
  | windows
  | osx
  | other

/-- `OsFactory()` (Config/ConfigInstall.py:37-44) for the text `sys.platform`. -/
def osOf (platform : Text) : Os :=
  if "linux".toList.isPrefixOf platform then .linux
  else if "win".toList.isPrefixOf platform then .windows
  else if "darwin".toList.isPrefixOf platform then .osx
  else .other

/-- `config[section][entry][option] = value`. -/
def Config.setOption (c : Config) (section_ entry option value : Text) : Except PyErr Config := do
  let s ← c.getItem section_
  let e ← s.getItem entry
  return c.set section_ (s.set entry (e.set option value))

/-- The configuration given to `dictConfig` by `setup_logging` (Common/Logging/Logging.py:38-49). -/
def loggingConfig (os : Os) (c : Config) : Except PyErr Config := do
  let c ← match os with
    | .linux => do
      let s ← c.getItem "formatters".toList
      let e ← s.getItem "ansi".toList
      let format ← e.getItem "format".toList
      c.setOption "formatters".toList "ansi".toList "format".toList (Text.replace "<ESC>".toList ['\x1b'] format)
    | .other => .error .attributeError
    | _ => .ok c
  let formatter := match os with
    | .windows => "simple".toList
    | _ => "ansi".toList
  c.setOption "handlers".toList "console".toList "formatter".toList formatter

/-- The level of the logger (Common/Logging/Logging.py:53-56), where `level` is the variable of the environment, and `number` gives the numbers
among the attributes of the module `logging`: `setLevel(None)` raises. -/
def loggerLevel (number : Text → Option Int) (level : Option Text) : Except PyErr (Option Int) :=
  match level with
  | none => .ok none
  | some name =>
    match number name with
    | some n => .ok (some n)
    | none => .error .typeError

/-! ## The root of a SVG file -/

/-- `on_svg_root(svg_root)` (FileFormat/Svg/SvgFile.py:359-363) for the value of the attribute `view_box` of the root: the bounds of the two intervals of
`view_box`. `Interval2D` is external. -/
def onSvgRoot {K : Type} (viewBox : Option (List K)) : Except PyErr ((K × K) × (K × K)) :=
  match viewBox with
  | none => .error .typeError
  | some [xInf, yInf, xSup, ySup] => .ok ((xInf, xSup), (yInf, ySup))
  | some _ => .error .valueError

end Patro.Common

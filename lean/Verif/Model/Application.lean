import Verif.Model.Xml
/-!
# Model of `Patro/QtApplication/QmlApplication.py` and `Patro/Common/ArgparseAction.py`

The window, the event loop and the engine of Qt are outside of the model. What the program shows is a list of events: the messages given to
the logger, the lines printed and the script that is run.
-/

namespace Patro.App

open Xml (Text)

/-! ## The single application -/

/-- `Application.create(…)` (QmlApplication.py:110-117): `cls.instance` before the call, and what the constructor does, which is an object or an
exception. The result of the call and `cls.instance` after it. -/
def create {α : Type _} (inst : Option α) (constructor : Except PyErr α) : Except PyErr α × Option α :=
  match inst with
  | some _ => (.error .nameError, inst)
  | none =>
    match constructor with
    | .ok a => (.ok a, some a)
    | .error e => (.error e, none)

/-- Calls one after the other: the result of each, and `cls.instance` after them. -/
def creates {α : Type _} : Option α → List (Except PyErr α) → List (Except PyErr α) × Option α
  | inst, [] => ([], inst)
  | inst, c :: cs =>
    let (r, inst) := create inst c
    let (rs, inst) := creates inst cs
    (r :: rs, inst)

/-! ## The scene -/

/-- The scene of a `QmlApplication` (QmlApplication.py:74-79), a reference to an object or `None`, and the notifications of `sceneChanged`: the scene
at each of them. -/
structure SceneProperty (α : Type _) where
  scene : Option α := none
  notified : List (Option α) := []

/-- `scene = …` (QmlApplication.py:89-94): references are compared. -/
def SceneProperty.set {α : Type _} [DecidableEq α] (p : SceneProperty α) (scene : Option α) : SceneProperty α :=
  if p.scene ≠ scene then { scene := scene, notified := p.notified ++ [scene] } else p

/-! ## Messages of Qt -/

/-- The types of the messages of Qt. `other` is a value which is none of the five of Qt. -/
inductive MsgType
  | debug | info | warning | critical | fatal | other
  deriving DecidableEq

/-- What is shown. -/
inductive Event (β : Type _)
  | logDebug (message : Text)
  | logInfo (message : Text)
  | logWarning (message : Text)
  | print (line : Text)
  /-- a code is run, with the global variables of these names -/
  | run (code : β) (globals : List String)
  deriving DecidableEq

/-- The context of a message. The line is not used. -/
structure Context where
  file : Option Text
  line : Int
  function : Option Text

/-- `Path(…).name`: the last part of a path, without the empty parts and the dots. -/
def pathName (path : Text) : Text := (((Xml.split '/' path).filter fun p => p ≠ [] ∧ p ≠ ['.']).getLast?).getD []

/-- `str(…)` of a text which may be `None`. -/
def strOption : Option Text → Text
  | some t => t
  | none => "None".toList

/-- `_print_critical_message` (QmlApplication.py:170-181); `now` is the text of the date. -/
def printCritical {β : Type _} (now message : Text) : List (Event β) :=
  [.print ("\nCritical Error on ".toList ++ now), .print (List.replicate 80 '-'), .print message]

/-- The text of a message (QmlApplication.py:203-208). -/
def messageText (context : Context) (msg : Text) : Text :=
  let filePath := match context.file with
    | some file => pathName file
    | none => []
  filePath ++ " ".toList ++ strOption context.function ++ " — ".toList ++ msg

/-- `_message_handler(msg_type, context, msg)` (QmlApplication.py:185-212). For another type the variable `method` has no value. -/
def messageHandler {β : Type _} (now : Text) (type : MsgType) (context : Context) (msg : Text) : Except PyErr (List (Event β)) :=
  let message := messageText context msg
  match type with
  | .debug => .ok [.logDebug message]
  | .info => .ok [.logInfo message]
  | .warning => .ok [.logWarning message]
  | .critical | .fatal => .ok (printCritical now message)
  | .other => .error .unboundLocalError

/-! ## The script of the user -/

/-- What `open(path).read()` gives. -/
inductive Opened
  | source (text : Text)
  | notFound
  | failed (e : PyErr)
  deriving DecidableEq

/-- What `compile` gives; a `SyntaxError` with its text and its traceback. -/
inductive Compiled (β : Type _)
  | code (code : β)
  | syntaxError (text traceback : Text)
  | failed (e : PyErr)

/-- How the code ends: normally, with an exception, given by its text and its traceback, or with `SystemExit`. -/
inductive Ended
  | done
  | raised (text traceback : Text)
  | exit (code : Int)

/-- How a method ends. -/
inductive Result
  | done
  | exit (code : Int)
  | raised (e : PyErr)
  deriving DecidableEq

/-- The outside of the program: the absolute paths, the files, the compiler, the execution and the clock. -/
structure World (β : Type _) where
  absolute : Text → Text
  opened : Text → Opened
  compile : Text → Text → Compiled β
  run : β → Ended
  now : Text

/-- `_on_critical_exception` (QmlApplication.py:216-219). -/
def onCriticalException {β : Type _} (w : World β) (text traceback : Text) : List (Event β) × Result :=
  (printCritical w.now (text ++ "\n".toList ++ traceback), .exit 1)

/-- The execution of the code (QmlApplication.py:342-346). -/
def runCode {β : Type _} (w : World β) (code : β) : List (Event β) × Result :=
  match w.run code with
  | .done => ([.run code ["application"], .logInfo "User script done".toList], .done)
  | .raised text traceback =>
    let (es, r) := onCriticalException w text traceback
    (.run code ["application"] :: es, r)
  | .exit c => ([.run code ["application"]], .exit c)

/-- The compilation and the execution (QmlApplication.py:338-346). -/
def compileAndRun {β : Type _} (w : World β) (path source : Text) : List (Event β) × Result :=
  match w.compile source path with
  | .code code => runCode w code
  | .syntaxError text traceback => onCriticalException w text traceback
  | .failed e => ([], .raised e)

/-- `execute_user_script(script_path)` (QmlApplication.py:324-346). -/
def executeUserScript {β : Type _} (w : World β) (scriptPath : Text) : List (Event β) × Result :=
  let path := w.absolute scriptPath
  let first : Event β := .logInfo ("Execute user script:\n  ".toList ++ path)
  match w.opened path with
  | .source source =>
    let (es, r) := compileAndRun w path source
    (first :: es, r)
  | .notFound => ([first, .logInfo ("File ".toList ++ path ++ " not found".toList)], .exit 1)
  | .failed e => ([first], .raised e)

/-- `_post_init` (QmlApplication.py:316-320); `userScript` is the argument of `--user-script`. -/
def postInit {β : Type _} (w : World β) (userScript : Option Text) : List (Event β) × Result :=
  match userScript with
  | some path =>
    let (es, r) := executeUserScript w path
    (.logInfo "post init".toList :: es, r)
  | none => ([.logInfo "post init".toList], .done)

/-- `_check_qml_is_loaded(obj, url)` (QmlApplication.py:303-306). -/
def checkQmlIsLoaded (loaded : Bool) (url mainUrl : Text) : Result := if loaded = false ∧ url = mainUrl then .exit (-1) else .done

/-- `Application.exec_()` (QmlApplication.py:310-312): the code of the event loop is the code of the program. -/
def exec (loop : Int) : Result := .exit loop

/-! ## Arguments which are paths -/

/-- A value of an argument. -/
inductive ArgValue
  | none
  | text (t : Text)
  | list (l : List Text)

/-- What is kept of it. -/
inductive PathValue (π : Type _)
  | none
  | path (p : π)
  | paths (l : List π)

/-- `PathAction.__call__` (ArgparseAction.py:44-53), `toPath` is the constructor of `Path`. -/
def pathAction {π : Type _} (toPath : Text → π) : ArgValue → PathValue π
  | .none => .none
  | .text t => .path (toPath t)
  | .list l => .paths (l.map toPath)

/-! ## The whole program -/

/-- The signals `objectCreated` of the engine, in order (QmlApplication.py:298-306): the first one which ends the program does it. -/
def checkLoaded (mainUrl : Text) : List (Bool × Text) → Result
  | [] => .done
  | (loaded, url) :: rest =>
    match checkQmlIsLoaded loaded url mainUrl with
    | .done => checkLoaded mainUrl rest
    | r => r

/-- What is given to `execute_user_script`: without `--user-script` the action is not called and the default value is `None`
(QmlApplication.py:244-249). -/
def userScript (toPath : Text → Text) (argument : Option Text) : Option Text :=
  match argument with
  | none => none
  | some t =>
    match pathAction toPath (.text t) with
    | .path p => some p
    | _ => none

/-- The program (bin/patro:37-39, QmlApplication.py:121-153, 310-320): the arguments are read, the window is loaded and the event loop runs, which
begins with `_post_init`, by a timer of zero milliseconds. Simplification: `sys.exit` in a slot ends the program. `loop` is the code which the event
loop gives. -/
def launch {β : Type _} (w : World β) (toPath : Text → Text) (argument : Option Text) (mainUrl : Text) (signals : List (Bool × Text)) (loop : Int) :
    List (Event β) × Result :=
  match checkLoaded mainUrl signals with
  | .done =>
    match postInit w (userScript toPath argument) with
    | (es, .done) => (es, exec loop)
    | r => r
  | r => ([], r)

end Patro.App

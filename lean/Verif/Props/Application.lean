import Verif.Model.Application
import Mathlib.Data.List.Forall2
import Verif.Proof.Xml
/-! # The application -/

namespace Patro.App

open Xml (Text)

/-! ## C230: only one application -/

/-- C230. Whatever the calls of `create` and the exceptions of the constructor: the first constructor which succeeds makes the application, the calls
before it raise what their constructor raised, and all the calls after it raise `NameError` and leave the application as it is. -/
theorem creates_first {α : Type _} (failed : List PyErr) (a : α) (later : List (Except PyErr α)) :
    creates none (failed.map .error ++ .ok a :: later) = (failed.map .error ++ .ok a :: later.map fun _ => .error .nameError, some a) := by
  have after : ∀ later : List (Except PyErr α), creates (some a) later = (later.map fun _ => .error .nameError, some a) := by
    intro later
    induction later with
    | nil => rfl
    | cons c cs ih => simp only [creates, create, ih, List.map_cons]
  induction failed with
  | nil => simp only [List.map_nil, List.nil_append, creates, create, after]
  | cons e es ih => simp only [List.map_cons, List.cons_append, creates, create, ih]

/-- C230. When no constructor succeeds there is no application, and another call can still make one. -/
theorem creates_none {α : Type _} (failed : List PyErr) : creates (none : Option α) (failed.map .error) = (failed.map .error, none) := by
  induction failed with
  | nil => rfl
  | cons e es ih => simp only [List.map_cons, creates, create, ih]

/-- C230. At most one of the calls returns an application, and it is the one that is kept. -/
theorem creates_once {α : Type _} (calls : List (Except PyErr α)) (i j : Nat) (a b : α)
    (hi : (creates none calls).1[i]? = some (.ok a)) (hj : (creates none calls).1[j]? = some (.ok b)) :
    i = j ∧ (creates none calls).2 = some a := by
  have key : (∃ failed : List PyErr, calls = failed.map .error) ∨
      ∃ (failed : List PyErr) (c : α) (later : List (Except PyErr α)), calls = failed.map .error ++ .ok c :: later := by
    induction calls with
    | nil => exact .inl ⟨[], rfl⟩
    | cons c cs ih =>
      cases c with
      | ok c => exact .inr ⟨[], c, cs, rfl⟩
      | error e =>
        clear hi hj
        have ih : (∃ failed : List PyErr, cs = failed.map .error) ∨
            ∃ (failed : List PyErr) (c : α) (later : List (Except PyErr α)), cs = failed.map .error ++ .ok c :: later := by
          clear ih
          induction cs with
          | nil => exact .inl ⟨[], rfl⟩
          | cons c cs ih =>
            cases c with
            | ok c => exact .inr ⟨[], c, cs, rfl⟩
            | error e =>
              rcases ih with ⟨f, rfl⟩ | ⟨f, c, l, rfl⟩
              · exact .inl ⟨e :: f, rfl⟩
              · exact .inr ⟨e :: f, c, l, rfl⟩
        rcases ih with ⟨f, rfl⟩ | ⟨f, c, l, rfl⟩
        · exact .inl ⟨e :: f, rfl⟩
        · exact .inr ⟨e :: f, c, l, rfl⟩
  have at_ok : ∀ (failed : List PyErr) (c : α) (later : List (Except PyErr α)) (k : Nat) (x : α),
      (failed.map Except.error ++ Except.ok c :: later.map fun _ => (Except.error PyErr.nameError : Except PyErr α))[k]? = some (.ok x) →
      k = failed.length ∧ x = c := by
    intro failed c later k x h
    rcases Nat.lt_trichotomy k failed.length with hk | hk | hk
    · rw [List.getElem?_append_left (by simpa using hk), List.getElem?_map] at h
      cases hf : failed[k]? <;> simp [hf] at h
    · subst hk
      rw [List.getElem?_append_right (by simp)] at h
      simp at h
      exact ⟨rfl, h.symm⟩
    · rw [List.getElem?_append_right (by simpa using (Nat.le_of_lt hk)), List.length_map] at h
      obtain ⟨m, hm⟩ : ∃ m, k - failed.length = m + 1 := ⟨k - failed.length - 1, by omega⟩
      rw [hm, List.getElem?_cons_succ, List.getElem?_map] at h
      cases hf : later[m]? <;> simp [hf] at h
  rcases key with ⟨f, rfl⟩ | ⟨f, c, l, rfl⟩
  · rw [creates_none] at hi
    rw [List.getElem?_map] at hi
    cases hf : f[i]? <;> simp [hf] at hi
  · rw [creates_first] at hi hj ⊢
    obtain ⟨h1, rfl⟩ := at_ok _ _ _ _ _ hi
    obtain ⟨h2, -⟩ := at_ok _ _ _ _ _ hj
    exact ⟨h1.trans h2.symm, rfl⟩

example : creates (none : Option Nat) [.error .osError, .ok 7, .ok 8] = ([.error .osError, .ok 7, .error .nameError], some 7) := rfl

/-! ## C231: the scene shown -/

variable {α : Type _} [DecidableEq α]

/-- C231. Whatever the assignments, the scene is the last one assigned, or none. -/
theorem scene_last (scenes : List (Option α)) (s : Option α) :
    ((scenes ++ [s]).foldl SceneProperty.set ({} : SceneProperty α)).scene = s := by
  rw [List.foldl_append]
  simp only [List.foldl_cons, List.foldl_nil, SceneProperty.set]
  split
  · rfl
  · rename_i h
    exact not_not.1 h

/-- The values of a sequence without those that repeat the one before. -/
def changes (before : Option α) : List (Option α) → List (Option α)
  | [] => []
  | s :: ss => if s = before then changes before ss else s :: changes s ss

/-- C231. The view is notified exactly once for each assignment that changes the scene, with the scene assigned, and never for the others. -/
theorem scene_notified (scenes : List (Option α)) : (scenes.foldl SceneProperty.set ({} : SceneProperty α)).notified = changes none scenes := by
  have key : ∀ (ss : List (Option α)) (p : SceneProperty α), (ss.foldl SceneProperty.set p).notified = p.notified ++ changes p.scene ss := by
    intro ss
    induction ss with
    | nil => intro p; simp [changes]
    | cons s ss ih =>
      intro p
      rw [List.foldl_cons, ih]
      by_cases h : p.scene = s
      · simp [SceneProperty.set, h, changes]
      · have h' : s ≠ p.scene := fun e => h e.symm
        simp [SceneProperty.set, h, h', changes]
  simpa using key scenes {}

example : changes (none : Option Nat) [none, some 1, some 1, some 2, none, some 2] = [some 1, some 2, none, some 2] := by decide

/-! ## C232: the messages -/

variable {β : Type _}

omit [DecidableEq α] in
/-- C232. A debugging, informative or warning message is logged once, at its level; a critical or fatal one is printed, after the date and a line;
no other message is accepted. -/
theorem message_shown (now msg : Text) (context : Context) :
    messageHandler (β := β) now .debug context msg = .ok [.logDebug (messageText context msg)] ∧
    messageHandler (β := β) now .info context msg = .ok [.logInfo (messageText context msg)] ∧
    messageHandler (β := β) now .warning context msg = .ok [.logWarning (messageText context msg)] ∧
    (∀ type, type = .critical ∨ type = .fatal → messageHandler (β := β) now type context msg =
      .ok [.print ("\nCritical Error on ".toList ++ now), .print (List.replicate 80 '-'), .print (messageText context msg)]) ∧
    messageHandler (β := β) now .other context msg = .error .unboundLocalError := by
  refine ⟨rfl, rfl, rfl, ?_, rfl⟩
  rintro type (rfl | rfl) <;> rfl

/-- C232. The text of a message: the name of the file without its directory, the function and the message. An unknown function is written
`None`. -/
theorem message_text (directory name function msg : Text) (line : Int) (hn : '/' ∉ name) (h0 : name ≠ []) (h1 : name ≠ ['.']) :
    messageText ⟨some (directory ++ '/' :: name), line, some function⟩ msg = name ++ " ".toList ++ function ++ " — ".toList ++ msg ∧
    messageText ⟨some name, line, some function⟩ msg = name ++ " ".toList ++ function ++ " — ".toList ++ msg ∧
    messageText ⟨none, line, some function⟩ msg = " ".toList ++ function ++ " — ".toList ++ msg ∧
    messageText ⟨none, line, none⟩ msg = " None — ".toList ++ msg := by
  have hlast : ∀ l : List Text, ((l ++ [name]).filter fun p => p ≠ [] ∧ p ≠ ['.']).getLast?.getD [] = name := by
    intro l
    rw [List.filter_append]
    simp [h0, h1]
  have hsplit : ∀ d : Text, ∃ l, Xml.split '/' (d ++ '/' :: name) = l ++ [name] := by
    intro d
    induction d with
    | nil => exact ⟨[[]], by simp [Xml.split, Xml.split_of_not_mem _ _ hn]⟩
    | cons c d ih =>
      obtain ⟨l, hl⟩ := ih
      by_cases hc : c = '/'
      · exact ⟨[] :: l, by simp [Xml.split, hc, hl]⟩
      · cases l with
        | nil =>
          exfalso
          have : ∀ d : Text, 2 ≤ (Xml.split '/' (d ++ '/' :: name)).length := by
            intro d
            induction d with
            | nil => simp [Xml.split, Xml.split_of_not_mem _ _ hn]
            | cons c d ih =>
              rw [List.cons_append, Xml.split]
              split
              · simp; omega
              · split
                · simp_all
                · simp_all
          have := this d
          rw [hl] at this
          simp at this
        | cons w l => exact ⟨(c :: w) :: l, by simp [Xml.split, hc, hl]⟩
  refine ⟨?_, ?_, rfl, rfl⟩
  · obtain ⟨l, hl⟩ := hsplit directory
    simp only [messageText, pathName, hl, hlast, strOption]
  · have := hlast []
    rw [List.nil_append] at this
    simp only [messageText, pathName, Xml.split_of_not_mem _ _ hn, this, strOption]

example : messageText ⟨some "/usr/lib/qml/main.qml".toList, 12, some "load".toList⟩ "not found".toList = "main.qml load — not found".toList := by
  decide +kernel

example : '/' ∉ "main.qml".toList ∧ "main.qml".toList ≠ [] ∧ "main.qml".toList ≠ ['.'] := by decide

/-! ## C233: the script of the user -/

variable (w : World β)

/-- The codes that are run, with the names of their global variables. -/
def runs (es : List (Event β)) : List (β × List String) :=
  es.filterMap fun e => match e with
    | .run code globals => some (code, globals)
    | _ => none

/-- C233. What is run: at most one code, that of the file, once, with the only variable `application`; nothing when the file is not read or is not a
program. -/
theorem script_runs (path : Text) : runs (executeUserScript w path).1 =
    match w.opened (w.absolute path) with
    | .source source =>
      match w.compile source (w.absolute path) with
      | .code code => [(code, ["application"])]
      | _ => []
    | _ => [] := by
  unfold executeUserScript
  dsimp only
  cases w.opened (w.absolute path) with
  | notFound => simp [runs]
  | failed e => simp [runs]
  | source source =>
    simp only [compileAndRun]
    cases w.compile source (w.absolute path) with
    | syntaxError t b => simp [runs, onCriticalException, printCritical]
    | failed e => simp [runs]
    | code code =>
      simp only [runCode]
      cases w.run code <;> simp [runs, onCriticalException, printCritical]

/-- C233. How it ends: the program goes on exactly when the script was read, compiled and run to its end. It stops with the code 1 when the file
does not exist, is not a program, or when the script raises, and with the code of the script when it asks to stop. -/
theorem script_ends (path : Text) : (executeUserScript w path).2 =
    match w.opened (w.absolute path) with
    | .source source =>
      match w.compile source (w.absolute path) with
      | .code code =>
        match w.run code with
        | .done => .done
        | .raised _ _ => .exit 1
        | .exit c => .exit c
      | .syntaxError _ _ => .exit 1
      | .failed e => .raised e
    | .notFound => .exit 1
    | .failed e => .raised e := by
  unfold executeUserScript
  dsimp only
  cases w.opened (w.absolute path) with
  | notFound => rfl
  | failed e => rfl
  | source source =>
    simp only [compileAndRun]
    cases w.compile source (w.absolute path) with
    | syntaxError t b => rfl
    | failed e => rfl
    | code code =>
      simp only [runCode]
      cases w.run code <;> rfl

/-- C233. What is said: the path first, and then that the file does not exist, or the error with its traceback, or that the script is done. -/
theorem script_messages (path : Text) :
    ∃ rest, (executeUserScript w path).1 = .logInfo ("Execute user script:\n  ".toList ++ w.absolute path) :: rest ∧
      (w.opened (w.absolute path) = .notFound → rest = [.logInfo ("File ".toList ++ w.absolute path ++ " not found".toList)]) ∧
      ∀ source, w.opened (w.absolute path) = .source source →
        (∀ t b, w.compile source (w.absolute path) = .syntaxError t b →
          rest = [.print ("\nCritical Error on ".toList ++ w.now), .print (List.replicate 80 '-'), .print (t ++ "\n".toList ++ b)]) ∧
        ∀ code, w.compile source (w.absolute path) = .code code →
          (w.run code = .done → rest = [.run code ["application"], .logInfo "User script done".toList]) ∧
          (∀ t b, w.run code = .raised t b → rest = [.run code ["application"], .print ("\nCritical Error on ".toList ++ w.now),
            .print (List.replicate 80 '-'), .print (t ++ "\n".toList ++ b)]) ∧
          ∀ c, w.run code = .exit c → rest = [.run code ["application"]] := by
  unfold executeUserScript
  dsimp only
  cases w.opened (w.absolute path) with
  | notFound => exact ⟨_, rfl, fun _ => rfl, fun _ h => (nomatch h)⟩
  | failed e => exact ⟨_, rfl, fun h => (nomatch h), fun _ h => (nomatch h)⟩
  | source source =>
    refine ⟨_, rfl, fun h => (nomatch h), fun s h => ?_⟩
    cases h
    simp only [compileAndRun]
    cases w.compile source (w.absolute path) with
    | syntaxError t b => exact ⟨fun t' b' h => (by cases h; rfl), fun _ h => (nomatch h)⟩
    | failed e => exact ⟨fun t' b' h => (nomatch h), fun _ h => (nomatch h)⟩
    | code code =>
      refine ⟨fun t' b' h => (nomatch h), fun c h => ?_⟩
      cases h
      simp only [runCode]
      cases w.run code with
      | done => exact ⟨fun _ => rfl, fun _ _ h => (nomatch h), fun _ h => (nomatch h)⟩
      | raised t b => exact ⟨fun h => (nomatch h), fun _ _ h => (by cases h; rfl), fun _ h => (nomatch h)⟩
      | exit c => exact ⟨fun h => (nomatch h), fun _ _ h => (nomatch h), fun _ h => (by cases h; rfl)⟩

/-- C233. The program runs the script of its argument when it starts, and no script without this argument; the log begins with `post init`. -/
theorem script_at_start (path : Text) :
    (∀ script, (postInit w script).1.head? = some (.logInfo "post init".toList)) ∧
    runs (postInit w (some path)).1 = runs (executeUserScript w path).1 ∧ (postInit w (some path)).2 = (executeUserScript w path).2 ∧
    runs (postInit w none).1 = [] ∧ (postInit w none).2 = .done := by
  refine ⟨fun script => by cases script <;> rfl, ?_, rfl, rfl, rfl⟩
  unfold postInit runs
  rw [List.filterMap_cons]

/-- A disk with one program, which asks to stop with the code 3. -/
def oneFile : World Text where
  absolute p := "/home/".toList ++ p
  opened p := if p = "/home/a.py".toList then .source "exit(3)".toList else .notFound
  compile s _ := .code s
  run _ := .exit 3
  now := []

example : (executeUserScript oneFile "a.py".toList).2 = .exit 3 ∧ runs (executeUserScript oneFile "a.py".toList).1 = [("exit(3)".toList, ["application"])] ∧
    (executeUserScript oneFile "b.py".toList).2 = .exit 1 ∧ runs (executeUserScript oneFile "b.py".toList).1 = [] := by
  decide +kernel

/-! ## C242: the whole program -/

/-- The main window is not loaded: the engine says so. -/
def WindowMissing (mainUrl : Text) (signals : List (Bool × Text)) : Prop := (false, mainUrl) ∈ signals

theorem checkLoaded_eq (mainUrl : Text) (signals : List (Bool × Text)) :
    (WindowMissing mainUrl signals → checkLoaded mainUrl signals = .exit (-1)) ∧
    (¬ WindowMissing mainUrl signals → checkLoaded mainUrl signals = .done) := by
  unfold WindowMissing
  induction signals with
  | nil => simp [checkLoaded]
  | cons s rest ih =>
    obtain ⟨loaded, url⟩ := s
    by_cases h : loaded = false ∧ url = mainUrl
    · obtain ⟨rfl, rfl⟩ := h
      simp [checkLoaded, checkQmlIsLoaded]
    · have h1 : ((false, mainUrl) ∈ (loaded, url) :: rest) ↔ (false, mainUrl) ∈ rest := by
        rw [List.mem_cons, or_iff_right]
        intro h2
        injection h2 with h2 h3
        exact h ⟨h2.symm, h3.symm⟩
      rw [h1]
      simpa only [checkLoaded, checkQmlIsLoaded, if_neg h] using ih

/-- C242. When the main window is not loaded the program ends with the code −1, nothing is run and nothing is shown. -/
theorem launch_no_window (toPath : Text → Text) (argument : Option Text) (mainUrl : Text) (signals : List (Bool × Text)) (loop : Int)
    (h : WindowMissing mainUrl signals) : launch w toPath argument mainUrl signals loop = ([], .exit (-1)) := by
  unfold launch
  rw [(checkLoaded_eq mainUrl signals).1 h]

/-- C242. Otherwise, whatever the other components that are not loaded, without `--user-script` nothing is run and the program ends with the code of the
event loop. -/
theorem launch_no_script (toPath : Text → Text) (mainUrl : Text) (signals : List (Bool × Text)) (loop : Int)
    (h : ¬ WindowMissing mainUrl signals) :
    runs (launch w toPath none mainUrl signals loop).1 = [] ∧ (launch w toPath none mainUrl signals loop).2 = .exit loop := by
  unfold launch
  rw [(checkLoaded_eq mainUrl signals).2 h]
  exact ⟨rfl, rfl⟩

/-- C242. With `--user-script` the script of this path is run as `execute_user_script` does. The program goes on, and ends with the code of the event
loop, exactly when the script ends normally; otherwise it ends as the script does. -/
theorem launch_script (toPath : Text → Text) (path mainUrl : Text) (signals : List (Bool × Text)) (loop : Int)
    (h : ¬ WindowMissing mainUrl signals) :
    (launch w toPath (some path) mainUrl signals loop).1 = .logInfo "post init".toList :: (executeUserScript w (toPath path)).1 ∧
    (launch w toPath (some path) mainUrl signals loop).2 =
      (if (executeUserScript w (toPath path)).2 = .done then .exit loop else (executeUserScript w (toPath path)).2) := by
  unfold launch
  rw [(checkLoaded_eq mainUrl signals).2 h]
  simp only [userScript, pathAction, postInit]
  generalize executeUserScript w (toPath path) = r
  obtain ⟨es, r⟩ := r
  cases r <;> simp [exec]

/-- C242. A list of texts gives the paths of all of them, in the same order. -/
theorem path_arguments {π : Type _} (toPath : Text → π) (l : List Text) :
    ∃ ps, pathAction toPath (.list l) = .paths ps ∧ List.Forall₂ (fun t p => p = toPath t) l ps := by
  refine ⟨l.map toPath, rfl, ?_⟩
  induction l with
  | nil => exact .nil
  | cons t l ih => exact .cons rfl ih

/-- The script asks to stop with the code 3; a component is missing; then the main window is missing. -/
example : (launch oneFile id (some "a.py".toList) "main.qml".toList [(true, "main.qml".toList)] 0).2 = .exit 3 ∧
    (launch oneFile id none "main.qml".toList [(false, "Button.qml".toList), (true, "main.qml".toList)] 5).2 = .exit 5 ∧
    (launch oneFile id none "main.qml".toList [(true, "Button.qml".toList), (false, "main.qml".toList)] 5).2 = .exit (-1) := by
  decide +kernel

end Patro.App

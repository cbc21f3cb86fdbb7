import Mathlib.Algebra.Group.Basic
import Verif.Model.Common
import Verif.Spec.Common
/-!
# Files, monostates, logging and the root of a SVG file (C204–C208)
-/

namespace Patro.Common

open Xml (Text)

/-! ## C204: looking for a file -/

theorem mem_files {name : Text} {l : Listing} : name ∈ l.files ↔ Under l [] name := by
  induction l with
  | nil => simp [Listing.files, Under]
  | file n rest ih => simp only [Listing.files, List.mem_cons, Under, ih]; simp
  | dir n children rest _ ih => simp only [Listing.files, Under, ih]

theorem mem_walkDirs {name : Text} {l : Listing} {path : Text} : (∃ e ∈ l.walkDirs path, name ∈ e.2 ∧ pathJoin e.1 name = q) ↔
    ∃ d ds, Under l (d :: ds) name ∧ q = pathJoin ((d :: ds).foldl pathJoin path) name := by
  induction l generalizing path with
  | nil => simp [Listing.walkDirs, Under]
  | file n rest ih => simp only [Listing.walkDirs, Under, ih]; simp
  | dir n children rest ihc ih =>
    simp only [Listing.walkDirs, List.mem_cons, List.cons_append, List.mem_append, Under]
    constructor
    · rintro ⟨e, he | he | he, h1, h2⟩
      · subst he
        exact ⟨n, [], Or.inl ⟨rfl, mem_files.1 h1⟩, h2.symm⟩
      · obtain ⟨d, ds, hu, hq⟩ := (ihc (path := pathJoin path n)).1 ⟨e, he, h1, h2⟩
        exact ⟨n, d :: ds, Or.inl ⟨rfl, hu⟩, hq⟩
      · obtain ⟨d, ds, hu, hq⟩ := (ih (path := path)).1 ⟨e, he, h1, h2⟩
        exact ⟨d, ds, Or.inr hu, hq⟩
    · rintro ⟨d, ds, ⟨rfl, hu⟩ | hu, hq⟩
      · cases ds with
        | nil => exact ⟨_, Or.inl rfl, mem_files.2 hu, hq.symm⟩
        | cons d' ds =>
          obtain ⟨e, he, h1, h2⟩ := (ihc (path := pathJoin path d)).2 ⟨d', ds, hu, hq⟩
          exact ⟨e, Or.inr (Or.inl he), h1, h2⟩
      · obtain ⟨e, he, h1, h2⟩ := (ih (path := path)).2 ⟨d, ds, hu, hq⟩
        exact ⟨e, Or.inr (Or.inr he), h1, h2⟩

theorem mem_walk (system : Text → Option Listing) (name path q : Text) :
    (∃ e ∈ walk system path, name ∈ e.2 ∧ pathJoin e.1 name = q) ↔ IsAt system path name q := by
  unfold walk IsAt
  cases system path with
  | none => simp
  | some l =>
    simp only [List.mem_cons, Option.some.injEq, exists_eq_left']
    constructor
    · rintro ⟨e, rfl | he, h1, h2⟩
      · exact ⟨[], mem_files.1 h1, h2.symm⟩
      · obtain ⟨d, ds, hu, hq⟩ := mem_walkDirs.1 ⟨e, he, h1, h2⟩
        exact ⟨d :: ds, hu, hq⟩
    · rintro ⟨ds, hu, hq⟩
      cases ds with
      | nil => exact ⟨_, Or.inl rfl, mem_files.2 hu, hq.symm⟩
      | cons d ds =>
        obtain ⟨e, he, h1, h2⟩ := mem_walkDirs.2 ⟨d, ds, hu, hq⟩
        exact ⟨e, Or.inr he, h1, h2⟩

/-- C204, what holds: given a list of directories, the path that is returned is that of a file of this name in the first of the directories that has one,
at any depth, and `NameError` is raised exactly when no directory has one. -/
theorem find_partial (system : Text → Option Listing) (name : Text) (directories : List Text) :
    (∀ q, find system name (.paths directories) = .ok q → ∃ before d after, directories = before ++ d :: after ∧
      IsAt system d name q ∧ ∀ b ∈ before, ∀ q', ¬ IsAt system b name q') ∧
    ((∀ d ∈ directories, ∀ q, ¬ IsAt system d name q) ↔ find system name (.paths directories) = .error .nameError) := by
  unfold find Directories.iter
  dsimp only
  constructor
  · intro q h
    induction directories with
    | nil => simp at h
    | cons d rest ih =>
      rw [List.flatMap_cons, List.find?_append] at h
      cases hf : (walk system d).find? fun entry => entry.2.contains name with
      | some e =>
        rw [hf] at h
        simp only [Option.some_or, Except.ok.injEq] at h
        refine ⟨[], d, rest, rfl, (mem_walk system name d q).1 ⟨e, List.mem_of_find?_eq_some hf, ?_, h⟩, by simp⟩
        have := List.find?_some hf
        simpa using this
      | none =>
        rw [hf, Option.none_or] at h
        obtain ⟨before, d', after, he, hq, hb⟩ := ih h
        refine ⟨d :: before, d', after, by rw [he]; rfl, hq, fun b hm q' => ?_⟩
        rcases List.mem_cons.1 hm with rfl | hm
        · intro hat
          obtain ⟨e, he, hn, -⟩ := (mem_walk system name b q').2 hat
          have := (List.find?_eq_none.1 hf) e he
          simp [hn] at this
        · exact hb b hm q'
  · cases hf : (directories.flatMap (walk system)).find? fun entry => entry.2.contains name with
    | some e =>
      simp only [reduceCtorEq, iff_false]
      intro hno
      obtain ⟨d, hd, he⟩ := List.mem_flatMap.1 (List.mem_of_find?_eq_some hf)
      have hn := List.find?_some hf
      exact hno d hd _ ((mem_walk system name d _).1 ⟨e, he, by simpa using hn, rfl⟩)
    | none =>
      simp only [iff_true]
      intro d hd q hat
      obtain ⟨e, he, hn, -⟩ := (mem_walk system name d q).2 hat
      have := (List.find?_eq_none.1 hf) e (List.mem_flatMap.2 ⟨d, hd, he⟩)
      simp [hn] at this

/-- C204 fails for a single directory given as a text, although the code has a case for it: the directories that are looked at are those named by one
character of the text, so that a file is not found in a directory whose name has no slash and no dot unless there are others of one letter. For bytes nothing
is ever found. -/
theorem find_text_wrong (system : Text → Option Listing) (name : Text) :
    (∀ t, find system name (.text t) = find system name (.paths (t.map fun c => [c]))) ∧
    (∀ t, (∀ c ∈ t, system [c] = none) → find system name (.text t) = .error .nameError) ∧
    find system name .bytes = .error .nameError := by
  refine ⟨fun t => rfl, fun t h => ?_, rfl⟩
  have : find system name (.paths (t.map fun c => [c])) = .error .nameError := by
    refine (find_partial system name _).2.1 fun d hd q hat => ?_
    obtain ⟨c, hc, rfl⟩ := List.mem_map.1 hd
    obtain ⟨l, hl, -⟩ := hat
    rw [h c hc] at hl
    cases hl
  exact this

/-- C204. The path of a file which is found: its name, when the directory is the empty text; the two texts, when that of the directory ends with a slash; and
otherwise the two with a slash between them. A name which begins with a slash hides the directory. -/
theorem join_spec (d n : Text) :
    pathJoin [] n = n ∧ pathJoin d ('/' :: n) = '/' :: n ∧
    (n.head? ≠ some '/' → pathJoin (d ++ ['/']) n = d ++ '/' :: n ∧ (d ≠ [] → d.getLast? ≠ some '/' → pathJoin d n = d ++ '/' :: n)) := by
  refine ⟨?_, ?_, fun h => ⟨?_, fun h1 h2 => ?_⟩⟩
  · unfold pathJoin
    split <;> simp
  · simp [pathJoin]
  · simp [pathJoin, h]
  · simp [pathJoin, h, h1, h2]

/-- The file `logging.yml` in the directory `conf`, under `etc`. -/
def exampleSystem (path : Text) : Option Listing :=
  if path = "etc".toList then some (.dir "conf".toList (.file "logging.yml".toList .nil) (.file "passwd".toList .nil)) else none

example : find exampleSystem "logging.yml".toList (.paths ["tmp".toList, "etc".toList]) = .ok "etc/conf/logging.yml".toList ∧
    find exampleSystem "logging.yml".toList (.text "etc".toList) = .error .nameError := ⟨rfl, rfl⟩

/-! ## C205: parent directories -/

theorem parent_succ (p : Text) (n : Nat) : parentDirectoryOf p (n + 1) = dirname (parentDirectoryOf p n) := by
  unfold parentDirectoryOf
  rw [List.range_succ, List.foldl_append]
  rfl

/-- C205. Going up `m` and then `n` directories is going up `m + n`. -/
theorem parent_add (p : Text) (m n : Nat) : parentDirectoryOf (parentDirectoryOf p m) n = parentDirectoryOf p (m + n) := by
  induction n with
  | zero => rfl
  | succ n ih => rw [parent_succ, ih, ← Nat.add_assoc, parent_succ]

theorem dropWhile_all {α : Type} (p : α → Bool) : ∀ (l r : List α), (∀ x ∈ l, p x = true) → (l ++ r).dropWhile p = r.dropWhile p
  | [], _, _ => rfl
  | a :: l, r, h => by
    rw [List.cons_append, List.dropWhile_cons, if_pos (h a List.mem_cons_self)]
    exact dropWhile_all p l r fun x hx => h x (List.mem_cons_of_mem _ hx)

theorem dirname_last (head c : Text) (hc : '/' ∉ c) (hh : head ≠ []) (hl : head.getLast? ≠ some '/') : dirname (head ++ '/' :: c) = head := by
  have h1 : ((head ++ '/' :: c).reverse.dropWhile (· ≠ '/')).reverse = head ++ ['/'] := by
    rw [List.reverse_append, List.reverse_cons, List.append_assoc, dropWhile_all]
    · simp
    · intro x hx
      simp only [List.mem_reverse] at hx
      simp only [ne_eq, decide_eq_true_eq]
      rintro rfl
      exact hc hx
  unfold dirname
  rw [h1]
  obtain ⟨init, last, rfl⟩ := List.eq_nil_or_concat head |>.resolve_left hh
  simp only [List.concat_eq_append, List.getLast?_append, List.getLast?_singleton, Option.some_or, ne_eq, Option.some.injEq] at hl ⊢
  rw [if_neg (by simp [hl])]
  simp [hl]

theorem dirname_root (c : Text) (hc : '/' ∉ c) : dirname ('/' :: c) = ['/'] := by
  have h1 : (('/' :: c).reverse.dropWhile (· ≠ '/')).reverse = ['/'] := by
    rw [List.reverse_cons, dropWhile_all]
    · simp
    · intro x hx
      simp only [List.mem_reverse] at hx
      simp only [ne_eq, decide_eq_true_eq]
      rintro rfl
      exact hc hx
  unfold dirname
  rw [h1]
  rfl

theorem absolute_ne (cs : List Text) : absolute cs ≠ [] := by
  unfold absolute
  split
  · simp
  · cases cs with
    | nil => contradiction
    | cons c cs => simp

theorem absolute_concat (cs : List Text) (c : Text) (h : cs ≠ []) : absolute (cs ++ [c]) = absolute cs ++ '/' :: c := by
  unfold absolute
  rw [if_neg (by simp), if_neg h]
  simp

theorem absolute_last (cs : List Text) (h : cs ≠ []) (hc : ∀ c ∈ cs, Component c) : (absolute cs).getLast? ≠ some '/' := by
  obtain ⟨init, last, rfl⟩ := List.eq_nil_or_concat cs |>.resolve_left h
  obtain ⟨h1, h2⟩ := hc last (by simp)
  unfold absolute
  rw [if_neg h]
  simp only [List.concat_eq_append, List.flatMap_append, List.flatMap_cons, List.flatMap_nil, List.append_nil]
  obtain ⟨i2, l2, rfl⟩ := List.eq_nil_or_concat last |>.resolve_left h1
  simp only [List.concat_eq_append, List.mem_append, List.mem_singleton, not_or] at h2
  rw [List.getLast?_append, List.concat_eq_append, ← List.cons_append, List.getLast?_append]
  simp only [List.getLast?_singleton, Option.some_or, ne_eq, Option.some.injEq]
  exact fun e => h2.2 e.symm

/-- C205. `n` directories up from an absolute path, the last `n` names are gone, and the root is its own parent. -/
theorem parent_absolute (cs : List Text) (hc : ∀ c ∈ cs, Component c) (n : Nat) :
    parentDirectoryOf (absolute cs) n = absolute (cs.take (cs.length - n)) := by
  induction n with
  | zero => rw [Nat.sub_zero, List.take_length]; rfl
  | succ n ih =>
    rw [parent_succ, ih]
    by_cases hn : n < cs.length
    · obtain ⟨k, hk⟩ : ∃ k, cs.length - n = k + 1 := ⟨cs.length - n - 1, by omega⟩
      have hk' : cs.length - (n + 1) = k := by omega
      rw [hk, hk', List.take_add_one]
      have hlt : k < cs.length := by omega
      rw [List.getElem?_eq_getElem hlt]
      have hcomp := hc cs[k] (List.getElem_mem hlt)
      by_cases h0 : cs.take k = []
      · rw [h0]
        simp only [Option.toList_some, List.nil_append]
        have : absolute [cs[k]] = '/' :: cs[k] := by simp [absolute]
        rw [this, dirname_root _ hcomp.2]
        rfl
      · rw [Option.toList_some, absolute_concat _ _ h0]
        exact dirname_last _ _ hcomp.2 (absolute_ne _) (absolute_last _ h0 fun c h => hc c (List.mem_of_mem_take h))
    · have h1 : cs.length - n = 0 := by omega
      have h2 : cs.length - (n + 1) = 0 := by omega
      rw [h1, h2, List.take_zero]
      rfl

/-- C205. Without a number, it is the directory just above. -/
theorem parent_default (cs : List Text) (c : Text) (hc : ∀ d ∈ cs ++ [c], Component d) :
    parentDirectoryOf (absolute (cs ++ [c])) = absolute cs := by
  rw [parent_absolute _ hc, List.length_append, List.length_singleton, Nat.add_sub_cancel, List.take_left]

example : parentDirectoryOf "/home/patro/file.py".toList 2 = "/home".toList ∧ parentDirectoryOf "/home/patro/file.py".toList 7 = "/".toList := by
  decide +kernel

/-! ## C206: monostates -/

theorem run_objects {V : Type} (l : List (Action V)) : ∀ (w : World V) (i d : Nat), w.objects[i]? = some d → (w.run l).objects[i]? = some d := by
  induction l with
  | nil => intro w i d h; exact h
  | cons a l ih =>
    intro w i d h
    cases a with
    | new state arguments =>
      simp only [World.run, World.new]
      by_cases ha : arguments = 0
      · rw [if_pos ha]
        refine ih _ i d ?_
        dsimp only
        rw [List.getElem?_append_left (List.getElem?_eq_some_iff.1 h).1]
        exact h
      · rw [if_neg ha]
        exact ih _ i d h
    | set o n v =>
      simp only [World.run, World.setAttr]
      refine ih _ i d ?_
      split
      · exact h
      · exact h

/-- C206, what holds: whatever a program does, two objects of the same class keep the same attributes, and an attribute that is set on one is read
on the other; an attribute that was never set raises `AttributeError`. -/
theorem monostate_shared {V : Type} (w : World V) (i j d : Nat) (hi : w.objects[i]? = some d) (hj : w.objects[j]? = some d) (l : List (Action V))
    (name : Text) (v : V) :
    (w.run l).getAttr i name = (w.run l).getAttr j name ∧ (w.run (l ++ [.set i name v])).getAttr j name = .ok v ∧
    (name ∉ ((w.run l).dicts d).keys → (w.run l).getAttr i name = .error .attributeError) := by
  have hi := run_objects l w i d hi
  have hj := run_objects l w j d hj
  have happ : ∀ (l : List (Action V)) (w : World V) (a : Action V), w.run (l ++ [a]) = (w.run l).run [a] := by
    intro l
    induction l with
    | nil => intro w a; rfl
    | cons b l ih =>
      intro w a
      cases b with
      | new s n =>
        simp only [List.cons_append, World.run]
        cases w.new s n with
        | error e => exact ih w a
        | ok w' => exact ih w' a
      | set o n v => exact ih _ a
  rw [happ]
  simp only [World.run]
  unfold World.getAttr World.setAttr
  rw [hi, hj]
  refine ⟨rfl, ?_, fun h => ?_⟩
  · dsimp only
    rw [if_pos rfl, Dict.get?_set_self]
  · dsimp only
    rw [(Dict.get?_eq_none_iff _ _).2 h]

/-- C206 fails between classes: an attribute set on an object of one class is read on those of any other class that does not define its own state, while those
with another state do not see it. -/
theorem monostate_classes {V : Type} (w : World V) (i j : Nat) (d e : Nat) (hi : w.objects[i]? = some d) (hj : w.objects[j]? = some e) (name : Text) (v : V) :
    (w.setAttr i name v).getAttr j name = if e = d then .ok v else w.getAttr j name := by
  unfold World.getAttr World.setAttr
  rw [hi, hj]
  dsimp only
  by_cases h : e = d
  · subst h
    rw [if_pos rfl, if_pos rfl, Dict.get?_set_self]
  · rw [if_neg h, if_neg h]

/-- C206 fails for constructors with arguments: they raise `TypeError`, whatever the class, and no object is made. -/
theorem monostate_arguments_wrong {V : Type} (w : World V) (state arguments : Nat) (h : 0 < arguments) (rest : List (Action V)) :
    w.new state arguments = .error .typeError ∧ w.run (.new state arguments :: rest) = w.run rest := by
  have hn : w.new state arguments = .error .typeError := by
    unfold World.new
    rw [if_neg (by omega)]
  exact ⟨hn, by simp only [World.run, hn]⟩

example : let w := ({} : World Nat).run [.new 0 0, .new 0 0, .new 1 0, .set 0 "x".toList 3]
    w.getAttr 1 "x".toList = .ok 3 ∧ w.getAttr 2 "x".toList = .error .attributeError := by
  refine ⟨rfl, rfl⟩

/-! ## C207: logging -/

/-- What is at a place of the configuration. -/
def Config.option (c : Config) (section_ entry option : Text) : Option Text :=
  (c.get? section_).bind fun s => (s.get? entry).bind fun e => e.get? option

theorem setOption_spec (c : Config) (s e o v : Text) (hs : ∃ d x, c.get? s = some d ∧ d.get? e = some x) :
    ∃ c', c.setOption s e o v = .ok c' ∧ ∀ s' e' o', c'.option s' e' o' = if (s', e', o') = (s, e, o) then some v else c.option s' e' o' := by
  obtain ⟨d, x, hd, hx⟩ := hs
  refine ⟨c.set s (d.set e (x.set o v)), ?_, fun s' e' o' => ?_⟩
  · unfold Config.setOption
    simp only [Dict.getItem, hd, hx, bind, Except.bind, pure, Except.pure]
  · unfold Config.option
    by_cases h1 : s' = s
    · subst h1
      rw [Dict.get?_set_self, hd]
      by_cases h2 : e' = e
      · subst h2
        simp only [Option.bind_some]
        rw [Dict.get?_set_self, hx]
        by_cases h3 : o' = o
        · subst h3
          simp [Dict.get?_set_self]
        · simp [Dict.get?_set_ne _ _ (Ne.symm h3), h3]
      · simp only [Option.bind_some]
        rw [Dict.get?_set_ne _ _ (Ne.symm h2)]
        simp [h2]
    · rw [Dict.get?_set_ne _ _ (Ne.symm h1)]
      simp [h1]

/-- C207, what holds: on Linux the configuration is that of the file, with the mark `<ESC>` replaced by the character in the format of the terminal, and
with this format for the console; on Windows and on macOS only the format of the console is set, to the simple one and to that of the terminal. -/
theorem logging_partial (c : Config) (d h : Dict Text (Dict Text Text)) (a k : Dict Text Text) (f : Text)
    (hd : c.get? "formatters".toList = some d) (ha : d.get? "ansi".toList = some a) (hf : a.get? "format".toList = some f)
    (hh : c.get? "handlers".toList = some h) (hk : h.get? "console".toList = some k) :
    (∃ c', loggingConfig .linux c = .ok c' ∧ ∀ s e o, c'.option s e o =
      if (s, e, o) = ("handlers".toList, "console".toList, "formatter".toList) then some "ansi".toList
      else if (s, e, o) = ("formatters".toList, "ansi".toList, "format".toList) then some (Text.replace "<ESC>".toList ['\x1b'] f)
      else c.option s e o) ∧
    (∃ c', loggingConfig .windows c = .ok c' ∧ ∀ s e o, c'.option s e o =
      if (s, e, o) = ("handlers".toList, "console".toList, "formatter".toList) then some "simple".toList else c.option s e o) ∧
    (∃ c', loggingConfig .osx c = .ok c' ∧ ∀ s e o, c'.option s e o =
      if (s, e, o) = ("handlers".toList, "console".toList, "formatter".toList) then some "ansi".toList else c.option s e o) := by
  refine ⟨?_, ?_, ?_⟩
  · have h1 : ∃ c1, c.setOption "formatters".toList "ansi".toList "format".toList (Text.replace "<ESC>".toList ['\x1b'] f) = .ok c1 ∧
        (∃ d x, c1.get? "handlers".toList = some d ∧ d.get? "console".toList = some x) ∧ ∀ s e o, c1.option s e o =
        if (s, e, o) = ("formatters".toList, "ansi".toList, "format".toList) then some (Text.replace "<ESC>".toList ['\x1b'] f) else c.option s e o := by
      obtain ⟨c1, hc1, hopt⟩ := setOption_spec c "formatters".toList "ansi".toList "format".toList (Text.replace "<ESC>".toList ['\x1b'] f) ⟨d, a, hd, ha⟩
      refine ⟨c1, hc1, ?_, hopt⟩
      unfold Config.setOption at hc1
      simp only [Dict.getItem, hd, ha, bind, Except.bind, pure, Except.pure, Except.ok.injEq] at hc1
      refine ⟨h, k, ?_, hk⟩
      rw [← hc1, Dict.get?_set_ne _ _ (by decide +kernel)]
      exact hh
    obtain ⟨c1, hc1, hhand, hopt⟩ := h1
    obtain ⟨c2, hc2, hopt2⟩ := setOption_spec c1 "handlers".toList "console".toList "formatter".toList "ansi".toList hhand
    refine ⟨c2, ?_, fun s e o => ?_⟩
    · unfold loggingConfig
      simp only [Dict.getItem, hd, ha, hf, bind, Except.bind, hc1, hc2]
    · rw [hopt2, hopt]
  · obtain ⟨c2, hc2, hopt2⟩ := setOption_spec c "handlers".toList "console".toList "formatter".toList "simple".toList ⟨h, k, hh, hk⟩
    exact ⟨c2, hc2, hopt2⟩
  · obtain ⟨c2, hc2, hopt2⟩ := setOption_spec c "handlers".toList "console".toList "formatter".toList "ansi".toList ⟨h, k, hh, hk⟩
    exact ⟨c2, hc2, hopt2⟩

/-- C207 fails on macOS, whose console gets the format of the terminal with the mark `<ESC>` still in it, on other systems, such as FreeBSD, where it
raises, and for a level of the environment that `logging` does not have. -/
theorem logging_wrong (c : Config) (h : Dict Text (Dict Text Text)) (k : Dict Text Text) (hh : c.get? "handlers".toList = some h)
    (hk : h.get? "console".toList = some k) (number : Text → Option Int) (level : Text) (hl : number level = none) :
    (∃ c', loggingConfig (osOf "darwin".toList) c = .ok c' ∧ c'.option "handlers".toList "console".toList "formatter".toList = some "ansi".toList ∧
      c'.option "formatters".toList "ansi".toList "format".toList = c.option "formatters".toList "ansi".toList "format".toList) ∧
    loggingConfig (osOf "freebsd13".toList) c = .error .attributeError ∧ loggerLevel number (some level) = .error .typeError := by
  refine ⟨?_, rfl, ?_⟩
  · obtain ⟨c2, hc2, hopt2⟩ := setOption_spec c "handlers".toList "console".toList "formatter".toList "ansi".toList ⟨h, k, hh, hk⟩
    refine ⟨c2, hc2, ?_, ?_⟩
    · rw [hopt2, if_pos rfl]
    · rw [hopt2, if_neg (by decide +kernel)]
  · simp only [loggerLevel, hl]

/-- C207. The level of the environment is the one of the logger, and without it the level is not changed. -/
theorem logging_level (number : Text → Option Int) (level : Text) (n : Int) (h : number level = some n) :
    loggerLevel number (some level) = .ok (some n) ∧ loggerLevel number none = .ok none := by
  simp only [loggerLevel, h, and_self]

/-- The configuration of the library. -/
def exampleConfig : Config :=
  [("formatters".toList, [("simple".toList, [("format".toList, "%(message)s".toList)]), ("ansi".toList, [("format".toList, "<ESC>[0m".toList)])]),
    ("handlers".toList, [("console".toList, [("level".toList, "INFO".toList)])])]

example : (loggingConfig (osOf "linux".toList) exampleConfig).toOption.map (fun c => c.option "formatters".toList "ansi".toList "format".toList) =
    some (some "\x1b[0m".toList) := by decide +kernel

/-! ## C208: the view box of a SVG file -/

section

variable {K : Type}

/-- C208, what holds: the view box of a file whose view box starts at the origin, as in the files the library writes, is the rectangle of the file. -/
theorem view_box_partial [AddMonoid K] (width height : K) :
    onSvgRoot (some [0, 0, width, height]) = .ok (rectangle 0 0 width height) := by
  unfold onSvgRoot rectangle
  rw [zero_add, zero_add]

/-- C208 fails for the others: the width and the height are taken as the upper bounds. A file without view box, or with another number of values, raises. -/
theorem view_box_wrong [AddGroup K] (x y width height : K) :
    (onSvgRoot (some [x, y, width, height]) = .ok (rectangle x y width height) ↔ x = 0 ∧ y = 0) ∧
    onSvgRoot (none : Option (List K)) = .error .typeError ∧
    (∀ l : List K, l.length ≠ 4 → onSvgRoot (some l) = .error .valueError) := by
  refine ⟨?_, rfl, fun l hl => ?_⟩
  · unfold onSvgRoot rectangle
    constructor
    · intro h
      simp only [Except.ok.injEq, Prod.mk.injEq, true_and] at h
      exact ⟨by simpa using h.1.symm, by simpa using h.2.symm⟩
    · rintro ⟨rfl, rfl⟩
      simp
  · match l, hl with
    | [], _ => rfl
    | [_], _ => rfl
    | [_, _], _ => rfl
    | [_, _, _], _ => rfl
    | [_, _, _, _], h => simp at h
    | _ :: _ :: _ :: _ :: _ :: _, _ => rfl

end

end Patro.Common

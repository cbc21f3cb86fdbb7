import Verif.Spec.Platform
import Verif.Props.Xml
import Mathlib.Data.List.Infix
/-! # The platform (C212) -/

namespace Patro.Platform

open Xml (Text)

theorem findAt_isSome (pattern : Text) : ∀ (line : Text) (i : Nat), (Text.findAt pattern line i).isSome = true ↔ pattern <:+: line
  | [], i => by
    unfold Text.findAt
    cases pattern with
    | nil => simp
    | cons c t => simp
  | c :: line, i => by
    unfold Text.findAt
    split
    · next h => simp only [Option.isSome_some, true_iff]; exact (List.isPrefixOf_iff_prefix.1 h).isInfix
    · next h =>
      rw [findAt_isSome pattern line (i + 1), List.infix_cons_iff]
      constructor
      · exact .inr
      · rintro (h' | h')
        · exact absurd (List.isPrefixOf_iff_prefix.2 h') h
        · exact h'

theorem isIn_iff (pattern line : Text) : isIn pattern line = true ↔ pattern <:+: line := by
  unfold isIn Text.find
  exact findAt_isSome pattern _ _

theorem firstLine_skip {α : Type _} (pattern : Text) (read : Text → Except PyErr α) (before after : List Text)
    (h : ∀ line ∈ before, ¬ pattern <:+: line) : firstLine pattern read (before ++ after) = firstLine pattern read after := by
  induction before with
  | nil => rfl
  | cons line rest ih =>
    have e : firstLine pattern read (line :: rest ++ after) =
      if isIn pattern line then (read line).map some else firstLine pattern read (rest ++ after) := rfl
    rw [e, if_neg (by rw [isIn_iff]; exact h line (by simp))]
    exact ih fun l hl => h l (by simp [hl])

theorem firstLine_hit {α : Type _} (pattern : Text) (read : Text → Except PyErr α) (line : Text) (rest : List Text)
    (h : pattern <:+: line) : firstLine pattern read (line :: rest) = (read line).map some := by
  unfold firstLine
  rw [if_pos ((isIn_iff _ _).2 h)]

theorem firstLine_none {α : Type _} (pattern : Text) (read : Text → Except PyErr α) (lines : List Text)
    (h : ∀ line ∈ lines, ¬ pattern <:+: line) : firstLine pattern read lines = .ok none := by
  have := firstLine_skip pattern read lines [] h
  rw [List.append_nil] at this
  rw [this]
  rfl

theorem strip_spaces (s1 t s2 : Text) (h1 : ∀ c ∈ s1, Xml.isSpace c = true) (h2 : ∀ c ∈ s2, Xml.isSpace c = true) (ht : t ≠ [])
    (hh : ∀ c, t.head? = some c → Xml.isSpace c = false) (hl : ∀ c, t.getLast? = some c → Xml.isSpace c = false) :
    Xml.strip (s1 ++ t ++ s2) = t := by
  have key : ∀ (s u : Text), (∀ c ∈ s, Xml.isSpace c = true) → (∀ c, u.head? = some c → Xml.isSpace c = false) →
      (s ++ u).dropWhile Xml.isSpace = u := by
    intro s u hs hu
    rw [List.dropWhile_append_of_pos hs]
    cases u with
    | nil => rfl
    | cons c u => rw [List.dropWhile_cons_of_neg (by rw [hu c rfl]; simp)]
  unfold Xml.strip
  rw [List.append_assoc, key s1 (t ++ s2) h1 (by
    intro c hc
    apply hh
    rw [List.head?_append] at hc
    cases t with
    | nil => exact absurd rfl ht
    | cons d t => simpa using hc)]
  rw [List.reverse_append, key s2.reverse t.reverse (by simpa using h2) (by
    intro c hc
    rw [List.head?_reverse] at hc
    exact hl c hc)]
  exact List.reverse_reverse t

theorem int_spaces (s1 s2 : Text) (n : Nat) (h1 : ∀ c ∈ s1, Xml.isSpace c = true) (h2 : ∀ c ∈ s2, Xml.isSpace c = true) :
    Xml.intFromText (s1 ++ Xml.natToText n ++ s2) = .ok (n : Int) := by
  have hs : ∀ c ∈ Xml.natToText n, Xml.isSpace c = false := by
    intro c hc
    obtain ⟨d, hd, rfl⟩ := Xml.natToText_digits n c hc
    exact Xml.isSpace_ofNat d hd
  have e := strip_spaces s1 (Xml.natToText n) s2 h1 h2 (Xml.natToText_ne_nil n)
    (fun c hc => hs c (List.mem_of_mem_head? hc)) (fun c hc => hs c (List.mem_of_getLast? hc))
  have e' : Xml.strip (Xml.natToText n) = Xml.natToText n := Xml.strip_of_noSpace _ hs
  have := Xml.int_round_trip (n : Int)
  unfold Xml.intFromText at this ⊢
  rw [e]
  change (match Xml.strip (Xml.natToText n) with
    | '-' :: r => _
    | '+' :: r => _
    | r => _) = _ at this
  rw [e'] at this
  exact this

/-- C212. The size of the memory is the number written in `/proc/meminfo`, in kilobytes, whatever the number of spaces before it and the
other lines of the file. -/
theorem memory_read (before after : List Text) (h : ∀ line ∈ before, ¬ "MemTotal".toList <:+: line) (spaces kb : Nat) :
    memoryKb (before ++ memLine spaces kb :: after) = .ok (some (kb : Int)) := by
  have hmem : "MemTotal".toList <:+: memLine spaces kb := by
    refine ⟨[], ':' :: (List.replicate spaces ' ' ++ Xml.natToText kb ++ " kB\n".toList), ?_⟩
    unfold memLine
    simp
  unfold memoryKb
  rw [firstLine_skip _ _ before _ h, firstLine_hit _ _ _ _ hmem]
  have hcolon : ':' ∉ List.replicate spaces ' ' ++ Xml.natToText kb ++ " kB\n".toList := by
    intro hc
    rw [List.mem_append, List.mem_append] at hc
    rcases hc with (hc | hc) | hc
    · have := List.eq_of_mem_replicate hc; exact absurd this (by decide)
    · obtain ⟨d, hd, e⟩ := Xml.natToText_digits kb _ hc
      have : ∀ d < 10, ':' ≠ Char.ofNat (48 + d) := by decide
      exact this d hd e
    · revert hc; decide
  have hs : afterColon (memLine spaces kb) = .ok (List.replicate spaces ' ' ++ Xml.natToText kb ++ " kB\n".toList) := by
    unfold afterColon memLine
    have e : "MemTotal:".toList ++ List.replicate spaces ' ' ++ Xml.natToText kb ++ " kB\n".toList =
        "MemTotal".toList ++ ':' :: (List.replicate spaces ' ' ++ Xml.natToText kb ++ " kB\n".toList) := by
      simp
    rw [e, Xml.split_append _ _ _ (by decide), Xml.split_of_not_mem _ _ hcolon]
    rfl
  rw [hs]
  show Except.map some (Xml.intFromText _) = _
  have ht : (List.replicate spaces ' ' ++ Xml.natToText kb ++ " kB\n".toList).take
      ((List.replicate spaces ' ' ++ Xml.natToText kb ++ " kB\n".toList).length - 3) = List.replicate spaces ' ' ++ Xml.natToText kb ++ [' '] := by
    have e : List.replicate spaces ' ' ++ Xml.natToText kb ++ " kB\n".toList =
        (List.replicate spaces ' ' ++ Xml.natToText kb ++ [' ']) ++ "kB\n".toList := by simp
    rw [e, List.take_left' (by simp; omega)]
  rw [ht, int_spaces _ _ _ (by
    intro c hc
    rw [List.eq_of_mem_replicate hc]
    rfl) (by simp [Xml.isSpace])]
  rfl

theorem cores_foldl (lines : List Text) (n : Nat) :
    lines.foldl (fun n line => if isIn "processor".toList line then n + 1 else n) n = n + cores lines := by
  unfold cores
  induction lines generalizing n with
  | nil => rfl
  | cons line rest ih =>
    simp only [List.foldl_cons]
    rw [ih, ih (if isIn "processor".toList line then 0 + 1 else 0)]
    split <;> omega

theorem cores_append (a b : List Text) : cores (a ++ b) = cores a + cores b := by
  conv_lhs => unfold cores
  rw [List.foldl_append, cores_foldl b]
  rfl

theorem cores_cons (line : Text) (rest : List Text) : cores (line :: rest) = (if isIn "processor".toList line then 1 else 0) + cores rest := by
  conv_lhs => unfold cores
  simp only [List.foldl_cons]
  rw [cores_foldl]

theorem cores_zero (lines : List Text) (h : ∀ line ∈ lines, ¬ "processor".toList <:+: line) : cores lines = 0 := by
  induction lines with
  | nil => rfl
  | cons line rest ih =>
    rw [cores_cons, ih fun l hl => h l (by simp [hl]), if_neg (by rw [isIn_iff]; exact h line (by simp))]

theorem processor_line (index : String) : isIn "processor".toList (cpuLine "processor" index) = true :=
  (isIn_iff _ _).2 ⟨[], ['\t', ':', ' '] ++ index.toList ++ ['\n'], by simp [cpuLine]⟩

/-- C212, what holds: the number of cores is the number of processors of `/proc/cpuinfo` when no other line has the word "processor". -/
theorem cores_partial (ps : List Processor) (h : ∀ p ∈ ps, ∀ kv ∈ p.others, ¬ "processor".toList <:+: cpuLine kv.1 kv.2) :
    cores (cpuinfo ps) = ps.length := by
  induction ps with
  | nil => rfl
  | cons p rest ih =>
    have e : cpuinfo (p :: rest) = (cpuLine "processor" p.index :: p.others.map fun (k, v) => cpuLine k v) ++ [['\n']] ++ cpuinfo rest := by
      simp [cpuinfo, Processor.lines]
    rw [e, cores_append, cores_append, ih fun q hq => h q (by simp [hq]), cores_cons, processor_line, cores_zero, cores_zero]
    · simp only [if_true, List.length_cons]; omega
    · intro line hl
      rw [List.mem_singleton.1 hl]
      decide
    · intro line hl
      obtain ⟨kv, hkv, rfl⟩ := List.mem_map.1 hl
      exact h p (by simp) kv hkv

/-- C212 is false of the processors whose name has the word "processor", as the one of a virtual machine, "Common KVM processor": there
are twice as many cores. -/
theorem cores_wrong (indices : List String) :
    cores (cpuinfo (indices.map fun i => ⟨i, [("model name", "Common KVM processor")]⟩)) = 2 * indices.length := by
  induction indices with
  | nil => rfl
  | cons i rest ih =>
    have e : cpuinfo ((i :: rest).map fun i => ⟨i, [("model name", "Common KVM processor")]⟩) =
        cpuLine "processor" i :: cpuLine "model name" "Common KVM processor" :: ['\n'] ::
          cpuinfo (rest.map fun i => ⟨i, [("model name", "Common KVM processor")]⟩) := by
      simp [cpuinfo, Processor.lines]
    rw [e, cores_cons, cores_cons, cores_cons, processor_line, ih]
    have h1 : isIn "processor".toList (cpuLine "model name" "Common KVM processor") = true := by decide
    have h2 : isIn "processor".toList ['\n'] = false := by decide
    rw [h1, h2]
    simp only [if_true, List.length_cons]
    rw [if_neg (by simp)]
    omega

/-- C212, what holds: the name of the processor is the one of the first processor, when it has no colon. -/
theorem cpu_partial (before after : List Text) (h : ∀ line ∈ before, ¬ "model name".toList <:+: line) (name : String)
    (hc : ':' ∉ name.toList) (hne : name.toList ≠ []) (hh : ∀ c, name.toList.head? = some c → Xml.isSpace c = false)
    (hl : ∀ c, name.toList.getLast? = some c → Xml.isSpace c = false) :
    cpu (before ++ cpuLine "model name" name :: after) = .ok (some name.toList) := by
  unfold cpu
  rw [firstLine_skip _ _ before _ h, firstLine_hit _ _ _ _ ⟨[], ['\t', ':', ' '] ++ name.toList ++ ['\n'], by simp [cpuLine]⟩]
  have hs : afterColon (cpuLine "model name" name) = .ok ([' '] ++ name.toList ++ ['\n']) := by
    unfold afterColon cpuLine
    have e : "model name".toList ++ ['\t', ':', ' '] ++ name.toList ++ ['\n'] =
        ("model name".toList ++ ['\t']) ++ ':' :: ([' '] ++ name.toList ++ ['\n']) := by simp
    rw [e, Xml.split_append _ _ _ (by decide), Xml.split_of_not_mem _ _ (by simp [hc])]
    rfl
  rw [hs]
  show Except.map some (Except.ok (Xml.strip _)) = _
  rw [strip_spaces [' '] name.toList ['\n'] (by simp [Xml.isSpace]) (by simp [Xml.isSpace]) hne hh hl]
  rfl

/-- C212 is false of every name with a colon, which is cut there: what follows the first colon is lost. -/
theorem cpu_wrong (before after : List Text) (h : ∀ line ∈ before, ¬ "model name".toList <:+: line) (name rest : Text)
    (hc : ':' ∉ name) (hne : name ≠ []) (hh : ∀ c, name.head? = some c → Xml.isSpace c = false)
    (hl : ∀ c, name.getLast? = some c → Xml.isSpace c = false) :
    cpu (before ++ cpuLine "model name" (String.ofList (name ++ ':' :: rest)) :: after) = .ok (some name) := by
  unfold cpu
  rw [firstLine_skip _ _ before _ h,
    firstLine_hit _ _ _ _ ⟨[], ['\t', ':', ' '] ++ (name ++ ':' :: rest) ++ ['\n'], by simp [cpuLine]⟩]
  have hs : afterColon (cpuLine "model name" (String.ofList (name ++ ':' :: rest))) = .ok ([' '] ++ name) := by
    unfold afterColon cpuLine
    have e : "model name".toList ++ ['\t', ':', ' '] ++ (String.ofList (name ++ ':' :: rest)).toList ++ ['\n'] =
        ("model name".toList ++ ['\t']) ++ ':' :: (([' '] ++ name) ++ ':' :: (rest ++ ['\n'])) := by simp
    rw [e, Xml.split_append _ _ _ (by decide), Xml.split_append _ _ _ (by simp [hc])]
    rfl
  rw [hs]
  show Except.map some (Except.ok (Xml.strip _)) = _
  have := strip_spaces [' '] name [] (by simp [Xml.isSpace]) (by simp) hne hh hl
  rw [List.append_nil] at this
  rw [this]
  rfl

example : cpu [cpuLine "model name" "SoC: rev 2"] = .ok (some "SoC".toList) := by decide

/-- C212. A line with the word searched and without a colon raises `IndexError`. -/
theorem no_colon (before after : List Text) (line : Text) (hc : ':' ∉ line) (khz : Text → Except PyErr Int) :
    ((∀ l ∈ before, ¬ "model name".toList <:+: l) → "model name".toList <:+: line → cpu (before ++ line :: after) = .error .indexError) ∧
    ((∀ l ∈ before, ¬ "cpu MHz".toList <:+: l) → "cpu MHz".toList <:+: line → cpuKhz khz (before ++ line :: after) = .error .indexError) ∧
    ((∀ l ∈ before, ¬ "MemTotal".toList <:+: l) → "MemTotal".toList <:+: line → memoryKb (before ++ line :: after) = .error .indexError) := by
  have e : afterColon line = .error .indexError := by
    unfold afterColon
    rw [Xml.split_of_not_mem _ _ hc]
    rfl
  refine ⟨fun h1 h2 => ?_, fun h1 h2 => ?_, fun h1 h2 => ?_⟩
  · unfold cpu
    rw [firstLine_skip _ _ before _ h1, firstLine_hit _ _ _ _ h2, e]
    rfl
  · unfold cpuKhz
    rw [firstLine_skip _ _ before _ h1, firstLine_hit _ _ _ _ h2, e]
    rfl
  · unfold memoryKb
    rw [firstLine_skip _ _ before _ h1, firstLine_hit _ _ _ _ h2, e]
    rfl

example : ':' ∉ "model name unknown".toList ∧ "model name".toList <:+: "model name unknown".toList :=
  ⟨by decide, [], " unknown".toList, by decide⟩

/-- C212 is false of the processors without a line of their frequency, as those of the ARM machines: the platform cannot be made, `TypeError`
is raised, whatever the other lines. -/
theorem no_frequency_wrong (khz : Text → Except PyErr Int) (cpuinfo meminfo : List Text) (name : Option Text) (hn : cpu cpuinfo = .ok name)
    (h : ∀ line ∈ cpuinfo, ¬ "cpu MHz".toList <:+: line) : new khz cpuinfo meminfo = .error .typeError := by
  unfold new
  rw [hn]
  have : cpuKhz khz cpuinfo = .ok none := firstLine_none _ _ _ h
  show (do
    let (k, m) ← divide (← cpuKhz khz cpuinfo) 1000
    let (kb, mb) ← divide (← memoryKb meminfo) 1024
    return (⟨name, cores cpuinfo, k, m, kb, mb⟩ : Platform)) = _
  rw [this]
  rfl

/-- A processor of each kind. -/
example : (∀ kv ∈ [("model name", "Intel(R) Xeon(R) CPU"), ("cpu MHz", "2400.000")], ¬ "processor".toList <:+: cpuLine kv.1 kv.2) ∧
    (∀ line ∈ cpuinfo [⟨"0", [("BogoMIPS", "50.00")]⟩], ¬ "cpu MHz".toList <:+: line) ∧
    cpu (cpuinfo [⟨"0", [("BogoMIPS", "50.00")]⟩]) = .ok none := by
  refine ⟨?_, ?_, by decide⟩ <;> simp only [← isIn_iff] <;> decide

example : new (fun _ => .ok 2400000) (cpuinfo [⟨"0", [("model name", "Intel(R) Xeon(R) CPU"), ("cpu MHz", "2400.000")]⟩,
    ⟨"1", [("model name", "Intel(R) Xeon(R) CPU"), ("cpu MHz", "2400.000")]⟩]) [memLine 7 16384000] =
    .ok ⟨some "Intel(R) Xeon(R) CPU".toList, 2, 2400000, 2400, 16384000, 16000⟩ := by decide +kernel

end Patro.Platform

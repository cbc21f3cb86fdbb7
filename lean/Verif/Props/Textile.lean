import Mathlib.Data.Rat.Floor
import Mathlib.Tactic.Linarith
import Verif.Spec.Textile
import Verif.Props.Xml
/-!
# Textile databases, fabrics, seams and machines (C73, C125, C126)
-/

namespace Patro.Textile

open Xml (Text)

/-! ## C73 -/

/-- C73. Whatever the sequence of additions, the object found under a name is the one that was there before, or else the
first one added under this name. -/
theorem database_first {α : Type} (db : Database α) (objs : List (Text × α)) (name : Text) :
    Dict.get? (objs.foldl (fun db o => Database.add db o.1 o.2) db) name =
      (Dict.get? db name).or ((objs.find? fun o => o.1 = name).map (·.2)) := by
  induction objs generalizing db with
  | nil => simp
  | cons o objs ih =>
    rw [List.foldl_cons, ih, List.find?_cons]
    unfold Database.add Dict.contains
    by_cases hn : o.1 = name
    · subst hn
      simp only [decide_true, Option.map_some]
      cases hg : Dict.get? db o.1 with
      | some v => simp [hg]
      | none => simp [Dict.get?_set_self]
    · simp only [hn, decide_false]
      cases hg : Dict.get? db o.1 with
      | some v => simp
      | none => simp [Dict.get?_set_ne db o.2 hn]

theorem foldlM_natural (source : FiberType) (l : List (Text × Yaml)) (db : Database Fiber) :
    (l.map fun e => (e.1, Yaml.map [("source".toList, e.2)])).foldlM (addNatural source) db =
      .ok ((l.map fun e => (e.1, (⟨e.1, .natural, some source, some e.2⟩ : Fiber))).foldl
        (fun db o => Database.add db o.1 o.2) db) := by
  induction l generalizing db with
  | nil => rfl
  | cons e l ih =>
    rw [List.map_cons, List.foldlM_cons, List.map_cons, List.foldl_cons, ← ih]
    rfl

/-- C73. Loading a file of fibers adds each fiber under its name with its kind and its source; a name that is given twice
keeps its first definition, and so does a name that was already there. -/
theorem fibers_loaded (db : Database Fiber) (plants animals synthetic : List (Text × Yaml)) :
    ∃ db', loadFibers db (fiberFile plants animals synthetic) = .ok db' ∧ ∀ name,
      Dict.get? db' name = (Dict.get? db name).or
        (((fiberEntries plants animals synthetic).find? fun e => e.name = name).map fun e =>
          ⟨e.name, e.fiberType, e.sourceType, e.source⟩) := by
  have hsyn : ∀ (l : List (Text × Yaml)) (db : Database Fiber), l.foldl addSynthetic db =
      (l.map fun e => (e.1, (⟨e.1, .synthetic, none, none⟩ : Fiber))).foldl (fun db o => Database.add db o.1 o.2) db := by
    intro l
    induction l with
    | nil => intro db; rfl
    | cons e l ih => intro db; rw [List.foldl_cons, List.map_cons, List.foldl_cons, ih]; rfl
  refine ⟨(((plants.map fun e => (e.1, (⟨e.1, .natural, some .plant, some e.2⟩ : Fiber))) ++
    (animals.map fun e => (e.1, (⟨e.1, .natural, some .animal, some e.2⟩ : Fiber))) ++
    (synthetic.map fun e => (e.1, (⟨e.1, .synthetic, none, none⟩ : Fiber)))).foldl
      (fun db o => Database.add db o.1 o.2) db), ?_, fun name => ?_⟩
  · have e : loadFibers db (fiberFile plants animals synthetic) =
        ((plants.map fun e => (e.1, Yaml.map [("source".toList, e.2)])).foldlM (addNatural .plant) db).bind fun db =>
        ((animals.map fun e => (e.1, Yaml.map [("source".toList, e.2)])).foldlM (addNatural .animal) db).bind fun db =>
          .ok (synthetic.foldl addSynthetic db) := rfl
    rw [e, foldlM_natural]
    simp only [Except.bind, foldlM_natural, hsyn, List.foldl_append]
  · rw [database_first]
    congr 1
    unfold fiberEntries
    simp only [List.find?_append, List.find?_map, Option.map_or, Option.map_map, Function.comp_def]

/-- C73. A natural fiber without a source stops the loading with `KeyError`. -/
theorem fiber_without_source (source : FiberType) (db : Database Fiber) (name : Text) (m : List (Text × Yaml))
    (h : Dict.get? m "source".toList = none) : addNatural source db (name, .map m) = .error .keyError := by
  unfold addNatural Yaml.item Dict.getItem
  simp only [h]
  rfl

/-- C73. A file whose list of plants is not a dictionary raises `AttributeError`, one without it, or without anything, `KeyError`, and one which is not a
dictionary `TypeError`. -/
theorem fibers_malformed (db : Database Fiber) (m n : List (Text × Yaml)) (h : Dict.get? m "Natural Fibers".toList = some (.map n)) :
    (∀ v, Dict.get? n "Plant Fibers".toList = some v → (∀ l, v ≠ .map l) → loadFibers db (.map m) = .error .attributeError) ∧
    (Dict.get? n "Plant Fibers".toList = none → loadFibers db (.map m) = .error .keyError) ∧
    loadFibers db (.map []) = .error .keyError ∧ ∀ t, (∀ l, t ≠ .map l) → loadFibers db t = .error .typeError := by
  refine ⟨?_, ?_, rfl, ?_⟩
  · intro v hv hl
    unfold loadFibers
    simp only [Yaml.item, Dict.getItem, h, hv, bind, Except.bind]
    cases v with
    | map l => exact absurd rfl (hl l)
    | _ => rfl
  · intro hn
    unfold loadFibers
    simp only [Yaml.item, Dict.getItem, h, hn, bind, Except.bind]
  · intro t ht
    unfold loadFibers
    cases t with
    | map l => exact absurd rfl (ht l)
    | _ => rfl

/-! ## C125 -/

/-- C125 fails: loading the stitches, from any file, never puts a stitch in the database. -/
theorem stitches_wrong (db db' : Database StitchType) (data : Yaml) (h : loadStitches db data = .ok db') : db' = db := by
  unfold loadStitches at h
  simp only [bind, Except.bind, pure, Except.pure] at h
  repeat' (split at h)
  all_goals first | (cases h; done) | (injection h with h; exact h.symm)

/-- C125. A file with this structure is read, whatever the numbers of stitches. -/
theorem stitches_read (db : Database StitchType) (intro' : Yaml) (classes : List (Text × Yaml × Yaml × List (Text × Yaml)))
    (h : ∀ c ∈ classes, ∀ s ∈ c.2.2.2, s.2 = .null ∨ ∃ m name, s.2 = .map m ∧ Dict.get? m "name".toList = some name) :
    loadStitches db (.map [("introduction".toList, intro'), ("classes".toList, .map (classes.map fun c =>
      (c.1, .map [("name".toList, c.2.1), ("description".toList, c.2.2.1), ("stitches".toList, .map c.2.2.2)])))]) = .ok db := by
  have stitch : ∀ l : List (Text × Yaml), (∀ s ∈ l, s.2 = .null ∨ ∃ m name, s.2 = .map m ∧ Dict.get? m "name".toList = some name) →
      l.forM readStitch = .ok () := by
    intro l
    induction l with
    | nil => intro _; rfl
    | cons s l ih =>
      intro hl
      have h1 : readStitch s = .ok () := by
        obtain ⟨n, v⟩ := s
        rcases hl (n, v) (by simp) with h | ⟨m, name, h, hn⟩
        · simp only at h; subst h; rfl
        · simp only at h; subst h
          simp only [readStitch, Yaml.item, Yaml.get, Dict.getItem, hn]
          rfl
      show (readStitch s >>= fun _ => l.forM readStitch) = _
      rw [h1]
      exact ih fun s hs => hl s (by simp [hs])
  have cls : ∀ cs : List (Text × Yaml × Yaml × List (Text × Yaml)),
      (∀ c ∈ cs, ∀ s ∈ c.2.2.2, s.2 = .null ∨ ∃ m name, s.2 = .map m ∧ Dict.get? m "name".toList = some name) →
      (cs.map fun c => (c.1, Yaml.map [("name".toList, c.2.1), ("description".toList, c.2.2.1),
        ("stitches".toList, .map c.2.2.2)])).forM readStitchClass = .ok () := by
    intro cs
    induction cs with
    | nil => intro _; rfl
    | cons c cs ih =>
      intro hcs
      have h1 : readStitchClass (c.1, Yaml.map [("name".toList, c.2.1), ("description".toList, c.2.2.1),
          ("stitches".toList, .map c.2.2.2)]) = c.2.2.2.forM readStitch := rfl
      show (readStitchClass _ >>= fun _ => (cs.map _).forM readStitchClass) = _
      rw [h1, stitch _ (hcs c (by simp))]
      exact ih fun c' hc' => hcs c' (by simp [hc'])
  have e : loadStitches db (.map [("introduction".toList, intro'), ("classes".toList, .map (classes.map fun c =>
      (c.1, .map [("name".toList, c.2.1), ("description".toList, c.2.2.1), ("stitches".toList, .map c.2.2.2)])))]) =
      ((classes.map fun c => (c.1, Yaml.map [("name".toList, c.2.1), ("description".toList, c.2.2.1),
        ("stitches".toList, .map c.2.2.2)])).forM readStitchClass).bind fun _ => .ok db := rfl
  rw [e, cls _ h]
  rfl

/-! ## C126 -/

/-- C126 fails: no fabric can be made, whatever the arguments; with all the required ones before the shrinkage the
exception is `TypeError`. -/
theorem fabric_wrong (parse : Text → Except PyErr ℚ) (kwargs : Dict String Value) : (∀ f, Fabric.new parse kwargs ≠ .ok f) ∧
    (∀ b s, kwargs.get? "bending" = some (.seq [b, b]) → kwargs.get? "stretch" = some (.seq [s, s]) →
      ∀ x y z, kwargs.get? "shear" = some (.num x) → kwargs.get? "friction" = some (.num y) →
        kwargs.get? "weight" = some (.num z) → Fabric.new parse kwargs = .error .typeError) := by
  constructor
  · intro f h
    unfold Fabric.new floatPairOne at h
    simp only [bind, Except.bind, pure, Except.pure] at h
    repeat' (split at h)
    all_goals first | cases h | contradiction
  · intro b s h1 h2 x y z h3 h4 h5
    unfold Fabric.new
    simp only [Dict.getItem, h1, h2, h3, h4, h5, Value.floatPair, Value.float, bind, Except.bind, floatPairOne]

/-- C126 fails: the name of a seam always raises `KeyError`. -/
theorem seam_name_wrong (s : AstmSeam) : s.name = .error .keyError := rfl

/-- C126 fails: a sewing machine cannot be made with its stitch types given under their right name. -/
theorem machine_wrong (parse : Text → Except PyErr ℚ) (kwargs : Dict String Value) (h : kwargs.get? "sitche_types" = none) :
    SewingMachine.new parse kwargs = .error .typeError := by
  unfold SewingMachine.new getArg
  rw [h]
  rfl

/-- C126. With the misspelt key, a number of needles which is missing, or a sequence, raises `TypeError`, and one which is a text that is not an
integer raises `ValueError`. -/
theorem machine_needles (parse : Text → Except PyErr ℚ) (kwargs : Dict String Value) (l : List ℚ) (h : kwargs.get? "sitche_types" = some (.seq l)) :
    (kwargs.get? "number_of_needles" = none → SewingMachine.new parse kwargs = .error .typeError) ∧
    (∀ m, kwargs.get? "number_of_needles" = some (.seq m) → SewingMachine.new parse kwargs = .error .typeError) ∧
    (∀ t, kwargs.get? "number_of_needles" = some (.text t) → Xml.intFromText t = .error .valueError → SewingMachine.new parse kwargs = .error .valueError) := by
  refine ⟨fun h' => ?_, fun m h' => ?_, fun t h' ht => ?_⟩ <;> unfold SewingMachine.new getArg <;> rw [h, h']
  · rfl
  · rfl
  · simp only [Option.getD_some, Value.list, Value.int, ht, bind, Except.bind]

/-- C126. Types of stitches which are missing, or a number, raise `TypeError`. -/
theorem machine_stitch_types (parse : Text → Except PyErr ℚ) (kwargs : Dict String Value) :
    (kwargs.get? "sitche_types" = none → SewingMachine.new parse kwargs = .error .typeError) ∧
    (∀ q, kwargs.get? "sitche_types" = some (.num q) → SewingMachine.new parse kwargs = .error .typeError) := by
  refine ⟨fun h => ?_, fun q h => ?_⟩ <;> unfold SewingMachine.new getArg <;> rw [h] <;> rfl

/-- C126. A speed which is missing, or a sequence, raises `TypeError`, and one which is a text raises what `float` raises for it. -/
theorem machine_speed (parse : Text → Except PyErr ℚ) (kwargs : Dict String Value) (l : List ℚ) (n m : ℚ) (h1 : kwargs.get? "sitche_types" = some (.seq l))
    (h2 : kwargs.get? "number_of_needles" = some (.num n)) (h3 : kwargs.get? "number_of_loopers" = some (.num m)) :
    (kwargs.get? "max_sewing_speed" = none → SewingMachine.new parse kwargs = .error .typeError) ∧
    (∀ m, kwargs.get? "max_sewing_speed" = some (.seq m) → SewingMachine.new parse kwargs = .error .typeError) ∧
    (∀ t e, kwargs.get? "max_sewing_speed" = some (.text t) → parse t = .error e → SewingMachine.new parse kwargs = .error e) := by
  refine ⟨fun h' => ?_, fun m h' => ?_, fun t e h' ht => ?_⟩ <;> unfold SewingMachine.new getArg <;> rw [h1, h2, h3, h']
  · rfl
  · rfl
  · simp only [Option.getD_some, Value.list, Value.int, Value.float, ht, bind, Except.bind]

/-- C126. The bending of a fabric: a missing one raises `KeyError`, a text of two characters raises what `float` raises for
the first one that is not a digit, and anything else which is not a sequence of two numbers `TypeError`. -/
theorem fabric_bending (parse : Text → Except PyErr ℚ) (kwargs : Dict String Value) :
    (kwargs.get? "bending" = none → Fabric.new parse kwargs = .error .keyError) ∧
    (∀ a b e, kwargs.get? "bending" = some (.text [a, b]) → (parse [a] = .error e ∨ (∃ x, parse [a] = .ok x) ∧ parse [b] = .error e) →
      Fabric.new parse kwargs = .error e) ∧
    (∀ t, t.length ≠ 2 → kwargs.get? "bending" = some (.text t) → Fabric.new parse kwargs = .error .typeError) ∧
    (∀ l, l.length ≠ 2 → kwargs.get? "bending" = some (.seq l) → Fabric.new parse kwargs = .error .typeError) ∧
    (∀ q, kwargs.get? "bending" = some (.num q) → Fabric.new parse kwargs = .error .typeError) := by
  refine ⟨fun h => ?_, fun a b e h hp => ?_, fun t ht h => ?_, fun l hl h => ?_, fun q h => ?_⟩
  · unfold Fabric.new Dict.getItem
    rw [h]
    rfl
  · unfold Fabric.new Dict.getItem
    rw [h]
    rcases hp with hp | ⟨⟨x, hx⟩, hp⟩
    · simp only [Value.floatPair, hp, bind, Except.bind]
    · simp only [Value.floatPair, hx, hp, bind, Except.bind]
  · unfold Fabric.new
    simp only [Dict.getItem, h]
    rcases t with _ | ⟨a, _ | ⟨b, _ | ⟨c, t⟩⟩⟩
    · rfl
    · rfl
    · exact absurd rfl ht
    · rfl
  · unfold Fabric.new
    simp only [Dict.getItem, h]
    rcases l with _ | ⟨a, _ | ⟨b, _ | ⟨c, l⟩⟩⟩
    · rfl
    · rfl
    · exact absurd rfl hl
    · rfl
  · unfold Fabric.new Dict.getItem
    rw [h]
    rfl

/-- C126. With the misspelt key, and all the numbers, the machine is made. -/
theorem machine_partial (parse : Text → Except PyErr ℚ) (kwargs : Dict String Value) (l : List ℚ) (n m : ℤ) (v g o : ℚ)
    (h1 : kwargs.get? "sitche_types" = some (.seq l)) (h2 : kwargs.get? "number_of_needles" = some (.num n))
    (h3 : kwargs.get? "number_of_loopers" = some (.num m)) (h4 : kwargs.get? "max_sewing_speed" = some (.num v))
    (h5 : kwargs.get? "needle_gauge" = some (.num g)) (h6 : kwargs.get? "overedging_width" = some (.num o)) :
    SewingMachine.new parse kwargs = .ok ⟨l.length, n, m, v, g, o⟩ := by
  have hint : ∀ i : ℤ, Value.int (.num i) = .ok i := by
    intro i
    show Except.ok (if (0 : ℚ) ≤ (i : ℚ) then (i : ℚ).floor else (i : ℚ).ceil) = _
    split <;> simp [Rat.floor_intCast, Rat.ceil_intCast]
  unfold SewingMachine.new getArg
  rw [h1, h2, h3, h4, h5, h6]
  simp only [Option.getD_some, hint]
  rfl

example : ∃ db, loadFibers [] (fiberFile [("Cotton".toList, .text "boll".toList)] [("Wool".toList, .text "sheep".toList)]
    [("Nylon".toList, .null), ("Cotton".toList, .null)]) = .ok db ∧ db.length = 3 := ⟨_, rfl, rfl⟩

example : SewingMachine.new (fun _ => .error .valueError) [("sitche_types", .seq [1]), ("number_of_needles", .num 2), ("number_of_loopers", .num 1),
    ("max_sewing_speed", .num 1000), ("needle_gauge", .num 3), ("overedging_width", .num 5)] = .ok ⟨1, 2, 1, 1000, 3, 5⟩ :=
  machine_partial _ _ [1] 2 1 1000 3 5 rfl rfl rfl rfl rfl rfl

/-! ## Needles -/

/-- C245. A needle keeps its system and its type, and its size and its multiplicity cut to whole numbers, towards zero; the multiplicity is one
when it is not given. -/
theorem needle_kept {S T : Type} (system : S) (type : T) (size multiplicity : ℚ) :
    (∃ n, Needle.new system type (.num size) (.num multiplicity) = .ok n ∧ n.system = system ∧ n.type = type ∧
      (|(n.nmSize : ℚ)| ≤ |size| ∧ |size - n.nmSize| < 1 ∧ 0 ≤ n.nmSize * size) ∧
      (|(n.multiplicity : ℚ)| ≤ |multiplicity| ∧ |multiplicity - n.multiplicity| < 1 ∧ 0 ≤ n.multiplicity * multiplicity)) ∧
    ∃ n, Needle.new system type (.num size) = .ok n ∧ n.multiplicity = 1 := by
  have key : ∀ q : ℚ, ∃ i : ℤ, Value.int (.num q) = .ok i ∧ |(i : ℚ)| ≤ |q| ∧ |q - i| < 1 ∧ 0 ≤ i * q := by
    intro q
    refine ⟨_, rfl, ?_⟩
    by_cases h : 0 ≤ q
    · rw [if_pos h]
      change |((⌊q⌋ : ℤ) : ℚ)| ≤ |q| ∧ |q - (⌊q⌋ : ℤ)| < 1 ∧ 0 ≤ ((⌊q⌋ : ℤ) : ℚ) * q
      have h1 := Int.floor_le q
      have h2 := Int.lt_floor_add_one q
      have h3 : (0 : ℚ) ≤ ⌊q⌋ := by exact_mod_cast Int.floor_nonneg.2 h
      refine ⟨?_, ?_, mul_nonneg h3 h⟩
      · rwa [abs_of_nonneg h3, abs_of_nonneg h]
      · rw [abs_lt]; constructor <;> linarith
    · have e : q.ceil = ⌈q⌉ := by rw [Rat.ceil_eq_neg_floor_neg]; rfl
      rw [if_neg h, e]
      have h := not_le.1 h
      have h1 := Int.le_ceil q
      have h2 := Int.ceil_lt_add_one q
      have h3 : (⌈q⌉ : ℚ) ≤ 0 := by exact_mod_cast Int.ceil_le.2 (by simpa using h.le)
      refine ⟨?_, ?_, mul_nonneg_of_nonpos_of_nonpos h3 h.le⟩
      · rw [abs_of_nonpos h3, abs_of_neg h]; linarith
      · rw [abs_lt]; constructor <;> linarith
  obtain ⟨i, hi, h1⟩ := key size
  obtain ⟨j, hj, h2⟩ := key multiplicity
  refine ⟨⟨⟨system, type, i, j⟩, ?_, rfl, rfl, h1, h2⟩, ⟨system, type, i, 1⟩, ?_, rfl⟩
  · simp only [Needle.new, hi, hj]
    rfl
  · simp only [Needle.new, hi]
    rfl

/-- C245. A size which is missing or a sequence raises `TypeError`, one which is a text that is not an integer `ValueError`; the text of an integer
gives the needle of this integer. -/
theorem needle_refused {S T : Type} (system : S) (type : T) (multiplicity : Value) (l : List ℚ) (t : Text) :
    Needle.new system type .none multiplicity = .error .typeError ∧ Needle.new system type (.seq l) multiplicity = .error .typeError ∧
    (Xml.intFromText t = .error .valueError → Needle.new system type (.text t) multiplicity = .error .valueError) ∧
    ∀ i : ℤ, Needle.new system type (.text (Xml.intToText i)) multiplicity = Needle.new system type (.num i) multiplicity := by
  refine ⟨rfl, rfl, fun h => ?_, fun i => ?_⟩
  · simp only [Needle.new, Value.int, h, bind, Except.bind]
  · have hint : Value.int (.num i) = .ok i := by
      show Except.ok (if (0 : ℚ) ≤ (i : ℚ) then (i : ℚ).floor else (i : ℚ).ceil) = _
      split <;> simp [Rat.floor_intCast, Rat.ceil_intCast]
    have ht : Value.int (.text (Xml.intToText i)) = .ok i := Xml.int_round_trip i
    simp only [Needle.new, hint, ht]

example : Xml.intFromText "jeans".toList = .error .valueError := by decide +kernel

/-- C245, what holds of the needles of the module of the machines: they keep their system, their type and their multiplicity. -/
theorem machine_needle_partial (system type size multiplicity : Value) :
    MachineNeedle.system (MachineNeedle.new system type size multiplicity) = .ok system ∧
    MachineNeedle.type (MachineNeedle.new system type size multiplicity) = .ok type ∧
    MachineNeedle.multiplicity (MachineNeedle.new system type size multiplicity) = .ok multiplicity ∧
    MachineNeedle.multiplicity (MachineNeedle.new system type size) = .ok (.num 1) := ⟨rfl, rfl, rfl, rfl⟩

/-- C245 is false of the needles of the module of the machines: their size is never given back. -/
theorem machine_needle_wrong (system type size multiplicity : Value) :
    MachineNeedle.size (MachineNeedle.new system type size multiplicity) = .error .attributeError := rfl

example : Needle.new "130/705 H" "Jeans" (.num (90 : ℚ)) (.num 2) = .ok ⟨"130/705 H", "Jeans", 90, 2⟩ := by
  rfl

end Patro.Textile

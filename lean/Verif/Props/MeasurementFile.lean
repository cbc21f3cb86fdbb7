import Verif.Model.MeasurementFile
import Verif.Props.Measurement
import Verif.Spec.MeasurementFile
/-!
# Files and attributes of measurements (C201, C202)
-/

namespace Patro.Measurement

open Patro
open Patro.Text (Text)

variable {K : Type}

/-! ## C201 -/

/-- C201 fails whenever Python has no codec called `uft8`: a save raises `LookupError` and leaves an empty file, whatever it held before, and
the other files are unchanged; reading an existing file raises `LookupError`, reading another one `FileNotFoundError`, and nothing is added. -/
theorem save_wrong (isPlain : K → Bool) (printNumber : K → Text) (print : Formula K → Text) (isCodec : Text → Bool)
    (hcodec : isCodec "uft8".toList = false) (dump : List (Text × List (Scalar K)) → Text) (load : Text → List (Text × List (Scalar K)))
    (isAlnum : Char → Bool) (sympify : Text → Except PyErr (Formula K)) (files : Files) (path : Text) (s : Entries K) :
    (∃ files', saveAsYaml isPlain printNumber print isCodec dump files path s = (.error .lookupError, files') ∧
      files'.get? path = some [] ∧ ∀ other, other ≠ path → files'.get? other = files.get? other) ∧
    (path ∈ files.keys → loadYaml printNumber isCodec load isAlnum sympify files path s = (.error .lookupError, s)) ∧
    (path ∉ files.keys → loadYaml printNumber isCodec load isAlnum sympify files path s = (.error .osError, s)) := by
  refine ⟨?_, ?_, ?_⟩
  · refine ⟨files.set path [], ?_, Dict.get?_set_self _ _ _, fun other h => Dict.get?_set_ne _ _ (Ne.symm h)⟩
    unfold saveAsYaml openWrite
    rw [hcodec]
    rfl
  · intro h
    obtain ⟨content, hc⟩ := Option.isSome_iff_exists.1 ((Dict.get?_isSome_iff files path).2 h)
    unfold loadYaml openRead
    rw [hc, hcodec]
    rfl
  · intro h
    unfold loadYaml openRead
    rw [(Dict.get?_eq_none_iff files path).2 h]

/-- How a file gives an expression back: a Python number becomes an expression, and an integer or a float of sympy becomes a Python number. -/
def turned (isPlain : K → Bool) : Expression K → Expression K
  | .python k => .sympy (.num k)
  | .sympy (.num k) => if isPlain k then .python k else .sympy (.num k)
  | .sympy f => .sympy f

/-- The texts written for an expression are read back by sympy. -/
def Readable (printNumber : K → Text) (print : Formula K → Text) (sympify : Text → Except PyErr (Formula K)) : Expression K → Prop
  | .python k => sympify (printNumber k) = .ok (.num k)
  | .sympy f => sympify (print f) = .ok f

theorem addScalar_new (isPlain : K → Bool) (printNumber : K → Text) (print : Formula K → Text) (isAlnum : Char → Bool)
    (sympify : Text → Except PyErr (Formula K)) (s : Entries K) (n f d : Text) (x : Expression K) (hr : Readable printNumber print sympify x)
    (hv : validateName isAlnum n = .ok n) (hn : n ∉ s.keys) :
    addScalar printNumber isAlnum sympify s n (toScalar isPlain printNumber print x) (.text f) (.text d) =
      .ok (s ++ [(n, ⟨turned isPlain x, f, d⟩)]) := by
  have hc : s.contains n = false := by
    rw [Dict.contains, Bool.eq_false_iff, Ne, Dict.get?_isSome_iff]
    exact hn
  unfold addScalar
  rw [hv]
  have fin : ∀ e : Expression K, (if Dict.contains s n = true then (Except.error PyErr.nameError : Except PyErr (Entries K))
      else pure (s.set n { expression := e, fullName := f, description := d })) = .ok (s ++ [(n, ⟨e, f, d⟩)]) := by
    intro e
    rw [hc, if_neg (by simp), Dict.set_of_not_mem _ hn]
    rfl
  cases x with
  | python k =>
    simp only [Readable] at hr
    simp only [toScalar, bind, Except.bind, hr, Except.map, turned]
    exact fin _
  | sympy g =>
    simp only [Readable] at hr
    cases g with
    | num k =>
      by_cases hk : isPlain k = true
      · simp only [toScalar, hk, if_true, bind, Except.bind, turned]
        exact fin _
      · have hk' : isPlain k = false := by simpa using hk
        simp only [toScalar, hk', Bool.false_eq_true, if_false, bind, Except.bind, hr, Except.map, turned]
        exact fin _
    | var m =>
      simp only [toScalar, bind, Except.bind, hr, Except.map, turned]
      exact fin _
    | bin op a b =>
      simp only [toScalar, bind, Except.bind, hr, Except.map, turned]
      exact fin _

theorem loadLoop_all (isPlain : K → Bool) (printNumber : K → Text) (print : Formula K → Text) (isAlnum : Char → Bool)
    (sympify : Text → Except PyErr (Formula K)) (l : List (Text × Entry K)) (s : Entries K)
    (hr : ∀ ne ∈ l, Readable printNumber print sympify ne.2.expression) (hv : ∀ ne ∈ l, validateName isAlnum ne.1 = .ok ne.1)
    (hd : (l.map Prod.fst).Nodup) (hs : ∀ ne ∈ l, ne.1 ∉ s.keys) :
    loadLoop printNumber isAlnum sympify s (l.map fun ne => (ne.1, toData isPlain printNumber print ne.2)) =
      (.ok (), s ++ l.map fun ne => (ne.1, { ne.2 with expression := turned isPlain ne.2.expression })) := by
  induction l generalizing s with
  | nil => simp [loadLoop]
  | cons ne l ih =>
    obtain ⟨n, e⟩ := ne
    have hn := hs (n, e) (by simp)
    have hadd := fun f d => addScalar_new isPlain printNumber print isAlnum sympify s n f d e.expression (hr (n, e) (by simp)) (hv (n, e) (by simp)) hn
    simp only [List.map_cons, List.nodup_cons] at hd
    have hrest := ih (s ++ [(n, { e with expression := turned isPlain e.expression })]) (fun ne h => hr ne (by simp [h])) (fun ne h => hv ne (by simp [h]))
      hd.2 (fun ne h => by
        have h1 := hs ne (by simp [h])
        simp only [Dict.keys, List.map_append, List.map_cons, List.map_nil, List.mem_append, List.mem_singleton, not_or] at h1 ⊢
        refine ⟨h1, fun e => hd.1 ?_⟩
        rw [← e]
        exact List.mem_map_of_mem h)
    rw [List.map_cons, loadLoop.eq_def]
    dsimp only
    generalize (l.map fun ne => (ne.1, toData isPlain printNumber print ne.2)) = rest at hrest ⊢
    by_cases ht : (!e.fullName.isEmpty || !e.description.isEmpty) = true
    · simp only [toData, ht, if_true, List.cons_append, List.nil_append, Except.bind, hadd]
      exact hrest.trans (by simp)
    · have ht' := ht
      simp only [Bool.or_eq_true, Bool.not_eq_true', not_or, Bool.not_eq_false, List.isEmpty_iff] at ht'
      have he : (⟨turned isPlain e.expression, [], []⟩ : Entry K) = { e with expression := turned isPlain e.expression } := by
        rw [ht'.1, ht'.2]
      have hf : (!e.fullName.isEmpty || !e.description.isEmpty) = false := by simpa using ht
      simp only [toData, hf, Bool.false_eq_true, if_false, Except.bind, hadd, he]
      exact hrest.trans (by simp)

/-- C201, what would hold where a codec called `uft8` is registered: a set that is saved and loaded again in an empty set has the same names, in
ascending order, with the same texts and the expressions `turned`. The names of a set are always valid and distinct (C24). -/
theorem yaml_round_trip_partial (isPlain : K → Bool) (printNumber : K → Text) (print : Formula K → Text) (isCodec : Text → Bool)
    (hcodec : isCodec "uft8".toList = true) (dump : List (Text × List (Scalar K)) → Text) (load : Text → List (Text × List (Scalar K)))
    (hyaml : ∀ d : List (Text × List (Scalar K)), (d.map Prod.fst).Pairwise (· < ·) → load (dump d) = d)
    (isAlnum : Char → Bool) (sympify : Text → Except PyErr (Formula K)) (files : Files) (path : Text) (s : Entries K) (hd : s.keys.Nodup)
    (hv : ∀ n ∈ s.keys, validateName isAlnum n = .ok n) (hr : ∀ n e, s.get? n = some e → Readable printNumber print sympify e.expression) :
    ∃ files' s', saveAsYaml isPlain printNumber print isCodec dump files path s = (.ok (), files') ∧
      (∀ other, other ≠ path → files'.get? other = files.get? other) ∧
      loadYaml printNumber isCodec load isAlnum sympify files' path [] = (.ok (), s') ∧
      s'.keys.Perm s.keys ∧ s'.keys.Pairwise (· < ·) ∧
      ∀ n, s'.get? n = (s.get? n).map fun e => { e with expression := turned isPlain e.expression } := by
  obtain ⟨l, hl⟩ : ∃ l : List (Text × Entry K), l = (sortNames s.keys).filterMap fun n => (s.get? n).map fun e => (n, e) := ⟨_, rfl⟩
  have hdict : toDictionary isPlain printNumber print s = l.map fun ne => (ne.1, toData isPlain printNumber print ne.2) := by
    rw [hl, List.map_filterMap]
    unfold toDictionary
    congr 1
    funext n
    cases s.get? n <;> rfl
  have hmem : ∀ ne ∈ l, s.get? ne.1 = some ne.2 := by
    intro ne h
    rw [hl, List.mem_filterMap] at h
    obtain ⟨n, -, h⟩ := h
    rw [Option.map_eq_some_iff] at h
    obtain ⟨e, h, rfl⟩ := h
    exact h
  have hnames : l.map Prod.fst = sortNames s.keys := by
    rw [hl]
    have : ∀ m : List Text, (∀ n ∈ m, n ∈ s.keys) → (m.filterMap fun n => (s.get? n).map fun e => (n, e)).map Prod.fst = m := by
      intro m
      induction m with
      | nil => intro _; rfl
      | cons n m ih =>
        intro h
        obtain ⟨e, he⟩ := Option.isSome_iff_exists.1 ((Dict.get?_isSome_iff s n).2 (h n List.mem_cons_self))
        rw [List.filterMap_cons, he]
        simp only [Option.map_some, List.map_cons]
        rw [ih (fun x hx => h x (List.mem_cons_of_mem _ hx))]
    exact this _ (fun n hn => (sortNames_perm s.keys).mem_iff.1 hn)
  have hkeys : ∀ ne ∈ l, ne.1 ∈ s.keys := fun ne h => (Dict.get?_isSome_iff s ne.1).1 (by rw [hmem ne h]; rfl)
  have hload := loadLoop_all isPlain printNumber print isAlnum sympify l [] (fun ne h => hr _ _ (hmem ne h)) (fun ne h => hv _ (hkeys ne h))
    (by rw [hnames]; exact (sortNames_perm s.keys).nodup_iff.2 hd) (by simp [Dict.keys])
  have hyd := hyaml (toDictionary isPlain printNumber print s) (by
    rw [hdict, List.map_map]
    have : (Prod.fst ∘ fun ne : Text × Entry K => (ne.1, toData isPlain printNumber print ne.2)) = Prod.fst := rfl
    rw [this, hnames]
    exact sortNames_strict s.keys hd)
  have hk' : Dict.keys (l.map fun ne => (ne.1, { ne.2 with expression := turned isPlain ne.2.expression })) = sortNames s.keys := by
    unfold Dict.keys
    rw [List.map_map]
    exact hnames
  refine ⟨(files.set path []).set path (dump (toDictionary isPlain printNumber print s)),
    l.map fun ne => (ne.1, { ne.2 with expression := turned isPlain ne.2.expression }), ?_, ?_, ?_, ?_, ?_, ?_⟩
  · unfold saveAsYaml openWrite
    rw [hcodec]
    rfl
  · intro other ho
    rw [Dict.get?_set_ne _ _ (Ne.symm ho), Dict.get?_set_ne _ _ (Ne.symm ho)]
  · unfold loadYaml openRead
    rw [Dict.get?_set_self, hcodec]
    dsimp only
    rw [if_pos rfl]
    dsimp only
    rw [hyd, hdict, hload, List.nil_append]
  · rw [hk']; exact sortNames_perm s.keys
  · rw [hk']; exact sortNames_strict s.keys hd
  · intro n
    have hget : ∀ m : List (Text × Entry K), Dict.get? (m.map fun ne => (ne.1, { ne.2 with expression := turned isPlain ne.2.expression })) n =
        (Dict.get? m n).map fun e => { e with expression := turned isPlain e.expression } := by
      intro m
      induction m with
      | nil => rfl
      | cons ne m ih =>
        obtain ⟨a, e⟩ := ne
        simp only [List.map_cons, Dict.get?]
        split
        · rfl
        · exact ih
    rw [hget]
    congr 1
    cases hs : s.get? n with
    | none =>
      have : n ∉ Dict.keys l := by
        unfold Dict.keys
        rw [hnames, (sortNames_perm s.keys).mem_iff]
        exact (Dict.get?_eq_none_iff s n).1 hs
      exact (Dict.get?_eq_none_iff l n).2 this
    | some e =>
      have h1 : n ∈ Dict.keys l := by
        unfold Dict.keys
        rw [hnames, (sortNames_perm s.keys).mem_iff]
        exact (Dict.get?_isSome_iff s n).1 (by rw [hs]; rfl)
      obtain ⟨e', he'⟩ := Option.isSome_iff_exists.1 ((Dict.get?_isSome_iff l n).2 h1)
      have h2 := hmem (n, e') (Dict.mem_of_get? he')
      rw [he', ← hs]
      exact h2.symm

/-- C201 fails even where the codec is registered: a measurement given as a Python number comes back with the number rounded to three digits,
and one given as an integer or a float in a text comes back without this rounding. -/
theorem yaml_number_wrong (isPlain : K → Bool) (rnd : K → K) (k : K) :
    (Expression.python k).value rnd = .ok k ∧ (turned isPlain (.python k)).value rnd = .ok (rnd k) ∧
    (isPlain k = true → (Expression.sympy (.num k)).value rnd = .ok (rnd k) ∧ (turned isPlain (.sympy (.num k))).value rnd = .ok k) := by
  refine ⟨rfl, rfl, fun h => ⟨rfl, ?_⟩⟩
  simp only [turned, h, if_true]
  rfl

/-- C201. A formula without measurements has a value, which is rounded, and one which is a measurement has none: `TypeError`. -/
theorem yaml_formula_value (rnd : K → K) (f : Formula K) :
    (∀ k, f.ground? = some k → (Expression.sympy f).value rnd = .ok (rnd k)) ∧
    (f.ground? = none → (Expression.sympy f).value rnd = .error .typeError) ∧ ∀ n : Text, (Formula.var n : Formula K).ground? = none := by
  refine ⟨fun k h => ?_, fun h => ?_, fun n => rfl⟩ <;> · unfold Expression.value; dsimp only; rw [h]

/-- C201. Every other expression keeps its value. -/
theorem yaml_value (isPlain : K → Bool) (rnd : K → K) (f : Formula K) (h : ∀ k, f = .num k → isPlain k = false) :
    (turned isPlain (.sympy f)).value rnd = (Expression.sympy f).value rnd := by
  cases f with
  | num k => simp only [turned, h k rfl, Bool.false_eq_true, if_false]
  | var n => rfl
  | bin op a b => rfl

/-- C201. A file in which a measurement has two values or more than three, or a name that is not valid, or one that the set already has, is
refused at this measurement; the measurements before it are kept. -/
theorem load_refused (printNumber : K → Text) (isAlnum : Char → Bool) (sympify : Text → Except PyErr (Formula K)) (s : Entries K) (name : Text)
    (data : List (Scalar K)) (rest : List (Text × List (Scalar K))) :
    (data.length = 0 → loadLoop printNumber isAlnum sympify s ((name, data) :: rest) = (.error .indexError, s)) ∧
    (data.length = 2 ∨ 3 < data.length → loadLoop printNumber isAlnum sympify s ((name, data) :: rest) = (.error .valueError, s)) ∧
    (data.length = 1 ∨ data.length = 3 → validateName isAlnum name = .error .valueError →
      loadLoop printNumber isAlnum sympify s ((name, data) :: rest) = (.error .valueError, s)) ∧
    (∀ n k, validateName isAlnum name = .ok n → n ∈ s.keys → data = [.number k] →
      loadLoop printNumber isAlnum sympify s ((name, data) :: rest) = (.error .nameError, s)) := by
  refine ⟨fun h => ?_, fun h => ?_, fun h hv => ?_, fun n k hv hn hd => ?_⟩
  · match data, h with
    | [], _ => rfl
  · match data, h with
    | [_, _], _ => rfl
    | _ :: _ :: _ :: _ :: _, _ => rfl
    | [], h => simp at h
    | [_], h => simp at h
    | [_, _, _], h => simp at h
  · match data, h with
    | [a], _ => rw [loadLoop.eq_def]; simp only [Except.bind, addScalar, hv, bind]
    | [a, b, c], _ => rw [loadLoop.eq_def]; simp only [Except.bind, addScalar, hv, bind]
    | [], h => simp at h
    | [_, _], h => simp at h
    | _ :: _ :: _ :: _ :: _, h => simp at h
  · subst hd
    have hc : s.contains n = true := by
      rw [Dict.contains]
      exact (Dict.get?_isSome_iff s n).2 hn
    rw [loadLoop.eq_def]
    simp only [Except.bind, addScalar, hv, bind, hc, if_true]

/-! ## C202 -/

theorem own_names (name : Text) : name ∈ ownNames ↔ name ∈ setAttributes := by
  have h1 : ∀ n ∈ ownNames, n ∈ setAttributes := by decide
  have h2 : ∀ n ∈ setAttributes, n ∈ ownNames := by decide
  exact ⟨h1 name, h2 name⟩

/-- C202, what holds: a measurement is an attribute of its set exactly if no attribute of the set has its name. -/
theorem attribute_iff {M : Type} (isObject : Text → Bool) (s : Dict Text M) (name : Text) (m : M) (h : s.get? name = some m) :
    getAttribute isObject s name = .ok (.measurement m) ↔ isObject name = false ∧ name ∉ setAttributes := by
  rw [← own_names]
  unfold getAttribute
  rw [h]
  by_cases ho : isObject name = true
  · simp [ho]
  · by_cases hn : name ∈ ownNames
    · simp [hn]
    · simp [ho, hn]

/-- C202 fails for the names of the attributes of a set, which can be names of measurements: `add` accepts `unit`, and the attribute is
something else. -/
theorem attribute_name_wrong {M : Type} (isObject : Text → Bool) (s : Dict Text M) (name : Text) (h : name ∈ setAttributes) :
    getAttribute isObject s name = .ok .own ∧ validateName Char.isAlphanum "unit".toList = .ok "unit".toList ∧ "unit".toList ∈ setAttributes := by
  rw [← own_names] at h
  refine ⟨?_, by decide, by decide⟩
  unfold getAttribute
  simp [h]

/-- C202 fails for a name that is not there: `KeyError` is raised instead of `AttributeError`, so that `hasattr` raises it too instead of
answering no, as do `copy.deepcopy`, which asks for `__deepcopy__`, and all that tests an attribute. -/
theorem hasattr_wrong {M : Type} (isObject : Text → Bool) (s : Dict Text M) (name : Text) (ho : isObject name = false) (hn : name ∉ setAttributes)
    (h : name ∉ s.keys) : getAttribute isObject s name = .error .keyError ∧ hasAttribute isObject s name = .error .keyError := by
  rw [← own_names] at hn
  have hg : getAttribute isObject s name = .error .keyError := by
    unfold getAttribute
    rw [(Dict.get?_eq_none_iff s name).2 h]
    simp [ho, hn]
  refine ⟨hg, ?_⟩
  unfold hasAttribute
  rw [hg]

/-- C202. `hasattr` never answers no. -/
theorem hasattr_never_false {M : Type} (isObject : Text → Bool) (s : Dict Text M) (name : Text) : hasAttribute isObject s name ≠ .ok false := by
  unfold hasAttribute getAttribute
  split <;> rename_i h
  · simp
  · split at h
    · cases h
    · split at h <;> cases h
  · simp

/-- A set with a number, a formula and texts, that a registered codec would save and give back. -/
example : ∃ s' : Entries ℕ, (loadLoop (K := ℕ) (fun k => (toString k).toList) Char.isAlphanum
    (fun t => if t = "12".toList then .ok (.num 12) else .ok (.var t)) []
    (toDictionary (fun _ => true) (fun k => (toString k).toList) (fun f => match f with | .var n => n | _ => [])
      [("hip".toList, ⟨.python 12, [], []⟩), ("arm".toList, ⟨.sympy (.var "hip".toList), "Arm".toList, []⟩)])) = (.ok (), s') ∧
      s'.keys = ["arm".toList, "hip".toList] := ⟨_, rfl, by decide +kernel⟩

example : ∃ m : Nat, getAttribute (fun _ => false) [("hip".toList, 3)] "hip".toList = .ok (.measurement m) ∧
    hasAttribute (fun _ => false) [("hip".toList, 3)] "__deepcopy__".toList = .error .keyError := ⟨3, by rfl, by rfl⟩

end Patro.Measurement

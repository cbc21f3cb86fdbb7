import Verif.Proof.ToPython
/-! # Properties of `to_python`: C174 -/

namespace Patro.ToPython

open Patro.Text (Text)

theorem initArgs_parameters (cls : Cls) : cls.initArgs = parameters cls := by cases cls <;> rfl

/-- C174, the operations whose values can be written: the text returned by `to_python` is a Python call of the class of the operation, with
`sketch` and, for each parameter of the constructor but the id, the value it should have: the names of the points and the texts of the
expressions between quotes, the numbers and the vectors as they are. The values which can be written are texts without quote, backslash nor
end of line, expressions which are numbers of Python or are not accepted by `float`, and `None` for the line style and colour. -/
theorem to_python_partial (isFloat : Text → Bool) (cls : Cls) (value : Text → Arg) (lit : Text → Lit)
    (h : ∀ k ∈ parameters cls, Means isFloat (value k) (lit k)) :
    readCall (toPython isFloat cls value) = some (cls.name, (parameters cls).map fun k => (k, lit k)) := by
  rw [← initArgs_parameters] at h ⊢
  rw [readCall_eq, readArgs_ok (cls.initArgs.map fun a => (a, value a)) (fun e => lit e.1)]
  · simp [List.map_map, Function.comp_def]
  · intro e he
    obtain ⟨k, hk, rfl⟩ := List.mem_map.1 he
    obtain ⟨h1, h2⟩ := initArgs_ident cls k hk
    exact ⟨h1, h2, h k hk⟩
  · rw [toPython_eq]
    have := tail_length isFloat (cls.initArgs.map fun a => (a, value a))
    simp only [List.length_append, List.length_cons]
    omega

/-- C174. In particular two operations with the same code have the same class and the same values. -/
theorem to_python_injective (isFloat : Text → Bool) (cls cls' : Cls) (value value' : Text → Arg) (lit lit' : Text → Lit)
    (h : ∀ k ∈ parameters cls, Means isFloat (value k) (lit k)) (h' : ∀ k ∈ parameters cls', Means isFloat (value' k) (lit' k))
    (heq : toPython isFloat cls value = toPython isFloat cls' value') : cls = cls' ∧ ∀ k ∈ parameters cls, lit k = lit' k := by
  have e1 := to_python_partial isFloat cls value lit h
  have e2 := to_python_partial isFloat cls' value' lit' h'
  rw [heq, e2] at e1
  simp only [Option.some.injEq, Prod.mk.injEq] at e1
  have hc : cls = cls' := by
    have := e1.1
    revert this
    cases cls <;> cases cls' <;> decide
  subst hc
  refine ⟨rfl, ?_⟩
  intro k hk
  have := List.map_inj_left.1 e1.2 k hk
  simp only [Prod.mk.injEq, true_and] at this
  exact this.symm

/-- C174 fails: when a parameter has a value which is neither `None`, a number, a text, a point, an expression nor a vector, such as a line
style or a colour, nothing is written for it, and the code is not a call. -/
theorem to_python_style_wrong (isFloat : Text → Bool) (cls : Cls) (value : Text → Arg) (lit : Text → Lit) (before after : List Text) (k : Text)
    (hargs : parameters cls = before ++ k :: after) (h : ∀ k' ∈ before, Means isFloat (value k') (lit k')) (hk : value k = .other) :
    readCall (toPython isFloat cls value) = none := by
  have hid := initArgs_ident cls
  rw [← initArgs_parameters] at hargs
  rw [readCall_eq, hargs, List.map_append, List.map_cons, hk,
    readArgs_other (before.map fun a => (a, value a)) k _ (fun e => lit e.1)]
  · rfl
  · intro e he
    obtain ⟨k', hk', rfl⟩ := List.mem_map.1 he
    obtain ⟨h1, h2⟩ := hid k' (by rw [hargs]; simp [hk'])
    exact ⟨h1, h2, h k' hk'⟩
  · exact (hid k (by rw [hargs]; simp)).2

/-- C174 fails for every line between two points: the line style, solid by default, is never `None` unless asked for. -/
theorem to_python_line_wrong (isFloat : Text → Bool) (a b : Text) (ha : Plain a) (hb : Plain b) (color : Arg) :
    readCall (toPython isFloat .line fun k =>
      if k = "first_point".toList then .point a else if k = "second_point".toList then .point b
      else if k = "line_style".toList then .other else color) = none := by
  refine to_python_style_wrong isFloat .line _ (fun k => if k = "first_point".toList then .str a else .str b)
    ["first_point".toList, "second_point".toList] ["line_color".toList] "line_style".toList rfl ?_ ?_
  · intro k hk
    simp only [List.mem_cons, List.not_mem_nil, or_false] at hk
    rcases hk with rfl | rfl
    · rw [if_pos rfl, if_pos rfl]
      exact ⟨ha, rfl⟩
    · rw [if_neg (by decide), if_pos rfl, if_neg (by decide)]
      exact ⟨hb, rfl⟩
  · rw [if_neg (by decide), if_neg (by decide), if_pos rfl]

/-- The values of a `SinglePoint`. -/
def single (name x y : Text) (k : Text) : Arg :=
  if k = "name".toList then .str name else if k = "x".toList then .expr x else if k = "y".toList then .expr y
  else .vector "0.5".toList "-1.0".toList

/-- C174 fails: a quote in a name is not escaped. -/
theorem to_python_quote_wrong (isFloat : Text → Bool) (h : isFloat "10".toList = true) :
    toPython isFloat .singlePoint (single "O'Neil".toList "10".toList "10".toList) =
        "SinglePoint(sketch, name='O'Neil', x=10, y=10, label_offset=Vector2D(0.5, -1.0))".toList ∧
      readCall (toPython isFloat .singlePoint (single "O'Neil".toList "10".toList "10".toList)) = none := by
  have e : toPython isFloat .singlePoint (single "O'Neil".toList "10".toList "10".toList) =
      toPython (fun _ => true) .singlePoint (single "O'Neil".toList "10".toList "10".toList) := by
    rw [toPython_eq, toPython_eq]
    change _ ++ _ :: (_ ++ (", ".toList ++ ("name".toList ++ "=".toList ++ quote _ ++ (", ".toList ++ ("x".toList ++ "=".toList ++
      (if isFloat "10".toList then _ else _) ++ (", ".toList ++ ("y".toList ++ "=".toList ++ (if isFloat "10".toList then _ else _) ++ _))))))) = _
    rw [if_pos h]
    rfl
  rw [e]
  constructor <;> decide +kernel

/-- C174 fails: an expression accepted by `float` is not always a number of Python: the code then refers to a name, `inf`. -/
theorem to_python_inf_wrong (isFloat : Text → Bool) (h : isFloat "inf".toList = true) :
    toPython isFloat .singlePoint (single "A".toList "inf".toList "inf".toList) =
        "SinglePoint(sketch, name='A', x=inf, y=inf, label_offset=Vector2D(0.5, -1.0))".toList ∧
      readCall (toPython isFloat .singlePoint (single "A".toList "inf".toList "inf".toList)) = none := by
  have e : toPython isFloat .singlePoint (single "A".toList "inf".toList "inf".toList) =
      toPython (fun _ => true) .singlePoint (single "A".toList "inf".toList "inf".toList) := by
    rw [toPython_eq, toPython_eq]
    change _ ++ _ :: (_ ++ (", ".toList ++ ("name".toList ++ "=".toList ++ quote _ ++ (", ".toList ++ ("x".toList ++ "=".toList ++
      (if isFloat "inf".toList then _ else _) ++ (", ".toList ++ ("y".toList ++ "=".toList ++ (if isFloat "inf".toList then _ else _) ++ _))))))) = _
    rw [if_pos h]
    rfl
  rw [e]
  constructor <;> decide +kernel

/-- A point defined by an expression and a number. -/
example : readCall (toPython (fun t => t = "10".toList) .singlePoint (single "A".toList "waist / 2".toList "10".toList)) =
    some ("SinglePoint".toList, [("name".toList, .str "A".toList), ("x".toList, .str "waist / 2".toList), ("y".toList, .number "10".toList),
      ("label_offset".toList, .vector "0.5".toList "-1.0".toList)]) := by decide +kernel

/-- The values of a point along a line without style can be written. -/
example : ∀ k ∈ parameters .alongLinePoint, Means (fun _ => false)
    (if k = "name".toList then .str "C".toList else if k = "first_point".toList then .point "A".toList
      else if k = "second_point".toList then .point "B".toList else if k = "length".toList then .expr "Line_A_B / 2".toList
      else if k = "label_offset".toList then .vector "1.0".toList "2.0".toList else .none)
    (if k = "name".toList then .str "C".toList else if k = "first_point".toList then .str "A".toList
      else if k = "second_point".toList then .str "B".toList else if k = "length".toList then .str "Line_A_B / 2".toList
      else if k = "label_offset".toList then .vector "1.0".toList "2.0".toList else .none) := by
  intro k hk
  have hp : Plain "C".toList ∧ Plain "A".toList ∧ Plain "B".toList ∧ Plain "Line_A_B / 2".toList := by
    unfold Plain
    decide +kernel
  split
  · exact ⟨hp.1, rfl⟩
  split
  · exact ⟨hp.2.1, rfl⟩
  split
  · exact ⟨hp.2.2.1, rfl⟩
  split
  · exact ⟨hp.2.2.2, rfl⟩
  split
  · exact ⟨by decide, by decide, rfl⟩
  · rfl

end Patro.ToPython

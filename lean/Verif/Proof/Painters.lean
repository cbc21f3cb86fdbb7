import Verif.Spec.Painters
/-!
# Lemmas on the elements written by the SVG painter
-/

namespace Patro.Painters
open Xml (Text)
variable {K : Type}

theorem init_names (number : K → Text) (kwargs : Dict String (Option (Val K))) (names : List (String × String))
    (o : Xml.Obj (Val K)) (h : (o.map Prod.fst ++ names.map Prod.fst).Nodup) :
    (names.map fun n => attr number n.1 n.2).foldlM (init := o) (fun o a =>
      match kwargs.get? a.py with
      | some t => do
        let v ← a.fromPy t
        return o.set a.py v
      | none => return o.set a.py a.default) = .ok (o ++ names.map fun n => (n.1, (kwargs.get? n.1).getD none)) := by
  induction names generalizing o with
  | nil => simp [pure, Except.pure]
  | cons n names ih =>
    have hn : n.1 ∉ Dict.keys o := by
      intro hm
      exact (List.nodup_append.1 h).2.2 n.1 hm n.1 (by simp) rfl
    have step : ∀ v, (names.map fun n => attr number n.1 n.2).foldlM (init := Dict.set o n.1 v) (fun o a =>
      match kwargs.get? a.py with
      | some t => do
        let v ← a.fromPy t
        return o.set a.py v
      | none => return o.set a.py a.default) = .ok ((o ++ [(n.1, v)]) ++ names.map fun n => (n.1, (kwargs.get? n.1).getD none)) := by
      intro v
      rw [Dict.set_of_not_mem v hn]
      apply ih
      simpa using h
    rw [List.map_cons, List.foldlM_cons]
    cases hk : kwargs.get? n.1 with
    | none =>
      have : (attr number n.1 n.2).py = n.1 := rfl
      simp only [this, hk]
      show List.foldlM _ (Dict.set o n.1 none) _ = _
      rw [step]
      simp [hk]
    | some v =>
      have : (attr number n.1 n.2).py = n.1 := rfl
      simp only [this, hk]
      show List.foldlM _ (Dict.set o n.1 v) _ = _
      rw [step]
      simp [hk]

theorem get_names {V : Type} (f : String → V) (names : List (String × String)) (n : String × String) (hn : n ∈ names) (hd : (names.map Prod.fst).Nodup) :
    Dict.get? (names.map fun n => (n.1, f n.1)) n.1 = some (f n.1) := by
  induction names with
  | nil => cases hn
  | cons a l ih =>
    rw [List.map_cons, Dict.get?]
    rw [List.map_cons, List.nodup_cons] at hd
    rcases List.mem_cons.1 hn with rfl | hn
    · simp
    · rw [if_neg, ih hn hd.2]
      intro e
      exact hd.1 (List.mem_map.2 ⟨n, hn, e.symm⟩)

theorem write_names (number : K → Text) (o : Xml.Obj (Val K)) (f : String → Option (Val K)) (names : List (String × String))
    (x : Dict String Text) (h : ∀ n ∈ names, o.get? n.1 = some (f n.1)) (hx : (x.map Prod.fst ++ names.map Prod.snd).Nodup) :
    (names.map fun n => attr number n.1 n.2).foldlM (Xml.writeAttr o) x =
      .ok (x ++ names.filterMap fun n => (f n.1).map fun v => (n.2, valToXml number v)) := by
  induction names generalizing x with
  | nil => simp [pure, Except.pure]
  | cons n names ih =>
    have hn : n.2 ∉ Dict.keys x := by
      intro hm
      exact (List.nodup_append.1 hx).2.2 n.2 hm n.2 (by simp) rfl
    have h0 := h n (by simp)
    rw [List.map_cons, List.foldlM_cons]
    have hs : Xml.writeAttr o x (attr number n.1 n.2) =
        .ok (x ++ ((f n.1).map fun v => (n.2, valToXml number v)).toList) := by
      have hp : o.get? (attr number n.1 n.2).py = some (f n.1) := h0
      unfold Xml.writeAttr
      rw [hp]
      cases f n.1 with
      | none => simp
      | some v =>
        show Except.ok (Dict.set x n.2 (valToXml number v)) = _
        rw [Dict.set_of_not_mem _ hn]
        rfl
    rw [hs]
    show List.foldlM _ _ _ = _
    rw [ih _ (fun m hm => h m (by simp [hm]))]
    · rw [List.filterMap_cons]
      cases f n.1 <;> simp
    · cases f n.1 with
      | none =>
        simp only [Option.map_none, Option.toList_none, List.append_nil]
        refine hx.sublist ?_
        exact List.Sublist.append_left (List.Sublist.map _ (List.sublist_cons_self _ _)) _
      | some v => simpa using hx

/-- The attributes written for an element. -/
theorem new_element (number : K → Text) (names : List (String × String)) (h1 : (names.map Prod.fst).Nodup) (h2 : (names.map Prod.snd).Nodup)
    (tag : Text) (kwargs : Dict String (Option (Val K))) (text : Option Text) :
    newElement tag (names.map fun n => attr number n.1 n.2) kwargs text =
      .ok ⟨tag, names.filterMap fun n => (((kwargs.get? n.1).getD none).map (valToXml number)).map fun t => (n.2, t), text⟩ := by
  have hi : Xml.initFromKwargs (names.map fun n => attr number n.1 n.2) kwargs =
      .ok (names.map fun n => (n.1, (kwargs.get? n.1).getD none)) := by
    have := init_names number kwargs names [] (by simpa using h1)
    rw [List.nil_append] at this
    rw [← this]
    unfold Xml.initFromKwargs
    congr 1
    funext o a
    cases kwargs.get? a.py <;> rfl
  unfold newElement Xml.toXml
  rw [hi]
  have := write_names number (names.map fun n => (n.1, (kwargs.get? n.1).getD none)) (fun k => (kwargs.get? k).getD none) names []
    (fun n hn => get_names (fun k => (kwargs.get? k).getD none) names n hn h1) (by simpa using h2)
  simp only [bind, Except.bind]
  rw [this]
  simp only [Option.map_map, Function.comp_def, List.nil_append]
  rfl

theorem get_filterMap (f : String → Option Text) (names : List (String × String)) (h : (names.map Prod.snd).Nodup) (n : String × String) (hn : n ∈ names) :
    Dict.get? (names.filterMap fun n => (f n.1).map fun v => (n.2, v)) n.2 = f n.1 := by
  induction names with
  | nil => cases hn
  | cons a l ih =>
    rw [List.map_cons, List.nodup_cons] at h
    rw [List.filterMap_cons]
    rcases List.mem_cons.1 hn with rfl | hn
    · cases hf : f n.1 with
      | some v => simp [Dict.get?]
      | none =>
        simp only [Option.map_none]
        rw [Dict.get?_eq_none_iff]
        intro hm
        unfold Dict.keys at hm
        rw [List.mem_map] at hm
        obtain ⟨e, he, h4⟩ := hm
        rw [List.mem_filterMap] at he
        obtain ⟨b, hb, h5⟩ := he
        cases hfb : f b.1 with
        | none => rw [hfb] at h5; cases h5
        | some v =>
          rw [hfb] at h5
          simp only [Option.map_some, Option.some.injEq] at h5
          apply h.1
          rw [← h4, ← h5]
          exact List.mem_map_of_mem hb
    · have hne : a.2 ≠ n.2 := fun e => h.1 (List.mem_map.2 ⟨n, hn, e.symm⟩)
      cases hf : f a.1 with
      | none => simpa using ih h.2 hn
      | some v =>
        simp only [Option.map_some, Dict.get?, if_neg hne]
        exact ih h.2 hn


def lineNames : List (String × String) :=
  [("fill", "fill"), ("stroke", "stroke"), ("stroke_line_cap", "stroke-linecap"), ("stroke_line_join", "stroke-linejoin"),
   ("stroke_miter_limit", "stroke-miterlimit"), ("stroke_width", "stroke-width"), ("stroke_dasharray", "stroke-dasharray"), ("id", "id"),
   ("style", "style"), ("transform", "transform"), ("x1", "x1"), ("y1", "y1"), ("x2", "x2"), ("y2", "y2")]


def textNames : List (String × String) :=
  [("x", "x"), ("y", "y"), ("dx", "dx"), ("dy", "dy"), ("font_size", "font-size"), ("font_family", "font-family"), ("fill", "fill"),
   ("stroke", "stroke"), ("id", "id"), ("style", "style"), ("transform", "transform"), ("_class", "class")]

/-- The value of an attribute of the element written. -/
theorem element_attribute (number : K → Text) (names : List (String × String)) (h1 : (names.map Prod.fst).Nodup)
    (h2 : (names.map Prod.snd).Nodup) (tag : Text) (kwargs : Dict String (Option (Val K))) (text : Option Text) :
    ∃ e, newElement tag (names.map fun n => attr number n.1 n.2) kwargs text = .ok e ∧ e.tag = tag ∧ e.text = text ∧
      ∀ n ∈ names, e.attrib.get? n.2 = ((kwargs.get? n.1).getD none).map (valToXml number) :=
  ⟨_, new_element number names h1 h2 tag kwargs text, rfl, rfl, fun n hn => get_filterMap (fun k => ((kwargs.get? k).getD none).map (valToXml number)) names h2 n hn⟩

theorem lineNames_nodup : (lineNames.map Prod.fst).Nodup ∧ (lineNames.map Prod.snd).Nodup := by decide +kernel
theorem textNames_nodup : (textNames.map Prod.fst).Nodup ∧ (textNames.map Prod.snd).Nodup := by decide +kernel

theorem circle_element [OfNat K 2] (number : K → Text) (x y : K) : newElement "text".toList (textAttrs number)
    [("cx", some (.num x)), ("cy", some (.num y)), ("r", some (.num 2)), ("fill", some (.text "black".toList)),
     ("_class", some (.text "normal".toList))] (some []) =
    .ok ⟨"text".toList, [("fill", "black".toList), ("class", "normal".toList)], some []⟩ := by
  simp only [newElement, Xml.initFromKwargs, Xml.toXml, textAttrs, attr, List.foldlM_cons, List.foldlM_nil, Dict.get?, Dict.set, Xml.writeAttr,
    bind, Except.bind, pure, Except.pure, Dict.update, valToXml, List.foldl_nil, String.reduceEq, if_true, if_false]

end Patro.Painters

import Verif.Spec.SvgTransform
import Verif.Props.Transformation
import Verif.Proof.SvgPath
/-! # The transform and length attributes of SVG -/

namespace Patro.SvgTransform

open Patro.Xml (Text)
open Patro.Transformation (Aff)

noncomputable section

theorem findAt_char (c : Char) (b : Text) : ∀ (a : Text) (i : Nat), c ∉ a → Text.findAt [c] (a ++ c :: b) i = some (i + a.length)
  | [], i, _ => by simp [Text.findAt]
  | x :: a, i, h => by
    simp only [List.mem_cons, not_or] at h
    rw [List.cons_append, Text.findAt, if_neg (by simpa using h.1), findAt_char c b a (i + 1) h.2]
    simp; omega

theorem find_char (c : Char) (a b : Text) (h : c ∉ a) : Text.find [c] (a ++ c :: b) 0 = some a.length := by
  have := findAt_char c b a 0 h
  simpa [Text.find] using this

theorem mapM_const_ok {α β : Type} (r : β) : ∀ l : List α, (l.mapM fun _ => (.ok r : Except PyErr β)) = .ok (l.map fun _ => r)
  | [] => rfl
  | _ :: l => by rw [List.mapM_cons, mapM_const_ok r l]; rfl

theorem mapM_const_error {α β : Type} (e : PyErr) (l : List α) (h : l ≠ []) : (l.mapM fun _ => (.error e : Except PyErr β)) = .error e := by
  cases l with
  | nil => exact absurd rfl h
  | cons x l => rw [List.mapM_cons]; rfl

/-- The words of a text are what is between the spaces. -/
theorem splitSpaceList_single (t : Text) (hne : t ≠ []) (h : ' ' ∉ t) : SvgPath.splitSpaceList t = [t] := by
  simp [SvgPath.splitSpaceList, Xml.split_of_not_mem ' ' t h, hne]

theorem splitSpaceList_two (a b : Text) (ha : a ≠ []) (hb : b ≠ []) (h1 : ' ' ∉ a) (h2 : ' ' ∉ b) :
    SvgPath.splitSpaceList (a ++ ' ' :: b) = [a, b] := by
  simp [SvgPath.splitSpaceList, Xml.split_append ' ' a b h1, Xml.split_of_not_mem ' ' b h2, ha, hb]

theorem splitSpaceList_ne_nil : ∀ (t : Text), (∃ c ∈ t, c ≠ ' ') → SvgPath.splitSpaceList t ≠ []
  | [], h => by obtain ⟨c, hc, _⟩ := h; cases hc
  | x :: t, h => by
    unfold SvgPath.splitSpaceList
    rw [Xml.split]
    by_cases hx : x = ' '
    · rw [if_pos hx]
      obtain ⟨c, hc, hne⟩ := h
      have hc' : c ∈ t := by
        rcases List.mem_cons.mp hc with rfl | hc
        · exact absurd hx hne
        · exact hc
      have := splitSpaceList_ne_nil t ⟨c, hc', hne⟩
      simpa [SvgPath.splitSpaceList] using this
    · rw [if_neg hx]
      split <;> simp

theorem floats_print {numbers : Set ℝ} {print : ℝ → Text} {float : Text → Option ℝ} (hc : Codec numbers print float) (args : List ℝ)
    (hargs : ∀ x ∈ args, x ∈ numbers) : floats float (args.map print) = .ok args := by
  unfold floats
  induction args with
  | nil => rfl
  | cons x t ih => rw [List.map_cons, List.mapM_cons, hc.read x (hargs x (by simp)), ih fun y hy => hargs y (by simp [hy])]; rfl

theorem readOne_eq (float : Text → Option ℝ) (name args : Text) (h1 : ∀ c ∈ name, c ≠ '(' ∧ c ≠ ')') (h2 : ')' ∉ args) :
    readOne float (name ++ '(' :: args ++ [')']) = (floats float (Xml.split ',' args)).map fun values => (name, values) := by
  have e1 : Text.find ['('] (name ++ '(' :: args ++ [')']) 0 = some name.length := by
    rw [List.append_assoc, List.cons_append]
    exact find_char _ _ _ fun h => (h1 _ h).1 rfl
  have e2 : Text.find [')'] (name ++ '(' :: args ++ [')']) 0 = some (name ++ '(' :: args).length := by
    refine find_char _ _ _ fun h => ?_
    simp only [List.mem_append, List.mem_cons] at h
    rcases h with h | h | h
    · exact (h1 _ h).2 rfl
    · simp at h
    · exact h2 h
  unfold readOne
  rw [e1, e2]
  simp only
  rw [if_neg (by simp; omega), List.take_append_of_le_length (by simp), List.take_left' rfl]
  have e3 : ((name ++ '(' :: args ++ [')']).drop (name.length + 1)).dropLast = args := by
    rw [show name ++ '(' :: args ++ [')'] = (name ++ ['(']) ++ (args ++ [')']) by simp, List.drop_left' (by simp), List.dropLast_concat]
  rw [e3]
  cases floats float (Xml.split ',' args) <;> rfl

/-- The functions which are read. -/
def supported : List (String × Nat) := [("matrix", 6), ("translate", 1), ("translate", 2), ("scale", 2), ("rotate", 1), ("rotate", 3)]

theorem supported_name (name : String) (n : Nat) (h : (name, n) ∈ supported) :
    (∀ c ∈ name.toList, c ≠ '(' ∧ c ≠ ')' ∧ c ≠ ' ') ∧ n ≠ 0 := by
  have : ∀ s ∈ supported, (∀ c ∈ s.1.toList, c ≠ '(' ∧ c ≠ ')' ∧ c ≠ ' ') ∧ s.2 ≠ 0 := by decide
  exact this _ h

theorem apply_mul_identity (t : Aff ℝ) (p : Vec ℝ) : (t.mul Aff.identity).apply p = t.apply p := by
  have : (t.mul Aff.identity).m = t.m := by
    unfold Aff.mul Aff.new
    split <;> simp [Aff.identity]
  unfold Aff.apply
  rw [this]

theorem toPython_one (name : Text) (args : List ℝ) (t : Aff ℝ) (h : toTransform name args = .ok t) :
    toPython [(name, args)] = .ok (t.mul Aff.identity) := by
  unfold toPython
  rw [List.foldlM_cons, h]
  rfl

theorem toTransform_supported (name : String) (args : List ℝ) (h : (name, args.length) ∈ supported) :
    ∃ t, toTransform name.toList args = .ok t ∧ ∀ p, svgFunction name args p = some (t.apply p) := by
  have hcase : (name = "matrix" ∧ args.length = 6) ∨ (name = "translate" ∧ args.length = 1) ∨ (name = "translate" ∧ args.length = 2) ∨
      (name = "scale" ∧ args.length = 2) ∨ (name = "rotate" ∧ args.length = 1) ∨ (name = "rotate" ∧ args.length = 3) := by
    simpa [supported] using h
  rcases hcase with ⟨rfl, hl⟩ | ⟨rfl, hl⟩ | ⟨rfl, hl⟩ | ⟨rfl, hl⟩ | ⟨rfl, hl⟩ | ⟨rfl, hl⟩
  · match args, hl with
    | [a, b, c, d, e, f], _ =>
      refine ⟨⟨!![a, c, e; b, d, f; 0, 0, 1], none⟩, by rfl, fun p => ?_⟩
      rw [Transformation.aff_apply]
      simp [svgFunction]
  · match args, hl with
    | [x], _ =>
      refine ⟨Aff.translation ⟨x, 0⟩, by rfl, fun p => ?_⟩
      rw [Transformation.aff_apply]
      simp [svgFunction, Aff.translation]
  · match args, hl with
    | [x, y], _ =>
      refine ⟨Aff.translation ⟨x, y⟩, by rfl, fun p => ?_⟩
      rw [Transformation.aff_apply]
      simp [svgFunction, Aff.translation]
  · match args, hl with
    | [x, y], _ =>
      refine ⟨Aff.scale x y, by rfl, fun p => ?_⟩
      rw [Transformation.aff_apply]
      simp [svgFunction, Aff.scale]
  · match args, hl with
    | [a], _ =>
      refine ⟨Aff.rotationAt ⟨0, 0⟩ a, by rfl, fun p => ?_⟩
      rw [Transformation.rotationAt_apply]
      have e0 : (⟨0, 0⟩ : Vec ℝ) = 0 := rfl
      have : (⟨0, 0⟩ : Vec ℝ) + (p - ⟨0, 0⟩).rotate a = p.rotate a := by
        have : p - (⟨0, 0⟩ : Vec ℝ) = p := by ext <;> simp
        rw [this]
        ext <;> simp
      rw [this]
      rfl
  · match args, hl with
    | [a, x, y], _ =>
      refine ⟨Aff.rotationAt ⟨x, y⟩ a, by rfl, fun p => ?_⟩
      rw [Transformation.rotationAt_apply]
      rfl

theorem writeFunction_no_space {numbers : Set ℝ} {print : ℝ → Text} {float : Text → Option ℝ} (hc : Codec numbers print float) (name : String) (args : List ℝ)
    (h : (name, args.length) ∈ supported) (hargs : ∀ x ∈ args, x ∈ numbers) : ' ' ∉ writeFunction print name args := by
  intro hm
  simp only [writeFunction, List.append_assoc, List.mem_append, List.mem_cons, List.cons_append, List.not_mem_nil, or_false] at hm
  rcases hm with hm | hm | hm | hm
  · exact ((supported_name _ _ h).1 _ hm).2.2 rfl
  · simp at hm
  · refine Xml.join_no_char ',' ' ' _ (by decide) (fun w hw => ?_) hm
    obtain ⟨x, hx, rfl⟩ := List.mem_map.mp hw
    exact hc.sep x (hargs x hx) ' ' (by simp)
  · simp at hm

/-- C111. A single transform function, other than the skews and a scale with one argument, written without spaces, is read as the
transformation of the plane which SVG defines. -/
theorem transform_partial {numbers : Set ℝ} {print : ℝ → Text} {float : Text → Option ℝ} (hc : Codec numbers print float) (name : String) (args : List ℝ)
    (h : (name, args.length) ∈ supported) (hnum : ∀ x ∈ args, x ∈ numbers) :
    ∃ t, fromXml float (writeFunction print name args) = .ok t ∧ ∀ p, svgFunction name args p = some (t.apply p) := by
  obtain ⟨t, ht, hp⟩ := toTransform_supported name args h
  have hname := supported_name _ _ h
  refine ⟨t.mul Aff.identity, ?_, fun p => by rw [apply_mul_identity, hp]⟩
  have hargs : args ≠ [] := fun e => hname.2 (by simp [e])
  unfold fromXml
  rw [splitSpaceList_single _ (by simp [writeFunction]) (writeFunction_no_space hc name args h hnum)]
  have hr : readOne float (writeFunction print name args) = .ok (name.toList, args) := by
    rw [writeFunction, readOne_eq float _ _ (fun c hm => ⟨(hname.1 c hm).1, (hname.1 c hm).2.1⟩), Xml.split_join, floats_print hc _ hnum]
    · rfl
    · simpa using hargs
    · intro w hw
      obtain ⟨x, hx, rfl⟩ := List.mem_map.mp hw
      exact hc.sep x (hnum x hx) ',' (by simp)
    · refine Xml.join_no_char ',' ')' _ (by decide) (fun w hw => ?_)
      obtain ⟨x, hx, rfl⟩ := List.mem_map.mp hw
      exact hc.sep x (hnum x hx) ')' (by simp)
  rw [hr, mapM_const_ok]
  exact toPython_one _ _ _ ht

/-- C111. When there is a space after the comma, as in `translate(1, 2)`, the translation is applied twice. -/
theorem spaces_wrong {numbers : Set ℝ} {print : ℝ → Text} {float : Text → Option ℝ} (hc : Codec numbers print float)
    (hs : ∀ x ∈ numbers, float (' ' :: print x) = some x) (x y : ℝ) (hxn : x ∈ numbers) (hyn : y ∈ numbers) :
    ∃ t, fromXml float ("translate(".toList ++ print x ++ ", ".toList ++ print y ++ ")".toList) = .ok t ∧
      ∀ p : Vec ℝ, t.apply p = p + (⟨x, y⟩ + ⟨x, y⟩) := by
  have hx := hc.sep x hxn
  have hy := hc.sep y hyn
  have e : "translate(".toList ++ print x ++ ", ".toList ++ print y ++ ")".toList =
      "translate".toList ++ '(' :: (print x ++ ',' :: ' ' :: print y) ++ [')'] := by simp
  have hr : readOne float ("translate(".toList ++ print x ++ ", ".toList ++ print y ++ ")".toList) = .ok ("translate".toList, [x, y]) := by
    rw [e, readOne_eq float _ _ (by decide), Xml.split_append _ _ _ (hx ',' (by simp)), Xml.split_of_not_mem]
    · simp only [floats, List.mapM_cons, hc.read x hxn, hs y hyn, List.mapM_nil]
      rfl
    · simp [hy ',' (by simp)]
    · simp [hx ')' (by simp), hy ')' (by simp)]
  have hsplit : SvgPath.splitSpaceList ("translate(".toList ++ print x ++ ", ".toList ++ print y ++ ")".toList) =
      ["translate(".toList ++ print x ++ [','], print y ++ [')']] := by
    rw [← splitSpaceList_two]
    · simp
    · simp
    · simp
    · simp [hx ' ' (by simp)]
    · simp [hy ' ' (by simp)]
  refine ⟨(Aff.translation ⟨x, y⟩).mul ((Aff.translation ⟨x, y⟩).mul Aff.identity), ?_, fun p => ?_⟩
  · unfold fromXml
    rw [hr, mapM_const_ok, hsplit]
    rfl
  · rw [Transformation.aff_mul_apply, apply_mul_identity]
    · ext <;> simp [Transformation.aff_apply, Aff.translation] <;> ring
    · unfold Aff.mul Aff.new
      split <;> simp [Aff.identity, Aff.translation, Transformation.LastRow]

/-- C111. A list of several transform functions is rejected: any text with a closing parenthesis before the end raises `ValueError`. -/
theorem several_wrong (float : Text → Option ℝ) (a b : Text) (hb : b ≠ []) : fromXml float (a ++ ')' :: b) = .error .valueError := by
  have hr : readOne float (a ++ ')' :: b) = .error .valueError := by
    obtain ⟨a1, b1, he, hn, hne⟩ : ∃ a1 b1, a ++ ')' :: b = a1 ++ ')' :: b1 ∧ ')' ∉ a1 ∧ b1 ≠ [] := by
      by_cases hm : ')' ∈ a
      · obtain ⟨a1, a2, rfl, hn⟩ := List.eq_append_cons_of_mem hm
        exact ⟨a1, a2 ++ ')' :: b, by simp, hn, by simp⟩
      · exact ⟨a, b, rfl, hm, hb⟩
    unfold readOne
    rw [he, find_char ')' a1 b1 hn]
    cases Text.find ['('] (a1 ++ ')' :: b1) 0 with
    | none => rfl
    | some pos0 =>
      simp only
      rw [if_pos]
      have := List.length_pos_iff.mpr hne
      simp; omega
  unfold fromXml
  rw [hr, mapM_const_error _ _ (splitSpaceList_ne_nil _ ⟨')', by simp, by decide⟩)]
  rfl

/-- C111. A scale with one argument raises `TypeError`, and a skew `NotImplementedError`. -/
theorem unsupported_wrong (x : ℝ) : toTransform "scale".toList [x] = .error .typeError ∧
    toTransform "skewX".toList [x] = .error .notImplementedError ∧ toTransform "skewY".toList [x] = .error .notImplementedError := by
  refine ⟨rfl, rfl, rfl⟩

/-- C111. A function with an unknown name raises `NotImplementedError`, with any numbers and without numbers; `skewX` and `skewY` raise it too, or
`IndexError` without numbers. -/
theorem unknown_wrong (values : List ℝ) :
    (∀ name : Text, name ∉ ["matrix", "translate", "scale", "rotate", "skewX", "skewY"].map String.toList →
      toTransform name values = .error .notImplementedError) ∧
    (∀ name : String, name = "skewX" ∨ name = "skewY" →
      toTransform name.toList values = .error (if values = [] then .indexError else .notImplementedError)) := by
  constructor
  · intro name h
    simp only [List.map_cons, List.map_nil, List.mem_cons, List.not_mem_nil, or_false, not_or] at h
    obtain ⟨h1, h2, h3, h4, h5, h6⟩ := h
    unfold toTransform
    rw [if_neg h1, if_neg h2, if_neg h3, if_neg h4, if_neg (not_or.2 ⟨h5, h6⟩)]
  · rintro name (rfl | rfl) <;> cases values <;> rfl

/-- C111. What is written for a transformation cannot be read again: `float` is called on the whole list of numbers. -/
theorem write_read_wrong {numbers : Set ℝ} {print : ℝ → Text} {float : Text → Option ℝ} (hc : Codec numbers print float)
    (hf : ∀ x ∈ numbers, ∀ y t, float (print x ++ ' ' :: (print y ++ t)) = none) (t : Aff ℝ)
    (ht : ∀ i j, t.m i j ∈ numbers) : 
    fromXml float (toXml print t) = .error .valueError ∧
    toXml print t = "matrix(".toList ++ Xml.join ' ' ([(t.m 0 0), t.m 0 1, t.m 0 2, t.m 1 0, t.m 1 1, t.m 1 2, t.m 2 0, t.m 2 1, t.m 2 2].map print) ++ [')'] := by
  refine ⟨?_, rfl⟩
  have hj : ∀ c ∈ [',', '(', ')'], c ∉ Xml.join ' ' ((toList t).map print) := by
    intro c hm
    refine Xml.join_no_char ' ' c _ (by rintro rfl; simp at hm) fun w hw => ?_
    obtain ⟨x, hx, rfl⟩ := List.mem_map.mp hw
    have hx : x ∈ numbers := by
      simp only [toList, List.mem_cons, List.not_mem_nil, or_false] at hx
      rcases hx with rfl | rfl | rfl | rfl | rfl | rfl | rfl | rfl | rfl <;> exact ht _ _
    exact hc.sep x hx c (by simp only [List.mem_cons] at hm ⊢; tauto)
  have hr : readOne float (toXml print t) = .error .valueError := by
    have e : toXml print t = "matrix".toList ++ '(' :: Xml.join ' ' ((toList t).map print) ++ [')'] := by
      unfold toXml
      rw [show "matrix(".toList = "matrix".toList ++ ['('] from by decide, List.append_assoc "matrix".toList, List.singleton_append]
    rw [e, readOne_eq float _ _ (by decide) (hj ')' (by simp)), Xml.split_of_not_mem _ _ (hj ',' (by simp))]
    have e3 : ∀ (a b c : Text) (l : List Text), Xml.join ' ' (a :: b :: c :: l) = a ++ ' ' :: (b ++ ' ' :: Xml.join ' ' (c :: l)) :=
      fun _ _ _ _ => rfl
    have e2 : float (Xml.join ' ' ((toList t).map print)) = none := by
      unfold toList
      rw [List.map_cons, List.map_cons, List.map_cons, e3]
      exact hf _ (ht 0 0) _ _
    simp only [floats, List.mapM_cons, e2]
    rfl
  unfold fromXml
  rw [hr, mapM_const_error _ _ (splitSpaceList_ne_nil _ ⟨')', by unfold toXml; exact List.mem_append_right _ (List.mem_singleton_self _), by decide⟩)]
  rfl

/-- The numbers `n + 1`, written in unary: a set of numbers, a printer and a parser which meet the assumptions. -/
def unaryPrint (x : ℝ) : Text := List.replicate (Nat.floor x) '1'

/-- Reads a number in unary, possibly after a space. -/
def unaryRead (t : Text) : Option ℝ :=
  match t with
  | ' ' :: t => if t ≠ [] ∧ ∀ c ∈ t, c = '1' then some t.length else none
  | t => if t ≠ [] ∧ ∀ c ∈ t, c = '1' then some t.length else none

theorem unaryRead_print (n : ℕ) (hn : 0 < n) : unaryRead (unaryPrint n) = some (n : ℝ) := by
  obtain ⟨m, rfl⟩ : ∃ m, n = m + 1 := ⟨n - 1, by omega⟩
  unfold unaryPrint
  rw [Nat.floor_natCast, List.replicate_succ]
  unfold unaryRead
  split
  · rename_i h
    simp at h
  · rw [if_pos]
    · simp
    · simp

theorem unary_codec : Codec {x | ∃ n : ℕ, 0 < n ∧ x = n} unaryPrint unaryRead where
  sep := by
    rintro x ⟨n, _, rfl⟩ c hc hm
    rw [List.eq_of_mem_replicate hm] at hc
    exact absurd hc (by decide)
  read := by
    rintro x ⟨n, hn, rfl⟩
    exact unaryRead_print n hn

/-- `translate(2,3)`. -/
example : ∃ t, fromXml unaryRead (writeFunction unaryPrint "translate" [2, 3]) = .ok t ∧
    ∀ p, svgFunction "translate" [2, 3] p = some (t.apply p) :=
  transform_partial unary_codec "translate" [2, 3] (by decide) (by
    intro x hx
    simp only [List.mem_cons, List.not_mem_nil, or_false] at hx
    rcases hx with rfl | rfl
    · exact ⟨2, by omega, by norm_num⟩
    · exact ⟨3, by omega, by norm_num⟩)

example (x : ℝ) (hx : ∃ n : ℕ, 0 < n ∧ x = n) : unaryRead (' ' :: unaryPrint x) = some x := by
  obtain ⟨n, hn, rfl⟩ := hx
  have h : unaryPrint n ≠ [] ∧ ∀ c ∈ unaryPrint n, c = '1' :=
    ⟨by unfold unaryPrint; rw [Nat.floor_natCast]; simp; omega, fun c hm => List.eq_of_mem_replicate hm⟩
  simp only [unaryRead]
  rw [if_pos h]
  simp [unaryPrint]

/-! ## C112: lengths -/

end

variable {F : Type _} [Div F] [OfNat F 100]

/-- C112. A number is read as this number, and a number followed by a percent sign as its hundredth part. -/
theorem length_partial (float : Text → Option F) (t : Text) (x : F) (h : float t = some x) :
    (∀ c, t.getLast? = some c → c ≠ '%' → c.isAlpha = false → lengthFromXml float t = .ok (.number x)) ∧
      lengthFromXml float (t ++ ['%']) = .ok (.percent (x / 100)) := by
  constructor
  · intro c hc h1 h2
    unfold lengthFromXml
    rw [if_neg, hc]
    · simp only [if_neg h1, h2, readFloat, h]
      rfl
    · rintro rfl
      simp at hc
      rw [← hc] at h2
      exact absurd h2 (by decide)
  · unfold lengthFromXml
    rw [if_neg]
    · simp [readFloat, h, Except.map]
    · intro e
      have := congrArg List.getLast? e
      simp at this

/-- C112. What is not a number raises `ValueError`, alone, before a percent sign or before a unit. -/
theorem length_value_error (float : Text → Option F) (t : Text) (h : float t = none) :
    (∀ c, t.getLast? = some c → c ≠ '%' → c.isAlpha = false → lengthFromXml float t = .error .valueError) ∧
      lengthFromXml float (t ++ ['%']) = .error .valueError ∧
      (∀ a b : Char, b.isAlpha = true → t ++ [a, b] ≠ "inherit".toList → lengthFromXml float (t ++ [a, b]) = .error .valueError) := by
  refine ⟨fun c hc h1 h2 => ?_, ?_, fun a b hb hne => ?_⟩
  · unfold lengthFromXml
    rw [if_neg, hc]
    · simp only [if_neg h1, h2, readFloat, h]
      rfl
    · rintro rfl
      simp at hc
      rw [← hc] at h2
      exact absurd h2 (by decide)
  · unfold lengthFromXml
    rw [if_neg]
    · simp [readFloat, h, Except.map]
    · intro e
      have := congrArg List.getLast? e
      simp at this
  · have hp : b ≠ '%' := by rintro rfl; exact absurd hb (by decide)
    unfold lengthFromXml
    rw [if_neg hne]
    have e : (t ++ [a, b]).getLast? = some b := by simp
    rw [e]
    simp only [if_neg hp, hb, if_true]
    rw [if_neg (by simp)]
    have e1 : (t ++ [a, b]).take ((t ++ [a, b]).length - 2) = t := by simp
    rw [e1, readFloat, h]
    rfl

example : lengthFromXml (fun t => if t = "10".toList then some (10 : ℚ) else none) "widepx".toList = .error .valueError := by
  decide +kernel

/-- C112. A length which is inherited, and one without unit, are written as they are read. -/
theorem length_written (float : Text → Option F) (print : F → Text) (address : Text) :
    lengthFromXml float "inherit".toList = .ok .inherit ∧ lengthToXml print address (.inherit : Length F) = "inherit".toList ∧
    ∀ x, lengthToXml print address (.number x) = print x :=
  ⟨rfl, rfl, fun _ => rfl⟩

/-- C112. A percentage is written as the text of an object, which is not read again: `float` refuses a text that begins with `<`. -/
theorem percent_written_wrong (float : Text → Option F) (hfloat : ∀ t, float ('<' :: t) = none) (print : F → Text) (address : Text) (x : F) :
    lengthFromXml float (lengthToXml print address (.percent x)) = .error .valueError := by
  have e : ∃ t, lengthToXml print address (.percent x) = '<' :: (t ++ ['>']) :=
    ⟨"Patro.FileFormat.Svg.SvgFormat.PercentValue object at ".toList ++ address, rfl⟩
  obtain ⟨t, e⟩ := e
  rw [e]
  unfold lengthFromXml
  rw [if_neg (by intro h; have := (List.cons.inj h).1; exact absurd this (by decide))]
  have e1 : ('<' :: (t ++ ['>'])).getLast? = some '>' := by simp [List.getLast?_cons]
  rw [e1]
  simp only [if_neg (show ¬ ('>' = '%') by decide), show ('>').isAlpha = false by decide, Bool.false_eq_true, if_false, readFloat, hfloat]
  rfl

/-- C112. The unit of a length is lost: `10px` is read with the unit `p`, and so are `10pt` and `10pc`, and it is written as `p`. -/
theorem unit_wrong (float : Text → Option F) (print : F → Text) (address t : Text) (x : F) (h : float t = some x) (a b : Char) (hb : b.isAlpha = true)
    (hne : t ++ [a, b] ≠ "inherit".toList) : lengthFromXml float (t ++ [a, b]) = .ok (.unit x [a]) ∧
      lengthToXml print address (.unit x [a]) = [a] := by
  refine ⟨?_, rfl⟩
  have hp : b ≠ '%' := by rintro rfl; exact absurd hb (by decide)
  unfold lengthFromXml
  rw [if_neg hne]
  have e : (t ++ [a, b]).getLast? = some b := by simp
  rw [e]
  simp only [if_neg hp, hb, if_true]
  rw [if_neg (by simp)]
  have e1 : (t ++ [a, b]).take ((t ++ [a, b]).length - 2) = t := by simp
  have e2 : ((t ++ [a, b]).drop ((t ++ [a, b]).length - 2)).take 1 = [a] := by simp
  rw [e1, e2, readFloat, h]
  rfl

example : lengthFromXml (fun t => if t = "10".toList then some (10 : ℚ) else none) "10px".toList = .ok (.unit 10 ['p']) ∧
    lengthFromXml (fun t => if t = "10".toList then some (10 : ℚ) else none) "10pt".toList = .ok (.unit 10 ['p']) ∧
    lengthFromXml (fun t => if t = "10".toList then some (10 : ℚ) else none) "10%".toList = .ok (.percent (1 / 10)) ∧
    lengthFromXml (fun t => if t = "10".toList then some (10 : ℚ) else none) "10".toList = .ok (.number 10) := by
  decide +kernel

end Patro.SvgTransform

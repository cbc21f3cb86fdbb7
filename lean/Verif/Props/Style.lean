import Verif.Model.Style
import Mathlib.Tactic.NormNum
/-!
# Styles of graphic items (C131, C132)
-/

namespace Patro.Style

open Xml (Text)
open Tex (StrokeStyle)

variable (colors : Colour.DataBase) (floatText : Text → Except PyErr ℚ) (black : Colour.Color)
variable (hb : colors.get? "black".toList = some black)

include hb

theorem ensureColor_ofColor (c : Option Colour.Color) : colors.ensureColor (ofColor c).colorArg = .ok c := by
  cases c <;> rfl

/-- C132. A style made without arguments is a solid line of width one, in opaque black, without a filling colour. -/
theorem style_defaults : PathStyle.new colors floatText [] =
    .ok { strokeStyle := .solidLine, lineWidth := .num 1, strokeColor := some black, strokeAlpha := 1, fillColor := none, fillAlpha := 1,
          capStyle := .squareCap, joinStyle := .bevelJoin } := by
  have h : colors.getItem "black".toList = .ok black := by unfold Dict.getItem; rw [hb]
  unfold PathStyle.new
  rw [h]
  rfl

/-- C132. When a style is made, each attribute is what its keyword gives, by itself, or its default: the other keywords have no
effect on it. -/
theorem style_attributes (kwargs : Dict String Value) (s : PathStyle) (h : PathStyle.new colors floatText kwargs = .ok s) :
    strokeStyleOf (arg kwargs "stroke_style" (.stroke .solidLine)) = .ok s.strokeStyle ∧
    s.lineWidth = arg kwargs "line_width" (.num 1) ∧
    colors.ensureColor (arg kwargs "stroke_color" (.color black)).colorArg = .ok s.strokeColor ∧
    floatOf floatText (arg kwargs "stroke_alpha" (.num 1)) = .ok s.strokeAlpha ∧
    colors.ensureColor (arg kwargs "fill_color" .none).colorArg = .ok s.fillColor ∧
    floatOf floatText (arg kwargs "fill_alpha" (.num 1)) = .ok s.fillAlpha ∧
    capStyleOf (arg kwargs "cap_style" (.cap .squareCap)) = .ok s.capStyle ∧
    joinStyleOf (arg kwargs "join_style" (.join .bevelJoin)) = .ok s.joinStyle := by
  have hbl : colors.getItem "black".toList = .ok black := by unfold Dict.getItem; rw [hb]
  unfold PathStyle.new at h
  rw [hbl] at h
  simp only [bind, Except.bind, pure, Except.pure] at h
  split at h
  · cases h
  rename_i a1 e1
  split at h
  · cases h
  rename_i a2 e2
  split at h
  · cases h
  rename_i a3 e3
  split at h
  · cases h
  rename_i a4 e4
  split at h
  · cases h
  rename_i a5 e5
  split at h
  · cases h
  rename_i a6 e6
  split at h
  · cases h
  rename_i a7 e7
  cases h
  exact ⟨e1, rfl, e2, e3, e4, e5, e6, e7⟩

/-- C132. A style is made as soon as each of its keywords can be converted. -/
theorem style_made (kwargs : Dict String Value) (s : PathStyle)
    (h1 : strokeStyleOf (arg kwargs "stroke_style" (.stroke .solidLine)) = .ok s.strokeStyle)
    (h2 : s.lineWidth = arg kwargs "line_width" (.num 1))
    (h3 : colors.ensureColor (arg kwargs "stroke_color" (.color black)).colorArg = .ok s.strokeColor)
    (h4 : floatOf floatText (arg kwargs "stroke_alpha" (.num 1)) = .ok s.strokeAlpha)
    (h5 : colors.ensureColor (arg kwargs "fill_color" .none).colorArg = .ok s.fillColor)
    (h6 : floatOf floatText (arg kwargs "fill_alpha" (.num 1)) = .ok s.fillAlpha)
    (h7 : capStyleOf (arg kwargs "cap_style" (.cap .squareCap)) = .ok s.capStyle)
    (h8 : joinStyleOf (arg kwargs "join_style" (.join .bevelJoin)) = .ok s.joinStyle) :
    PathStyle.new colors floatText kwargs = .ok s := by
  have hbl : colors.getItem "black".toList = .ok black := by unfold Dict.getItem; rw [hb]
  unfold PathStyle.new
  rw [hbl, h1]
  simp only [bind, Except.bind, pure, Except.pure, h3, h4, h5, h6, h7, h8]
  rw [← h2]

omit hb

/-- C132. Python's `True` and `False` are the numbers one and zero: `True` gives the first member, and `False` raises `ValueError`. -/
theorem enumeration_bool :
    strokeStyleOf (.bool true) = .ok .noPen ∧ capStyleOf (.bool true) = .ok .flatCap ∧ joinStyleOf (.bool true) = .ok .miterJoin ∧
    strokeStyleOf (.bool false) = .error .valueError ∧ capStyleOf (.bool false) = .error .valueError ∧
    joinStyleOf (.bool false) = .error .valueError := by
  decide +kernel

/-- C132. Python's `True` is the width and the opacity one, and `False` zero. -/
theorem style_bool (kwargs : Dict String Value) (s : PathStyle) (h : PathStyle.new colors floatText kwargs = .ok s) (b : Bool) :
    (kwargs.get? "line_width" = some (.bool b) → s.lineWidthAsFloat floatText = .ok (if b then 1 else 0)) ∧
    (kwargs.get? "stroke_alpha" = some (.bool b) → s.strokeAlpha = if b then 1 else 0) ∧
    (kwargs.get? "fill_alpha" = some (.bool b) → s.fillAlpha = if b then 1 else 0) := by
  obtain ⟨black, hb⟩ : ∃ black, colors.get? "black".toList = some black := by
    cases hc : colors.get? "black".toList with
    | some c => exact ⟨c, rfl⟩
    | none =>
      exfalso
      have hbl : colors.getItem "black".toList = .error .keyError := by unfold Dict.getItem; rw [hc]
      unfold PathStyle.new at h
      rw [hbl] at h
      simp only [bind, Except.bind] at h
      split at h <;> cases h
  obtain ⟨-, h1, -, h2, -, h3, -⟩ := style_attributes colors floatText black hb kwargs s h
  refine ⟨fun hk => ?_, fun hk => ?_, fun hk => ?_⟩
  · unfold PathStyle.lineWidthAsFloat
    rw [h1, arg, hk]
    cases b <;> rfl
  · rw [arg, hk] at h2
    cases b <;> · simp only [Option.getD_some, floatOf, Except.ok.injEq] at h2; exact h2.symm
  · rw [arg, hk] at h3
    cases b <;> · simp only [Option.getD_some, floatOf, Except.ok.injEq] at h3; exact h3.symm

/-- C132. A stroke style, a cap style or a join style is given by the member or by its number, counted from one; anything else
raises `ValueError`. -/
theorem enumerations (v : Value) :
    (∀ s, strokeStyleOf v = .ok s ↔ v = .stroke s ∨ ∃ i : Nat, v.number? = some ((i : ℚ) + 1) ∧
      [StrokeStyle.noPen, .solidLine, .dashLine, .dotLine, .dashDotLine, .dashDotDotLine][i]? = some s) ∧
    (∀ s, capStyleOf v = .ok s ↔ v = .cap s ∨ ∃ i : Nat, v.number? = some ((i : ℚ) + 1) ∧
      [CapStyle.flatCap, .squareCap, .roundCap][i]? = some s) ∧
    (∀ s, joinStyleOf v = .ok s ↔ v = .join s ∨ ∃ i : Nat, v.number? = some ((i : ℚ) + 1) ∧
      [JoinStyle.miterJoin, .bevelJoin, .roundJoin, .svgMiterJoin][i]? = some s) ∧
    (∀ e, (strokeStyleOf v = .error e ∨ capStyleOf v = .error e ∨ joinStyleOf v = .error e) → e = .valueError) := by
  have find : ∀ {α : Type} (l : List α) (k : Nat) (q : ℚ) (s : α),
      (∃ m, (l.zipIdx k).find? (fun m => decide ((m.2 : ℚ) = q)) = some m ∧ m.1 = s) ↔ ∃ i : Nat, q = (i : ℚ) + k ∧ l[i]? = some s := by
    intro α l
    induction l with
    | nil => intro k q s; simp
    | cons a l ih =>
      intro k q s
      rw [List.zipIdx_cons, List.find?_cons]
      by_cases h : (k : ℚ) = q
      · simp only [h, decide_true]
        constructor
        · rintro ⟨m, hm, rfl⟩
          cases hm
          exact ⟨0, by simp [h], rfl⟩
        · rintro ⟨i, hi, hs⟩
          rw [← h] at hi
          have : (i : ℚ) = 0 := by linarith
          have : i = 0 := by exact_mod_cast this
          subst this
          exact ⟨_, rfl, by simpa using hs⟩
      · simp only [h, decide_false]
        rw [ih]
        constructor
        · rintro ⟨i, hi, hs⟩
          exact ⟨i + 1, by rw [hi]; push_cast; ring, by simpa using hs⟩
        · rintro ⟨i, hi, hs⟩
          cases i with
          | zero => exact absurd (by rw [hi]; simp) h
          | succ i => exact ⟨i, by rw [hi]; push_cast; ring, by simpa using hs⟩
  have member : ∀ {α : Type} (l : List α) (v : Value) (s : α), memberOf l v = .ok s ↔
      ∃ i : Nat, v.number? = some ((i : ℚ) + 1) ∧ l[i]? = some s := by
    intro α l v s
    unfold memberOf
    cases hv : v.number? with
    | none => simp
    | some q =>
      have := find l 1 q s
      rw [Nat.cast_one] at this
      simp only [Option.some.injEq]
      rw [← this]
      cases (l.zipIdx 1).find? (fun m => decide ((m.2 : ℚ) = q)) <;> simp
  have err : ∀ {α : Type} (l : List α) (v : Value) (e : PyErr), memberOf l v = .error e → e = .valueError := by
    intro α l v e h
    unfold memberOf at h
    split at h
    · split at h <;> simp_all
    · simp_all
  refine ⟨fun s => ?_, fun s => ?_, fun s => ?_, fun e h => ?_⟩
  · cases v <;> simp [strokeStyleOf, member, Value.number?]
  · cases v <;> simp [capStyleOf, member, Value.number?]
  · cases v <;> simp [joinStyleOf, member, Value.number?]
  · rcases h with h | h | h
    · cases v <;> first | (cases h; done) | (rw [strokeStyleOf] at h; exact err _ _ _ h; intro s hs; cases hs)
    · cases v <;> first | (cases h; done) | (rw [capStyleOf] at h; exact err _ _ _ h; intro s hs; cases hs)
    · cases v <;> first | (cases h; done) | (rw [joinStyleOf] at h; exact err _ _ _ h; intro s hs; cases hs)

include hb

/-- C131. The clone of a path style has its stroke style, its line width and its colours; the other attributes have their
default value. -/
theorem path_clone_partial (s : PathStyle) : s.clone colors floatText =
    .ok { s with strokeAlpha := 1, fillAlpha := 1, capStyle := .squareCap, joinStyle := .bevelJoin } := by
  have h : colors.getItem "black".toList = .ok black := by unfold Dict.getItem; rw [hb]
  obtain ⟨stroke, width, c, a, f, b, cap, join⟩ := s
  unfold PathStyle.clone PathStyle.new
  rw [h]
  cases c <;> cases f <;> rfl

/-- C131. The clone of a path style is the same style exactly when the style is opaque with the default caps and joins. -/
theorem path_clone_iff (s : PathStyle) : s.clone colors floatText = .ok s ↔
    s.strokeAlpha = 1 ∧ s.fillAlpha = 1 ∧ s.capStyle = .squareCap ∧ s.joinStyle = .bevelJoin := by
  rw [path_clone_partial colors floatText black hb]
  obtain ⟨stroke, width, c, a, f, b, cap, join⟩ := s
  simp only [Except.ok.injEq, PathStyle.mk.injEq, true_and]
  constructor
  · rintro ⟨rfl, rfl, rfl, rfl⟩; exact ⟨rfl, rfl, rfl, rfl⟩
  · rintro ⟨rfl, rfl, rfl, rfl⟩; exact ⟨rfl, rfl, rfl, rfl⟩

/-- C131 fails for Bézier styles: a clone keeps how the control points are shown, but its path style is the default one. -/
theorem bezier_clone_wrong (s : BezierStyle) : ∃ d, PathStyle.new colors floatText [] = .ok d ∧
    s.clone colors floatText = .ok { s with path := d } := by
  have h : colors.getItem "black".toList = .ok black := by unfold Dict.getItem; rw [hb]
  refine ⟨_, style_defaults colors floatText black hb, ?_⟩
  obtain ⟨p, b, c⟩ := s
  unfold BezierStyle.clone BezierStyle.new PathStyle.new
  rw [h]
  cases c <;> rfl

/-- C131 fails: a half transparent red dashed curve has an opaque black solid clone. -/
theorem clone_wrong : ∃ s d : BezierStyle,
    BezierStyle.new colors floatText [("stroke_style", .stroke .dashLine), ("stroke_color", .color ⟨1, 0, 0, none⟩), ("stroke_alpha", .num (1 / 2))] = .ok s ∧
    s.clone colors floatText = .ok d ∧ s.path.strokeStyle = .dashLine ∧ d.path.strokeStyle = .solidLine ∧
    s.path.strokeColor = some ⟨1, 0, 0, none⟩ ∧ d.path.strokeColor = some black ∧ s.path.strokeAlpha = 1 / 2 ∧ d.path.strokeAlpha = 1 := by
  have h : colors.getItem "black".toList = .ok black := by unfold Dict.getItem; rw [hb]
  have e : BezierStyle.new colors floatText [("stroke_style", .stroke .dashLine), ("stroke_color", .color ⟨1, 0, 0, none⟩),
      ("stroke_alpha", .num (1 / 2))] =
      .ok ⟨⟨.dashLine, .num 1, some ⟨1, 0, 0, none⟩, 1 / 2, none, 1, .squareCap, .bevelJoin⟩, false, none⟩ := by
    unfold BezierStyle.new PathStyle.new
    rw [h]
    rfl
  obtain ⟨d, h1, h2⟩ := bezier_clone_wrong colors floatText black hb
    ⟨⟨.dashLine, .num 1, some ⟨1, 0, 0, none⟩, 1 / 2, none, 1, .squareCap, .bevelJoin⟩, false, none⟩
  rw [style_defaults colors floatText black hb] at h1
  cases h1
  exact ⟨_, _, e, h2, rfl, rfl, rfl, rfl, rfl, rfl⟩

/-- C132. The styles of the points and of the labels of a sketch have the colour and the line width of the sketch style. -/
theorem sketch_styles (s : SketchStyle) :
    ∃ d, PathStyle.new colors floatText [] = .ok d ∧ s.pointStyle colors floatText = .ok { d with fillColor := s.pointColor } ∧
      s.labelLineStyle colors floatText = .ok { d with lineWidth := s.labelLineWidth } := by
  have h : colors.getItem "black".toList = .ok black := by unfold Dict.getItem; rw [hb]
  refine ⟨_, style_defaults colors floatText black hb, ?_, ?_⟩
  · obtain ⟨a, c, _, _, _, _⟩ := s
    unfold SketchStyle.pointStyle PathStyle.new
    rw [h]
    cases c <;> rfl
  · unfold SketchStyle.labelLineStyle PathStyle.new
    rw [h]
    rfl

omit hb in
/-- C132. A sketch style has the sizes given by the keywords, and the default ones otherwise. -/
theorem sketch_new (kargs : Dict String Value) (s : SketchStyle) (h : SketchStyle.new colors kargs = .ok s) :
    s.pointSize = (kargs.get? "point_size").getD (.num (1 / 5)) ∧ s.fontSize = (kargs.get? "font_size").getD (.num 16) ∧
    s.labelLineWidth = (kargs.get? "label_line_width").getD (.num 2) ∧ s.lineWidth = (kargs.get? "line_width").getD (.num 3) ∧
    s.constructionLineWidth = (kargs.get? "construction_line_width").getD (.num (3 / 2)) := by
  unfold SketchStyle.new at h
  cases h1 : colors.getItem "black".toList with
  | error e => rw [h1] at h; cases h
  | ok black =>
    cases h2 : colors.ensureColor (arg kargs "point_color" (.color black)).colorArg with
    | error e => rw [h1] at h; simp only [bind, Except.bind, h2] at h; cases h
    | ok c =>
      rw [h1] at h
      simp only [bind, Except.bind, h2, pure, Except.pure, Except.ok.injEq] at h
      subst h
      exact ⟨rfl, rfl, rfl, rfl, rfl⟩

omit hb in
/-- C132. The control points of a Bézier style are hidden when the keyword is not given, or when it is `None`, `False`, zero or an empty
text; they are shown otherwise. -/
theorem bezier_control (kwargs : Dict String Value) (s : BezierStyle) (h : BezierStyle.new colors floatText kwargs = .ok s) :
    s.showControl = false ↔ kwargs.get? "show_control" = none ∨
      ∃ v, kwargs.get? "show_control" = some v ∧ (v = .none ∨ v = .bool false ∨ v = .num 0 ∨ v = .text []) := by
  have e : s.showControl = boolOf (arg kwargs "show_control" (.bool false)) := by
    unfold BezierStyle.new at h
    cases h1 : PathStyle.new colors floatText kwargs with
    | error e => rw [h1] at h; cases h
    | ok p =>
      cases h2 : colors.ensureColor (arg kwargs "control_color" .none).colorArg with
      | error e => rw [h1] at h; simp only [bind, Except.bind, h2] at h; cases h
      | ok c =>
        rw [h1] at h
        simp only [bind, Except.bind, h2, pure, Except.pure, Except.ok.injEq] at h
        subst h
        rfl
  rw [e]
  unfold arg
  cases kwargs.get? "show_control" with
  | none => simp [boolOf]
  | some v => cases v <;> simp [boolOf]

omit hb

example : ∃ colors : Colour.DataBase, colors.get? "black".toList = some {} := ⟨[("black".toList, {})], by decide⟩

example : ∃ s, PathStyle.new [("black".toList, {})] (fun _ => .error .valueError) [("cap_style", .num 3), ("line_width", .text "2pt".toList)] = .ok s ∧
    s.capStyle = .roundCap ∧ s.lineWidth = .text "2pt".toList ∧ s.joinStyle = .bevelJoin :=
  ⟨_, rfl, rfl, rfl, rfl⟩

end Patro.Style

import Verif.Proof.Tex
/-!
# TeX documents and painters (C71, C127 to C130)
-/

namespace Patro.Tex

open Xml (Text)

/-! ## C71 -/

/-- C71. A template made of plain texts and placeholders gives the plain texts unchanged, braces included, with each
placeholder replaced by the value of its field; the values are not read again. The exception of the first field that raises
is raised. -/
theorem template_filled (value : Text → Except PyErr Text) (pieces : List Piece) (h : ∀ p ∈ pieces, p.WellFormed) :
    guillemetFormat value (pieces.flatMap Piece.write) = fill value pieces := by
  rw [guillemetFormat_eq]
  unfold format
  induction pieces with
  | nil => rfl
  | cons p pieces ih =>
    have ih := ih fun q hq => h q (by simp [hq])
    have hp := h p (by simp)
    rw [List.flatMap_cons, List.flatMap_append]
    cases p with
    | plain t =>
      obtain ⟨h1, h2⟩ := hp
      rw [Piece.write, format_plain value t _ h1 h2, ih, fill]
    | placeholder f =>
      obtain ⟨h0, h1, h2, h3, h4⟩ := hp
      have e : (Piece.placeholder f).write.flatMap escape = '{' :: (f ++ ['}']) := by
        rw [Piece.write]
        show ('«' :: (f ++ ['»'])).flatMap escape = _
        rw [List.flatMap_cons, List.flatMap_append, flatMap_escape_self f h1 h2 h3 h4]
        rfl
      rw [e]
      cases f with
      | nil => exact absurd rfl h0
      | cons c f =>
        have c1 : c ≠ '{' := fun e => h3 (by simp [e])
        have c2 : c ≠ '}' := fun e => h4 (by simp [e])
        rw [show '{' :: (c :: f ++ ['}']) ++ (pieces.flatMap Piece.write).flatMap escape =
          '{' :: c :: (f ++ '}' :: (pieces.flatMap Piece.write).flatMap escape) by simp, formatGo, if_pos rfl, formatGo, if_neg c1,
          if_neg c2, format_field value f [c] _ (fun e => h3 (by simp [e])) (fun e => h4 (by simp [e])), ih]
        rfl

/-- C71 fails for guillemets that are not part of a placeholder: doubled ones give braces, and a single one raises
`ValueError`. -/
theorem guillemets_wrong (value : Text → Except PyErr Text) :
    guillemetFormat value "««a»»".toList = .ok "{a}".toList ∧
    guillemetFormat value "a«".toList = .error .valueError ∧ guillemetFormat value "»a".toList = .error .valueError := by
  refine ⟨?_, ?_, ?_⟩ <;> (rw [guillemetFormat_eq]; rfl)

/-- C71. The source of a document is the class line with its options, the preamble, and the content in the document
environment, whatever the characters of the options and of the class. -/
theorem document_source (d : Document) :
    d.str = .ok ("\\documentclass[".toList ++ d.classOptions ++ "]{".toList ++ d.className ++ "}\n".toList ++ strs d.preambule ++
      "\\begin{document}\n".toList ++ strs d.content ++ "\\end{document}\n".toList) := by
  have e : "\\documentclass[«0._class_options»]{«0._class_name»}".toList =
      [Piece.plain "\\documentclass[".toList, .placeholder "0._class_options".toList, .plain "]{".toList,
        .placeholder "0._class_name".toList, .plain "}".toList].flatMap Piece.write := by rfl
  unfold Document.str
  rw [e, template_filled _ _ (by
    intro p hp
    simp only [List.mem_cons, List.not_mem_nil, or_false] at hp
    rcases hp with rfl | rfl | rfl | rfl | rfl
    · exact ⟨by decide, by decide⟩
    · exact ⟨by decide, by decide, by decide, by decide, by decide⟩
    · exact ⟨by decide, by decide⟩
    · exact ⟨by decide, by decide, by decide, by decide, by decide⟩
    · exact ⟨by decide, by decide⟩)]
  have f1 : positionalField 1 (fun _ => d.attr) "0._class_options".toList = .ok d.classOptions := rfl
  have f2 : positionalField 1 (fun _ => d.attr) "0._class_name".toList = .ok d.className := rfl
  simp only [fill, f1, f2, bind, Except.bind, pure, Except.pure, Except.map, Node.str]
  have b : beginLine "document".toList [] = "\\begin{document}\n".toList := rfl
  have c : endLine "document".toList = "\\end{document}\n".toList := rfl
  rw [b, c]
  congr 1
  have hbr : "}\n".toList = "}".toList ++ ['\n'] := rfl
  rw [hbr]
  simp only [List.append_assoc, List.append_nil]

/-- C71. A field with a position takes the argument at this position, and raises `IndexError` when there are not as many arguments. -/
theorem positional_field (n : Nat) (value : Nat → Xml.Text → Except PyErr Xml.Text) (name rest : Xml.Text) (i : Nat) (hi : parseIndex name = some i)
    (hn : ∀ c ∈ name, endsName c = false) (hr : rest = [] ∨ ∃ c t, rest = c :: t ∧ endsName c = true) :
    (i < n → positionalField n value (name ++ rest) = value i rest) ∧
    (n ≤ i → positionalField n value (name ++ rest) = .error .indexError) := by
  have h1 : (name ++ rest).takeWhile (fun c => !endsName c) = name := by
    rw [List.takeWhile_append_of_pos (fun c hc => by simp [hn c hc])]
    rcases hr with rfl | ⟨c, t, rfl, hc⟩ <;> simp [*]
  have h2 : (name ++ rest).dropWhile (fun c => !endsName c) = rest := by
    rw [List.dropWhile_append_of_pos (fun c hc => by simp [hn c hc])]
    rcases hr with rfl | ⟨c, t, rfl, hc⟩ <;> simp [*]
  unfold positionalField
  simp only [h1, h2, hi]
  exact ⟨fun h => if_pos h, fun h => if_neg (by omega)⟩

example : parseIndex "10".toList = some 10 ∧ (∀ c ∈ "10".toList, endsName c = false) ∧ endsName '.' = true := by decide

/-- C71. Whatever the tree of buffers and environments, the environments of its text are properly nested and closed. -/
theorem environments_nested (n : Node) (h : n.Good) : Nested n.str := (node_nested n h).2 []

/-- C71. Appending a list of items appends each of them in order. -/
theorem append_list (content items : List Node) (item : Node) :
    strs (append content (.inr items)) = strs content ++ strs items ∧ strs (append content (.inl item)) = strs content ++ item.str := by
  have hs : ∀ a b : List Node, strs (a ++ b) = strs a ++ strs b := by
    intro a b
    induction a with
    | nil => simp [strs]
    | cons n a ih => rw [List.cons_append]; simp only [strs, ih, List.append_assoc]
  have hf : ∀ (l c : List Node), l.foldl (fun c i => c ++ [i]) c = c ++ l := by
    intro l
    induction l with
    | nil => intro c; simp
    | cons n l ih => intro c; rw [List.foldl_cons, ih]; simp
  constructor
  · show strs (items.foldl (fun c i => c ++ [i]) content) = _
    rw [hf, hs]
  · show strs (content ++ [item]) = _
    rw [hs]; simp [strs]

example : ∃ n : Node, n.Good ∧ n.str = "\\begin{center}\n\\begin{tikzpicture}[x=8mm]\n\\draw;\n\\end{tikzpicture}\n\\end{center}\n".toList := by
  refine ⟨.env "center".toList [] [.env "tikzpicture".toList "x=8mm".toList [.text "\\draw;\n".toList]], ?_, ?_⟩
  · simp only [Node.Good, GoodAll, PlainLines]
    refine ⟨by decide, by decide, by decide, ⟨by decide, by decide, by decide, ⟨⟨Or.inr (by decide), by decide⟩, trivial⟩⟩, trivial⟩
  · decide

example : guillemetFormat (positionalField 2 (argument ["1".toList, "{«»}".toList])) "{«0»} «1»".toList = .ok "{1} {«»}".toList := by
  decide +kernel

/-! ## C127 -/

/-- C127. A file name that ends with `.tex` is the name of the TeX file, and the PDF file has the same name with the other
extension; a name without this extension gets it, unless it has three characters. -/
theorem file_name_partial (filename cls opts : Text) :
    (∀ base, filename = base ++ ".tex".toList → (Document.new filename cls opts).texFilename = filename ∧
      (Document.new filename cls opts).pdfFilename = base ++ ".pdf".toList) ∧
    ((¬ ∃ base, filename = base ++ ".tex".toList) → filename.length ≠ 3 →
      (Document.new filename cls opts).texFilename = filename ++ ".tex".toList ∧
      (Document.new filename cls opts).pdfFilename = filename ++ ".pdf".toList) := by
  constructor
  · rintro base rfl
    have h := (rfind_four (base ++ ".tex".toList)).2 (Or.inl ⟨base, rfl⟩)
    have e : (base ++ ".tex".toList).take ((base ++ ".tex".toList).length - 4) = base := by
      rw [List.length_append, show ".tex".toList.length = 4 from rfl, Nat.add_sub_cancel, List.take_left]
    unfold Document.texFilename Document.pdfFilename Document.new
    simp only [if_pos h, e, and_self]
  · intro h1 h2
    have h : ¬ ((filename.length : Int) - rfind ".tex".toList filename = 4) := by
      rw [rfind_four]; rintro (h | h)
      · exact h1 h
      · exact h2 h
    unfold Document.texFilename Document.pdfFilename Document.new
    simp only [if_neg h, and_self]

/-- C127 fails for every name of three characters: the files have no name but their extension. -/
theorem file_name_wrong (filename cls opts : Text) (h : filename.length = 3) :
    (Document.new filename cls opts).texFilename = ".tex".toList ∧ (Document.new filename cls opts).pdfFilename = ".pdf".toList := by
  have h' := (rfind_four filename).2 (Or.inr h)
  unfold Document.texFilename Document.pdfFilename Document.new
  have e : filename.take (filename.length - 4) = [] := by rw [h]; rfl
  simp only [if_pos h', e, List.nil_append, and_self]

/-- C127 fails: the output directory always raises `AttributeError`. -/
theorem output_directory_wrong (d : Document) : d.outputDirectory = .error .attributeError := rfl

example : (Document.new "out.tex".toList "article".toList).texFilename = "out.tex".toList ∧
    (Document.new "out.tex.old".toList "article".toList).texFilename = "out.tex.old.tex".toList := by decide +kernel

/-! ## C128 -/

/-- C128. The TikZ style of a path with a colour gives the line width, the dash pattern unless there is no pen, and the name of
the colour if it has one; two different stroke styles never have the same text. -/
theorem path_style (w : Text) (color : Colour.Color) :
    (∀ s, s ≠ .dashDotDotLine → ∃ dash : Option Text, formatPathStyle ⟨s, w, some color⟩ =
        .ok (joinStyles (["line width=".toList ++ w] ++ dash.toList ++ color.name.toList)) ∧ (dash = none ↔ s = .noPen)) ∧
    (∀ s s', s ≠ .dashDotDotLine → s' ≠ .dashDotDotLine → color.name = none →
      formatPathStyle ⟨s, w, some color⟩ = formatPathStyle ⟨s', w, some color⟩ → s = s') := by
  constructor
  · intro s hs
    cases s
    · exact ⟨none, rfl, by simp⟩
    · exact ⟨_, rfl, by simp⟩
    · exact ⟨_, rfl, by simp⟩
    · exact ⟨_, rfl, by simp⟩
    · exact ⟨_, rfl, by simp⟩
    · exact absurd rfl hs
  · intro s s' hs hs' hn he
    unfold formatPathStyle at he
    simp only [hn, Option.toList_none, List.append_nil] at he
    have key : ∀ (d d' : Option Text), (some d = strokeText s) → (some d' = strokeText s') →
        joinStyles (["line width=".toList ++ w] ++ d.toList) = joinStyles (["line width=".toList ++ w] ++ d'.toList) → d = d' := by
      intro d d' _ _ h
      cases d with
      | none =>
        cases d' with
        | none => rfl
        | some d' =>
          have := congrArg List.length h
          simp [joinStyles] at this
      | some d =>
        cases d' with
        | none =>
          have := congrArg List.length h
          simp [joinStyles] at this
        | some d' =>
          simp only [joinStyles, Option.toList_some, List.cons_append, List.nil_append] at h
          rw [List.append_cancel_left_eq] at h
          rw [h]
    have fin : ∀ d d', strokeText s = some d → strokeText s' = some d' → d = d' := by
      intro d d' h1 h2
      rw [h1, h2] at he
      simp only [Except.ok.injEq] at he
      exact key d d' h1.symm h2.symm he
    cases s <;> cases s' <;>
      first
      | rfl
      | exact absurd rfl hs
      | exact absurd rfl hs'
      | (exact absurd (fin _ _ rfl rfl) (by decide))

/-- C128. The texts of the styles, without and with a name for the colour: nothing for no pen, one dash for a dashed line, a short one for dots,
and both for dashes and dots. -/
theorem path_style_texts (w n : Text) (color : Colour.Color) :
    (color.name = none →
      formatPathStyle ⟨.noPen, w, some color⟩ = .ok ("line width=".toList ++ w) ∧
      formatPathStyle ⟨.solidLine, w, some color⟩ = .ok ("line width=".toList ++ w ++ ", solid".toList) ∧
      formatPathStyle ⟨.dashLine, w, some color⟩ = .ok ("line width=".toList ++ w ++ ", dash pattern=on 5mm off 5mm".toList) ∧
      formatPathStyle ⟨.dotLine, w, some color⟩ = .ok ("line width=".toList ++ w ++ ", dash pattern=on 2mm off 2mm".toList) ∧
      formatPathStyle ⟨.dashDotLine, w, some color⟩ =
        .ok ("line width=".toList ++ w ++ ", dash pattern=on 5mm off 4mm on 2mm off 4mm".toList)) ∧
    (color.name = some n →
      formatPathStyle ⟨.noPen, w, some color⟩ = .ok ("line width=".toList ++ w ++ ", ".toList ++ n) ∧
      formatPathStyle ⟨.solidLine, w, some color⟩ = .ok ("line width=".toList ++ w ++ ", solid, ".toList ++ n) ∧
      formatPathStyle ⟨.dashLine, w, some color⟩ = .ok ("line width=".toList ++ w ++ ", dash pattern=on 5mm off 5mm, ".toList ++ n) ∧
      formatPathStyle ⟨.dotLine, w, some color⟩ = .ok ("line width=".toList ++ w ++ ", dash pattern=on 2mm off 2mm, ".toList ++ n) ∧
      formatPathStyle ⟨.dashDotLine, w, some color⟩ =
        .ok ("line width=".toList ++ w ++ ", dash pattern=on 5mm off 4mm on 2mm off 4mm, ".toList ++ n)) := by
  constructor
  · intro h
    simp [formatPathStyle, strokeText, h, joinStyles]
  · intro h
    simp [formatPathStyle, strokeText, h, joinStyles]

/-- C128 fails for one of the stroke styles, and for a path without a colour. -/
theorem path_style_wrong (w : Text) (color : Option Colour.Color) (s : StrokeStyle) :
    formatPathStyle ⟨.dashDotDotLine, w, color⟩ = .error .keyError ∧
    (s ≠ .dashDotDotLine → formatPathStyle ⟨s, w, none⟩ = .error .attributeError) := by
  refine ⟨rfl, fun h => ?_⟩
  cases s <;> first | rfl | exact absurd rfl h

/-! ## C129 -/

/-- C129. When every item can be painted, each item is painted once, in the order of the items. -/
theorem painted_in_order {ι κ α : Type _} (kind : ι → κ) (methods : κ → Option (ι → Except PyErr α)) (items : List ι)
    (out : ι → α) (h : ∀ i ∈ items, ∃ m, methods (kind i) = some m ∧ m i = .ok (out i)) :
    paintLoop kind methods items = (items.map out, .ok ()) := by
  induction items with
  | nil => rfl
  | cons i items ih =>
    obtain ⟨m, h1, h2⟩ := h i (by simp)
    have ih := ih fun j hj => h j (by simp [hj])
    unfold paintLoop
    simp only [h1, h2, ih, List.map_cons]

/-- C129. The painting stops at the first item without a method, or whose method raises: the items before it have been
painted, and the exception is `NotImplementedError` for an item without a method. -/
theorem painting_stops {ι κ α : Type _} (kind : ι → κ) (methods : κ → Option (ι → Except PyErr α)) (items rest : List ι) (i : ι)
    (out : ι → α) (h : ∀ i ∈ items, ∃ m, methods (kind i) = some m ∧ m i = .ok (out i)) :
    (methods (kind i) = none → paintLoop kind methods (items ++ i :: rest) = (items.map out, .error .notImplementedError)) ∧
    (∀ m e, methods (kind i) = some m → m i = .error e →
      paintLoop kind methods (items ++ i :: rest) =
        (items.map out, .error (if e = .keyError then .notImplementedError else e))) := by
  have step : ∀ l, paintLoop kind methods (items ++ l) =
      (items.map out ++ (paintLoop kind methods l).1, (paintLoop kind methods l).2) := by
    intro l
    induction items with
    | nil => rfl
    | cons j items ih =>
      obtain ⟨m, h1, h2⟩ := h j (by simp)
      have ih := ih fun k hk => h k (by simp [hk])
      rw [List.cons_append]
      conv_lhs => unfold paintLoop
      simp only [h1, h2, ih, List.map_cons, List.cons_append]
  constructor
  · intro hm
    rw [step]
    unfold paintLoop
    simp [hm]
  · intro m e hm he
    rw [step]
    unfold paintLoop
    simp only [hm, he]
    cases e <;> simp

/-! ## C130 -/

section

variable {K : Type _} (number : K → Text)

theorem formatPosition_eq (p : Scene.Position K) : formatPosition number p = positionText number p := by
  cases p with
  | name n => rfl
  | vector v => simp [formatPosition, positionText]

theorem paintCoordinate_eq (name : String) (p : Scene.Position K) : paintCoordinate number name p = coordinateText number name p := by
  unfold paintCoordinate coordinateText
  rw [formatPosition_eq]

/-- C130. A text is written at its position, inside braces, whatever its characters. -/
theorem text_painted (item : Item K) (p : Scene.Position K) (rest : List (Scene.Position K)) (h : item.positions = p :: rest) :
    paintText number item = .ok ("\\draw[] ".toList ++ positionText number p ++ " node[anchor=north west] {".toList ++ item.text ++
      "};\n".toList) := by
  have e : "\\draw[] «0» node[anchor=north west] {«1»};".toList =
      [Piece.plain "\\draw[] ".toList, .placeholder "0".toList, .plain " node[anchor=north west] {".toList,
        .placeholder "1".toList, .plain "};".toList].flatMap Piece.write := by rfl
  rw [← formatPosition_eq]
  unfold paintText
  rw [h, e]
  have g : Py.getItem (p :: rest) 0 = .ok p := rfl
  rw [g]
  simp only [bind, Except.bind]
  rw [template_filled _ _ (by
    intro p hp
    simp only [List.mem_cons, List.not_mem_nil, or_false] at hp
    rcases hp with rfl | rfl | rfl | rfl | rfl
    · exact ⟨by decide, by decide⟩
    · exact ⟨by decide, by decide, by decide, by decide, by decide⟩
    · exact ⟨by decide, by decide⟩
    · exact ⟨by decide, by decide, by decide, by decide, by decide⟩
    · exact ⟨by decide, by decide⟩)]
  have f1 : positionalField 2 (argument [formatPosition number p, item.text]) "0".toList = .ok (formatPosition number p) := rfl
  have f2 : positionalField 2 (argument [formatPosition number p, item.text]) "1".toList = .ok item.text := rfl
  simp only [fill, f1, f2, bind, Except.bind, pure, Except.pure, Except.map]
  congr 1
  have hbr : "};\n".toList = "};".toList ++ ['\n'] := rfl
  rw [hbr]
  simp only [List.append_assoc, List.append_nil]

/-- C130. A segment and a cubic curve are written with their style and their positions in order. -/
theorem curves_painted (item : Item K) (style : Text) (hs : formatPathStyle item.style = .ok style) :
    (∀ a b, item.positions = [a, b] → paintSegment number item =
      .ok ("\\draw[".toList ++ style ++ "] ".toList ++ positionText number a ++ " -- ".toList ++ positionText number b ++ ";\n".toList)) ∧
    (∀ a b c d, item.positions = [a, b, c, d] → paintCubic number item =
      .ok ("\\draw[".toList ++ style ++ "] ".toList ++ positionText number a ++ " .. controls ".toList ++ positionText number b ++
        " and ".toList ++ positionText number c ++ " .. ".toList ++ positionText number d ++ ";\n".toList)) := by
  simp only [← formatPosition_eq]
  refine ⟨fun a b h => ?_, fun a b c d h => ?_⟩
  · unfold paintSegment; rw [hs, h]; rfl
  · unfold paintCubic; rw [hs, h]; rfl

/-- C130. A circle is written as a dot at its position. -/
theorem circle_painted (item : Item K) (p : Scene.Position K) (rest : List (Scene.Position K)) (h : item.positions = p :: rest) :
    paintCircle number item = .ok ("\\fill [black] ".toList ++ positionText number p ++ " circle (1pt);\n".toList) := by
  rw [← formatPosition_eq]
  unfold paintCircle
  rw [h]
  rfl

/-- C130 fails for circles: two circles of different radii at the same position are written the same way. -/
theorem circle_wrong (item : Item K) (r : K) : paintCircle number { item with radius := r } = paintCircle number item := rfl

/-- C130 fails for the other kinds of items: a scene with one of them is not painted. -/
theorem other_kinds_wrong (coordinates : List (String × Scene.Position K)) (item : Item K)
    (h : item.kind ∉ [Kind.text, .circle, .segment, .cubicBezier]) (rest : List (Item K)) :
    (texPaint number coordinates (item :: rest)).2 = .error .notImplementedError := by
  unfold texPaint paintLoop
  cases hk : item.kind <;> rw [hk] at h <;> simp [texMethods] at h ⊢

/-- C130. The coordinates are written before the items, so that they are defined when an item refers to them by name. -/
theorem coordinates_first (coordinates : List (String × Scene.Position K)) (items : List (Item K)) :
    ∃ l, (texPaint number coordinates items).1 = coordinates.map (fun c => coordinateText number c.1 c.2) ++ l ∧
      l = (paintLoop Item.kind (texMethods number) items).1 := by
  simp only [← paintCoordinate_eq]
  exact ⟨_, rfl, rfl⟩

example : (texPaint (fun n : Nat => (toString n).toList) [("A", .vector ⟨1, 2⟩)]
    [⟨.segment, [.name "A", .vector ⟨3, 4⟩], [], 0, ⟨.solidLine, "1".toList, some {}⟩⟩]).1 =
    ["\\coordinate (A) at (1,2);\n".toList, "\\draw[line width=1, solid] (A) -- (3,4);\n".toList] := by decide +kernel

end

end Patro.Tex

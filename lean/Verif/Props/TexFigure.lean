import Verif.Model.TexFigure
import Verif.Spec.TexFigure
import Verif.Props.Tex
import Verif.Props.Paper
/-!
# Figures of a TeX document (C198 to C200)
-/

namespace Patro.Tex

open Xml (Text)

theorem strs_append (a b : List Node) : strs (a ++ b) = strs a ++ strs b := by
  induction a with
  | nil => simp [strs]
  | cons n a ih => rw [List.cons_append]; simp only [strs, ih, List.append_assoc]

theorem strs_texts (l : List Text) : strs (l.map .text) = l.flatten := by
  induction l with
  | nil => rfl
  | cons t l ih => simp only [List.map_cons, strs, Node.str, ih, List.flatten_cons]

theorem strs_one (n : Node) : strs [n] = n.str := by simp [strs]

theorem figure_str (options : Text) (h : options ≠ []) (content : List Text) : (figure options content).str = centred options content := by
  unfold figure centred
  simp only [Node.str, strs_one, strs_texts]
  unfold beginLine endLine
  rw [if_pos rfl, if_neg h]
  have e1 : "\\begin{center}\n\\begin{tikzpicture}[".toList =
    "\\begin{".toList ++ "center".toList ++ ['}'] ++ [] ++ ['\n'] ++ ("\\begin{".toList ++ "tikzpicture".toList ++ ['}'] ++ ['[']) := rfl
  have e2 : "\\end{tikzpicture}\n\\end{center}\n".toList =
    "\\end{".toList ++ "tikzpicture".toList ++ ['}', '\n'] ++ ("\\end{".toList ++ "center".toList ++ ['}', '\n']) := rfl
  have e3 : "]\n".toList = [']'] ++ ['\n'] := rfl
  rw [e1, e2, e3]
  simp only [List.append_assoc, List.cons_append, List.nil_append, List.append_nil]

section

variable {K : Type} [Field K] [LinearOrder K] (number repr : K → Text)
variable (coordinates : List (String × Scene.Position K)) (items : List (Item K))

omit [Field K] [LinearOrder K] in
theorem texPaint_ok (out : Item K → Text) (h : ∀ i ∈ items, ∃ m, texMethods number i.kind = some m ∧ m i = .ok (out i)) :
    texPaint number coordinates items = (coordinates.map (fun c => coordinateText number c.1 c.2) ++ items.map out, .ok ()) := by
  simp only [← paintCoordinate_eq]
  unfold texPaint
  rw [painted_in_order _ _ _ out h]

/-! ## C198 -/

omit [Field K] [LinearOrder K] in
/-- C198. A figure added for a scene whose items can all be painted comes after what the document had; it has eight millimetres by unit, and
shows the coordinates and then each item once, in order. The preamble and the name are unchanged. -/
theorem detail_figure (d : Document) (out : Item K → Text) (h : ∀ i ∈ items, ∃ m, texMethods number i.kind = some m ∧ m i = .ok (out i)) :
    ∃ d', addDetailFigure number coordinates items d = (d', .ok ()) ∧ d'.preambule = d.preambule ∧ d'.texFilename = d.texFilename ∧
      strs d'.content = strs d.content ++
        "\\pagestyle{empty}\n\\fontsize{64}{72}\\selectfont % \\fontsize{size}{baselineskip}\n".toList ++
        centred "x=8mm,y=8mm".toList (coordinates.map (fun c => coordinateText number c.1 c.2) ++ items.map out) := by
  unfold addDetailFigure
  rw [texPaint_ok number coordinates items out h]
  refine ⟨_, rfl, rfl, rfl, ?_⟩
  have e : "\\pagestyle{empty}\n\\fontsize{64}{72}\\selectfont % \\fontsize{size}{baselineskip}\n".toList =
    "\\pagestyle{empty}\n".toList ++ "\\fontsize{64}{72}\\selectfont % \\fontsize{size}{baselineskip}\n".toList := rfl
  have hne : "x=8mm,y=8mm".toList ≠ [] := by decide
  rw [e]
  simp only [append, addPagestyle, strs_append, strs_one, figure_str _ hne, Node.str, List.append_assoc]

omit [Field K] [LinearOrder K] in
/-- C198. When the painting of an item raises, so does the method, and the figure stays in the document with what was painted before. -/
theorem detail_figure_raises (d : Document) (e : PyErr) (h : (texPaint number coordinates items).2 = .error e) :
    ∃ d', addDetailFigure number coordinates items d = (d', .error e) ∧
      strs d'.content = strs d.content ++
        "\\pagestyle{empty}\n\\fontsize{64}{72}\\selectfont % \\fontsize{size}{baselineskip}\n".toList ++
        centred "x=8mm,y=8mm".toList (texPaint number coordinates items).1 := by
  unfold addDetailFigure
  refine ⟨_, Prod.ext rfl h, ?_⟩
  have e : "\\pagestyle{empty}\n\\fontsize{64}{72}\\selectfont % \\fontsize{size}{baselineskip}\n".toList =
    "\\pagestyle{empty}\n".toList ++ "\\fontsize{64}{72}\\selectfont % \\fontsize{size}{baselineskip}\n".toList := rfl
  have hne : "x=8mm,y=8mm".toList ≠ [] := by decide
  rw [e]
  simp only [append, addPagestyle, strs_append, strs_one, figure_str _ hne, Node.str, List.append_assoc]

/-! ## C199 -/

omit [LinearOrder K] in
theorem tileLabel_eq (t : Paper.Tile K) : tileLabel repr t =
    .ok ("\\draw[] ".toList ++ tikzPoint repr (t.interval.xInf + 1) (t.interval.yInf + 1) ++ " node[anchor=south west] {".toList ++
        Xml.natToText (t.row + 1) ++ ", ".toList ++ Xml.natToText (t.column + 1) ++ "};\n".toList) := by
  have e : "\\draw[] («0»,«1») node[anchor=south west] {«2», «3»};".toList =
      [Piece.plain "\\draw[] (".toList, .placeholder "0".toList, .plain ",".toList, .placeholder "1".toList,
        .plain ") node[anchor=south west] {".toList, .placeholder "2".toList, .plain ", ".toList, .placeholder "3".toList,
        .plain "};".toList].flatMap Piece.write := by rfl
  unfold tileLabel tikzPoint
  generalize repr (t.interval.xInf + 1) = a
  generalize repr (t.interval.yInf + 1) = b
  generalize Xml.natToText (t.row + 1) = r
  generalize Xml.natToText (t.column + 1) = c
  dsimp only
  rw [e, template_filled _ _ (by
    intro p hp
    simp only [List.mem_cons, List.not_mem_nil, or_false] at hp
    rcases hp with rfl | rfl | rfl | rfl | rfl | rfl | rfl | rfl | rfl <;>
      (simp only [Piece.WellFormed]; decide))]
  have f0 : positionalField 4 (argument [a, b, r, c]) "0".toList = .ok a := rfl
  have f1 : positionalField 4 (argument [a, b, r, c]) "1".toList = .ok b := rfl
  have f2 : positionalField 4 (argument [a, b, r, c]) "2".toList = .ok r := rfl
  have f3 : positionalField 4 (argument [a, b, r, c]) "3".toList = .ok c := rfl
  simp only [fill, f0, f1, f2, f3, bind, Except.bind, pure, Except.pure, Except.map]
  congr 1
  have h1 : "\\draw[] (".toList = "\\draw[] ".toList ++ "(".toList := rfl
  have h2 : ") node[anchor=south west] {".toList = ")".toList ++ " node[anchor=south west] {".toList := rfl
  have h3 : "};\n".toList = "};".toList ++ ['\n'] := rfl
  rw [h1, h2, h3]
  simp only [List.append_assoc, List.append_nil]

omit [LinearOrder K] in
theorem tileHead_eq (t : Paper.Tile K) : ∃ head, tileHead number repr t = .ok head ∧
    ∀ painting, (figure "x=10mm,y=10mm".toList (head ++ painting)).str = tilePicture number repr t painting := by
  unfold tileHead
  rw [tileLabel_eq]
  refine ⟨_, rfl, fun painting => ?_⟩
  rw [figure_str _ (by decide)]
  rfl

omit [LinearOrder K] in
theorem tileLoop_ok (out : Item K → Text) (h : ∀ i ∈ items, ∃ m, texMethods number i.kind = some m ∧ m i = .ok (out i))
    (tiles : List (Paper.Tile K)) (d : Document) :
    ∃ d', tileLoop number repr coordinates items d tiles = (d', .ok ()) ∧ d'.preambule = d.preambule ∧ d'.texFilename = d.texFilename ∧
      strs d'.content = strs d.content ++ (tiles.map fun t => tilePicture number repr t
        (coordinates.map (fun c => coordinateText number c.1 c.2) ++ items.map out)).flatten := by
  induction tiles generalizing d with
  | nil => exact ⟨d, rfl, rfl, rfl, by simp⟩
  | cons t tiles ih =>
    obtain ⟨head, h1, h2⟩ := tileHead_eq number repr t
    obtain ⟨d', h3, h4, h5, h6⟩ := ih { d with content := append d.content (.inl (figure "x=10mm,y=10mm".toList
      (head ++ (coordinates.map (fun c => coordinateText number c.1 c.2) ++ items.map out)))) }
    refine ⟨d', ?_, h4, h5, ?_⟩
    · unfold tileLoop
      rw [h1, texPaint_ok number coordinates items out h]
      exact h3
    · rw [h6]
      simp only [append, strs_append, strs_one, h2, List.map_cons, List.flatten_cons, List.append_assoc]

variable [IsStrictOrderedRing K] [FloorRing K]

/-- C199. For a scene whose items can all be painted, with a bounding box, and a paper larger than its margins, there is one picture for each
tile of the grid, in the order of the tiles; each shows the row and the column of the tile, is cut at the border of the tile, and holds the
coordinates and each item once, in order. A tile has the size of the page without the margins and two millimetres on each side, since there
are ten millimetres by unit. -/
theorem tiled_figure_partial (d : Document) (out : Item K → Text) (h : ∀ i ∈ items, ∃ m, texMethods number i.kind = some m ∧ m i = .ok (out i))
    (b : Box K) (width height margin : K) (hw : 2 * (margin + 2) < width) (hh : 2 * (margin + 2) < height) :
    ∃ tiles d', Paper.tiler b width height margin = .ok tiles ∧
      addTiledDetailFigure number repr coordinates items d (some (some b)) width height margin = (d', .ok ()) ∧
      d'.preambule = d.preambule ∧ d'.texFilename = d.texFilename ∧
      strs d'.content = strs d.content ++ "\\pagestyle{empty}\n".toList ++ (tiles.map fun t => tilePicture number repr t
        (coordinates.map (fun c => coordinateText number c.1 c.2) ++ items.map out)).flatten ∧
      ∀ t ∈ tiles, (t.interval.xSup - t.interval.xInf) * 10 = width - 2 * margin - 4 ∧
        (t.interval.ySup - t.interval.yInf) * 10 = height - 2 * margin - 4 := by
  have ax : (Paper.areaVector width height margin).x = (width - 2 * (margin + 2)) / 10 := by
    simp only [Paper.areaVector, Vec.sub_x, Vec.sdiv_x, Vec.smul_x]; ring
  have ay : (Paper.areaVector width height margin).y = (height - 2 * (margin + 2)) / 10 := by
    simp only [Paper.areaVector, Vec.sub_y, Vec.sdiv_y, Vec.smul_y]; ring
  have ht : Paper.tiler b width height margin = .ok (Paper.tiles (Paper.enlarge b 1) (Paper.areaVector width height margin)) := by
    unfold Paper.tiler
    dsimp only
    rw [if_neg]
    rw [ax, ay]
    rintro (h | h) <;> (rw [div_eq_zero_iff] at h; rcases h with h | h <;> linarith)
  obtain ⟨d', h1, h2, h3, h4⟩ := tileLoop_ok number repr coordinates items out h
    (Paper.tiles (Paper.enlarge b 1) (Paper.areaVector width height margin)) (addPagestyle d)
  refine ⟨_, d', ht, ?_, h2, h3, ?_, ?_⟩
  · unfold addTiledDetailFigure Painters.sceneBoundingBox
    dsimp only
    rw [ht]
    exact h1
  · rw [h4]
    simp only [addPagestyle, append, strs_append, strs_one, Node.str]
  · intro t ht
    unfold Paper.tiles at ht
    simp only [List.mem_flatMap, List.mem_map] at ht
    obtain ⟨r, -, c, -, rfl⟩ := ht
    unfold Paper.tile
    simp only [Vec.add_x, Vec.add_y, ax, ay]
    constructor <;> ring

omit [IsStrictOrderedRing K] in
/-- C199. A scene without a bounding box, or with an item that cannot be painted, raises; the document keeps the page style and, for the latter,
the picture of the first tile with what was painted. -/
theorem tiled_figure_raises (d : Document) (width height margin : K) :
    (∀ box, box = none ∨ box = some none →
      addTiledDetailFigure number repr coordinates items d box width height margin = (addPagestyle d, .error .attributeError)) ∧
    (∀ b t tiles e, Paper.tiler b width height margin = .ok (t :: tiles) → (texPaint number coordinates items).2 = .error e →
      ∃ d', addTiledDetailFigure number repr coordinates items d (some (some b)) width height margin = (d', .error e) ∧
        strs d'.content = strs d.content ++ "\\pagestyle{empty}\n".toList ++
          tilePicture number repr t (texPaint number coordinates items).1) := by
  constructor
  · rintro box (rfl | rfl) <;> rfl
  · intro b t tiles e ht he
    obtain ⟨head, h1, h2⟩ := tileHead_eq number repr t
    refine ⟨{ addPagestyle d with content := append (addPagestyle d).content (.inl (figure "x=10mm,y=10mm".toList
      (head ++ (texPaint number coordinates items).1))) }, ?_, ?_⟩
    · unfold addTiledDetailFigure Painters.sceneBoundingBox
      dsimp only
      rw [ht]
      dsimp only
      unfold tileLoop
      rw [h1]
      dsimp only
      rw [he]
    · simp only [addPagestyle, append, strs_append, strs_one, h2, Node.str]

/-- C199 fails for the whole of the scene: some of it is in no picture unless the grid has as many rows as columns. -/
theorem tiled_cover_wrong (b : Box K) (width height margin : K) (hb : b.xInf ≤ b.xSup ∧ b.yInf ≤ b.ySup)
    (hw : 2 * (margin + 2) < width) (hh : 2 * (margin + 2) < height)
    (hne : ⌈(b.xSup - b.xInf + 2) / ((width - 2 * (margin + 2)) / 10)⌉ ≠ ⌈(b.ySup - b.yInf + 2) / ((height - 2 * (margin + 2)) / 10)⌉) :
    ∃ tiles p, Paper.tiler b width height margin = .ok tiles ∧
      Paper.Within p ⟨b.xInf - 1, b.xSup + 1, b.yInf - 1, b.ySup + 1⟩ ∧ ∀ t ∈ tiles, ¬ Paper.Within p t.interval := by
  obtain ⟨l, h1, h2⟩ := Paper.tiler_cover b width height margin hb hw hh
  have h3 := fun hc => hne (h2.1 hc)
  have h4 : ¬ ∀ p, Paper.Within p ⟨b.xInf - 1, b.xSup + 1, b.yInf - 1, b.ySup + 1⟩ → ∃ t ∈ l, Paper.Within p t.interval := h3
  push Not at h4
  obtain ⟨p, h4, h5⟩ := h4
  exact ⟨l, p, h1, h4, h5⟩

end

/-- Two items that can be painted, on two pages. -/
def exampleItems : List (Item ℚ) :=
  [⟨.circle, [.name "A"], [], 1, ⟨.solidLine, "1".toList, some {}⟩⟩,
    ⟨.segment, [.name "A", .vector ⟨3, 4⟩], [], 0, ⟨.solidLine, "1".toList, some {}⟩⟩]

example (number : ℚ → Text) : ∃ out : Item ℚ → Text, ∀ i ∈ exampleItems, ∃ m, texMethods number i.kind = some m ∧ m i = .ok (out i) := by
  refine ⟨fun i => match texMethods number i.kind with
    | some m => (match m i with | .ok t => t | .error _ => [])
    | none => [], ?_⟩
  intro i hi
  simp only [exampleItems, List.mem_cons, List.not_mem_nil, or_false] at hi
  rcases hi with rfl | rfl <;> exact ⟨_, rfl, rfl⟩

/-- A box of 10 cm by 10 cm on pages of 105 mm by 105 mm with a margin of 10 mm: two rows and two columns. -/
example : (Paper.tiler (⟨0, 10, 0, 10⟩ : Box ℚ) 105 105 10).toOption.map List.length = some 4 := by
  decide +kernel

/-! ## C200 -/

theorem preamble_pieces : preambleTemplate = [Piece.plain (preambleBegin ++ "paper=".toList), .placeholder "0.paper_name".toList,
    .plain ",%\n%landscape,\n%includeheadfoot,%\nmargin=".toList, .placeholder "0.margin".toList,
    .plain ("mm,%\n".toList ++ preambleEnd)].flatMap Piece.write := by
  have e : "paper=«0.paper_name»,%\n%landscape,\n%includeheadfoot,%\nmargin=«0.margin»mm,%\n".toList =
    "paper=".toList ++ (Piece.placeholder "0.paper_name".toList).write ++ ",%\n%landscape,\n%includeheadfoot,%\nmargin=".toList ++
      (Piece.placeholder "0.margin".toList).write ++ "mm,%\n".toList := by decide +kernel
  unfold preambleTemplate
  rw [e]
  generalize preambleBegin = a
  generalize preambleEnd = c
  simp only [List.flatMap_cons, List.flatMap_nil, Piece.write, List.append_assoc, List.append_nil]

theorem preamble_guillemets : ('«' ∉ preambleBegin ∧ '»' ∉ preambleBegin) ∧ '«' ∉ preambleEnd ∧ '»' ∉ preambleEnd := by decide +kernel

/-- C200. The document made for a paper is an article without content, in which the page has the name of the paper in lower case and the margin
of the paper in millimetres; the rest of the preamble is the same for all papers. -/
theorem document_page_partial : ∃ before after : Text, ∀ path name margin : Text,
    ∃ d, texPainter path name margin = .ok d ∧ d.content = [] ∧
      d.texFilename = (Document.new path "article".toList "12pt".toList).texFilename ∧
      d.str = .ok ("\\documentclass[12pt]{article}\n".toList ++ before ++ "paper=".toList ++ name.map Char.toLower ++
        "paper,%\n%landscape,\n%includeheadfoot,%\nmargin=".toList ++ margin ++ "mm,%\n".toList ++ after ++
        "\\begin{document}\n\\end{document}\n".toList) := by
  obtain ⟨⟨a1, a2⟩, c1, c2⟩ := preamble_guillemets
  have h1 := preamble_pieces
  refine ⟨preambleBegin, preambleEnd, fun path name margin => ?_⟩
  generalize preambleBegin = a at *
  generalize preambleEnd = c at *
  unfold texPainter
  rw [h1, template_filled _ _ (by
    intro p hp
    simp only [List.mem_cons, List.not_mem_nil, or_false] at hp
    rcases hp with rfl | rfl | rfl | rfl | rfl
    · exact ⟨by simp [a1], by simp [a2]⟩
    · exact ⟨by decide, by decide, by decide, by decide, by decide⟩
    · exact ⟨by decide, by decide⟩
    · exact ⟨by decide, by decide, by decide, by decide, by decide⟩
    · exact ⟨by simp [c1], by simp [c2]⟩)]
  have f1 : positionalField 1 (fun _ => painterAttr name margin) "0.paper_name".toList = .ok (paperName name) := rfl
  have f2 : positionalField 1 (fun _ => painterAttr name margin) "0.margin".toList = .ok margin := rfl
  simp only [fill, f1, f2, bind, Except.bind, pure, Except.pure, Except.map]
  have hd : (Document.new path "article".toList "12pt".toList).preambule = [] ∧
      (Document.new path "article".toList "12pt".toList).content = [] ∧
      (Document.new path "article".toList "12pt".toList).classOptions = "12pt".toList ∧
      (Document.new path "article".toList "12pt".toList).className = "article".toList := ⟨rfl, rfl, rfl, rfl⟩
  generalize Document.new path "article".toList "12pt".toList = d at hd
  obtain ⟨d1, d2, d3, d4⟩ := hd
  refine ⟨_, rfl, d2, rfl, ?_⟩
  rw [document_source]
  simp only [append, d1, d2, d3, d4, List.nil_append, strs_one, Node.str, strs]
  refine congrArg Except.ok ?_
  have e1 : "\\documentclass[12pt]{article}\n".toList = "\\documentclass[".toList ++ "12pt".toList ++ "]{".toList ++ "article".toList ++ "}\n".toList := rfl
  have e2 : "paper,%\n%landscape,\n%includeheadfoot,%\nmargin=".toList = "paper".toList ++ ",%\n%landscape,\n%includeheadfoot,%\nmargin=".toList := rfl
  have e3 : "\\begin{document}\n\\end{document}\n".toList = "\\begin{document}\n".toList ++ "\\end{document}\n".toList := rfl
  rw [e1, e2, e3]
  simp only [paperName, List.append_assoc, List.append_nil]

/-- C200 fails for landscape: the document is the same for the two orientations of a paper, although the tiles are computed for a page whose
width and height are exchanged; a tile is then wider than what the portrait page leaves between its margins, as soon as the sides of the
paper differ by more than four millimetres. -/
theorem landscape_wrong (path name : Text) (margin : ℝ) (repr : ℝ → Text) (p q : Paper.PaperSize)
    (hp : Paper.PaperSize.new name "portrait" margin = .ok p) (hq : Paper.PaperSize.new name "landscape" margin = .ok q) :
    texPainter path p.name (repr p.margin) = texPainter path q.name (repr q.margin) ∧ q.width = p.height ∧ q.height = p.width ∧
    (4 < p.height - p.width → 2 * (margin + 2) < p.width → ∀ b tiles, Paper.tiler b q.width q.height q.margin = .ok tiles →
      ∀ t ∈ tiles, p.width - 2 * p.margin < (t.interval.xSup - t.interval.xInf) * 10) := by
  obtain ⟨q', h1, h2, h3, h4, h5, h6⟩ := Paper.landscape_swaps name margin p hp
  obtain rfl : q' = q := Except.ok.inj (h1.symm.trans hq)
  refine ⟨by rw [h4, h5, h6], h2, h3, fun hd hm b tiles ht t htt => ?_⟩
  have hm' : 2 * (q'.margin + 2) < q'.width := by rw [h6, h2]; linarith
  have hm'' : 2 * (q'.margin + 2) < q'.height := by rw [h6, h3]; linarith
  obtain ⟨tiles', -, h7, -, -, -, -, h8⟩ := tiled_figure_partial (fun _ : ℝ => []) (fun _ => []) [] [] (Document.new [] []) (fun _ => [])
    (by simp) b q'.width q'.height q'.margin hm' hm''
  obtain rfl : tiles' = tiles := Except.ok.inj (h7.symm.trans ht)
  rw [(h8 t htt).1, h2, h5, h6]
  linarith

end Patro.Tex

import Verif.Spec.ValDrawn
import Verif.Props.ValPrinted
import Verif.Props.PrintedText
/-! # From a Valentina file to the marks of a drawing, and to DXF, Matplotlib, SVG and TeX (C223) -/

namespace Patro.ValPrinted

open Valentina (Operation Sketch Class Element IsClass NotImplemented Reading Describes Val)
open SketchGeometry (Expr Op St WellFormed evalSketch)
open Detail (Drawn Mark detailScene)
open Style (SketchStyle Value PathStyle)
open ValPlaces (Drawing Ref place idAttr implemented drawing number toOp toOps Complete)
open Xml (Text)

section

variable {F : Type} {env : Valentina.Env F}

/-- The pen of an operation made from an element is the one its attributes describe. -/
theorem At.pen {compile : Text → Expr} {real : F → ℝ} {ops : List (Operation F)} {ds : List Drawn} {k : Nat} {e : Element}
    {o : Operation F} {d : Drawn} (h : At env compile real ops ds k e o d) (hd : Drawable env e) (hu : Detail.usesLine d.op = true) :
    ∃ pen, Detail.penOf (resolve env.db d) = some pen ∧ ElementPen env e pen o.cls := by
  have hs := shape_of h.toOp
  obtain ⟨c, hdesc⟩ := h.describes
  have hstroke : o.cls ∈ [Class.alongLine, .endLine, .normal, .line] → ∃ pen, Detail.penOf (resolve env.db d) = some pen ∧
      (∃ t, e.attrib.get? "typeLine" = some t ∧ Valentina.StyleName t pen.1) ∧ ColourAttr env e "lineColor" pen.2 := by
    intro hcls
    have hrows : ∀ r ∈ Valentina.strokeRows, r ∈ Valentina.table o.cls := by
      intro r hr
      simp only [List.mem_cons, List.not_mem_nil, or_false] at hcls
      rcases hcls with hc | hc | hc | hc <;> rw [hc] <;> simp only [Valentina.table, List.mem_append] <;> simp [hr]
    obtain ⟨t, ht⟩ := Option.isSome_iff_exists.1 (hd.style o.cls hcls h.made.isClass)
    obtain ⟨v, hv, hh⟩ := hdesc.rows _ (hrows ⟨"line_style", "typeLine", .style⟩ (by simp [Valentina.strokeRows]))
    obtain ⟨w, hw, hh'⟩ := hdesc.rows _ (hrows ⟨"line_color", "lineColor", .colour⟩ (by simp [Valentina.strokeRows]))
    simp only at hv hh hw hh'
    rw [ht] at hv
    obtain ⟨s, hsn, rfl⟩ := hv
    have e1 : d.lineStyle = .stroke s := by rw [h.eq]; show valueOf _ = _; rw [show o.fields.get? "line_style" = _ from hh]; rfl
    cases hlc : e.attrib.get? "lineColor" with
    | none =>
      rw [hlc] at hw
      have e2 : d.lineColor = .none := by
        rw [h.eq]; show valueOf _ = _; rw [show o.fields.get? "line_color" = _ from hh', show w = none from hw]; rfl
      exact ⟨(s, none), by simp [resolve, Detail.penOf, e1, e2], ⟨t, ht, hsn⟩, .inl ⟨hlc, rfl⟩⟩
    | some t' =>
      rw [hlc] at hw
      obtain ⟨c', hc', rfl⟩ := hw
      have e2 : d.lineColor = .color c' := by rw [h.eq]; show valueOf _ = _; rw [show o.fields.get? "line_color" = _ from hh']; rfl
      exact ⟨(s, some c'), by simp [resolve, Detail.penOf, e1, e2], ⟨t, ht, hsn⟩, .inr ⟨t', c', hlc, hc', rfl⟩⟩
  cases hcls : o.cls with
  | alongLine => exact hstroke (by simp [hcls])
  | endLine => exact hstroke (by simp [hcls])
  | normal => exact hstroke (by simp [hcls])
  | line => exact hstroke (by simp [hcls])
  | spline =>
    obtain ⟨v, hv, hh⟩ := hdesc.rows ⟨"line_color", "color", .colourText⟩ (by rw [hcls]; simp [Valentina.table])
    simp only [Valentina.Says] at hv hh
    have hsol := hdesc.solid hcls
    have e1 : d.lineStyle = .stroke .solidLine := by
      rw [h.eq]; show valueOf _ = _; rw [show o.fields.get? "line_style" = _ from hsol]; rfl
    cases hlc : e.attrib.get? "color" with
    | none =>
      rw [hlc] at hv
      have e2 : d.lineColor = .none := by
        rw [h.eq]; show valueOf _ = _; rw [show o.fields.get? "line_color" = _ from hh, hv]; rfl
      exact ⟨(.solidLine, none), by simp [resolve, Detail.penOf, e1, e2], rfl, .inl ⟨hlc, rfl⟩⟩
    | some t =>
      rw [hlc] at hv
      have e2 : d.lineColor = .text t := by
        rw [h.eq]; show valueOf _ = _; rw [show o.fields.get? "line_color" = _ from hh, hv]; rfl
      obtain ⟨c', hc'⟩ := hd.color (by rw [← hcls]; exact h.made.isClass) t hlc
      exact ⟨(.solidLine, some c'), by simp [resolve, Detail.penOf, e1, e2, ensure_of hc'], rfl, .inr ⟨t, c', hlc, hc', rfl⟩⟩
  | lineIntersect => rw [hcls] at hs; obtain ⟨n, a, b, c, d', -, hop⟩ := hs; rw [hop] at hu; cases hu
  | pointOfContact => rw [hcls] at hs; obtain ⟨n, a, b, c, d', -, hop⟩ := hs; rw [hop] at hu; cases hu
  | pointOfIntersection => rw [hcls] at hs; obtain ⟨n, a, b, -, hop⟩ := hs; rw [hop] at hu; cases hu
  | single => rw [hcls] at hs; obtain ⟨n, a, b, -, hop⟩ := hs; rw [hop] at hu; cases hu

theorem At.place {compile : Text → Expr} {real : F → ℝ} {ops : List (Operation F)} {ds : List Drawn} {k : Nat} {e : Element}
    {o : Operation F} {d : Drawn} (h : At env compile real ops ds k e o d) (st : St) : place (drawing ops st) e = st.vec k := by
  unfold ValPlaces.place
  rw [h.made.id]
  simp only [Option.bind_some, drawing, h.number]

/-- What is drawn for an element. -/
theorem At.draws {compile : Text → Expr} {real : F → ℝ} {ops : List (Operation F)} {ds : List Drawn} {k : Nat} {e : Element}
    {o : Operation F} {d : Drawn} {st : St} (h : At env compile real ops ds k e o d) (hd : Drawable env e)
    (hr : Printed.Ready (ds.map (resolve env.db)) st) (black : Colour.Color) (style : SketchStyle) :
    Draws env real black style (drawing ops st) k e (Detail.marks black style st k (resolve env.db d)) o.cls := by
  have hk : (ds.map (resolve env.db))[k]? = some (resolve env.db d) := by rw [List.getElem?_map, h.drawn]; rfl
  have hop := (resolve_op env.db d).1
  have hoff := (resolve_op env.db d).2.1
  have hvec : ∀ j ∈ d.op.refs, ∃ p, st.vec j = some p := by
    intro j hj
    obtain ⟨-, e', n, h1, h2⟩ := hr.refs k _ hk j (by rw [hop]; exact hj)
    exact Option.isSome_iff_exists.1 ((hr.evaluated j e' h1).1 (by rw [h2]; rfl))
  have hpen := h.pen hd
  have hplace := h.place st
  have hctrl : (idAttr e "id").bind (drawing ops st).control = st.ctrl k := by
    rw [h.made.id]
    simp only [Option.bind_some, drawing, h.number]
  have href : ∀ (py xml : String) (j : Nat) (p : Vec ℝ), ⟨py, xml, .reference⟩ ∈ Valentina.table o.cls → ValPlaces.refOf ops o py = some j →
      st.vec j = some p → Ref (drawing ops st) e xml p := by
    intro py xml j p hrow h1 h2
    obtain ⟨i, j', g1, g2, g3, -⟩ := h.made.ref _ hrow rfl
    rw [show ValPlaces.refOf ops o py = some j' from g2] at h1
    cases h1
    exact ⟨i, g1, by simp only [drawing, g3, Option.bind_some, h2]⟩
  have hs := shape_of h.toOp
  have hpt : o.cls.isPoint = true → ∀ n, ValPlaces.nameOf o = some n → d.op.name = some n → ∃ p mx my x y,
      (e.attrib.get? "name").map String.ofList = some n ∧ st.vec k = some p ∧
      e.attrib.get? "mx" = some mx ∧ env.parse mx = .ok x ∧ e.attrib.get? "my" = some my ∧ env.parse my = .ok y ∧
      Detail.labelPosition p (resolve env.db d) = ⟨p.x + real x, p.y - real y⟩ := by
    intro hp n hn hname
    obtain ⟨n', g1, g2⟩ := h.made.name hp
    rw [hn] at g1
    cases g1
    obtain ⟨p, g3⟩ := Option.isSome_iff_exists.1 ((hr.evaluated k _ hk).1 (by rw [hop, hname]; rfl))
    obtain ⟨c, hdesc⟩ := h.describes
    have ho := hdesc.offset
    rw [if_pos hp] at ho
    obtain ⟨x, y, o1, o2, o3⟩ := ho
    obtain ⟨m1, m2⟩ := hd.offset o.cls hp h.made.isClass
    obtain ⟨mx, m1⟩ := Option.isSome_iff_exists.1 m1
    obtain ⟨my, m2⟩ := Option.isSome_iff_exists.1 m2
    rw [m1] at o2
    rw [m2] at o3
    refine ⟨p, mx, my, x, y, g2, g3, m1, o2, m2, o3, ?_⟩
    unfold Detail.labelPosition
    rw [hoff, show d.labelOffset = offsetOf real o.offset by rw [h.eq], o1]
    rfl
  cases hc : o.cls <;> rw [hc] at hs href hpt hpen
  case line =>
    obtain ⟨a, b, h1, h2, h3⟩ := hs
    obtain ⟨pen, hpen, hep⟩ := hpen (by rw [h3]; rfl)
    obtain ⟨p, hp⟩ := hvec a (by rw [h3]; simp [Op.refs])
    obtain ⟨q, hq⟩ := hvec b (by rw [h3]; simp [Op.refs])
    refine ⟨p, q, pen, href _ _ _ _ (by simp [Valentina.table, Valentina.pairRows]) h1 hp,
      href _ _ _ _ (by simp [Valentina.table, Valentina.pairRows]) h2 hq, hep, ?_⟩
    simp [Detail.marks, hop, h3, hpen, hp, hq]
  case spline =>
    obtain ⟨a, b, x, y, z, w, h1, h2, h3⟩ := hs
    obtain ⟨pen, hpen, hep⟩ := hpen (by rw [h3]; rfl)
    obtain ⟨p, hp⟩ := hvec a (by rw [h3]; simp [Op.refs])
    obtain ⟨q, hq⟩ := hvec b (by rw [h3]; simp [Op.refs])
    obtain ⟨⟨c1, c2⟩, hcc⟩ := Option.isSome_iff_exists.1 ((hr.evaluated k _ hk).2 a b x y z w (by rw [hop, h3]))
    refine ⟨p, q, c1, c2, pen, href _ _ _ _ (by simp [Valentina.table]) h1 hp, href _ _ _ _ (by simp [Valentina.table]) h2 hq,
      hctrl.trans hcc, hep, ?_⟩
    simp [Detail.marks, hop, h3, hpen, hp, hq, hcc]
  case alongLine =>
    obtain ⟨n, a, b, x, h1, h2, h3⟩ := hs
    obtain ⟨pen, hpen, hep⟩ := hpen (by rw [h3]; rfl)
    obtain ⟨q, hq⟩ := hvec a (by rw [h3]; simp [Op.refs])
    obtain ⟨p, mx, my, u, v, g1, g2, g3, g4, g5, g6, g7⟩ := hpt rfl n h1 (by rw [h3]; rfl)
    refine ⟨n, p, mx, my, u, v, g1, hplace.trans g2, g3, g4, g5, g6, q, pen, href _ _ _ _ (by simp [Valentina.table, Valentina.pairRows]) h2 hq,
      hep, ?_⟩
    simp [Detail.marks, Detail.pointMarks, Detail.constructionFrom, Op.name, hop, h3, hpen, hq, g2, g7, labelMarks]
  case normal =>
    obtain ⟨n, a, b, x, y, h1, h2, h3⟩ := hs
    obtain ⟨pen, hpen, hep⟩ := hpen (by rw [h3]; rfl)
    obtain ⟨q, hq⟩ := hvec a (by rw [h3]; simp [Op.refs])
    obtain ⟨p, mx, my, u, v, g1, g2, g3, g4, g5, g6, g7⟩ := hpt rfl n h1 (by rw [h3]; rfl)
    refine ⟨n, p, mx, my, u, v, g1, hplace.trans g2, g3, g4, g5, g6, q, pen, href _ _ _ _ (by simp [Valentina.table, Valentina.pairRows]) h2 hq,
      hep, ?_⟩
    simp [Detail.marks, Detail.pointMarks, Detail.constructionFrom, Op.name, hop, h3, hpen, hq, g2, g7, labelMarks]
  case endLine =>
    obtain ⟨n, a, x, y, h1, h2, h3⟩ := hs
    obtain ⟨pen, hpen, hep⟩ := hpen (by rw [h3]; rfl)
    obtain ⟨q, hq⟩ := hvec a (by rw [h3]; simp [Op.refs])
    obtain ⟨p, mx, my, u, v, g1, g2, g3, g4, g5, g6, g7⟩ := hpt rfl n h1 (by rw [h3]; rfl)
    refine ⟨n, p, mx, my, u, v, g1, hplace.trans g2, g3, g4, g5, g6, q, pen, href _ _ _ _ (by simp [Valentina.table]) h2 hq, hep, ?_⟩
    simp [Detail.marks, Detail.pointMarks, Detail.constructionFrom, Op.name, hop, h3, hpen, hq, g2, g7, labelMarks]
  case lineIntersect =>
    obtain ⟨n, a, b, x, y, h1, h3⟩ := hs
    obtain ⟨p, mx, my, u, v, g1, g2, g3, g4, g5, g6, g7⟩ := hpt rfl n h1 (by rw [h3]; rfl)
    refine ⟨n, p, mx, my, u, v, g1, hplace.trans g2, g3, g4, g5, g6, ?_⟩
    simp [Detail.marks, Detail.pointMarks, Detail.constructionFrom, Op.name, hop, h3, g2, g7, labelMarks, origin]
  case pointOfContact =>
    obtain ⟨n, a, b, x, y, h1, h3⟩ := hs
    obtain ⟨p, mx, my, u, v, g1, g2, g3, g4, g5, g6, g7⟩ := hpt rfl n h1 (by rw [h3]; rfl)
    refine ⟨n, p, mx, my, u, v, g1, hplace.trans g2, g3, g4, g5, g6, ?_⟩
    simp [Detail.marks, Detail.pointMarks, Detail.constructionFrom, Op.name, hop, h3, g2, g7, labelMarks, origin]
  case pointOfIntersection =>
    obtain ⟨n, a, b, h1, h3⟩ := hs
    obtain ⟨p, mx, my, u, v, g1, g2, g3, g4, g5, g6, g7⟩ := hpt rfl n h1 (by rw [h3]; rfl)
    refine ⟨n, p, mx, my, u, v, g1, hplace.trans g2, g3, g4, g5, g6, ?_⟩
    simp [Detail.marks, Detail.pointMarks, Detail.constructionFrom, Op.name, hop, h3, g2, g7, labelMarks, origin]
  case single =>
    obtain ⟨n, a, b, h1, h3⟩ := hs
    obtain ⟨p, mx, my, u, v, g1, g2, g3, g4, g5, g6, g7⟩ := hpt rfl n h1 (by rw [h3]; rfl)
    refine ⟨n, p, mx, my, u, v, g1, hplace.trans g2, g3, g4, g5, g6, ?_⟩
    simp [Detail.marks, Detail.pointMarks, Detail.constructionFrom, Op.name, hop, h3, g2, g7, labelMarks, origin]

theorem marks_of {ε : Type} (black : Colour.Color) (style : SketchStyle) (st : St) (P : ε × Nat → List Mark → Prop) :
    ∀ (es : List ε) (ds : List Drawn) (i : Nat), es.length = ds.length →
      (∀ (k : Nat) (e : ε) (d : Drawn), es[k]? = some e → ds[k]? = some d → P (e, i + k) (Detail.marks black style st (i + k) d)) →
      ∃ parts, List.Forall₂ P (es.zipIdx i) parts ∧ Detail.allMarks black style st i ds = parts.flatten
  | [], [], _, _, _ => ⟨[], .nil, rfl⟩
  | [], _ :: _, _, h, _ => by simp at h
  | _ :: _, [], _, h, _ => by simp at h
  | e :: es, d :: ds, i, h, hk => by
    obtain ⟨parts, h1, h2⟩ := marks_of black style st P es ds (i + 1) (by simpa using h) (fun k e d he hd => by
      have := hk (k + 1) e d (by simpa using he) (by simpa using hd)
      rwa [show i + (k + 1) = i + 1 + k by omega] at this)
    refine ⟨Detail.marks black style st i d :: parts, .cons (hk 0 e d rfl rfl) h1, ?_⟩
    simp only [Detail.allMarks, List.flatten_cons, h2]

theorem pointsOf_at (ops : List (Operation F)) (st : St) : ∀ (es : List Element) (ds : List Drawn) (i : Nat), es.length = ds.length →
    (∀ (k : Nat) (e : Element) (d : Drawn), es[k]? = some e → ds[k]? = some d →
      d.op.name = pointName e ∧ place (drawing ops st) e = st.vec (i + k) ∧ (d.op.name.isSome → (st.vec (i + k)).isSome)) →
    ((ds.zipIdx i).filterMap fun d => d.1.op.name.map fun n => (n, (st.vec d.2).getD 0)) = pointsOf (drawing ops st) es
  | [], [], _, _, _ => rfl
  | [], _ :: _, _, h, _ => by simp at h
  | _ :: _, [], _, h, _ => by simp at h
  | e :: es, d :: ds, i, h, hk => by
    obtain ⟨h1, h2, h3⟩ := hk 0 e d rfl rfl
    have ih := pointsOf_at ops st es ds (i + 1) (by simpa using h) (fun k e d he hd => by
      have := hk (k + 1) e d (by simpa using he) (by simpa using hd)
      rwa [show i + (k + 1) = i + 1 + k by omega] at this)
    unfold pointsOf at ih ⊢
    rw [Nat.add_zero] at h2 h3
    simp only [List.zipIdx_cons, List.filterMap_cons, ih, ← h1, h2]
    cases hn : d.op.name with
    | none => rfl
    | some n =>
      obtain ⟨p, hp⟩ := Option.isSome_iff_exists.1 (h3 (by rw [hn]; rfl))
      simp [hp]

/-- The sketch of a file which was read and evaluated: it can be drawn, and its marks are those of the elements. -/
theorem Evaluates.drawing {compile : Text → Expr} {real : F → ℝ} (hp : ∀ t err, env.parse t = .error err → err = .valueError) {counter : Int}
    {es : List Element} {s : Sketch F} {ds : List Drawn} {st : St} (h : Evaluates env compile real counter es s ds st)
    (black : Colour.Color) (style : SketchStyle) :
    Printed.Ready (ds.map (resolve env.db)) st ∧ (implemented es ≠ [] → ds.map (resolve env.db) ≠ []) ∧
      (∀ d ∈ ds.map (resolve env.db), Detail.usesLine d.op = true → ∀ pen, Detail.penOf d = some pen →
        ∃ e ∈ es, ∃ c, IsClass e c ∧ ElementPen env e pen c) ∧
      (∀ e ∈ es, ∀ c, IsClass e c → c = .line ∨ c = .spline → ∃ d ∈ ds.map (resolve env.db),
        ((∃ f g, d.op = .line f g) ∨ ∃ f g a1 l1 a2 l2, d.op = .spline f g a1 l1 a2 l2) ∧
        ∃ pen, Detail.penOf d = some pen ∧ ElementPen env e pen c) ∧
      Printed.pointsOf (ds.map (resolve env.db)) st = pointsOf (drawing s.ops st) (implemented es) ∧
      ∃ parts, FileDraws env real black style (drawing s.ops st) es parts ∧
        Detail.allMarks black style st 0 (ds.map (resolve env.db)) = parts.flatten := by
  have hr := Valentina.read_describes hp counter es s h.read
  obtain ⟨ds', h1, h2, hlen, hat⟩ := to_drawns (compile := compile) real hr h.complete
  rw [h.drawn] at h1
  cases h1
  have hready := file_ready (ValPlaces.reading_ids hr).1 hlen hat h.drawable h.names h.evaluated h.places
  have hat' : ∀ (k : Nat) (e : Element) (d' : Drawn), (implemented es)[k]? = some e → (ds.map (resolve env.db))[k]? = some d' →
      e ∈ es ∧ ∃ o d, d' = resolve env.db d ∧ At env compile real s.ops ds k e o d := by
    intro k e d' he hd'
    rw [List.getElem?_map] at hd'
    obtain ⟨d, hkd, rfl⟩ := Option.map_eq_some_iff.1 hd'
    obtain ⟨hk, rfl⟩ := List.getElem?_eq_some_iff.1 he
    obtain ⟨o, d', g⟩ := hat _ _ _ (ValPlaces.split_at _ k hk)
    have hl : ((implemented es).take k).length = k := by rw [List.length_take]; omega
    rw [hl] at g
    have := g.drawn
    rw [hkd] at this
    cases this
    exact ⟨(List.mem_filter.1 (List.getElem_mem hk)).1, o, d, rfl, g⟩
  refine ⟨hready, fun hne he => ?_, fun d' hd' hu pen hpen => ?_, fun e he c hcl hc => ?_, ?_, ?_⟩
  · rw [List.map_eq_nil_iff] at he
    rw [he] at hlen
    exact hne (List.eq_nil_of_length_eq_zero hlen.symm)
  · obtain ⟨k, hk⟩ := List.mem_iff_getElem?.1 hd'
    have hk' : k < (implemented es).length := by
      rw [← hlen, ← List.length_map (f := resolve env.db)]
      exact (List.getElem?_eq_some_iff.1 hk).1
    obtain ⟨hm, o, d, rfl, g⟩ := hat' k _ d' (List.getElem?_eq_getElem hk') hk
    rw [(resolve_op env.db d).1] at hu
    obtain ⟨pen', g1, g2⟩ := g.pen (h.drawable _ hm) hu
    rw [hpen] at g1
    cases g1
    exact ⟨_, hm, o.cls, g.made.isClass, g2⟩
  · have hmem : e ∈ implemented es := List.mem_filter.2 ⟨he, by simpa using Valentina.not_both hcl⟩
    obtain ⟨before, after, hsplit⟩ := List.append_of_mem hmem
    obtain ⟨o, d, g⟩ := hat before e after hsplit
    have hoc : o.cls = c := by
      have := (Valentina.dispatch_ok _ _).2 g.made.isClass
      rw [(Valentina.dispatch_ok _ _).2 hcl] at this
      injection this with this
      exact this.symm
    have hs := shape_of g.toOp
    have hshape : (∃ f g, d.op = .line f g) ∨ ∃ f g a1 l1 a2 l2, d.op = .spline f g a1 l1 a2 l2 := by
      rw [hoc] at hs
      rcases hc with rfl | rfl
      · obtain ⟨a, b, -, -, h3⟩ := hs
        exact .inl ⟨a, b, h3⟩
      · obtain ⟨a, b, x, y, z, w, -, -, h3⟩ := hs
        exact .inr ⟨a, b, x, y, z, w, h3⟩
    obtain ⟨pen, g1, g2⟩ := g.pen (h.drawable e he) (by
      rcases hshape with ⟨f, g, h3⟩ | ⟨f, g, a1, l1, a2, l2, h3⟩ <;> rw [h3] <;> rfl)
    rw [hoc] at g2
    exact ⟨_, List.mem_map.2 ⟨d, List.mem_of_getElem? g.drawn, rfl⟩, by rw [(resolve_op env.db d).1]; exact hshape, pen, g1, g2⟩
  · refine pointsOf_at s.ops st (implemented es) (ds.map (resolve env.db)) 0 (by rw [List.length_map, hlen]) fun k e d' he hd' => ?_
    obtain ⟨-, o, d, rfl, g⟩ := hat' k e d' he hd'
    rw [(resolve_op env.db d).1, Nat.zero_add]
    exact ⟨g.name_iff, g.place st, fun hn => (hready.evaluated k _ hd').1 (by rw [(resolve_op env.db d).1]; exact hn)⟩
  · refine marks_of black style st _ (implemented es) (ds.map (resolve env.db)) 0 (by rw [List.length_map, hlen]) fun k e d' he hd' => ?_
    obtain ⟨hm, o, d, rfl, g⟩ := hat' k e d' he hd'
    rw [Nat.zero_add]
    exact ⟨o.cls, g.made.isClass, g.draws (h.drawable e hm) hready black style⟩

variable {compile : Text → Expr} {real : F → ℝ} {counter : Int} {es : List Element} {s : Sketch F} {ds : List Drawn} {st : St}
  {black : Colour.Color}

/-- C223, what holds for DXF: the file is saved if the colours of its lines are black or have no name. It has the entities of the marks of the
elements, in the order of the file, at the places of C218, ten times larger. -/
theorem file_to_dxf_partial (h : Evaluates env compile real counter es s ds st) (hp : ∀ t err, env.parse t = .error err → err = .valueError)
    (hb : env.db.getItem "black".toList = .ok black) (hbn : black.name = some "black".toList)
    (hm : ∀ e ∈ es, ∀ c pen color, IsClass e c → ElementPen env e pen c → pen.2 = some color → color.name = none ∨ color.name = some "black".toList)
    (floatText : Text → Except PyErr ℚ) (str : Value → Text) (style : SketchStyle) :
    ∃ scene box parts, detailScene env.db floatText (some style) ds st = .ok (scene, box) ∧
      FileDraws env real black style (drawing s.ops st) es parts ∧
      Painters.dxfPainter (Printed.painterScene str scene) none = .ok (parts.flatten.flatMap Printed.dxfMark) := by
  obtain ⟨hready, -, hpens, -, -, parts, h1, h2⟩ := h.drawing hp black style
  obtain ⟨scene, box, k1, k2⟩ := Printed.sketch_to_dxf_partial env.db floatText str hb hbn style hready (by
    intro d hd stroke c hpen hu
    obtain ⟨e, he, cls, g1, g2⟩ := hpens d hd hu _ hpen
    exact hm e he cls _ c g1 g2 rfl)
  rw [detailScene_resolve] at k1
  rw [h2] at k2
  exact ⟨scene, box, parts, k1, h1, k2⟩

/-- C223, what holds for Matplotlib: the sketch is drawn if every line, curve and construction line has a colour. The axes have the artists of
the marks of the elements, in the order of the file, at the places of C218. -/
theorem file_to_mpl_partial (h : Evaluates env compile real counter es s ds st) (hp : ∀ t err, env.parse t = .error err → err = .valueError)
    (hb : env.db.getItem "black".toList = .ok black) (hne : implemented es ≠ [])
    (hc : ∀ e ∈ es, ∀ c pen, IsClass e c → ElementPen env e pen c → pen.2.isSome)
    (floatText : Text → Except PyErr ℚ) (str : Value → Text) (style : SketchStyle) (float : Text → Except PyErr ℝ) (width : Value → ℝ)
    (hf : ∀ v ∈ [style.labelLineWidth, style.lineWidth, style.constructionLineWidth], float (str v) = .ok (width v)) :
    ∃ scene box parts, detailScene env.db floatText (some style) ds st = .ok (scene, some box) ∧
      FileDraws env real black style (drawing s.ops st) es parts ∧
      Painters.mplPainter float (Printed.painterScene str scene) (some (some box)) =
        .ok (Painters.mplLimits box, parts.flatten.flatMap (Printed.mplMark width)) := by
  obtain ⟨hready, hne', hpens, -, -, parts, h1, h2⟩ := h.drawing hp black style
  obtain ⟨scene, box, k1, k2⟩ := Printed.sketch_to_mpl_partial env.db floatText str hb style hready (hne' hne) (by
    intro d hd hu stroke c hpen
    obtain ⟨e, he, cls, g1, g2⟩ := hpens d hd hu _ hpen
    exact hc e he cls _ g1 g2) float width hf
  rw [detailScene_resolve] at k1
  rw [h2] at k2
  exact ⟨scene, box, parts, k1, h1, k2⟩

/-- C223, what holds for SVG: the document has the labels and the lines of the elements, in the order of the file, at the places `SvgMark` gives
from those of C218. The discs and the curves are missing, as for every sketch (C220). -/
theorem file_to_svg_partial (h : Evaluates env compile real counter es s ds st) (hp : ∀ t err, env.parse t = .error err → err = .valueError)
    (hb : env.db.getItem "black".toList = .ok black) (hne : implemented es ≠ [])
    (hc : ∀ e ∈ es, ∀ c pen, IsClass e c → ElementPen env e pen c → pen.2.isSome)
    (floatText : Text → Except PyErr ℚ) (str : Value → Text) (style : SketchStyle) (number fixed3 : ℝ → Text) (float : Text → Except PyErr ℝ)
    (width : Value → ℝ) (hf : ∀ v ∈ [style.labelLineWidth, style.lineWidth, style.constructionLineWidth], float (str v) = .ok (width v))
    (readFloat : Text → Option ℝ) (hw : Printed.Writes number readFloat) (paperWidth paperHeight : ℝ) :
    ∃ scene box parts outs, detailScene env.db floatText (some style) ds st = .ok (scene, some box) ∧
      FileDraws env real black style (drawing s.ops st) es parts ∧ List.Forall₂ (Printed.SvgMark number width box) parts.flatten outs ∧
      Painters.svgPainter number fixed3 float (Printed.readPathData readFloat) (Printed.painterScene str scene) (some (some box)) paperWidth
          paperHeight =
        .ok ⟨[("version", "1.1".toList), ("width", fixed3 paperWidth ++ "mm".toList), ("height", fixed3 paperHeight ++ "mm".toList),
            ("viewBox", "0 0 ".toList ++ fixed3 paperWidth ++ " ".toList ++ fixed3 paperHeight)],
          ⟨"style".toList, [], some "\n        .normal { font: 12px sans-serif; }\n        ".toList⟩ :: outs.flatten⟩ := by
  obtain ⟨hready, hne', hpens, -, -, parts, h1, h2⟩ := h.drawing hp black style
  obtain ⟨scene, box, outs, k1, -, k2, k3⟩ := Printed.sketch_to_svg_partial env.db floatText str hb style hready (hne' hne) (by
    intro d hd hu stroke c hpen
    obtain ⟨e, he, cls, g1, g2⟩ := hpens d hd hu _ hpen
    exact hc e he cls _ g1 g2) number fixed3 float width hf readFloat hw paperWidth paperHeight
  rw [detailScene_resolve] at k1
  rw [h2] at k2
  exact ⟨scene, box, parts, outs, k1, h1, k2, k3⟩

/-- C223, what holds for TeX: the sketch is added to a document if every line has a colour and a style TeX has a text for. The picture names
the points of the file with their places and has the lines of text of the marks of the elements, in the order of the file. -/
theorem file_to_tex_partial (h : Evaluates env compile real counter es s ds st) (hp : ∀ t err, env.parse t = .error err → err = .valueError)
    (hb : env.db.getItem "black".toList = .ok black)
    (hc : ∀ e ∈ es, ∀ c pen, IsClass e c → ElementPen env e pen c → pen.2.isSome ∧ pen.1 ≠ .dashDotDotLine)
    (floatText : Text → Except PyErr ℚ) (str : Value → Text) (style : SketchStyle) (number : ℝ → Text) (document : Tex.Document) :
    ∃ scene box parts items lines document', detailScene env.db floatText (some style) ds st = .ok (scene, box) ∧
      FileDraws env real black style (drawing s.ops st) es parts ∧ Printed.texItems str scene = .ok items ∧
      List.Forall₂ (Printed.TexShows number str (pointsOf (drawing s.ops st) (implemented es))) parts.flatten lines ∧
      Tex.addDetailFigure number (Printed.texCoordinates scene) items document = (document', .ok ()) ∧
      document'.preambule = document.preambule ∧ document'.texFilename = document.texFilename ∧
      Tex.strs document'.content = Tex.strs document.content ++
        "\\pagestyle{empty}\n\\fontsize{64}{72}\\selectfont % \\fontsize{size}{baselineskip}\n".toList ++
        Tex.centred "x=8mm,y=8mm".toList
          ((pointsOf (drawing s.ops st) (implemented es)).map (Printed.coordinateLine number) ++ lines) := by
  obtain ⟨hready, -, hpens, -, hpts, parts, h1, h2⟩ := h.drawing hp black style
  obtain ⟨scene, box, items, lines, d', k1, k2, k3, k4, k5, k6, k7⟩ := Printed.sketch_to_tex_partial env.db floatText str hb style hready (by
    intro d hd hu stroke c hpen
    obtain ⟨e, he, cls, g1, g2⟩ := hpens d hd hu _ hpen
    exact hc e he cls _ g1 g2) number document
  rw [detailScene_resolve] at k1
  rw [h2, hpts] at k3
  rw [hpts] at k7
  exact ⟨scene, box, parts, items, lines, d', k1, h1, k2, k3, k4, k5, k6, k7⟩

/-- C223, what holds for the tiled pages: as `file_to_tex_partial`, once for each tile of the box of the sketch. -/
theorem file_to_tiles_partial (h : Evaluates env compile real counter es s ds st) (hp : ∀ t err, env.parse t = .error err → err = .valueError)
    (hb : env.db.getItem "black".toList = .ok black) (hne : implemented es ≠ [])
    (hc : ∀ e ∈ es, ∀ c pen, IsClass e c → ElementPen env e pen c → pen.2.isSome ∧ pen.1 ≠ .dashDotDotLine)
    (floatText : Text → Except PyErr ℚ) (str : Value → Text) (style : SketchStyle) (number repr : ℝ → Text) (document : Tex.Document)
    (width height margin : ℝ) (hw : 2 * (margin + 2) < width) (hh : 2 * (margin + 2) < height) :
    ∃ scene box parts items lines tiles document', detailScene env.db floatText (some style) ds st = .ok (scene, some box) ∧
      FileDraws env real black style (drawing s.ops st) es parts ∧ Printed.texItems str scene = .ok items ∧
      List.Forall₂ (Printed.TexShows number str (pointsOf (drawing s.ops st) (implemented es))) parts.flatten lines ∧
      Paper.tiler box width height margin = .ok tiles ∧
      Tex.addTiledDetailFigure number repr (Printed.texCoordinates scene) items document (some (some box)) width height margin =
        (document', .ok ()) ∧
      Tex.strs document'.content = Tex.strs document.content ++ "\\pagestyle{empty}\n".toList ++
        (tiles.map fun t => Tex.tilePicture number repr t
          ((pointsOf (drawing s.ops st) (implemented es)).map (Printed.coordinateLine number) ++ lines)).flatten := by
  obtain ⟨hready, hne', hpens, -, hpts, parts, h1, h2⟩ := h.drawing hp black style
  obtain ⟨scene, box, items, lines, tiles, d', k1, -, k2, k3, k4, k5, k6⟩ :=
    Printed.sketch_to_tiles_partial env.db floatText str hb style hready (hne' hne) (by
      intro d hd hu stroke c hpen
      obtain ⟨e, he, cls, g1, g2⟩ := hpens d hd hu _ hpen
      exact hc e he cls _ g1 g2) number repr document width height margin hw hh
  rw [detailScene_resolve] at k1
  rw [h2, hpts] at k3
  rw [hpts] at k6
  exact ⟨scene, box, parts, items, lines, tiles, d', k1, h1, k2, k3, k4, k5, k6⟩

/-- C223 is false for DXF: a file with a line or a curve of a colour whose name is not black is read and evaluated, but the DXF painter raises. -/
theorem file_to_dxf_wrong (h : Evaluates env compile real counter es s ds st) (hp : ∀ t err, env.parse t = .error err → err = .valueError)
    (hb : env.db.getItem "black".toList = .ok black) (e : Element) (he : e ∈ es)
    (hcolor : ∃ t, ((IsClass e .line ∧ e.attrib.get? "lineColor" = some t) ∨ (IsClass e .spline ∧ e.attrib.get? "color" = some t)) ∧
      ∃ c name, Valentina.ColourName env.db t c ∧ c.name = some name ∧ name ≠ "black".toList)
    (floatText : Text → Except PyErr ℚ) (str : Value → Text) (style : SketchStyle) :
    ∃ scene box err, detailScene env.db floatText (some style) ds st = .ok (scene, box) ∧
      Painters.dxfPainter (Printed.painterScene str scene) none = .error err := by
  obtain ⟨hready, -, -, hlines, -⟩ := h.drawing hp black style
  obtain ⟨t, ht, c, name, hc, hn, hnb⟩ := hcolor
  have key : ∃ d ∈ ds.map (resolve env.db), ((∃ f g, d.op = .line f g) ∨ ∃ f g a1 l1 a2 l2, d.op = .spline f g a1 l1 a2 l2) ∧
      ∃ stroke, Detail.penOf d = some (stroke, some c) := by
    have uniq : ∀ attr color, e.attrib.get? attr = some t → ColourAttr env e attr color → color = some c := by
      rintro attr color ha (⟨h1, -⟩ | ⟨t', c', h1, h2, rfl⟩)
      · rw [ha] at h1; cases h1
      · rw [ha] at h1
        cases h1
        have := ensure_of h2
        rw [ensure_of hc] at this
        injection this with this
        exact this.symm
    rcases ht with ⟨hcl, ha⟩ | ⟨hcl, ha⟩
    · obtain ⟨d, hd, hop, ⟨stroke, color⟩, hpen, -, hca⟩ := hlines e he _ hcl (.inl rfl)
      cases uniq _ _ ha hca
      exact ⟨d, hd, hop, stroke, hpen⟩
    · obtain ⟨d, hd, hop, ⟨stroke, color⟩, hpen, -, hca⟩ := hlines e he _ hcl (.inr rfl)
      cases uniq _ _ ha hca
      exact ⟨d, hd, hop, stroke, hpen⟩
  obtain ⟨d, hd, hop, stroke, hpen⟩ := key
  obtain ⟨scene, box, err, k1, k2⟩ := Printed.sketch_to_dxf_wrong env.db floatText str hb style hready d hd hop stroke c name hpen hn hnb
  rw [detailScene_resolve] at k1
  exact ⟨scene, box, err, k1, k2⟩

/-- C223 is false for Matplotlib, SVG and TeX: a file with a line without `lineColor` or a curve without `color`, which the format allows, is read,
evaluated and printed as PDF (C222), but these painters raise. -/
theorem file_without_colour_wrong (h : Evaluates env compile real counter es s ds st)
    (hp : ∀ t err, env.parse t = .error err → err = .valueError) (hb : env.db.getItem "black".toList = .ok black) (e : Element) (he : e ∈ es)
    (hcolor : (IsClass e .line ∧ e.attrib.get? "lineColor" = none) ∨ (IsClass e .spline ∧ e.attrib.get? "color" = none))
    (floatText : Text → Except PyErr ℚ) (str : Value → Text) (style : SketchStyle) (number fixed3 : ℝ → Text) (float : Text → Except PyErr ℝ)
    (readPath : Text → Except PyErr Unit) (width height : ℝ) (document : Tex.Document) :
    ∃ scene box items, detailScene env.db floatText (some style) ds st = .ok (scene, some box) ∧ Printed.texItems str scene = .ok items ∧
      (∃ err, Painters.mplPainter float (Printed.painterScene str scene) (some (some box)) = .error err) ∧
      (∃ err, Painters.svgPainter number fixed3 float readPath (Printed.painterScene str scene) (some (some box)) width height = .error err) ∧
      ∃ err, (Tex.addDetailFigure number (Printed.texCoordinates scene) items document).2 = .error err := by
  obtain ⟨hready, -, -, hlines, -⟩ := h.drawing hp black style
  have key : ∃ d ∈ ds.map (resolve env.db), ((∃ f g, d.op = .line f g) ∨ ∃ f g a1 l1 a2 l2, d.op = .spline f g a1 l1 a2 l2) ∧
      ∃ stroke, Detail.penOf d = some (stroke, none) := by
    have uniq : ∀ attr color, e.attrib.get? attr = none → ColourAttr env e attr color → color = none := by
      rintro attr color ha (⟨-, h1⟩ | ⟨t', c', h1, -⟩)
      · exact h1
      · rw [ha] at h1; cases h1
    rcases hcolor with ⟨hcl, ha⟩ | ⟨hcl, ha⟩
    · obtain ⟨d, hd, hop, ⟨stroke, color⟩, hpen, -, hca⟩ := hlines e he _ hcl (.inl rfl)
      cases uniq _ _ ha hca
      exact ⟨d, hd, hop, stroke, hpen⟩
    · obtain ⟨d, hd, hop, ⟨stroke, color⟩, hpen, -, hca⟩ := hlines e he _ hcl (.inr rfl)
      cases uniq _ _ ha hca
      exact ⟨d, hd, hop, stroke, hpen⟩
  obtain ⟨d, hd, hop, stroke, hpen⟩ := key
  obtain ⟨scene, box, k1, k2, k3⟩ := Printed.sketch_without_colour_wrong env.db floatText str hb style hready d hd hop stroke hpen number fixed3 float
    readPath width height
  obtain ⟨scene', box', items, err, m1, m2, m3⟩ := Printed.sketch_to_tex_wrong env.db floatText str hb style hready d hd hop stroke none hpen (.inl rfl)
    number document
  rw [k1] at m1
  cases m1
  rw [detailScene_resolve] at k1
  exact ⟨scene, box, items, k1, m2, k2, k3, err, m3⟩

/-! ## Examples -/

/-- The hypotheses are met by a file of two points and a line. -/
theorem toyEvaluates : ∃ s ds st, Evaluates Valentina.toyEnv ValPlaces.toyCompile (fun i : Int => (i : ℝ)) 0 Valentina.toyElements s ds st ∧
    (drawing s.ops st).point 6 = some ⟨11, 2⟩ := by
  obtain ⟨s, ops, st, h1, h2, h3, h4, h5⟩ := ValPlaces.toyPlaces
  have hr := Valentina.read_describes toyParse 0 _ s h1
  obtain ⟨ds, g1, g2, -⟩ := to_drawns (compile := ValPlaces.toyCompile) (fun i : Int => (i : ℝ)) hr h4
  rw [h2] at g2
  cases g2
  refine ⟨s, ds, st, ⟨h4, toyDrawable, toyNames, h1, g1, h3, ?_⟩, h5⟩
  have key : ∀ e ∈ Valentina.toyElements, ∀ c, Valentina.dispatch e = .ok c → c ≠ .lineIntersect ∧ c ≠ .pointOfContact := by
    intro e he c
    simp only [Valentina.toyElements, List.mem_cons, List.not_mem_nil, or_false] at he
    rcases he with rfl | rfl | rfl | rfl <;> cases c <;> decide +kernel
  intro e he hcl
  rcases hcl with hcl | hcl
  · exact absurd rfl (key e he _ ((Valentina.dispatch_ok _ _).2 hcl)).1
  · exact absurd rfl (key e he _ ((Valentina.dispatch_ok _ _).2 hcl)).2

/-- The pens of its elements are black, solid or dashed. -/
theorem toyPens : ∀ e ∈ Valentina.toyElements, ∀ c pen, IsClass e c → ElementPen Valentina.toyEnv e pen c →
    pen.2 = some Valentina.toyEnv.black ∧ pen.1 ≠ .dashDotDotLine := by
  have key : ∀ e ∈ Valentina.toyElements, ∀ c ∈ [Class.alongLine, .endLine, .normal, .line, .spline], Valentina.dispatch e = .ok c →
      c ≠ .spline ∧ e.attrib.get? "lineColor" = some "black".toList ∧ e.attrib.get? "typeLine" ≠ some "dashDotDotLine".toList := by
    intro e he
    simp only [Valentina.toyElements, List.mem_cons, List.not_mem_nil, or_false] at he
    rcases he with rfl | rfl | rfl | rfl <;> decide +kernel
  intro e he c pen hcl hpen
  have hc : c ∈ [Class.alongLine, .endLine, .normal, .line, .spline] := by
    cases c <;> first | exact hpen.elim | decide
  obtain ⟨h1, h2, h3⟩ := key e he c hc ((Valentina.dispatch_ok _ _).2 hcl)
  have hp : (∃ t, e.attrib.get? "typeLine" = some t ∧ Valentina.StyleName t pen.1) ∧ ColourAttr Valentina.toyEnv e "lineColor" pen.2 := by
    cases c <;> first | exact hpen | exact hpen.elim | exact absurd rfl h1
  obtain ⟨⟨t, ht, hs⟩, ⟨hn, -⟩ | ⟨t', c', h4, h5, h6⟩⟩ := hp
  · rw [h2] at hn; cases hn
  · rw [h2] at h4
    cases h4
    refine ⟨?_, fun hd => ?_⟩
    · have h7 := ensure_of h5
      rw [h6, show Valentina.toyEnv.black = { name := some "black".toList } from rfl]
      rw [show Valentina.toyEnv.db.ensureColor (some (.text "black".toList)) = .ok (some { name := some "black".toList }) from by
        decide +kernel] at h7
      injection h7 with h7
      rw [← h7]
    · rw [hd] at hs
      rw [ht] at h3
      rcases hs with ⟨-, hs⟩ | ⟨-, hs⟩ | ⟨-, hs⟩ | ⟨-, hs⟩ | ⟨-, hs⟩ | ⟨rfl, -⟩
      all_goals first | cases hs | exact h3 rfl

theorem toyImplemented : implemented Valentina.toyElements ≠ [] := by
  refine List.ne_nil_of_mem (a := Valentina.toyElements[0]) (List.mem_filter.2 ⟨by simp [Valentina.toyElements], ?_⟩)
  simp only [decide_eq_true_eq]
  exact Valentina.not_both (c := .single) ((Valentina.dispatch_ok _ _).1 (by decide +kernel))

/-- The hypotheses of `file_to_dxf_partial` are met. -/
example (floatText : Text → Except PyErr ℚ) (str : Value → Text) (style : SketchStyle) :
    ∃ s ds st scene box parts, Evaluates Valentina.toyEnv ValPlaces.toyCompile (fun i : Int => (i : ℝ)) 0 Valentina.toyElements s ds st ∧
      detailScene Valentina.toyEnv.db floatText (some style) ds st = .ok (scene, box) ∧
      FileDraws Valentina.toyEnv (fun i : Int => (i : ℝ)) Valentina.toyEnv.black style (drawing s.ops st) Valentina.toyElements parts ∧
      Painters.dxfPainter (Printed.painterScene str scene) none = .ok (parts.flatten.flatMap Printed.dxfMark) := by
  obtain ⟨s, ds, st, h, -⟩ := toyEvaluates
  obtain ⟨scene, box, parts, h1, h2, h3⟩ := file_to_dxf_partial h toyParse (black := Valentina.toyEnv.black) (by decide +kernel) rfl
    (fun e he c pen color hc hpen hcol => by
      rw [(toyPens e he c pen hc hpen).1] at hcol
      cases hcol
      exact .inr rfl) floatText str style
  exact ⟨s, ds, st, scene, box, parts, h, h1, h2, h3⟩

/-- Those of `file_to_tex_partial`, `file_to_tiles_partial`, `file_to_mpl_partial` and `file_to_svg_partial` about colours are met. -/
example : ∀ e ∈ Valentina.toyElements, ∀ c pen, IsClass e c → ElementPen Valentina.toyEnv e pen c → pen.2.isSome ∧ pen.1 ≠ .dashDotDotLine := by
  intro e he c pen hc hpen
  obtain ⟨h1, h2⟩ := toyPens e he c pen hc hpen
  exact ⟨by rw [h1]; rfl, h2⟩

/-- The line of the file is drawn dashed, from the place of the point of id 4 to the one of the point of id 6. -/
example (style : SketchStyle) (d : Drawing) (h4 : d.point 4 = some ⟨1, 2⟩) (h6 : d.point 6 = some ⟨11, 2⟩) (ms : List Mark)
    (h : Draws Valentina.toyEnv (fun i : Int => (i : ℝ)) Valentina.toyEnv.black style d 2 Valentina.toyElements[3] ms .line) :
    ms = [⟨.segment (Detail.lineOf (.dashLine, some Valentina.toyEnv.black) style.lineWidth), [⟨1, 2⟩, ⟨11, 2⟩], 2⟩] := by
  obtain ⟨p, q, pen, ⟨i, hi, hp⟩, ⟨j, hj, hq⟩, hpen, rfl⟩ := h
  rw [show idAttr Valentina.toyElements[3] "firstPoint" = some 4 from by decide +kernel] at hi
  rw [show idAttr Valentina.toyElements[3] "secondPoint" = some 6 from by decide +kernel] at hj
  cases hi
  cases hj
  rw [h4] at hp
  rw [h6] at hq
  cases hp
  cases hq
  have h1 := (toyPens _ (by simp [Valentina.toyElements]) .line pen ((Valentina.dispatch_ok _ _).1 (by decide +kernel)) hpen).1
  obtain ⟨⟨t, ht, hs⟩, -⟩ := hpen
  rw [show Valentina.toyElements[3].attrib.get? "typeLine" = some "dashLine".toList from by decide +kernel] at ht
  cases ht
  have h2 : pen.1 = .dashLine := by
    rcases hs with ⟨h, -⟩ | ⟨h, -⟩ | ⟨-, h⟩ | ⟨h, -⟩ | ⟨h, -⟩ | ⟨h, -⟩
    all_goals first | exact h | exact absurd h (by decide)
  obtain ⟨pen1, pen2⟩ := pen
  cases h1
  cases h2
  rfl

/-- A point and two lines from it to itself: a red one, and one without colour. -/
def redElements : List Element :=
  [⟨some "point", [("id", "4".toList), ("type", "single".toList), ("name", "A".toList), ("x", "1".toList), ("y", "2".toList),
      ("mx", "3".toList), ("my", "-4".toList)]⟩,
   ⟨some "line", [("id", "7".toList), ("firstPoint", "4".toList), ("secondPoint", "4".toList), ("lineColor", "red".toList),
      ("typeLine", "hair".toList)]⟩,
   ⟨some "line", [("id", "8".toList), ("firstPoint", "4".toList), ("secondPoint", "4".toList), ("typeLine", "hair".toList)]⟩]

def redEnv : Valentina.Env Int :=
  { Valentina.toyEnv with db := [("black".toList, { name := some "black".toList }), ("red".toList, { name := some "red".toList })] }

theorem redEvaluates : ∃ s ds st, Evaluates redEnv ValPlaces.toyCompile (fun i : Int => (i : ℝ)) 0 redElements s ds st := by
  have hparse : ∀ t err, redEnv.parse t = .error err → err = .valueError := toyParse
  have hread : Sketch.read redEnv { counter := 0 } redElements = ((Sketch.read redEnv { counter := 0 } redElements).1, .ok ()) := by
    refine Prod.ext rfl ?_
    decide +kernel
  have hops : (Sketch.read redEnv { counter := 0 } redElements).1.ops = [
      ⟨.single, 4, [("name", some (.text "A".toList)), ("x", some (.expr "1".toList)), ("y", some (.expr "2".toList))], some (3, -4)⟩,
      ⟨.line, 7, [("first_point", some (.op 4)), ("second_point", some (.op 4)), ("line_style", some (.stroke .solidLine)),
        ("line_color", some (.color { name := some "red".toList }))], none⟩,
      ⟨.line, 8, [("first_point", some (.op 4)), ("second_point", some (.op 4)), ("line_style", some (.stroke .solidLine)),
        ("line_color", none)], none⟩] := by decide +kernel
  have key : ∀ e ∈ redElements, ∀ c, Valentina.dispatch e = .ok c → ((e.attrib.get? "id").isSome ∧
      (c.isPoint = true → (e.attrib.get? "name").isSome) ∧ ∀ a ∈ ValPlaces.placing c, (e.attrib.get? a).isSome) ∧
      c ≠ .spline ∧ (c ∈ [Class.alongLine, .endLine, .normal, .line] → (e.attrib.get? "typeLine").isSome) ∧
      (c.isPoint = true → (e.attrib.get? "mx").isSome ∧ (e.attrib.get? "my").isSome) ∧ c ≠ .lineIntersect ∧ c ≠ .pointOfContact := by
    intro e he c
    simp only [redElements, List.mem_cons, List.not_mem_nil, or_false] at he
    rcases he with rfl | rfl | rfl <;> cases c <;> decide +kernel
  have hcomplete : ∀ e ∈ redElements, Complete e := fun e he c hcl => (key e he c ((Valentina.dispatch_ok _ _).2 hcl)).1
  obtain ⟨ds, g1, g2, -⟩ := to_drawns (compile := ValPlaces.toyCompile) (fun i : Int => (i : ℝ))
    (Valentina.read_describes hparse 0 _ _ hread) hcomplete
  rw [hops] at g2
  have hds : ds.map (·.op) = [.single "A" (ValPlaces.toyCompile "1".toList) (ValPlaces.toyCompile "2".toList), .line 0 0, .line 0 0] :=
    (Option.some.inj g2).symm
  have hev : ∃ st, evalSketch St.empty (ds.map (·.op)) = .ok st := by
    have c1 : ValPlaces.toyCompile "1".toList = fun _ => .ok 1 := by
      funext e; simp only [ValPlaces.toyCompile, show Xml.intFromText "1".toList = .ok 1 from by decide +kernel]; simp
    have c2 : ValPlaces.toyCompile "2".toList = fun _ => .ok 2 := by
      funext e; simp only [ValPlaces.toyCompile, show Xml.intFromText "2".toList = .ok 2 from by decide +kernel]; simp
    rw [hds, c1, c2]
    simp [evalSketch, SketchGeometry.evalFrom, SketchGeometry.evalOp, Op.name, SketchGeometry.evalInternal, St.getValue, St.addPoint,
      St.setVec, St.getVec, St.empty, bind, Except.bind, pure, Except.pure]
  obtain ⟨st, hst⟩ := hev
  refine ⟨_, ds, st, hcomplete, fun e he => ?_, ?_, hread, g1, hst, fun e he hcl => ?_⟩
  · have key' := fun c h => key e he c ((Valentina.dispatch_ok _ _).2 h)
    exact ⟨fun c hc h => (key' c h).2.2.1 hc, fun h => absurd rfl (key' _ h).2.1, fun c hc h => (key' c h).2.2.2.1 hc⟩
  · have : (redElements.filterMap pointName).Nodup := by decide +kernel
    exact this.sublist (List.Sublist.filterMap _ List.filter_sublist)
  · rcases hcl with hcl | hcl
    · exact absurd rfl (key e he _ ((Valentina.dispatch_ok _ _).2 hcl)).2.2.2.2.1
    · exact absurd rfl (key e he _ ((Valentina.dispatch_ok _ _).2 hcl)).2.2.2.2.2

/-- The hypotheses of `file_to_dxf_wrong` are met by the red line, those of `file_without_colour_wrong` by the other one. -/
example : (∃ s ds st, Evaluates redEnv ValPlaces.toyCompile (fun i : Int => (i : ℝ)) 0 redElements s ds st) ∧
    redEnv.db.getItem "black".toList = .ok redEnv.black ∧
    (∃ t, ((IsClass redElements[1] .line ∧ redElements[1].attrib.get? "lineColor" = some t) ∨
        (IsClass redElements[1] .spline ∧ redElements[1].attrib.get? "color" = some t)) ∧
      ∃ c name, Valentina.ColourName redEnv.db t c ∧ c.name = some name ∧ name ≠ "black".toList) ∧
    IsClass redElements[2] .line ∧ redElements[2].attrib.get? "lineColor" = none :=
  ⟨redEvaluates, by decide +kernel,
    ⟨"red".toList, .inl ⟨(Valentina.dispatch_ok _ _).1 (by decide +kernel), by decide +kernel⟩, { name := some "red".toList }, "red".toList,
      .inr ⟨by decide, by decide +kernel⟩, rfl, by decide⟩,
    (Valentina.dispatch_ok _ _).1 (by decide +kernel), by decide +kernel⟩

end

end Patro.ValPrinted

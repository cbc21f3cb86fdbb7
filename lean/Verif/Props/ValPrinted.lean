import Verif.Spec.ValPrinted
import Verif.Props.ValPlaces
import Verif.Props.Printed
/-! # From a Valentina file to a printed page (C222) -/

namespace Patro.ValPrinted

open Valentina (Operation Sketch Class Element IsClass NotImplemented Reading Describes Val)
open SketchGeometry (Expr Op St WellFormed evalSketch)
open Detail (Drawn detailScene)
open Style (SketchStyle Value PathStyle)
open ValPlaces (Drawing Ref place idAttr implemented drawing number toOp toOps Complete)
open Painters (PdfOp)
open Xml (Text)

/-! ## A colour given by its name -/

section

variable (colors : Colour.DataBase) (floatText : Text → Except PyErr ℚ)

/-- The operation with its colour instead of the name of its colour. -/
def resolve (d : Drawn) : Drawn :=
  match d.lineColor with
  | .text t =>
    match colors.ensureColor (some (.text t)) with
    | .ok (some c) => { d with lineColor := .color c }
    | _ => d
  | _ => d

theorem resolve_op (d : Drawn) : (resolve colors d).op = d.op ∧ (resolve colors d).labelOffset = d.labelOffset ∧
    (resolve colors d).lineStyle = d.lineStyle := by
  unfold resolve
  split
  · split <;> exact ⟨rfl, rfl, rfl⟩
  · exact ⟨rfl, rfl, rfl⟩

theorem resolve_style (d : Drawn) (w : Value) : Detail.pathStyle colors floatText (resolve colors d) w = Detail.pathStyle colors floatText d w := by
  unfold resolve
  split
  · rename_i t ht
    split
    · rename_i c hc
      have h1 : Style.arg [("stroke_style", d.lineStyle), ("stroke_color", Value.color c), ("line_width", w)] = fun k v =>
          if k = "stroke_color" then .color c else Style.arg [("stroke_style", d.lineStyle), ("stroke_color", Value.text t), ("line_width", w)] k v := by
        funext k v
        unfold Style.arg
        simp only [Dict.get?]
        by_cases hk : k = "stroke_color"
        · subst hk; simp
        · simp only [if_neg hk]
          by_cases h1 : "stroke_style" = k <;> by_cases h2 : "stroke_color" = k <;> simp_all
      have h2 : ∀ v, Style.arg [("stroke_style", d.lineStyle), ("stroke_color", Value.text t), ("line_width", w)] "stroke_color" v = .text t := by
        intro v; rfl
      unfold Detail.pathStyle PathStyle.new
      rw [ht]
      simp only [h1, h2, Value.colorArg, hc]
      rfl
    · rfl
  · rfl

theorem name_resolve (ops : List Drawn) (j : Nat) :
    (ops.map (resolve colors))[j]?.bind (·.op.name) = ops[j]?.bind (·.op.name) := by
  rw [List.getElem?_map]
  cases ops[j]? with
  | none => rfl
  | some d => simp only [Option.map_some, Option.bind_some, (resolve_op colors d).1]

theorem nameOf_resolve (ops : List Drawn) (j : Nat) : Detail.nameOf (ops.map (resolve colors)) j = Detail.nameOf ops j := by
  unfold Detail.nameOf
  rw [name_resolve]

theorem vectorOf_resolve (ops : List Drawn) (st : St) (j : Nat) :
    Detail.vectorOf (ops.map (resolve colors)) st j = Detail.vectorOf ops st j := by
  unfold Detail.vectorOf
  rw [name_resolve]

theorem operationBox_resolve (ops : List Drawn) (st : St) (i : Nat) (d : Drawn) :
    Detail.operationBox (ops.map (resolve colors)) st i (resolve colors d) = Detail.operationBox ops st i d := by
  unfold Detail.operationBox
  simp only [(resolve_op colors d).1, vectorOf_resolve]

theorem boxLoop_resolve (ops : List Drawn) (st : St) (rest : List Drawn) : ∀ i box,
    Detail.boxLoop (ops.map (resolve colors)) st i (rest.map (resolve colors)) box = Detail.boxLoop ops st i rest box := by
  induction rest with
  | nil => intro i box; rfl
  | cons d rest ih =>
    intro i box
    simp only [List.map_cons, Detail.boxLoop, operationBox_resolve, ih]

theorem draw_resolve (style : SketchStyle) (ops : List Drawn) (st : St) (i : Nat) (d : Drawn) (s : Detail.Sc) :
    Detail.draw colors floatText style (ops.map (resolve colors)) st i (resolve colors d) s = Detail.draw colors floatText style ops st i d s := by
  unfold Detail.draw Detail.drawPoint Detail.constructionLine
  simp only [(resolve_op colors d).1, (resolve_op colors d).2.1, nameOf_resolve, resolve_style]

theorem drawLoop_resolve (style : SketchStyle) (ops : List Drawn) (st : St) (rest : List Drawn) : ∀ i s,
    Detail.drawLoop colors floatText style (ops.map (resolve colors)) st i (rest.map (resolve colors)) s =
      Detail.drawLoop colors floatText style ops st i rest s := by
  induction rest with
  | nil => intro i s; rfl
  | cons d rest ih =>
    intro i s
    simp only [List.map_cons, Detail.drawLoop, draw_resolve, ih]

/-- A sketch is drawn in the same way with the names of the colours and with the colours. -/
theorem detailScene_resolve (style : Option SketchStyle) (ops : List Drawn) (st : St) :
    detailScene colors floatText style (ops.map (resolve colors)) st = detailScene colors floatText style ops st := by
  unfold detailScene Detail.boundingBox
  simp only [boxLoop_resolve, drawLoop_resolve]

end

/-! ## The operations that are drawn -/

variable {F : Type} {env : Valentina.Env F}

/-- What is drawn of the operation made from an element. -/
theorem reading_from {counter : Int} {earlier : List (Operation F)} {es : List Element} {ops : List (Operation F)}
    (h : Reading env counter earlier es ops) : ∀ before e after, implemented es = before ++ e :: after →
      ∃ o c, ops[before.length]? = some o ∧ Describes env c (earlier ++ ops.take before.length) e o ∧
        Valentina.FromPoints (earlier ++ ops.take before.length) o := by
  induction h with
  | nil => exact fun before e after h => by simp [implemented] at h
  | skip hn _ ih => rw [ValPlaces.implemented_skip _ hn]; exact ih
  | @read counter earlier e es o ops hd hf _ ih =>
    rw [ValPlaces.implemented_read es (Valentina.not_both hd.isClass)]
    intro before e' after hb
    cases before with
    | nil =>
      simp only [List.nil_append, List.cons.injEq] at hb
      obtain ⟨rfl, -⟩ := hb
      exact ⟨o, counter, rfl, by simpa using hd, by simpa using hf⟩
    | cons b before =>
      simp only [List.cons_append, List.cons.injEq] at hb
      obtain ⟨o', c, h1, h2, h3⟩ := ih before e' after hb.2
      exact ⟨o', c, by simpa using h1, by simpa using h2, by simpa using h3⟩

/-- Only points have a position. -/
theorem vec_named {ops : List Op} {st : St} (hw : WellFormed ops) (h : evalSketch St.empty ops = .ok st) (j : Nat) (op : Op)
    (hj : ops[j]? = some op) (hv : (st.vec j).isSome) : op.name.isSome := by
  obtain ⟨-, ht⟩ := SketchGeometry.evalFrom_trace ops St.empty st 0 h (fun k o ho j hj => by have := hw k o ho j hj; omega)
  obtain ⟨s1, s2, g0, -, g2, g3, -⟩ := ht j op hj
  simp only [Nat.zero_add] at g0 g2 g3
  have h1 : s1.vec j = none := (g2 j le_rfl).1
  have h2 := (g3 j le_rfl).1
  rw [← h2] at hv
  cases op with
  | line f s =>
    have : s1 = s2 := by
      have := g0
      simp only [SketchGeometry.evalOp, Op.name, SketchGeometry.evalInternal, Except.ok.injEq] at this
      exact this
    rw [← this, h1] at hv
    cases hv
  | spline f s a1 l1 a2 l2 =>
    simp only [SketchGeometry.evalOp, Op.name, SketchGeometry.evalInternal] at g0
    obtain ⟨⟨v1, t1⟩, k1, g0⟩ := SketchGeometry.bind_ok g0
    obtain ⟨⟨v2, t2⟩, k2, g0⟩ := SketchGeometry.bind_ok g0
    obtain ⟨⟨v3, t3⟩, k3, g0⟩ := SketchGeometry.bind_ok g0
    obtain ⟨⟨v4, t4⟩, k4, g0⟩ := SketchGeometry.bind_ok g0
    obtain ⟨a, -, g0⟩ := SketchGeometry.bind_ok g0
    obtain ⟨b, -, g0⟩ := SketchGeometry.bind_ok g0
    have g0 := SketchGeometry.pure_ok g0
    have e1 := (SketchGeometry.getValue_ok k1).1
    have e2 := (SketchGeometry.getValue_ok k2).1
    have e3 := (SketchGeometry.getValue_ok k3).1
    have e4 := (SketchGeometry.getValue_ok k4).1
    rw [← g0] at hv
    simp only at hv
    rw [e4, e3, e2, e1, h1] at hv
    cases hv
  | _ => rfl

theorem toDrawn_op (compile : Text → Expr) (real : F → ℝ) (ops : List (Operation F)) (o : Operation F) (op : Op)
    (h : toOp compile ops o = some op) : toDrawn compile real ops o = some
      { op := op
        labelOffset := offsetOf real o.offset
        lineStyle := valueOf (o.fields.get? "line_style")
        lineColor := valueOf (o.fields.get? "line_color") } := by
  unfold toDrawn
  rw [h]

/-- The operation of number `before.length`, made from the element `e`, and what is drawn of it. -/
structure At (env : Valentina.Env F) (compile : Text → Expr) (real : F → ℝ) (ops : List (Operation F)) (ds : List Drawn) (k : Nat) (e : Element)
    (o : Operation F) (d : Drawn) : Prop where
  op : ops[k]? = some o
  drawn : ds[k]? = some d
  toOp : toOp compile ops o = some d.op
  eq : d = { op := d.op
             labelOffset := offsetOf real o.offset
             lineStyle := valueOf (o.fields.get? "line_style")
             lineColor := valueOf (o.fields.get? "line_color") }
  number : number ops o.id = some k
  made : ValPlaces.Made compile ops k e o
  describes : ∃ c, Describes env c (ops.take k) e o
  points : Valentina.FromPoints (ops.take k) o

theorem to_drawns {compile : Text → Expr} (real : F → ℝ) {counter : Int} {es : List Element} {ops : List (Operation F)}
    (hr : Reading env counter [] es ops) (hc : ∀ e ∈ es, Complete e) : ∃ ds, toDrawns compile real ops = some ds ∧
      toOps compile ops = some (ds.map (·.op)) ∧ ds.length = (implemented es).length ∧
      ∀ before e after, implemented es = before ++ e :: after → ∃ o d, At env compile real ops ds before.length e o d := by
  obtain ⟨ops', h1, h2, h3⟩ := ValPlaces.to_ops (compile := compile) hr hc
  have hlen := (ValPlaces.reading_at hr).1
  have hall : ∀ (k : Nat) (o : Operation F), ops[k]? = some o → ∃ op, toOp compile ops o = some op ∧ ops'[k]? = some op := by
    intro k o ho
    have hk : k < (implemented es).length := by rw [hlen]; exact (List.getElem?_eq_some_iff.1 ho).1
    obtain ⟨o', op, g1, g2, g3, -, -⟩ := h3 _ _ _ (ValPlaces.split_at _ k hk)
    have hl : ((implemented es).take k).length = k := by rw [List.length_take]; omega
    rw [hl] at g1 g3
    rw [ho] at g1
    cases g1
    exact ⟨op, g2, g3⟩
  obtain ⟨ds, g1, g2⟩ := ValPlaces.mapM_at (toDrawn compile real ops) ops (fun o ho => by
    obtain ⟨k, hk⟩ := List.mem_iff_getElem?.1 ho
    obtain ⟨op, h4, -⟩ := hall k o hk
    rw [toDrawn_op compile real ops o op h4]; rfl)
  have hdl : ds.length = ops.length := ValPlaces.mapM_length _ _ _ g1
  have hat : ∀ (k : Nat) (o : Operation F), ops[k]? = some o → ∃ d, ds[k]? = some d ∧ toOp compile ops o = some d.op ∧ ops'[k]? = some d.op ∧
      d = { op := d.op
            labelOffset := offsetOf real o.offset
            lineStyle := valueOf (o.fields.get? "line_style")
            lineColor := valueOf (o.fields.get? "line_color") } := by
    intro k o ho
    obtain ⟨op, h4, h5⟩ := hall k o ho
    obtain ⟨d, h6, h7⟩ := g2 k o ho
    rw [toDrawn_op compile real ops o op h4] at h6
    cases h6
    exact ⟨_, h7, h4, h5, rfl⟩
  refine ⟨ds, g1, ?_, hdl.trans hlen.symm, fun before e after hb => ?_⟩
  · rw [h1]
    congr 1
    refine List.ext_getElem? fun k => ?_
    by_cases hk : k < ops.length
    · obtain ⟨d, k1, -, k2, -⟩ := hat k _ (List.getElem?_eq_getElem hk)
      rw [k2, List.getElem?_map, k1]
      rfl
    · rw [List.getElem?_eq_none (by omega), List.getElem?_eq_none (by rw [List.length_map]; omega)]
  · obtain ⟨o, op, k1, k2, k3, k4, k5⟩ := h3 before e after hb
    obtain ⟨o', c, m1, m2, m3⟩ := reading_from hr before e after hb
    rw [k1] at m1
    cases m1
    obtain ⟨d, n1, n2, -, n3⟩ := hat _ o k1
    exact ⟨o, d, k1, n1, n2, n3, k4, k5, ⟨c, by simpa using m2⟩, by simpa using m3⟩

/-! ## The sketch can be drawn -/

/-- The operation of an element, by the class of the element. -/
def ShapeOf (ops : List (Operation F)) (o : Operation F) (op : Op) : Class → Prop
  | .line => ∃ a b, ValPlaces.refOf ops o "first_point" = some a ∧ ValPlaces.refOf ops o "second_point" = some b ∧ op = .line a b
  | .spline => ∃ a b x y z w, ValPlaces.refOf ops o "first_point" = some a ∧ ValPlaces.refOf ops o "second_point" = some b ∧
      op = .spline a b x y z w
  | .alongLine => ∃ n a b x, ValPlaces.nameOf o = some n ∧ ValPlaces.refOf ops o "first_point" = some a ∧ op = .along n a b x
  | .endLine => ∃ n a x y, ValPlaces.nameOf o = some n ∧ ValPlaces.refOf ops o "base_point" = some a ∧ op = .endLine n a x y
  | .normal => ∃ n a b x y, ValPlaces.nameOf o = some n ∧ ValPlaces.refOf ops o "first_point" = some a ∧ op = .normal n a b x y
  | .lineIntersect => ∃ n a b c d, ValPlaces.nameOf o = some n ∧ op = .lineIntersect n a b c d
  | .pointOfContact => ∃ n a b c d, ValPlaces.nameOf o = some n ∧ op = .contact n a b c d
  | .pointOfIntersection => ∃ n a b, ValPlaces.nameOf o = some n ∧ op = .intersection n a b
  | .single => ∃ n a b, ValPlaces.nameOf o = some n ∧ op = .single n a b

theorem shape_of {compile : Text → Expr} {ops : List (Operation F)} {o : Operation F} {op : Op} (h : toOp compile ops o = some op) :
    ShapeOf ops o op o.cls := by
  unfold toOp at h
  cases hc : o.cls <;> rw [hc] at h <;>
    simp only [bind, Option.bind_eq_some_iff, pure, Option.some.injEq] at h
  case alongLine => obtain ⟨n, h1, a, h2, b, h3, x, h4, rfl⟩ := h; exact ⟨n, a, b, x, h1, h2, rfl⟩
  case endLine => obtain ⟨n, h1, a, h2, b, h3, x, h4, rfl⟩ := h; exact ⟨n, a, b, x, h1, h2, rfl⟩
  case lineIntersect => obtain ⟨n, h1, a, h2, b, h3, x, h4, y, h5, rfl⟩ := h; exact ⟨n, a, b, x, y, h1, rfl⟩
  case normal => obtain ⟨n, h1, a, h2, b, h3, x, h4, y, h5, rfl⟩ := h; exact ⟨n, a, b, x, y, h1, h2, rfl⟩
  case pointOfContact => obtain ⟨n, h1, a, h2, b, h3, x, h4, y, h5, rfl⟩ := h; exact ⟨n, a, b, x, y, h1, rfl⟩
  case pointOfIntersection => obtain ⟨n, h1, a, h2, b, h3, rfl⟩ := h; exact ⟨n, a, b, h1, rfl⟩
  case single => obtain ⟨n, h1, a, h2, b, h3, rfl⟩ := h; exact ⟨n, a, b, h1, rfl⟩
  case line => obtain ⟨a, h1, b, h2, rfl⟩ := h; exact ⟨a, b, h1, h2, rfl⟩
  case spline => obtain ⟨a, h1, b, h2, x, h3, y, h4, z, h5, w, h6, rfl⟩ := h; exact ⟨a, b, x, y, z, w, h1, h2, rfl⟩

theorem At.name_iff {compile : Text → Expr} {real : F → ℝ} {ops : List (Operation F)} {ds : List Drawn} {k : Nat} {e : Element}
    {o : Operation F} {d : Drawn} (h : At env compile real ops ds k e o d) : d.op.name = pointName e := by
  obtain ⟨op, h1, -, h2, -⟩ := ValPlaces.made_op h.number h.made
  rw [h.toOp] at h1
  cases h1
  have key : ∀ n, ValPlaces.IsPoint e n ↔ pointName e = some n := by
    intro n
    unfold pointName
    constructor
    · rintro ⟨c, hp, hc, hn⟩
      rcases hc with ⟨rfl, -⟩ | ⟨rfl, -⟩ | ⟨-, ht, -⟩
      · cases hp
      · cases hp
      · rw [if_pos ht]; exact hn
    · intro hn
      split at hn
      · rename_i ht
        rcases h.made.isClass with ⟨-, ht'⟩ | ⟨-, ht', -⟩ | ⟨hp, -, hty⟩
        · rw [ht] at ht'; exact absurd ht' (by decide)
        · rw [ht] at ht'; exact absurd ht' (by decide)
        · exact ⟨o.cls, hp, h.made.isClass, hn⟩
      · cases hn
  cases hn : pointName e with
  | some n => exact (h2 n).2 ((key n).2 hn)
  | none =>
    cases hop : d.op.name with
    | none => rfl
    | some n =>
      have := (key n).1 ((h2 n).1 hop)
      rw [hn] at this
      cases this

theorem filterMap_at {α β γ : Type} (f : α → Option γ) (g : β → Option γ) : ∀ (l : List α) (l' : List β), l.length = l'.length →
    (∀ (k : Nat) (a : α) (b : β), l[k]? = some a → l'[k]? = some b → f a = g b) → l.filterMap f = l'.filterMap g
  | [], [], _, _ => rfl
  | [], _ :: _, h, _ => by simp at h
  | _ :: _, [], h, _ => by simp at h
  | a :: l, b :: l', h, hk => by
    have h0 := hk 0 a b rfl rfl
    have ih := filterMap_at f g l l' (by simpa using h) (fun k a b ha hb => hk (k + 1) a b (by simpa using ha) (by simpa using hb))
    simp only [List.filterMap_cons, h0, ih]

theorem ensure_of {t : Text} {c : Colour.Color} (h : Valentina.ColourName env.db t c) : env.db.ensureColor (some (.text t)) = .ok (some c) := by
  rcases h with ⟨h1, h2⟩ | ⟨h1, h2⟩
  · simp only [Colour.DataBase.ensureColor, if_pos h1, h2]; rfl
  · simp only [Colour.DataBase.ensureColor, if_neg h1, Dict.getItem, h2]
    rfl

/-- The line of an operation made from an element has a style. -/
theorem At.styled {compile : Text → Expr} {real : F → ℝ} {ops : List (Operation F)} {ds : List Drawn} {k : Nat} {e : Element}
    {o : Operation F} {d : Drawn} (h : At env compile real ops ds k e o d)
    (hstyle : ∀ c ∈ [Class.alongLine, .endLine, .normal, .line], IsClass e c → (e.attrib.get? "typeLine").isSome)
    (hcolor : IsClass e .spline → ∀ t, e.attrib.get? "color" = some t → ∃ c, Valentina.ColourName env.db t c)
    (hu : Detail.usesLine d.op = true) : (Detail.penOf (resolve env.db d)).isSome := by
  have hs := shape_of h.toOp
  obtain ⟨c, hdesc⟩ := h.describes
  have hstroke : o.cls ∈ [Class.alongLine, .endLine, .normal, .line] → (Detail.penOf (resolve env.db d)).isSome := by
    intro hcls
    have hrows : ∀ r ∈ Valentina.strokeRows, r ∈ Valentina.table o.cls := by
      intro r hr
      simp only [List.mem_cons, List.not_mem_nil, or_false] at hcls
      rcases hcls with hc | hc | hc | hc <;> rw [hc] <;> simp only [Valentina.table, List.mem_append] <;> simp [hr]
    obtain ⟨t, ht⟩ := Option.isSome_iff_exists.1 (hstyle o.cls hcls h.made.isClass)
    obtain ⟨v, hv, hh⟩ := hdesc.rows _ (hrows ⟨"line_style", "typeLine", .style⟩ (by simp [Valentina.strokeRows]))
    obtain ⟨w, hw, hh'⟩ := hdesc.rows _ (hrows ⟨"line_color", "lineColor", .colour⟩ (by simp [Valentina.strokeRows]))
    simp only at hv hh hw hh'
    rw [ht] at hv
    obtain ⟨s, -, rfl⟩ := hv
    have e1 : d.lineStyle = .stroke s := by rw [h.eq]; show valueOf _ = _; rw [show o.fields.get? "line_style" = _ from hh]; rfl
    have e2 : d.lineColor = .none ∨ ∃ c, d.lineColor = .color c := by
      cases hlc : e.attrib.get? "lineColor" with
      | none =>
        rw [hlc] at hw
        left
        rw [h.eq]; show valueOf _ = _; rw [show o.fields.get? "line_color" = _ from hh', show w = none from hw]; rfl
      | some t' =>
        rw [hlc] at hw
        obtain ⟨c', -, rfl⟩ := hw
        right
        exact ⟨c', by rw [h.eq]; show valueOf _ = _; rw [show o.fields.get? "line_color" = _ from hh']; rfl⟩
    rcases e2 with e2 | ⟨c', e2⟩
    · simp [resolve, Detail.penOf, e1, e2]
    · simp [resolve, Detail.penOf, e1, e2]
  cases hcls : o.cls with
  | alongLine => exact hstroke (by simp [hcls])
  | endLine => exact hstroke (by simp [hcls])
  | normal => exact hstroke (by simp [hcls])
  | line => exact hstroke (by simp [hcls])
  | spline =>
    obtain ⟨v, hv, hh⟩ := hdesc.rows ⟨"line_color", "color", .colourText⟩ (by rw [hcls]; simp [Valentina.table])
    simp only [Valentina.Says] at hv hh
    have hsol := hdesc.solid hcls
    have e1 : d.lineStyle = .stroke .solidLine := by
      rw [h.eq]; show valueOf _ = _; rw [show o.fields.get? "line_style" = _ from hsol]; rfl
    cases hlc : e.attrib.get? "color" with
    | none =>
      rw [hlc] at hv
      have e2 : d.lineColor = .none := by
        rw [h.eq]; show valueOf _ = _; rw [show o.fields.get? "line_color" = _ from hh, hv]; rfl
      simp [resolve, Detail.penOf, e1, e2]
    | some t =>
      rw [hlc] at hv
      have e2 : d.lineColor = .text t := by
        rw [h.eq]; show valueOf _ = _; rw [show o.fields.get? "line_color" = _ from hh, hv]; rfl
      obtain ⟨c', hc'⟩ := hcolor (by rw [← hcls]; exact h.made.isClass) t hlc
      simp [resolve, Detail.penOf, e1, e2, ensure_of hc']
  | lineIntersect => rw [hcls] at hs; obtain ⟨n, a, b, c, d', -, hop⟩ := hs; rw [hop] at hu; cases hu
  | pointOfContact => rw [hcls] at hs; obtain ⟨n, a, b, c, d', -, hop⟩ := hs; rw [hop] at hu; cases hu
  | pointOfIntersection => rw [hcls] at hs; obtain ⟨n, a, b, -, hop⟩ := hs; rw [hop] at hu; cases hu
  | single => rw [hcls] at hs; obtain ⟨n, a, b, -, hop⟩ := hs; rw [hop] at hu; cases hu

theorem At.named {compile : Text → Expr} {real : F → ℝ} {ops : List (Operation F)} {ds : List Drawn} {k : Nat} {e : Element}
    {o : Operation F} {d : Drawn} (h : At env compile real ops ds k e o d) (hp : o.cls.isPoint = true) : ∃ n, d.op.name = some n := by
  have hs := shape_of h.toOp
  cases hc : o.cls <;> rw [hc] at hs hp
  case line => cases hp
  case spline => cases hp
  case alongLine => obtain ⟨n, a, b, x, -, -, hop⟩ := hs; exact ⟨n, by rw [hop]; rfl⟩
  case endLine => obtain ⟨n, a, b, x, -, -, hop⟩ := hs; exact ⟨n, by rw [hop]; rfl⟩
  case normal => obtain ⟨n, a, b, x, y, -, -, hop⟩ := hs; exact ⟨n, by rw [hop]; rfl⟩
  case lineIntersect => obtain ⟨n, a, b, x, y, -, hop⟩ := hs; exact ⟨n, by rw [hop]; rfl⟩
  case pointOfContact => obtain ⟨n, a, b, x, y, -, hop⟩ := hs; exact ⟨n, by rw [hop]; rfl⟩
  case pointOfIntersection => obtain ⟨n, a, b, -, hop⟩ := hs; exact ⟨n, by rw [hop]; rfl⟩
  case single => obtain ⟨n, a, b, -, hop⟩ := hs; exact ⟨n, by rw [hop]; rfl⟩

theorem satisfies_refs {st : St} {i : Nat} {op : Op} (h : SketchGeometry.Satisfies st.vec st.ctrl st.value i op)
    (hl : ∀ a b, op ≠ .line a b) : ∀ j ∈ op.refs, (st.vec j).isSome := by
  intro j hj
  cases op <;> simp only [SketchGeometry.Satisfies] at h <;> simp only [Op.refs, List.mem_cons, List.not_mem_nil, or_false] at hj
  case along => obtain ⟨a, b, l, p, h1, h2, -⟩ := h; rcases hj with rfl | rfl <;> simp [*]
  case endLine => obtain ⟨a, l, m, p, h1, -⟩ := h; subst hj; simp [*]
  case lineIntersect => obtain ⟨a, b, c, d, h1, h2, h3, h4, -⟩ := h; rcases hj with rfl | rfl | rfl | rfl <;> simp [*]
  case normal => obtain ⟨a, b, l, m, p, h1, h2, -⟩ := h; rcases hj with rfl | rfl <;> simp [*]
  case contact => obtain ⟨a, b, c, r, h1, h2, h3, -⟩ := h; rcases hj with rfl | rfl | rfl <;> simp [*]
  case intersection => obtain ⟨a, b, h1, h2, -⟩ := h; rcases hj with rfl | rfl <;> simp [*]
  case line => exact absurd rfl (hl _ _)
  case spline => obtain ⟨a, b, l, m, n, p, h1, h2, -⟩ := h; rcases hj with rfl | rfl <;> simp [*]

/-- The operations of a file which was read and evaluated refer to points, and have their positions. -/
theorem file_evaluated {compile : Text → Expr} {real : F → ℝ} {es : List Element} {ops : List (Operation F)} {ds : List Drawn} {st : St}
    (hids : (ops.map Operation.id).Pairwise (· < ·)) (hlen : ds.length = (implemented es).length)
    (hat : ∀ before e after, implemented es = before ++ e :: after → ∃ o d, At env compile real ops ds before.length e o d)
    (hst : evalSketch St.empty (ds.map (·.op)) = .ok st)
    (hv : ∀ e ∈ es, IsClass e .lineIntersect ∨ IsClass e .pointOfContact → (place (drawing ops st) e).isSome) :
    Detail.Refs (ds.map (resolve env.db)) ∧ Detail.Evaluated (ds.map (resolve env.db)) st ∧
      Detail.names (ds.map (resolve env.db)) = (implemented es).filterMap pointName ∧
      ∀ (k : Nat) (d : Drawn), ds[k]? = some d → ∃ e o, (implemented es)[k]? = some e ∧ At env compile real ops ds k e o d := by
  have hat' : ∀ (k : Nat) (d : Drawn), ds[k]? = some d → ∃ e o, (implemented es)[k]? = some e ∧ At env compile real ops ds k e o d := by
    intro k d hk
    have hk' : k < (implemented es).length := by rw [← hlen]; exact (List.getElem?_eq_some_iff.1 hk).1
    obtain ⟨o, d', h⟩ := hat _ _ _ (ValPlaces.split_at _ k hk')
    have hl : ((implemented es).take k).length = k := by rw [List.length_take]; omega
    rw [hl] at h
    have := h.drawn
    rw [hk] at this
    cases this
    exact ⟨_, o, List.getElem?_eq_getElem hk', h⟩
  have hmem : ∀ (k : Nat) (e : Element), (implemented es)[k]? = some e → e ∈ es := fun k e h =>
    (List.mem_filter.1 (List.mem_of_getElem? h)).1
  have hw : WellFormed (ds.map (·.op)) := by
    intro i op hi j hj
    rw [List.getElem?_map] at hi
    obtain ⟨d, hd, rfl⟩ := Option.map_eq_some_iff.1 hi
    obtain ⟨e, o, -, h⟩ := hat' i d hd
    obtain ⟨op, h1, h2, -⟩ := ValPlaces.made_op h.number h.made
    rw [h.toOp] at h1
    cases h1
    exact h2 j hj
  have hsat := SketchGeometry.sketch_satisfies _ _ _ hw hst
  -- a position, or a point of the file, is the one of a point
  have hpos : ∀ (i j : Nat) (d : Drawn), ds[i]? = some d → j < i → (st.vec j).isSome → ∃ e n, ds[j]? = some e ∧ e.op.name = some n := by
    intro i j d hi hj hjv
    have hjl : j < ds.length := by have := (List.getElem?_eq_some_iff.1 hi).1; omega
    refine ⟨ds[j], ?_⟩
    have := vec_named hw hst j (ds[j]).op (by rw [List.getElem?_map, List.getElem?_eq_getElem hjl]; rfl) hjv
    obtain ⟨n, hn⟩ := Option.isSome_iff_exists.1 this
    exact ⟨n, List.getElem?_eq_getElem hjl, hn⟩
  have hpoint : ∀ (i : Nat) (d : Drawn) (e : Element) (o : Operation F) (py xml : String) (j : Nat), ds[i]? = some d →
      At env compile real ops ds i e o d → ⟨py, xml, .reference⟩ ∈ Valentina.table o.cls → py ≠ "center" →
      ValPlaces.refOf ops o py = some j → ∃ e n, ds[j]? = some e ∧ e.op.name = some n := by
    intro i d e o py xml j hi h hr hne href
    obtain ⟨i', h1, p, hp, hpi, hpp⟩ := h.points _ hr rfl hne
    obtain ⟨j', hj'⟩ := List.mem_iff_getElem?.1 hp
    have hj2 : ops[j']? = some p := by
      rw [List.getElem?_take] at hj'
      split at hj'
      · exact hj'
      · cases hj'
    have hj3 : j' < i := by
      have := (List.getElem?_eq_some_iff.1 hj').1
      rw [List.length_take] at this
      omega
    have hj4 : number ops i' = some j' := by rw [← hpi]; exact ValPlaces.number_of hids hj2
    have : j' = j := by
      unfold ValPlaces.refOf at href
      rw [show o.fields.get? py = some (some (.op i')) from h1] at href
      rw [show number ops i' = some j from href] at hj4
      exact (Option.some.inj hj4).symm
    subst this
    have hjl : j' < ds.length := by have := (List.getElem?_eq_some_iff.1 hi).1; omega
    obtain ⟨e', o', -, h'⟩ := hat' j' ds[j'] (List.getElem?_eq_getElem hjl)
    have ho := h'.op
    rw [hj2] at ho
    cases ho
    obtain ⟨n, hn⟩ := h'.named hpp
    exact ⟨ds[j'], n, List.getElem?_eq_getElem hjl, hn⟩
  have hrefs : Detail.Refs ds := by
    intro i d hi j hj
    have hji : j < i := hw i d.op (by rw [List.getElem?_map, hi]; rfl) j hj
    refine ⟨hji, ?_⟩
    obtain ⟨e, o, -, h⟩ := hat' i d hi
    by_cases hl : ∃ a b, d.op = .line a b
    · obtain ⟨a, b, hop⟩ := hl
      have hs := shape_of h.toOp
      rw [hop] at hs hj
      have hcls : o.cls = .line := by
        cases hc : o.cls <;> rw [hc] at hs <;> simp [ShapeOf] at hs
      rw [hcls] at hs
      obtain ⟨a', b', h1, h2, h3⟩ := hs
      cases h3
      simp only [Op.refs, List.mem_cons, List.not_mem_nil, or_false] at hj
      rcases hj with rfl | rfl
      · exact hpoint i d e o "first_point" "firstPoint" _ hi h (by rw [hcls]; simp [Valentina.table, Valentina.pairRows]) (by decide) h1
      · exact hpoint i d e o "second_point" "secondPoint" _ hi h (by rw [hcls]; simp [Valentina.table, Valentina.pairRows]) (by decide) h2
    · refine hpos i j d hi hji ?_
      exact satisfies_refs (hsat i d.op (by rw [List.getElem?_map, hi]; rfl)) (fun a b hab => hl ⟨a, b, hab⟩) j hj
  have hrefs' : Detail.Refs (ds.map (resolve env.db)) := by
    intro i d' hi j hj
    rw [List.getElem?_map] at hi
    obtain ⟨d, hd, rfl⟩ := Option.map_eq_some_iff.1 hi
    rw [(resolve_op env.db d).1] at hj
    obtain ⟨h1, e, n, h2, h3⟩ := hrefs i d hd j hj
    exact ⟨h1, resolve env.db e, n, by rw [List.getElem?_map, h2]; rfl, by rw [(resolve_op env.db e).1]; exact h3⟩
  have hmap : (ds.map (resolve env.db)).map (·.op) = ds.map (·.op) := by
    rw [List.map_map]
    exact List.map_congr_left fun d _ => (resolve_op env.db d).1
  obtain ⟨q1, -, q3⟩ := Detail.sketch_box_eval hrefs' (by rw [hmap]; exact hst)
  refine ⟨hrefs', q1 ?_, ?_, hat'⟩
  · intro i d' hi hname
    by_contra hvec
    have hop := q3 i d' hi hname (by simpa using hvec)
    refine hvec ?_
    rw [List.getElem?_map] at hi
    obtain ⟨d, hkd, rfl⟩ := Option.map_eq_some_iff.1 hi
    obtain ⟨e, o, he, h⟩ := hat' i d hkd
    rw [(resolve_op env.db d).1] at hop
    have hs := shape_of h.toOp
    have hplace : place (drawing ops st) e = st.vec i := by
      unfold place
      rw [h.made.id]
      simp only [Option.bind_some, drawing, h.number]
    rw [← hplace]
    refine hv e (hmem i e he) ?_
    have hcls := h.made.isClass
    cases hc : o.cls <;> rw [hc] at hs hcls
    case lineIntersect => exact .inl hcls
    case pointOfContact => exact .inr hcls
    all_goals
      exfalso
      simp only [ShapeOf] at hs
      rcases hop with ⟨n, a, b, c, e', hop⟩ | ⟨n, a, b, c, e', hop⟩ <;> rw [hop] at hs <;> simp at hs
  · unfold Detail.names
    refine filterMap_at (fun d : Drawn => d.op.name) pointName (ds.map (resolve env.db)) (implemented es) (by rw [List.length_map, hlen]) ?_
    intro k d' e hk he
    rw [List.getElem?_map] at hk
    obtain ⟨d, hkd, rfl⟩ := Option.map_eq_some_iff.1 hk
    obtain ⟨e', o, he', h⟩ := hat' k d hkd
    rw [he] at he'
    cases he'
    rw [(resolve_op env.db d).1]
    exact h.name_iff

/-- The sketch of a file which was read and evaluated can be drawn. -/
theorem file_ready {compile : Text → Expr} {real : F → ℝ} {es : List Element} {ops : List (Operation F)} {ds : List Drawn} {st : St}
    (hids : (ops.map Operation.id).Pairwise (· < ·)) (hlen : ds.length = (implemented es).length)
    (hat : ∀ before e after, implemented es = before ++ e :: after → ∃ o d, At env compile real ops ds before.length e o d)
    (hd : ∀ e ∈ es, Drawable env e) (hnames : ((implemented es).filterMap pointName).Nodup)
    (hst : evalSketch St.empty (ds.map (·.op)) = .ok st)
    (hv : ∀ e ∈ es, IsClass e .lineIntersect ∨ IsClass e .pointOfContact → (place (drawing ops st) e).isSome) :
    Printed.Ready (ds.map (resolve env.db)) st := by
  obtain ⟨h1, h2, h3, h4⟩ := file_evaluated (env := env) hids hlen hat hst hv
  refine ⟨h1, h2, ?_, by rw [h3]; exact hnames⟩
  intro d' hd' hu
  obtain ⟨d, hmd, rfl⟩ := List.mem_map.1 hd'
  obtain ⟨k, hk⟩ := List.mem_iff_getElem?.1 hmd
  obtain ⟨e, o, he, h⟩ := h4 k d hk
  rw [(resolve_op env.db d).1] at hu
  have := hd e (List.mem_filter.1 (List.mem_of_getElem? he)).1
  exact h.styled this.style this.color hu

/-! ## The page -/

theorem parts_of {ε : Type} (black : Colour.Color) (style : SketchStyle) (st : St) (P : ε → List (PdfOp ℝ) → Prop) :
    ∀ (es : List ε) (ds : List Drawn) (i : Nat), es.length = ds.length →
      (∀ (k : Nat) (e : ε) (d : Drawn), es[k]? = some e → ds[k]? = some d → P e ((Detail.marks black style st (i + k) d).flatMap Printed.pdfMark)) →
      ∃ parts, List.Forall₂ P es parts ∧ (Detail.allMarks black style st i ds).flatMap Printed.pdfMark = parts.flatten
  | [], [], _, _, _ => ⟨[], .nil, rfl⟩
  | [], _ :: _, _, h, _ => by simp at h
  | _ :: _, [], _, h, _ => by simp at h
  | e :: es, d :: ds, i, h, hk => by
    obtain ⟨parts, h1, h2⟩ := parts_of black style st P es ds (i + 1) (by simpa using h) (fun k e d he hd => by
      have := hk (k + 1) e d (by simpa using he) (by simpa using hd)
      rwa [show i + (k + 1) = i + 1 + k by omega] at this)
    refine ⟨(Detail.marks black style st i d).flatMap Printed.pdfMark :: parts, .cons (hk 0 e d rfl rfl) h1, ?_⟩
    simp only [Detail.allMarks, List.flatMap_append, List.flatten_cons, h2]

/-- What is printed for an element. -/
theorem At.prints {compile : Text → Expr} {real : F → ℝ} {ops : List (Operation F)} {ds : List Drawn} {k : Nat} {e : Element}
    {o : Operation F} {d : Drawn} {st : St} (h : At env compile real ops ds k e o d) (hd : Drawable env e)
    (hr : Printed.Ready (ds.map (resolve env.db)) st) (black : Colour.Color) (style : SketchStyle) :
    Prints env real (drawing ops st) e ((Detail.marks black style st k (resolve env.db d)).flatMap Printed.pdfMark) o.cls := by
  have hk : (ds.map (resolve env.db))[k]? = some (resolve env.db d) := by rw [List.getElem?_map, h.drawn]; rfl
  have hop := (resolve_op env.db d).1
  have hoff := (resolve_op env.db d).2.1
  have hvec : ∀ j ∈ d.op.refs, ∃ p, st.vec j = some p := by
    intro j hj
    obtain ⟨-, e', n, h1, h2⟩ := hr.refs k _ hk j (by rw [hop]; exact hj)
    exact Option.isSome_iff_exists.1 ((hr.evaluated j e' h1).1 (by rw [h2]; rfl))
  have hpen : Detail.usesLine d.op = true → ∃ pen, Detail.penOf (resolve env.db d) = some pen := fun hu =>
    Option.isSome_iff_exists.1 (h.styled hd.style hd.color hu)
  have hplace : place (drawing ops st) e = st.vec k := by
    unfold place
    rw [h.made.id]
    simp only [Option.bind_some, drawing, h.number]
  have hctrl : (idAttr e "id").bind (drawing ops st).control = st.ctrl k := by
    rw [h.made.id]
    simp only [Option.bind_some, drawing, h.number]
  have href : ∀ (py xml : String) (j : Nat) (p : Vec ℝ), ⟨py, xml, .reference⟩ ∈ Valentina.table o.cls → ValPlaces.refOf ops o py = some j →
      st.vec j = some p → Ref (drawing ops st) e xml p := by
    intro py xml j p hrow h1 h2
    obtain ⟨i, j', g1, g2, g3, -⟩ := h.made.ref _ hrow rfl
    rw [show ValPlaces.refOf ops o py = some j' from g2] at h1
    cases h1
    exact ⟨i, g1, by simp only [drawing, g3, Option.bind_some, h2]⟩
  have hs := shape_of h.toOp
  -- the label of a point
  have hpt : o.cls.isPoint = true → ∀ n, ValPlaces.nameOf o = some n → d.op.name = some n → ∃ p mx my x y,
      (e.attrib.get? "name").map String.ofList = some n ∧ st.vec k = some p ∧
      e.attrib.get? "mx" = some mx ∧ env.parse mx = .ok x ∧ e.attrib.get? "my" = some my ∧ env.parse my = .ok y ∧
      Detail.labelPosition p (resolve env.db d) = ⟨p.x + real x, p.y - real y⟩ := by
    intro hp n hn hname
    obtain ⟨n', g1, g2⟩ := h.made.name hp
    rw [hn] at g1
    cases g1
    obtain ⟨p, g3⟩ := Option.isSome_iff_exists.1 ((hr.evaluated k _ hk).1 (by rw [hop, hname]; rfl))
    obtain ⟨c, hdesc⟩ := h.describes
    have ho := hdesc.offset
    rw [if_pos hp] at ho
    obtain ⟨x, y, o1, o2, o3⟩ := ho
    obtain ⟨m1, m2⟩ := hd.offset o.cls hp h.made.isClass
    obtain ⟨mx, m1⟩ := Option.isSome_iff_exists.1 m1
    obtain ⟨my, m2⟩ := Option.isSome_iff_exists.1 m2
    rw [m1] at o2
    rw [m2] at o3
    refine ⟨p, mx, my, x, y, g2, g3, m1, o2, m2, o3, ?_⟩
    unfold Detail.labelPosition
    rw [hoff, show d.labelOffset = offsetOf real o.offset by rw [h.eq], o1]
    rfl
  cases hc : o.cls <;> rw [hc] at hs href hpt
  case line =>
    obtain ⟨a, b, h1, h2, h3⟩ := hs
    obtain ⟨pen, hpen⟩ := hpen (by rw [h3]; rfl)
    obtain ⟨p, hp⟩ := hvec a (by rw [h3]; simp [Op.refs])
    obtain ⟨q, hq⟩ := hvec b (by rw [h3]; simp [Op.refs])
    refine ⟨p, q, href _ _ _ _ (by simp [Valentina.table, Valentina.pairRows]) h1 hp,
      href _ _ _ _ (by simp [Valentina.table, Valentina.pairRows]) h2 hq, ?_⟩
    simp [Detail.marks, hop, h3, hpen, hp, hq, Printed.pdfMark, lineCall, unit]
  case spline =>
    obtain ⟨a, b, x, y, z, w, h1, h2, h3⟩ := hs
    obtain ⟨pen, hpen⟩ := hpen (by rw [h3]; rfl)
    obtain ⟨p, hp⟩ := hvec a (by rw [h3]; simp [Op.refs])
    obtain ⟨q, hq⟩ := hvec b (by rw [h3]; simp [Op.refs])
    obtain ⟨⟨c1, c2⟩, hcc⟩ := Option.isSome_iff_exists.1 ((hr.evaluated k _ hk).2 a b x y z w (by rw [hop, h3]))
    refine ⟨p, q, c1, c2, href _ _ _ _ (by simp [Valentina.table]) h1 hp, href _ _ _ _ (by simp [Valentina.table]) h2 hq, hctrl.trans hcc, ?_⟩
    simp [Detail.marks, hop, h3, hpen, hp, hq, hcc, Printed.pdfMark, unit]
  case alongLine =>
    obtain ⟨n, a, b, x, h1, h2, h3⟩ := hs
    obtain ⟨pen, hpen⟩ := hpen (by rw [h3]; rfl)
    obtain ⟨q, hq⟩ := hvec a (by rw [h3]; simp [Op.refs])
    obtain ⟨p, mx, my, u, v, g1, g2, g3, g4, g5, g6, g7⟩ := hpt rfl n h1 (by rw [h3]; rfl)
    refine ⟨n, p, mx, my, u, v, g1, hplace.trans g2, g3, g4, g5, g6, q, href _ _ _ _ (by simp [Valentina.table, Valentina.pairRows]) h2 hq, ?_⟩
    simp [Detail.marks, Detail.pointMarks, Detail.constructionFrom, Op.name, hop, h3, hpen, hq, g2, g7, Printed.pdfMark, unit, pointCalls, lineCall]
  case normal =>
    obtain ⟨n, a, b, x, y, h1, h2, h3⟩ := hs
    obtain ⟨pen, hpen⟩ := hpen (by rw [h3]; rfl)
    obtain ⟨q, hq⟩ := hvec a (by rw [h3]; simp [Op.refs])
    obtain ⟨p, mx, my, u, v, g1, g2, g3, g4, g5, g6, g7⟩ := hpt rfl n h1 (by rw [h3]; rfl)
    refine ⟨n, p, mx, my, u, v, g1, hplace.trans g2, g3, g4, g5, g6, q, href _ _ _ _ (by simp [Valentina.table, Valentina.pairRows]) h2 hq, ?_⟩
    simp [Detail.marks, Detail.pointMarks, Detail.constructionFrom, Op.name, hop, h3, hpen, hq, g2, g7, Printed.pdfMark, unit, pointCalls, lineCall]
  case endLine =>
    obtain ⟨n, a, x, y, h1, h2, h3⟩ := hs
    obtain ⟨pen, hpen⟩ := hpen (by rw [h3]; rfl)
    obtain ⟨q, hq⟩ := hvec a (by rw [h3]; simp [Op.refs])
    obtain ⟨p, mx, my, u, v, g1, g2, g3, g4, g5, g6, g7⟩ := hpt rfl n h1 (by rw [h3]; rfl)
    refine ⟨n, p, mx, my, u, v, g1, hplace.trans g2, g3, g4, g5, g6, q, href _ _ _ _ (by simp [Valentina.table]) h2 hq, ?_⟩
    simp [Detail.marks, Detail.pointMarks, Detail.constructionFrom, Op.name, hop, h3, hpen, hq, g2, g7, Printed.pdfMark, unit, pointCalls, lineCall]
  case lineIntersect =>
    obtain ⟨n, a, b, x, y, h1, h3⟩ := hs
    obtain ⟨p, mx, my, u, v, g1, g2, g3, g4, g5, g6, g7⟩ := hpt rfl n h1 (by rw [h3]; rfl)
    refine ⟨n, p, mx, my, u, v, g1, hplace.trans g2, g3, g4, g5, g6, ?_⟩
    simp [Detail.marks, Detail.pointMarks, Detail.constructionFrom, Op.name, hop, h3, g2, g7, Printed.pdfMark, unit, pointCalls, lineCall, origin]
  case pointOfContact =>
    obtain ⟨n, a, b, x, y, h1, h3⟩ := hs
    obtain ⟨p, mx, my, u, v, g1, g2, g3, g4, g5, g6, g7⟩ := hpt rfl n h1 (by rw [h3]; rfl)
    refine ⟨n, p, mx, my, u, v, g1, hplace.trans g2, g3, g4, g5, g6, ?_⟩
    simp [Detail.marks, Detail.pointMarks, Detail.constructionFrom, Op.name, hop, h3, g2, g7, Printed.pdfMark, unit, pointCalls, lineCall, origin]
  case pointOfIntersection =>
    obtain ⟨n, a, b, h1, h3⟩ := hs
    obtain ⟨p, mx, my, u, v, g1, g2, g3, g4, g5, g6, g7⟩ := hpt rfl n h1 (by rw [h3]; rfl)
    refine ⟨n, p, mx, my, u, v, g1, hplace.trans g2, g3, g4, g5, g6, ?_⟩
    simp [Detail.marks, Detail.pointMarks, Detail.constructionFrom, Op.name, hop, h3, g2, g7, Printed.pdfMark, unit, pointCalls, lineCall, origin]
  case single =>
    obtain ⟨n, a, b, h1, h3⟩ := hs
    obtain ⟨p, mx, my, u, v, g1, g2, g3, g4, g5, g6, g7⟩ := hpt rfl n h1 (by rw [h3]; rfl)
    refine ⟨n, p, mx, my, u, v, g1, hplace.trans g2, g3, g4, g5, g6, ?_⟩
    simp [Detail.marks, Detail.pointMarks, Detail.constructionFrom, Op.name, hop, h3, g2, g7, Printed.pdfMark, unit, pointCalls, lineCall, origin]

/-- C222. The calculations of a Valentina file are read, the sketch is evaluated, drawn with `detail_scene` and given to the PDF painter. The page
has, for every element that is implemented and in the order of the file, what `Prints` says: a point with its label and its construction line,
a line, a curve, at the places of C218. -/
theorem file_printed (compile : Text → Expr) (real : F → ℝ) (hp : ∀ t err, env.parse t = .error err → err = .valueError) (counter : Int)
    (es : List Element) (s : Sketch F) (h : Sketch.read env { counter := counter } es = (s, .ok ())) (hne : implemented es ≠ [])
    (hc : ∀ e ∈ es, Complete e) (hd : ∀ e ∈ es, Drawable env e) (hnames : ((implemented es).filterMap pointName).Nodup)
    {black : Colour.Color} (hb : env.db.getItem "black".toList = .ok black) (floatText : Text → Except PyErr ℚ) (str : Style.Value → Text)
    (style : SketchStyle) (width height : ℝ) :
    ∃ ds, toDrawns compile real s.ops = some ds ∧ toOps compile s.ops = some (ds.map (·.op)) ∧
      ∀ st, evalSketch St.empty (ds.map (·.op)) = .ok st →
        (∀ e ∈ es, IsClass e .lineIntersect ∨ IsClass e .pointOfContact → (place (drawing s.ops st) e).isSome) →
        ∃ scene box parts, detailScene env.db floatText (some style) ds st = .ok (scene, some box) ∧
          List.Forall₂ (fun e calls => ∃ c, IsClass e c ∧ Prints env real (drawing s.ops st) e calls c) (implemented es) parts ∧
          Painters.pdfPainter (Printed.painterScene str scene) (some (some box)) width height (some "reportlab") =
            .ok ([width * (7.2 / 2.54), height * (7.2 / 2.54)],
              [.translate (-box.xInf * (72 / 2.54)) (-box.yInf * (72 / 2.54)), .translate (72 / 2.54) (72 / 2.54),
                .setFont "Times-Roman".toList 20] ++ parts.flatten) := by
  have hr := Valentina.read_describes hp counter es s h
  obtain ⟨ds, h1, h2, hlen, hat⟩ := to_drawns (compile := compile) real hr hc
  refine ⟨ds, h1, h2, fun st hst hv => ?_⟩
  have hready := file_ready (ValPlaces.reading_ids hr).1 hlen hat hd hnames hst hv
  have hne' : ds.map (resolve env.db) ≠ [] := by
    intro he
    rw [List.map_eq_nil_iff] at he
    rw [he] at hlen
    exact hne (List.eq_nil_of_length_eq_zero hlen.symm)
  obtain ⟨scene, box, k1, -, k2⟩ := Printed.sketch_to_pdf env.db floatText str hb style hready hne' width height
  rw [detailScene_resolve] at k1
  obtain ⟨parts, p1, p2⟩ := parts_of black style st
    (fun e calls => ∃ c, IsClass e c ∧ Prints env real (drawing s.ops st) e calls c) (implemented es) (ds.map (resolve env.db)) 0
    (by rw [List.length_map, hlen]) (fun k e d' he hd' => by
      rw [List.getElem?_map] at hd'
      obtain ⟨d, hkd, rfl⟩ := Option.map_eq_some_iff.1 hd'
      obtain ⟨hk, rfl⟩ := List.getElem?_eq_some_iff.1 he
      obtain ⟨o, d', g⟩ := hat _ _ _ (ValPlaces.split_at _ k hk)
      have hl : ((implemented es).take k).length = k := by rw [List.length_take]; omega
      rw [hl] at g
      have := g.drawn
      rw [hkd] at this
      cases this
      rw [Nat.zero_add]
      exact ⟨o.cls, g.made.isClass, g.prints (hd _ (List.mem_filter.1 (List.getElem_mem hk)).1) hready black style⟩)
  rw [p2] at k2
  exact ⟨scene, box, parts, k1, p1, k2⟩

/-- C222, when a style is missing: a line or a construction line without the attribute `typeLine` is read and evaluated, but `detail_scene` raises
`ValueError` for the whole sketch. -/
theorem file_without_style (compile : Text → Expr) (real : F → ℝ) (hp : ∀ t err, env.parse t = .error err → err = .valueError) (counter : Int)
    (es : List Element) (s : Sketch F) (h : Sketch.read env { counter := counter } es = (s, .ok ()))
    (hc : ∀ e ∈ es, Complete e)
    (hcolor : ∀ e ∈ es, IsClass e .spline → ∀ t, e.attrib.get? "color" = some t → ∃ c, Valentina.ColourName env.db t c)
    (hbad : ∃ e ∈ es, ∃ c ∈ [Class.alongLine, .endLine, .normal, .line], IsClass e c ∧ e.attrib.get? "typeLine" = none)
    {black : Colour.Color} (hb : env.db.getItem "black".toList = .ok black) (floatText : Text → Except PyErr ℚ)
    (style : Option SketchStyle) :
    ∃ ds, toDrawns compile real s.ops = some ds ∧ toOps compile s.ops = some (ds.map (·.op)) ∧
      ∀ st, evalSketch St.empty (ds.map (·.op)) = .ok st →
        (∀ e ∈ es, IsClass e .lineIntersect ∨ IsClass e .pointOfContact → (place (drawing s.ops st) e).isSome) →
        detailScene env.db floatText style ds st = .error .valueError := by
  have hr := Valentina.read_describes hp counter es s h
  obtain ⟨ds, h1, h2, hlen, hat⟩ := to_drawns (compile := compile) real hr hc
  refine ⟨ds, h1, h2, fun st hst hv => ?_⟩
  obtain ⟨k1, k2, -, k4⟩ := file_evaluated (env := env) (ValPlaces.reading_ids hr).1 hlen hat hst hv
  have hnone : ∀ (k : Nat) (e : Element) (o : Operation F) (d : Drawn), At env compile real s.ops ds k e o d →
      o.cls ∈ [Class.alongLine, .endLine, .normal, .line] → e.attrib.get? "typeLine" = none → (resolve env.db d).lineStyle = .none ∧
      Detail.usesLine d.op = true := by
    intro k e o d g hcls ht
    obtain ⟨c, hdesc⟩ := g.describes
    have hrow : ⟨"line_style", "typeLine", .style⟩ ∈ Valentina.table o.cls := by
      simp only [List.mem_cons, List.not_mem_nil, or_false] at hcls
      rcases hcls with hc | hc | hc | hc <;> rw [hc] <;> simp [Valentina.table, Valentina.strokeRows]
    obtain ⟨v, hv, hh⟩ := hdesc.rows _ hrow
    simp only [ht] at hv hh
    refine ⟨?_, ?_⟩
    · rw [(resolve_op env.db d).2.2, g.eq]
      show valueOf _ = _
      rw [show o.fields.get? "line_style" = _ from hh, show v = none from hv]
      rfl
    · have hs := shape_of g.toOp
      simp only [List.mem_cons, List.not_mem_nil, or_false] at hcls
      rcases hcls with hc | hc | hc | hc <;> rw [hc] at hs
      · obtain ⟨n, a, b, x, -, -, hop⟩ := hs; rw [hop]; rfl
      · obtain ⟨n, a, b, x, -, -, hop⟩ := hs; rw [hop]; rfl
      · obtain ⟨n, a, b, x, y, -, -, hop⟩ := hs; rw [hop]; rfl
      · obtain ⟨a, b, -, -, hop⟩ := hs; rw [hop]; rfl
  rw [← detailScene_resolve]
  refine Detail.detail_style_wrong env.db floatText hb style k1 k2 ?_ ?_
  · intro d' hd' hu
    obtain ⟨d, hmd, rfl⟩ := List.mem_map.1 hd'
    obtain ⟨k, hk⟩ := List.mem_iff_getElem?.1 hmd
    obtain ⟨e, o, he, g⟩ := k4 k d hk
    rw [(resolve_op env.db d).1] at hu
    by_cases ht : o.cls ∈ [Class.alongLine, .endLine, .normal, .line] ∧ e.attrib.get? "typeLine" = none
    · exact .inr (hnone k e o d g ht.1 ht.2).1
    · left
      refine g.styled (fun c hc hcl => ?_) (hcolor e (List.mem_filter.1 (List.mem_of_getElem? he)).1) hu
      have := Valentina.isClass_unique hcl g.made.isClass
      subst this
      by_contra hn
      exact ht ⟨hc, by simpa using hn⟩
  · obtain ⟨e, he, c, hcm, hcl, ht⟩ := hbad
    have hi : e ∈ implemented es := by
      refine List.mem_filter.2 ⟨he, ?_⟩
      simpa using Valentina.not_both hcl
    obtain ⟨before, after, hb⟩ := List.append_of_mem hi
    obtain ⟨o, d, g⟩ := hat before e after hb
    have := Valentina.isClass_unique hcl g.made.isClass
    subst this
    obtain ⟨n1, n2⟩ := hnone _ e o d g hcm ht
    exact ⟨resolve env.db d, List.mem_map.2 ⟨d, List.mem_of_getElem? g.drawn, rfl⟩, by rw [(resolve_op env.db d).1]; exact n2, n1⟩

/-! ## Examples -/

theorem toyDrawable : ∀ e ∈ Valentina.toyElements, Drawable Valentina.toyEnv e := by
  have key : ∀ e ∈ Valentina.toyElements, ∀ c, Valentina.dispatch e = .ok c →
      (c ∈ [Class.alongLine, .endLine, .normal, .line] → (e.attrib.get? "typeLine").isSome) ∧ c ≠ .spline ∧
      (c.isPoint = true → (e.attrib.get? "mx").isSome ∧ (e.attrib.get? "my").isSome) := by
    intro e he c
    simp only [Valentina.toyElements, List.mem_cons, List.not_mem_nil, or_false] at he
    rcases he with rfl | rfl | rfl | rfl <;> cases c <;> decide +kernel
  intro e he
  refine ⟨fun c hc h => (key e he c ((Valentina.dispatch_ok _ _).2 h)).1 hc, fun h => ?_, fun c hc h =>
    (key e he c ((Valentina.dispatch_ok _ _).2 h)).2.2 hc⟩
  exact absurd rfl (key e he _ ((Valentina.dispatch_ok _ _).2 h)).2.1

theorem toyNames : ((implemented Valentina.toyElements).filterMap pointName).Nodup := by
  have : (Valentina.toyElements.filterMap pointName).Nodup := by decide +kernel
  exact this.sublist (List.Sublist.filterMap _ List.filter_sublist)

theorem toyParse : ∀ t err, Valentina.toyEnv.parse t = .error err → err = .valueError := fun _ _ h => Valentina.intFromText_error h

/-- The hypotheses of `file_printed` are met: the file is read, evaluated and printed. -/
example (str : Style.Value → Text) (style : SketchStyle) (floatText : Text → Except PyErr ℚ) :
    ∃ s ds st scene box parts, Sketch.read Valentina.toyEnv { counter := 0 } Valentina.toyElements = (s, .ok ()) ∧
      toDrawns ValPlaces.toyCompile (fun i : Int => (i : ℝ)) s.ops = some ds ∧ evalSketch St.empty (ds.map (·.op)) = .ok st ∧
      (drawing s.ops st).point 6 = some ⟨11, 2⟩ ∧
      detailScene Valentina.toyEnv.db floatText (some style) ds st = .ok (scene, some box) ∧
      List.Forall₂ (fun e calls => ∃ c, IsClass e c ∧ Prints Valentina.toyEnv (fun i : Int => (i : ℝ)) (drawing s.ops st) e calls c)
        (implemented Valentina.toyElements) parts ∧
      Painters.pdfPainter (Printed.painterScene str scene) (some (some box)) 210 297 (some "reportlab") =
        .ok ([210 * (7.2 / 2.54), 297 * (7.2 / 2.54)], [.translate (-box.xInf * (72 / 2.54)) (-box.yInf * (72 / 2.54)),
          .translate (72 / 2.54) (72 / 2.54), .setFont "Times-Roman".toList 20] ++ parts.flatten) := by
  obtain ⟨s, ops, st, h1, h2, h3, h4, h5⟩ := ValPlaces.toyPlaces
  have hne : implemented Valentina.toyElements ≠ [] := by
    refine List.ne_nil_of_mem (a := Valentina.toyElements[0]) (List.mem_filter.2 ⟨by simp [Valentina.toyElements], ?_⟩)
    simp only [decide_eq_true_eq]
    exact Valentina.not_both (c := .single) ((Valentina.dispatch_ok _ _).1 (by decide +kernel))
  obtain ⟨ds, g1, g2, g3⟩ := file_printed ValPlaces.toyCompile (fun i : Int => (i : ℝ)) toyParse 0 _ s h1 hne h4 toyDrawable toyNames
    (black := Valentina.toyEnv.black) (by decide +kernel) floatText str style 210 297
  rw [h2] at g2
  cases g2
  obtain ⟨scene, box, parts, k1, k2, k3⟩ := g3 st h3 (by
    have key : ∀ e ∈ Valentina.toyElements, ∀ c, Valentina.dispatch e = .ok c → c ≠ .lineIntersect ∧ c ≠ .pointOfContact := by
      intro e he c
      simp only [Valentina.toyElements, List.mem_cons, List.not_mem_nil, or_false] at he
      rcases he with rfl | rfl | rfl | rfl <;> cases c <;> decide +kernel
    intro e he hcl
    rcases hcl with hcl | hcl
    · exact absurd rfl (key e he _ ((Valentina.dispatch_ok _ _).2 hcl)).1
    · exact absurd rfl (key e he _ ((Valentina.dispatch_ok _ _).2 hcl)).2)
  exact ⟨s, ds, st, scene, box, parts, h1, g1, h3, h5, k1, k2, k3⟩

/-- A file with a construction line without style. -/
def bareElements : List Element :=
  [⟨some "point", [("id", "4".toList), ("type", "single".toList), ("name", "A".toList), ("x", "1".toList), ("y", "2".toList),
      ("mx", "3".toList), ("my", "-4".toList)]⟩,
   ⟨some "point", [("id", "6".toList), ("type", "endLine".toList), ("name", "B".toList), ("basePoint", "4".toList),
      ("angle", "1".toList), ("length", "2".toList), ("mx", "0".toList), ("my", "0".toList)]⟩]

/-- The hypotheses of `file_without_style` are met. -/
example (style : Option SketchStyle) (floatText : Text → Except PyErr ℚ) :
    ∃ s ds st, Sketch.read Valentina.toyEnv { counter := 0 } bareElements = (s, .ok ()) ∧
      toDrawns ValPlaces.toyCompile (fun i : Int => (i : ℝ)) s.ops = some ds ∧ evalSketch St.empty (ds.map (·.op)) = .ok st ∧
      detailScene Valentina.toyEnv.db floatText style ds st = .error .valueError := by
  have hread : Sketch.read Valentina.toyEnv { counter := 0 } bareElements =
      ((Sketch.read Valentina.toyEnv { counter := 0 } bareElements).1, .ok ()) := by
    refine Prod.ext rfl ?_
    decide +kernel
  have hops : (Sketch.read Valentina.toyEnv { counter := 0 } bareElements).1.ops = [
      ⟨.single, 4, [("name", some (.text "A".toList)), ("x", some (.expr "1".toList)), ("y", some (.expr "2".toList))], some (3, -4)⟩,
      ⟨.endLine, 6, [("name", some (.text "B".toList)), ("base_point", some (.op 4)), ("angle", some (.expr "1".toList)),
        ("length", some (.expr "2".toList)), ("line_style", none), ("line_color", none)], some (0, 0)⟩] := by decide +kernel
  have key : ∀ e ∈ bareElements, ∀ c, Valentina.dispatch e = .ok c → ((e.attrib.get? "id").isSome ∧
      (c.isPoint = true → (e.attrib.get? "name").isSome) ∧ ∀ a ∈ ValPlaces.placing c, (e.attrib.get? a).isSome) ∧
      c ≠ .spline ∧ c ≠ .lineIntersect ∧ c ≠ .pointOfContact := by
    intro e he c
    simp only [bareElements, List.mem_cons, List.not_mem_nil, or_false] at he
    rcases he with rfl | rfl <;> cases c <;> decide +kernel
  obtain ⟨ds, g1, g2, g3⟩ := file_without_style ValPlaces.toyCompile (fun i : Int => (i : ℝ)) toyParse 0 bareElements _ hread
    (fun e he c hcl => (key e he c ((Valentina.dispatch_ok _ _).2 hcl)).1)
    (fun e he hcl => absurd rfl (key e he _ ((Valentina.dispatch_ok _ _).2 hcl)).2.1)
    ⟨_, List.mem_cons_of_mem _ (List.mem_cons_self ..), .endLine, by simp, (Valentina.dispatch_ok _ _).1 (by decide +kernel), by decide +kernel⟩
    (black := Valentina.toyEnv.black) (by decide +kernel) floatText style
  rw [hops] at g2
  have hds : ds.map (·.op) = [.single "A" (ValPlaces.toyCompile "1".toList) (ValPlaces.toyCompile "2".toList),
      .endLine "B" 0 (ValPlaces.toyCompile "1".toList) (ValPlaces.toyCompile "2".toList)] := (Option.some.inj g2).symm
  have hev : ∃ st, evalSketch St.empty (ds.map (·.op)) = .ok st := by
    have c1 : ValPlaces.toyCompile "1".toList = fun _ => .ok 1 := by
      funext e; simp only [ValPlaces.toyCompile, show Xml.intFromText "1".toList = .ok 1 from by decide +kernel]; simp
    have c2 : ValPlaces.toyCompile "2".toList = fun _ => .ok 2 := by
      funext e; simp only [ValPlaces.toyCompile, show Xml.intFromText "2".toList = .ok 2 from by decide +kernel]; simp
    rw [hds, c1, c2]
    simp [evalSketch, SketchGeometry.evalFrom, SketchGeometry.evalOp, Op.name, SketchGeometry.evalInternal, St.getValue, St.addPoint,
      St.setVec, St.getVec, St.empty, bind, Except.bind, pure, Except.pure]
  obtain ⟨st, hst⟩ := hev
  refine ⟨_, ds, st, hread, g1, hst, g3 st hst fun e he hcl => ?_⟩
  rcases hcl with hcl | hcl
  · exact absurd rfl (key e he _ ((Valentina.dispatch_ok _ _).2 hcl)).2.2.1
  · exact absurd rfl (key e he _ ((Valentina.dispatch_ok _ _).2 hcl)).2.2.2

end Patro.ValPrinted

import Verif.Proof.ValentinaWrite
/-! # Properties of Valentina files (C160-C165) -/

set_option linter.unusedSimpArgs false
set_option linter.unusedVariables false

namespace Patro.Valentina

open Xml (Text)
open Tex (StrokeStyle)

variable {F : Type} {env : Env F}

/-! ## Reading the calculations -/

/-- C160. When the calculations of a piece are read without exception, the operations of its sketch are those that the elements
describe, in the order of the file: the class is given by the tag and the type, each property by its attribute, a reference by the
id of an earlier operation; the elements that are not implemented are skipped. `float` raises nothing else than `ValueError`. -/
theorem read_describes (hp : ∀ t err, env.parse t = .error err → err = .valueError) (counter : Int) (es : List Element)
    (s : Sketch F) (h : Sketch.read env { counter := counter } es = (s, .ok ())) : Reading env counter [] es s.ops := by
  obtain ⟨ops, h1, h2, _⟩ := read_ok hp es (inv_new counter) h
  rw [h2]
  exact h1

/-- C160. Conversely, elements that describe operations are read without exception, and give those operations. -/
theorem read_succeeds (counter : Int) (es : List Element) (ops : List (Operation F)) (h : Reading env counter [] es ops) :
    ∃ s, Sketch.read env { counter := counter } es = (s, .ok ()) ∧ List.Forall₂ Agree ops s.ops := by
  obtain ⟨s, ops', h1, h2, h3, _⟩ := read_exists h (inv_new counter) rfl .nil
  refine ⟨s, h1, ?_⟩
  rw [h2]
  exact h3

/-- C160. Otherwise reading raises `KeyError`, `ValueError`, `NameError` or `AttributeError`, at the first element that is neither
skipped nor the description of an operation made from the earlier ones. -/
theorem read_raises (hp : ∀ t err, env.parse t = .error err → err = .valueError) (counter : Int) (es : List Element)
    (s : Sketch F) (err : PyErr) (h : Sketch.read env { counter := counter } es = (s, .error err)) :
    Stops err ∧ ∃ es1 e es2 ops, es = es1 ++ e :: es2 ∧ Reading env counter [] es1 ops ∧ ¬ NotImplemented e ∧
      ∀ o, ¬ (Describes env (lastId counter ops) ops e o ∧ FromPoints ops o) := by
  obtain ⟨h1, es1, e, es2, s1, rfl, h2, h3⟩ := read_error hp es (inv_new counter) h
  obtain ⟨ops, h4, h5, h6, h7⟩ := read_ok hp es1 (inv_new counter) h2
  refine ⟨h1, es1, e, es2, ops, rfl, h4, ?_, ?_⟩
  · intro hn
    rw [tryRead_skip hn] at h3
    cases h3
    rcases h1 with h | h | h | h <;> cases h
  · rintro o ⟨hd, hf⟩
    have hops : s1.ops = ops := by rw [h5]; rfl
    have hcnt : s1.counter = lastId counter ops := h7
    rw [← hcnt, ← hops] at hd
    rw [← hops] at hf
    obtain ⟨s2, h8⟩ := tryRead_exists h6 hd hf
    rw [h8] at h3
    cases h3

/-- C160. An element whose tag or type is unknown to the format, such as `elArc` or a comment, stops the reading with `KeyError`. -/
theorem unknown_raises (s : Sketch F) (es1 es2 : List Element) (e : Element) (h1 : ∀ e' ∈ es1, NotImplemented e')
    (h2 : ¬ NotImplemented e) (h3 : ∀ c, ¬ IsClass e c) : s.read env (es1 ++ e :: es2) = (s, .error .keyError) := by
  rw [read_skip _ _ h1]
  unfold Sketch.read Sketch.readOne Sketch.tryRead
  cases hd : dispatch e with
  | ok c => exact absurd ((dispatch_ok e c).1 hd) (h3 c)
  | error err =>
    rcases dispatch_error hd with ⟨_, hn⟩ | ⟨rfl, _⟩
    · exact absurd hn h2
    · rfl

/-- C160. An element that is implemented but refers, by its attribute `xml`, to an operation that is not there (because its element
was skipped, or comes later, or does not exist) stops the reading. -/
theorem dangling_raises (hp : ∀ t err, env.parse t = .error err → err = .valueError) (counter : Int) (es1 es2 : List Element)
    (e : Element) (c : Class) (hc : IsClass e c) (r : Row) (hr : r ∈ table c) (hm : r.meaning = .reference) (t : Text) (i : Int)
    (ht : e.attrib.get? r.xml = some t) (hi : Xml.intFromText t = .ok i)
    (hno : ∀ ops, Reading env counter [] es1 ops → ∀ o ∈ ops, o.id ≠ i) :
    ∃ s err, Sketch.read env { counter := counter } (es1 ++ e :: es2) = (s, .error err) := by
  rcases h : Sketch.read env { counter := counter } (es1 ++ e :: es2) with ⟨s, err | u⟩
  · exact ⟨s, err, rfl⟩
  · exfalso
    have hread := read_describes hp counter _ s h
    have key : ∀ (es1 : List Element) (counter : Int) (l ops : List (Operation F)), Reading env counter l (es1 ++ e :: es2) ops →
        ∃ ops1, ∃ o : Operation F, Reading env counter l es1 ops1 ∧ o.cls = c ∧ ∃ w, Says env (l ++ ops1) r.meaning (some t) w := by
      intro es1
      induction es1 with
      | nil =>
        intro counter l ops hread
        cases hread with
        | skip hn _ => exact absurd hn (not_both hc)
        | @read _ _ _ _ o ops hd _ _ =>
          have hcl := isClass_unique hd.isClass hc
          obtain ⟨w, hw, _⟩ := hd.rows r (hcl ▸ hr)
          rw [ht] at hw
          exact ⟨[], o, .nil, hcl, w, by simpa using hw⟩
      | cons e' es1 ih =>
        intro counter l ops hread
        cases hread with
        | skip hn hrest =>
          obtain ⟨ops1, o, h1, h2⟩ := ih _ _ _ hrest
          exact ⟨ops1, o, .skip hn h1, h2⟩
        | @read _ _ _ _ o' ops hd hf hrest =>
          obtain ⟨ops1, o, h1, h2, w, hw⟩ := ih _ _ _ hrest
          exact ⟨o' :: ops1, o, .read hd hf h1, h2, w, by simpa using hw⟩
    obtain ⟨ops1, o, h1, _, w, hw⟩ := key es1 counter [] _ hread
    rw [hm] at hw
    obtain ⟨j, ⟨hj, p, hp', hpj⟩, _⟩ := hw
    rw [hi] at hj
    cases hj
    exact hno ops1 h1 p (by simpa using hp') hpj

/-! ## Writing -/

/-- C161. An operation of a sketch built with the API, whose stroke style is a style and whose colour is a colour or `None`, is
written: the element has the tag and the type of its class, its id, the id of every operation it refers to, the text of every
formula, its name, the text of its colour, the name of its stroke style and the offset of its label. -/
theorem write_operation (s : Sketch F) (h : Built env s) (o : Operation F) (ho : o ∈ s.ops) (hw : Writable o) :
    ∃ e, writeOne env o = .ok e ∧ Written env o e := by
  obtain ⟨l1, l2, hl⟩ := List.append_of_mem ho
  exact writeOne_ok ((built_inv h).well l1 o l2 hl) hw

/-- C161. The elements are in the order of the operations. -/
theorem write_sketch (s : Sketch F) (h : Built env s) (hw : ∀ o ∈ s.ops, Writable o) :
    ∃ es, write env s.ops = .ok es ∧ List.Forall₂ (Written env) s.ops es := by
  have key : ∀ l : List (Operation F), (∀ o ∈ l, o ∈ s.ops) → ∃ es, write env l = .ok es ∧ List.Forall₂ (Written env) l es := by
    intro l
    induction l with
    | nil => intro _; exact ⟨[], rfl, .nil⟩
    | cons o l ih =>
      intro hl
      obtain ⟨e, h1, h2⟩ := write_operation s h o (hl o List.mem_cons_self) (hw o (hl o List.mem_cons_self))
      obtain ⟨es, h3, h4⟩ := ih fun p hp => hl p (List.mem_cons_of_mem _ hp)
      refine ⟨e :: es, ?_, .cons h2 h4⟩
      unfold write at h3 ⊢
      simp only [List.mapM_cons, h1, h3, bind, Except.bind, pure, Except.pure]
  exact key s.ops fun _ h => h

/-- C161, against: a point along a line, at the end of a line or on a normal that is made without giving its stroke style cannot be
written: the writer raises `KeyError`. -/
theorem default_style_wrong (s s' : Sketch F) (h : Built env s) (cls : Class) (hc : cls = .alongLine ∨ cls = .endLine ∨ cls = .normal)
    (kw : Dict String (Option (Val F))) (off : Option (F × F)) (o : Operation F) (h1 : kw.get? "line_style" = none)
    (h2 : kw.get? "line_color" = none) (hcall : s.call env cls kw off = (s', .ok o)) : writeOne env o = .error .keyError := by
  have hb : Built env s' := by have := Built.call cls kw off h; rw [hcall] at this; exact this
  -- the operation was added, with the default values
  have key : o ∈ s'.ops ∧ o.cls = cls ∧ o.Has "line_style" none ∧ o.Has "line_color" none := by
    unfold Sketch.call at hcall
    split at hcall
    · cases ha : idArg (kw.get? "id") with
      | error e => rw [ha] at hcall; cases hcall
      | ok a =>
        rw [ha] at hcall
        simp only at hcall
        rcases newOperationId_spec s.counter a with ⟨i, hi, _⟩ | hi
        · rw [hi] at hcall
          simp only [fields_eq] at hcall
          cases hf : pairs Param.name (paramValue env { s with counter := i } kw) (params env cls) with
          | error e => rw [hf] at hcall; cases hcall
          | ok fields =>
            rw [hf] at hcall
            simp only at hcall
            cases hk : nameKey (⟨cls, i, fields, off⟩ : Operation F) with
            | error e => rw [hk] at hcall; cases hcall
            | ok k =>
              rw [hk] at hcall
              simp only [Prod.mk.injEq, Except.ok.injEq] at hcall
              obtain ⟨rfl, rfl⟩ := hcall
              obtain ⟨_, _, p3⟩ := pairs_ok hf
              have p4 := p3 (params_nodup env cls)
              have hm : (⟨"line_style", .plain, some none⟩ : Param F) ∈ params env cls ∧
                  (⟨"line_color", .plain, some none⟩ : Param F) ∈ params env cls := by
                rcases hc with rfl | rfl | rfl <;> simp [params, lineNone]
              refine ⟨by simp [Sketch.add], rfl, ?_, ?_⟩
              · exact p4 _ hm.1 none (by simp [paramValue, h1, fieldValue])
              · exact p4 _ hm.2 none (by simp [paramValue, h2, fieldValue])
        · rw [hi] at hcall; cases hcall
    · cases hcall
  obtain ⟨ho, hcls, k1, k2⟩ := key
  obtain ⟨l1, l2, hl⟩ := List.append_of_mem ho
  have hrow : (⟨"line_style", "typeLine", .style⟩ : Row) ∈ table o.cls := by
    rw [hcls]; rcases hc with rfl | rfl | rfl <;> simp [table, strokeRows]
  have hcol : ∀ r ∈ table o.cls, r.meaning = .colour → r.py = "line_color" := by
    rw [hcls]; rcases hc with rfl | rfl | rfl <;> decide +kernel
  refine writeOne_error ((built_inv hb).well l1 o l2 hl) ?_ _ hrow rfl k1
  intro r hr hm
  rw [hcol r hr hm]
  exact Or.inl k2

/-! ## Writing and reading back -/

/-- C162. A sketch built with the API is written and, in a process where no id was given that is not smaller than its ids, read back
as the same sketch: the same operations in the same order, with the same ids, names, references, formulas, styles and label
offsets, and with equal colours, if the values are among those that the format holds (`Portable`) and the texts of the offsets are
read back as the offsets. The colour of a spline comes back as the text of the colour. -/
theorem sketch_round_trip_partial (s : Sketch F) (h : Built env s) (hp : ∀ o ∈ s.ops, Portable s.ops o)
    (hoff : OffsetsReadBack env s.ops) (counter : Int) (hc : ∀ o ∈ s.ops, counter < o.id) :
    ∃ es s', write env s.ops = .ok es ∧ Sketch.read env { counter := counter } es = (s', .ok ()) ∧
      List.Forall₂ Same s.ops s'.ops := by
  obtain ⟨es, s', h1, h2, h3, _⟩ := round_trip h hp hoff counter hc
  exact ⟨es, s', h1, h2, h3⟩

/-- C162, against: the stroke style of a spline is not written, and every spline that is read has a solid line. -/
theorem spline_style_wrong (hp : ∀ t err, env.parse t = .error err → err = .valueError) :
    (∀ (o : Operation F) (v : Option (Val F)), o.cls = .spline →
      writeOne env { o with fields := o.fields.set "line_style" v } = writeOne env o) ∧
    (∀ counter es s, Sketch.read env { counter := counter } es = (s, .ok ()) → ∀ o ∈ s.ops, o.cls = .spline →
      o.Has "line_style" (some (.stroke .solidLine))) := by
  constructor
  · intro o v hs
    have hg : ∀ d ∈ decls o.cls, ({ o with fields := o.fields.set "line_style" v } : Operation F).get d.py = o.get d.py := by
      intro d hd
      have hne : d.py ≠ "line_style" := by rw [hs] at hd; exact spline_style_decl d hd
      unfold Operation.get
      simp only [get?_set_ne' _ _ _ hne]
    have hx : xmlArgs ({ o with fields := o.fields.set "line_style" v } : Operation F) = xmlArgs o := by
      unfold xmlArgs
      simp only [hs, Class.isPoint, Bool.false_eq_true, if_false, getDict_eq]
      exact pairs_congr _ _ _ _ fun d hd => hg d (by rw [hs]; exact (List.mem_filter.1 hd).1)
    unfold writeOne
    rw [hx]
  · intro counter es s h
    have hr := read_describes hp counter es s h
    have key : ∀ (l ops : List (Operation F)) (counter : Int) (es : List Element), Reading env counter l es ops →
        ∀ o ∈ ops, o.cls = .spline → o.Has "line_style" (some (.stroke .solidLine)) := by
      intro l ops counter es h
      induction h with
      | nil => simp
      | skip _ _ ih => exact ih
      | read hd _ _ ih =>
        intro o ho hs
        rcases List.mem_cons.1 ho with rfl | ho
        · exact hd.solid hs
        · exact ih o ho hs
    exact key _ _ _ _ hr

/-- C162, against: a point without name is written with the name `None`, and read back with that name. -/
theorem unnamed_wrong (s : Sketch F) (h : Built env s) (o : Operation F) (ho : o ∈ s.ops) (hw : Writable o) (hu : Unnamed o) :
    ∃ e, writeOne env o = .ok e ∧ ∀ counter l o', Describes env counter l e o' → o'.Has "name" (some (.text "None".toList)) := by
  obtain ⟨e, h1, h2⟩ := write_operation s h o ho hw
  refine ⟨e, h1, ?_⟩
  obtain ⟨v, hv, ht⟩ := h2.rows _ (name_row hu.1)
  cases has_unique hv hu.2
  simp only [WrittenAs, pyStr] at ht
  intro counter l o' hd
  have hcl := isClass_unique hd.isClass h2.isClass
  obtain ⟨w, hw1, hw2⟩ := hd.rows _ (name_row (hcl ▸ hu.1))
  rw [ht] at hw1
  simp only [Says, Option.map_some] at hw1
  rw [← hw1]
  exact hw2

/-- C162, against: an XML object read from an element is written with the Python name of the stroke style, which is not the name of a
style in the format. -/
theorem object_style_wrong (c : Class) (e e' : Element) (x : Xml.Obj (Val F)) (r : Row) (hr : r ∈ table c) (hm : r.meaning = .style)
    (t : Text) (ht : e.attrib.get? r.xml = some t) (h1 : Xml.initFromXml (attrs env c) e.attrib = .ok x)
    (h2 : toElement env c x = .ok e') : ∃ t', e'.attrib.get? r.xml = some t' ∧ ∀ s, ¬ StyleName t' s := by
  rw [init_eq] at h1
  obtain ⟨_, p2, p3⟩ := pairs_ok h1
  have p4 := p3 (decls_py_nodup c)
  obtain ⟨v, hv⟩ := p2 _ (row_decl c r hr)
  have hx := p4 _ (row_decl c r hr) v hv
  have hst : ∃ s, v = some (.stroke s) := by
    simp only [declValue, ht, hm, Meaning.kind, decode] at hv
    obtain ⟨s, _, rfl⟩ := (strokeLookup_text t v).1 hv
    exact ⟨s, rfl⟩
  obtain ⟨s, rfl⟩ := hst
  have hn : ((attrs env c).map Xml.Attr.xml).Nodup := by
    have := decls_xml_nodup c
    simpa [attrs, List.map_map, Function.comp_def, Decl.attr] using this
  have hkw : ((if c = .line then [] else [("type", c.typeName)] : Dict String Text).map Prod.fst).Nodup := by
    split <;> simp
  have hget : ∀ a ∈ attrs env c, ∃ v, x.get? a.py = some v := by
    intro a ha
    unfold attrs at ha
    rw [List.mem_map] at ha
    obtain ⟨d, hd, rfl⟩ := ha
    obtain ⟨v, hv⟩ := p2 d hd
    exact ⟨v, p4 d hd v hv⟩
  obtain ⟨att, a1, _, a3, _⟩ := toXml_ok (attrs env c) x _ hn hkw hget
  unfold toElement at h2
  rw [a1] at h2
  cases h2
  have hty := (row_ne c r hr).2.2.2.1
  have hda := List.mem_map_of_mem (f := Decl.attr env) (row_decl c r hr)
  have h3 := a3 _ hda (by split <;> simp [Dict.get?, Decl.attr, hty.symm])
  simp only [Decl.attr] at h3 hx
  refine ⟨strokeStr s, ?_, ?_⟩
  · rw [h3]
    simp only [Xml.written, hx, hm, Meaning.kind, encode, pyStr]
  · intro s' hs'
    rw [styleName_iff] at hs'
    have hno : ∀ s s', (strokeStr s, s') ∉ strokeNames := by
      intro s s'
      cases s <;> cases s' <;> decide +kernel
    exact hno s s' hs'

/-! ## Ids -/

/-- C163. In the same process, a file that was read, and whose first implemented calculation has an id, cannot be read again: the
second reading raises `NameError`. -/
theorem second_reading_wrong (hp : ∀ t err, env.parse t = .error err → err = .valueError) (counter n : Int) (es1 es2 : List Element)
    (e : Element) (h1 : ∀ e' ∈ es1, NotImplemented e') (h2 : ¬ NotImplemented e) (t : Text) (ht : e.attrib.get? "id" = some t)
    (s : Sketch F) (h : Sketch.read env { counter := counter } (es1 ++ e :: es2) = (s, .ok ())) (hn : s.counter ≤ n) :
    Sketch.read env { counter := n } (es1 ++ e :: es2) = ({ counter := n }, .error .nameError) := by
  obtain ⟨ops, h3, h4, _, h5⟩ := read_ok hp _ (inv_new counter) h
  obtain ⟨o, ops', rfl, hd⟩ := reading_first h1 h2 h3
  have hid := hd.id
  rw [ht] at hid
  refine read_old h1 hd.isClass (declValue_exists (s := { counter := counter }) (inv_new counter) hd) ht hid.1 ?_
  have := (reading_lastId h3).2 o List.mem_cons_self
  rw [h5] at hn
  exact le_trans this hn

/-- C163. In the same process, a sketch that is written cannot be read back: `NameError`. -/
theorem read_back_wrong (s : Sketch F) (h : Built env s) (o : Operation F) (ops : List (Operation F)) (ho : s.ops = o :: ops)
    (hp : ∀ o ∈ s.ops, Portable s.ops o) (hoff : OffsetsReadBack env s.ops) (n : Int) (hn : s.counter ≤ n) :
    ∃ es, write env s.ops = .ok es ∧ Sketch.read env { counter := n } es = ({ counter := n }, .error .nameError) := by
  have hb := built_inv h
  have hmem : o ∈ s.ops := by rw [ho]; simp
  obtain ⟨es, h1, h2⟩ := write_sketch s h fun o ho => (hp o ho).writable
  refine ⟨es, h1, ?_⟩
  rw [ho] at h2
  cases h2 with
  | @cons _ e _ es' he _ =>
    have hw : Well [] o := hb.well [] o ops ho
    obtain ⟨o', hd, _, _⟩ := describes_written (l' := []) (counter := o.id - 1) hw (hp o hmem) he .nil (by omega) (hoff o hmem)
      (by simp)
    have := read_old (env := env) (s := { counter := n }) (es1 := []) (es2 := es') (by simp) hd.isClass
      (declValue_exists (s := { counter := o.id - 1 }) (inv_new _) hd) he.id (Xml.int_round_trip _)
      (le_trans (hb.counter o hmem) hn)
    exact this

/-! ## Files -/

/-- C164. A pattern is written to a file and read back, in a process where no id was given that is not smaller than its ids, as the
same pattern: the same unit, the same scopes in the same order with the same names, the same operations, if the operations were
made scope after scope (`hid`), their values are among those that the format holds, the sketches that are read can be evaluated
and the file of measurements can be read. -/
theorem pattern_round_trip_partial (p : Pat F) (u : Text) (hu : p.unit = some u) (hu0 : u ≠ [])
    (hb : ∀ sc ∈ p.scopes, ∃ s, Built env s ∧ s.ops = sc.ops) (hp : ∀ sc ∈ p.scopes, ∀ o ∈ sc.ops, Portable sc.ops o)
    (hoff : ∀ sc ∈ p.scopes, OffsetsReadBack env sc.ops) (hn : ∀ sc ∈ p.scopes, ∃ n, sc.name = some n)
    (hid : ((p.scopes.flatMap Scope.ops).map Operation.id).Pairwise (· < ·)) (counter : Int)
    (hc : ∀ sc ∈ p.scopes, ∀ o ∈ sc.ops, counter < o.id) (eval : List (Operation F) → Except PyErr Unit)
    (heval : ∀ sc ∈ p.scopes, ∀ ops', List.Forall₂ Same sc.ops ops' → eval ops' = .ok ()) (path : Option Text)
    (vit : Text → Except PyErr Unit) (hvit : ∀ t, path = some t → vit t = .ok ()) :
    ∃ doc c p', writeFile env path p = .ok doc ∧ readFile env vit eval counter doc = (c, .ok p') ∧ p'.unit = p.unit ∧
      List.Forall₂ SameScope p.scopes p'.scopes := by
  have key : ∀ (l : List (Scope F)) (counter : Int), (∀ sc ∈ l, sc ∈ p.scopes) →
      ((l.flatMap Scope.ops).map Operation.id).Pairwise (· < ·) → (∀ sc ∈ l, ∀ o ∈ sc.ops, counter < o.id) →
      ∃ ds c l', l.mapM (writeScope env) = .ok ds ∧ readPieces env eval counter ds = (c, .ok l') ∧ List.Forall₂ SameScope l l' := by
    intro l
    induction l with
    | nil => intro counter _ _ _; exact ⟨[], counter, [], rfl, rfl, .nil⟩
    | cons sc l ih =>
      intro counter hl hid hc
      have hsc := hl sc List.mem_cons_self
      obtain ⟨s, hs, he⟩ := hb sc hsc
      obtain ⟨n, hn⟩ := hn sc hsc
      obtain ⟨d, sc', h1, h2, h3⟩ := write_eq_read sc s hs he (hp sc hsc) (hoff sc hsc) n hn counter (hc sc List.mem_cons_self) eval
        (heval sc hsc)
      simp only [List.flatMap_cons, List.map_append, List.pairwise_append] at hid
      have hlast : ∀ sc' ∈ l, ∀ o ∈ sc'.ops, lastId counter sc.ops < o.id := by
        intro sc' hsc' o ho
        rcases List.eq_nil_or_concat sc.ops with he | ⟨l0, q, he⟩
        · rw [he]; exact hc sc' (List.mem_cons_of_mem _ hsc') o ho
        · rw [he]
          simp only [lastId, List.concat_eq_append, List.foldl_append, List.foldl_cons, List.foldl_nil]
          refine hid.2.2 q.id (by rw [he]; simp) o.id ?_
          exact List.mem_map_of_mem (List.mem_flatMap.2 ⟨sc', hsc', ho⟩)
      obtain ⟨ds, c, l', h4, h5, h6⟩ := ih _ (fun x hx => hl x (List.mem_cons_of_mem _ hx)) hid.2.1 hlast
      refine ⟨d :: ds, c, sc' :: l', ?_, ?_, .cons h3 h6⟩
      · simp only [List.mapM_cons, h1, h4, bind, Except.bind, pure, Except.pure]
      · simp only [readPieces, h2, h5]
  obtain ⟨ds, c, l', h1, h2, h3⟩ := key p.scopes counter (fun _ h => h) hid hc
  refine ⟨⟨some (elementText p.unit), some (elementText path), ds⟩, c, ⟨some u, l'⟩, ?_, ?_, hu.symm, h3⟩
  · simp only [writeFile, h1, bind, Except.bind, pure, Except.pure]
  · have hunit : elementText p.unit = some u := by
      rw [hu]; cases u with | nil => exact absurd rfl hu0 | cons _ _ => rfl
    have hhead : readHead vit ⟨some (elementText p.unit), some (elementText path), ds⟩ = .ok u := by
      rw [hunit]
      unfold readHead
      cases path with
      | none => rfl
      | some t =>
        cases t with
        | nil => rfl
        | cons a t => simp only [elementText, hvit _ rfl]
    simp only [readFile, hhead, h2]

/-- C164, against: when operations were made in one scope and then in an earlier one, the file is written, and reading it raises
`NameError`. -/
theorem interleaved_scopes_wrong (u : Text) (hu0 : u ≠ []) (a b : Scope F) (na nb : Text) (hna : a.name = some na) (hnb : b.name = some nb)
    (sa sb : Sketch F) (ha : Built env sa) (hb : Built env sb) (hea : sa.ops = a.ops) (heb : sb.ops = b.ops)
    (hpa : ∀ o ∈ a.ops, Portable a.ops o) (hpb : ∀ o ∈ b.ops, Portable b.ops o) (hoa : OffsetsReadBack env a.ops)
    (hob : OffsetsReadBack env b.ops) (counter : Int) (hc : ∀ o ∈ a.ops, counter < o.id)
    (eval : List (Operation F) → Except PyErr Unit) (heval : ∀ ops', List.Forall₂ Same a.ops ops' → eval ops' = .ok ())
    (vit : Text → Except PyErr Unit) (q o : Operation F) (ops : List (Operation F)) (hq : q ∈ a.ops) (ho : b.ops = o :: ops)
    (hlt : o.id < q.id) :
    ∃ doc c, writeFile env none ⟨some u, [a, b]⟩ = .ok doc ∧ readFile env vit eval counter doc = (c, .error .nameError) := by
  obtain ⟨d, sc', h1, h2, h3⟩ := write_eq_read a sa ha hea hpa hoa na hna counter hc eval heval
  rw [← heb] at hpb hob
  obtain ⟨es, h4, h5⟩ := write_sketch sb hb fun o ho => (hpb o ho).writable
  have hbi := built_inv hb
  have hai := built_inv ha
  have hmem : o ∈ sb.ops := by rw [heb, ho]; simp
  have hlast : q.id ≤ lastId counter a.ops := by
    have hids := hai.ids
    rw [hea] at hids
    rcases List.eq_nil_or_concat a.ops with he | ⟨l0, x, he⟩
    · rw [he] at hq; cases hq
    · rw [List.concat_eq_append] at he
      rw [he] at hids hq ⊢
      simp only [lastId, List.foldl_append, List.foldl_cons, List.foldl_nil]
      rw [List.map_append, List.pairwise_append] at hids
      rcases List.mem_append.1 hq with hq | hq
      · exact (hids.2.2 q.id (List.mem_map_of_mem hq) x.id (by simp)).le
      · rw [List.mem_singleton] at hq; rw [hq]
  have hread : Sketch.read env { counter := lastId counter a.ops } es = ({ counter := lastId counter a.ops }, .error .nameError) := by
    have h5' := h5
    rw [heb, ho] at h5'
    cases h5' with
    | @cons _ e _ es' he _ =>
      have hw : Well [] o := hbi.well [] o ops (heb.trans ho)
      obtain ⟨o', hd, _, _⟩ := describes_written (l' := []) (counter := o.id - 1) hw (hpb o hmem) he .nil (by omega) (hob o hmem)
        (by simp)
      exact read_old (env := env) (s := { counter := lastId counter a.ops }) (es1 := []) (es2 := es') (by simp) hd.isClass
        (declValue_exists (s := { counter := o.id - 1 }) (inv_new _) hd) he.id (Xml.int_round_trip _)
        (le_trans hlt.le hlast)
  refine ⟨⟨some (some u), some none, [d, ⟨some nb, some es, some [], some []⟩]⟩, lastId counter a.ops, ?_, ?_⟩
  · have h6 : writeScope env b = .ok ⟨some nb, some es, some [], some []⟩ := by
      simp only [writeScope, hnb, ← heb, h4, bind, Except.bind, pure, Except.pure]
    have hunit : elementText (some u) = some u := by
      cases u with | nil => exact absurd rfl hu0 | cons _ _ => rfl
    simp only [writeFile, List.mapM_cons, List.mapM_nil, h1, h6, bind, Except.bind, pure, Except.pure, hunit]
    rfl
  · have h7 : readPiece env eval (lastId counter a.ops) ⟨some nb, some es, some [], some []⟩ = (lastId counter a.ops, .error .nameError) := by
      simp only [readPiece, hread]
    simp only [readFile, readHead, readPieces, h2, h7]

/-- C165. A file is read only if it has a unit, an element for the measurements, and for every piece a name and elements for the
calculations, the modeling and the details. -/
theorem file_requires (vit : Text → Except PyErr Unit) (eval : List (Operation F) → Except PyErr Unit) (counter c : Int)
    (doc : Document) (p : Pat F) (h : readFile env vit eval counter doc = (c, .ok p)) :
    (∃ u, doc.unit = some (some u) ∧ p.unit = some u) ∧ (∃ m, doc.measurements = some m ∧ ∀ t, m = some t → vit t = .ok ()) ∧
    List.Forall₂ (fun (d : Draw) (sc : Scope F) => sc.name = d.name ∧ d.name ≠ none ∧ d.modeling ≠ none ∧ d.details ≠ none ∧
      ∃ es n s, d.calculation = some es ∧ Sketch.read env { counter := n } es = (s, .ok ()) ∧ s.ops = sc.ops ∧ eval sc.ops = .ok ())
      doc.draws p.scopes := by
  unfold readFile at h
  cases hh : readHead vit doc with
  | error e => rw [hh] at h; cases h
  | ok u =>
    rw [hh] at h
    simp only at h
    rcases hr : readPieces env eval counter doc.draws with ⟨c', e | l⟩
    · rw [hr] at h; cases h
    · rw [hr] at h
      cases h
      refine ⟨?_, ?_, ?_⟩
      · unfold readHead at hh
        split at hh
        · rename_i u' hu
          split at hh
          · cases hh
          · cases hh; exact ⟨_, hu, rfl⟩
          · split at hh
            · cases hh; exact ⟨_, hu, rfl⟩
            · cases hh
        · cases hh
      · unfold readHead at hh
        split at hh
        · split at hh
          · cases hh
          · rename_i hm; exact ⟨none, hm, by simp⟩
          · rename_i path hm
            refine ⟨some path, hm, ?_⟩
            rintro t ht
            cases ht
            split at hh
            · assumption
            · cases hh
        · cases hh
      · clear hh
        generalize doc.draws = ds at hr
        induction ds generalizing counter l c with
        | nil => cases hr; exact .nil
        | cons d ds ih =>
          unfold readPieces at hr
          rcases h1 : readPiece env eval counter d with ⟨c1, e | sc⟩
          · rw [h1] at hr; cases hr
          · rw [h1] at hr
            simp only at hr
            rcases h2 : readPieces env eval c1 ds with ⟨c2, e | l2⟩
            · rw [h2] at hr; cases hr
            · rw [h2] at hr
              cases hr
              refine .cons ?_ (ih _ _ _ h2)
              unfold readPiece at h1
              split at h1
              · cases h1
              · rename_i name hname
                split at h1
                · cases h1
                · rename_i es hes
                  rcases h3 : Sketch.read env { counter := counter } es with ⟨s, e | u⟩
                  · rw [h3] at h1; cases h1
                  · rw [h3] at h1
                    simp only at h1
                    cases h4 : eval s.ops with
                    | error e => rw [h4] at h1; cases h1
                    | ok u =>
                      rw [h4] at h1
                      simp only at h1
                      cases h5 : readRest env s d with
                      | error e => rw [h5] at h1; cases h1
                      | ok r =>
                        rw [h5] at h1
                        cases h1
                        refine ⟨hname.symm, by rw [hname]; simp, ?_, ?_, es, counter, s, hes, h3, rfl, h4⟩
                        · intro hm
                          rw [readRest, hm] at h5
                          cases h5
                        · intro hm
                          rw [readRest, hm] at h5
                          simp only [bind, Except.bind] at h5
                          split at h5
                          · cases h5
                          · split at h5
                            · cases h5
                            · cases h5

/-- C165. What is raised otherwise: `NameError` without a unit, `AttributeError` without an element for the measurements; for the first piece,
`KeyError` without a name, `TypeError` without calculations, and without modeling once its calculations are read and evaluated. -/
theorem file_lacks (vit : Text → Except PyErr Unit) (eval : List (Operation F) → Except PyErr Unit) (counter : Int) (doc : Document) :
    (doc.unit = none ∨ doc.unit = some none → readFile env vit eval counter doc = (counter, .error .nameError)) ∧
    (∀ u, doc.unit = some (some u) → doc.measurements = none → readFile env vit eval counter doc = (counter, .error .attributeError)) ∧
    (∀ u d ds, doc.unit = some (some u) → doc.measurements = some none → doc.draws = d :: ds →
      (d.name = none → readFile env vit eval counter doc = (counter, .error .keyError)) ∧
      (d.name ≠ none → d.calculation = none → readFile env vit eval counter doc = (counter, .error .typeError)) ∧
      (∀ es s, d.name ≠ none → d.calculation = some es → Sketch.read env { counter := counter } es = (s, .ok ()) → eval s.ops = .ok () →
        d.modeling = none → readFile env vit eval counter doc = (s.counter, .error .typeError))) := by
  refine ⟨?_, ?_, ?_⟩
  · rintro (h | h) <;> simp only [readFile, readHead, h]
  · intro u h1 h2
    simp only [readFile, readHead, h1, h2]
  · intro u d ds h1 h2 h3
    have hf : ∀ c e, readPiece env eval counter d = (c, .error e) → readFile env vit eval counter doc = (c, .error e) := by
      intro c e h
      simp only [readFile, readHead, h1, h2, h3, readPieces, h]
    refine ⟨fun hn => hf _ _ ?_, fun hn hc => hf _ _ ?_, fun es s hn hc hr he hm => hf _ _ ?_⟩
    · simp only [readPiece, hn]
    · obtain ⟨n, hn⟩ := Option.ne_none_iff_exists'.1 hn
      simp only [readPiece, hn, hc]
    · obtain ⟨n, hn⟩ := Option.ne_none_iff_exists'.1 hn
      simp only [readPiece, hn, hc, hr, he, readRest, hm]
      rfl

/-- C165, against: the details of a piece are read but nothing of them is kept: the same file without its modeling and its details
gives the same pattern, and every file that is written has no modeling and no details. -/
theorem details_wrong (vit : Text → Except PyErr Unit) (eval : List (Operation F) → Except PyErr Unit) (counter c : Int)
    (doc : Document) (p : Pat F) (h : readFile env vit eval counter doc = (c, .ok p)) :
    readFile env vit eval counter { doc with draws := doc.draws.map fun d => { d with modeling := some [], details := some [] } } =
      (c, .ok p) ∧
    ∀ path doc', writeFile env path p = .ok doc' → ∀ d ∈ doc'.draws, d.modeling = some [] ∧ d.details = some [] := by
  constructor
  · unfold readFile at h ⊢
    have hhead : readHead vit { doc with draws := doc.draws.map fun d => { d with modeling := some [], details := some [] } } =
        readHead vit doc := rfl
    rw [hhead]
    cases hh : readHead vit doc with
    | error e => rw [hh] at h; cases h
    | ok u =>
      rw [hh] at h
      simp only at h ⊢
      have key : ∀ (ds : List Draw) (counter c : Int) (l : List (Scope F)), readPieces env eval counter ds = (c, .ok l) →
          readPieces env eval counter (ds.map fun d => { d with modeling := some [], details := some [] }) = (c, .ok l) := by
        intro ds
        induction ds with
        | nil => intro counter c l h; exact h
        | cons d ds ih =>
          intro counter c l hr
          unfold readPieces at hr
          rcases h1 : readPiece env eval counter d with ⟨c1, e | sc⟩
          · rw [h1] at hr; cases hr
          · rw [h1] at hr
            simp only at hr
            rcases h2 : readPieces env eval c1 ds with ⟨c2, e | l2⟩
            · rw [h2] at hr; cases hr
            · rw [h2] at hr
              cases hr
              have h6 : readPiece env eval counter { d with modeling := some [], details := some [] } = (c1, .ok sc) := by
                unfold readPiece at h1 ⊢
                split at h1
                · cases h1
                · rename_i name hname
                  split at h1
                  · cases h1
                  · rename_i es hes
                    rcases h3 : Sketch.read env { counter := counter } es with ⟨s, e | u⟩
                    · rw [h3] at h1; cases h1
                    · rw [h3] at h1
                      simp only at h1
                      cases h4 : eval s.ops with
                      | error e => rw [h4] at h1; cases h1
                      | ok u =>
                        rw [h4] at h1
                        simp only at h1
                        cases h5 : readRest env s d with
                        | error e => rw [h5] at h1; cases h1
                        | ok r =>
                          rw [h5] at h1
                          have hrest : readRest env s { d with modeling := some [], details := some [] } = .ok [] := rfl
                          simp only [hname, hes, h3, h4, hrest]
                          exact h1
              simp only [List.map_cons]
              unfold readPieces
              rw [h6]
              simp only [ih _ _ _ h2]
      rcases hr : readPieces env eval counter doc.draws with ⟨c', e | l⟩
      · rw [hr] at h; cases h
      · rw [hr] at h
        rw [key _ _ _ _ hr]
        exact h
  · intro path doc' hw d hd
    unfold writeFile at hw
    simp only [bind, Except.bind, pure, Except.pure] at hw
    cases hm : p.scopes.mapM (writeScope env) with
    | error e => rw [hm] at hw; cases hw
    | ok ds =>
      rw [hm] at hw
      cases hw
      have key : ∀ (l : List (Scope F)) ds, l.mapM (writeScope env) = .ok ds → ∀ d ∈ ds, d.modeling = some [] ∧ d.details = some [] := by
        intro l
        induction l with
        | nil => intro ds h; cases h; simp
        | cons sc l ih =>
          intro ds h
          simp only [List.mapM_cons, bind, Except.bind, pure, Except.pure] at h
          cases h1 : writeScope env sc with
          | error e => rw [h1] at h; cases h
          | ok d1 =>
            rw [h1] at h
            simp only at h
            cases h2 : l.mapM (writeScope env) with
            | error e => rw [h2] at h; cases h
            | ok ds1 =>
              rw [h2] at h
              cases h
              intro d hd
              rcases List.mem_cons.1 hd with rfl | hd
              · unfold writeScope at h1
                split at h1
                · cases h1
                · simp only [bind, Except.bind, pure, Except.pure] at h1
                  split at h1
                  · cases h1
                  · cases h1; exact ⟨rfl, rfl⟩
              · exact ih _ h2 d hd
      exact key _ _ hm d hd

/-! ## Examples -/

section Examples

/-- Numbers are integers here. -/
def toyEnv : Env Int := ⟨Xml.intFromText, Xml.intToText, 0, [("black".toList, { name := some "black".toList })], { name := some "black".toList }⟩

/-- A point, a point along a line, a spline path (skipped) and a line. -/
def toyElements : List Element :=
  [⟨some "point", [("id", "4".toList), ("type", "single".toList), ("name", "A".toList), ("x", "1".toList), ("y", "2".toList),
      ("mx", "3".toList), ("my", "-4".toList)]⟩,
   ⟨some "spline", [("id", "5".toList), ("type", "pathInteractive".toList)]⟩,
   ⟨some "point", [("id", "6".toList), ("type", "endLine".toList), ("name", "B".toList), ("basePoint", "4".toList),
      ("angle", "0".toList), ("length", "10".toList), ("lineColor", "black".toList), ("typeLine", "hair".toList),
      ("mx", "0".toList), ("my", "0".toList)]⟩,
   ⟨some "line", [("id", "7".toList), ("firstPoint", "4".toList), ("secondPoint", "6".toList), ("lineColor", "black".toList),
      ("typeLine", "dashLine".toList)]⟩]

/-- The hypothesis of `read_describes` (and of `read_succeeds`) is met. -/
example : ∃ s, Sketch.read toyEnv { counter := 0 } toyElements = (s, .ok ()) ∧ s.ops.map Operation.id = [4, 6, 7] := by
  refine ⟨_, Prod.ext rfl ?_, ?_⟩ <;> decide +kernel


/-- Unknown tags stop the reading. -/
example : (∀ c, ¬ IsClass ⟨some "elArc", []⟩ c) ∧ ¬ NotImplemented ⟨some "elArc", []⟩ := by
  refine ⟨fun c h => ?_, fun h => ?_⟩
  · have := (dispatch_ok _ _).2 h
    revert this
    cases c <;> decide +kernel
  · have := (dispatch_none _).2 h
    revert this
    decide +kernel

/-- A point `A`, a point `B` at a distance of `A` and the line between them, made with the API. -/
def toySketch (counter : Int) : Sketch Int :=
  let s0 : Sketch Int := { counter := counter }
  let s1 := (s0.call toyEnv .single [("name", some (.text "A".toList)), ("x", some (.int 1)), ("y", some (.int 2))] (some (3, -4))).1
  let s2 := (s1.call toyEnv .endLine [("name", some (.text "B".toList)), ("base_point", some (.text "A".toList)), ("angle", some (.int 0)),
    ("length", some (.int 10)), ("line_style", some (.stroke .dashLine))] (some (0, 0))).1
  (s2.call toyEnv .line [("first_point", some (.text "A".toList)), ("second_point", some (.text "B".toList))] none).1

theorem toySketch_built (counter : Int) : Built toyEnv (toySketch counter) := .call _ _ _ (.call _ _ _ (.call _ _ _ (.new counter)))

theorem toySketch_ops : (toySketch 3).ops = [
    ⟨.single, 4, [("name", some (.text "A".toList)), ("x", some (.expr "1".toList)), ("y", some (.expr "2".toList))], some (3, -4)⟩,
    ⟨.endLine, 5, [("name", some (.text "B".toList)), ("base_point", some (.op 4)), ("angle", some (.expr "0".toList)),
      ("length", some (.expr "10".toList)), ("line_style", some (.stroke .dashLine)), ("line_color", none)], some (0, 0)⟩,
    ⟨.line, 6, [("first_point", some (.op 4)), ("second_point", some (.op 5)), ("line_style", some (.stroke .solidLine)),
      ("line_color", some (.color toyEnv.black))], none⟩] := by decide +kernel

theorem toySketch_portable : ∀ o ∈ (toySketch 3).ops, Portable (toySketch 3).ops o := by
  rw [toySketch_ops]
  intro o ho
  simp only [List.mem_cons, List.not_mem_nil, or_false] at ho
  rcases ho with rfl | rfl | rfl
  all_goals
    refine ⟨⟨?_, ?_⟩, ?_, ?_, ?_, ?_⟩
    · simp [table, strokeRows, pairRows, Operation.Has, Dict.get?]
    · simp [table, strokeRows, pairRows, Operation.Has, Dict.get?]
    · simp [Class.isPoint, Operation.Has, Dict.get?]
    · simp [table, strokeRows, pairRows, Operation.Has, Dict.get?, toyEnv, Colour.InRange]
    · simp
    · simp [FromPoints, table, strokeRows, pairRows, Operation.Has, Dict.get?, Class.isPoint]
      try first
        | exact ⟨_, rfl, .inl rfl, rfl⟩
        | exact ⟨⟨_, rfl, .inl rfl, rfl⟩, ⟨_, rfl, .inr (.inl rfl), rfl⟩⟩

theorem toySketch_offsets : OffsetsReadBack toyEnv (toySketch 3).ops := fun _ _ _ _ _ =>
  ⟨Xml.int_round_trip _, Xml.int_round_trip _⟩

/-- The hypotheses of `write_sketch` and of `sketch_round_trip_partial` are met. -/
example : ∃ es s', write toyEnv (toySketch 3).ops = .ok es ∧ Sketch.read toyEnv { counter := 0 } es = (s', .ok ()) ∧
    List.Forall₂ Same (toySketch 3).ops s'.ops :=
  sketch_round_trip_partial _ (toySketch_built 3) toySketch_portable toySketch_offsets 0 (by rw [toySketch_ops]; simp)

/-- The hypotheses of `pattern_round_trip_partial` are met. -/
example : ∃ doc c p', writeFile toyEnv none ⟨some "cm".toList, [⟨some "front".toList, (toySketch 3).ops⟩]⟩ = .ok doc ∧
    readFile toyEnv (fun _ => .ok ()) (fun _ => .ok ()) 3 doc = (c, .ok p') ∧ p'.unit = some "cm".toList ∧
    List.Forall₂ SameScope [⟨some "front".toList, (toySketch 3).ops⟩] p'.scopes :=
  pattern_round_trip_partial ⟨some "cm".toList, [⟨some "front".toList, (toySketch 3).ops⟩]⟩ "cm".toList rfl (by decide)
    (by simpa using ⟨_, toySketch_built 3, rfl⟩) (by simpa using toySketch_portable) (by simpa using toySketch_offsets) (by simp)
    (by rw [toySketch_ops]; decide) 3 (by rw [toySketch_ops]; simp) _ (by simp) none _ (by simp)

/-- The default style cannot be written. -/
example : ∃ s : Sketch Int, Built toyEnv s ∧ s.ops ≠ [] ∧ write toyEnv s.ops = .error .keyError := by
  refine ⟨_, .call .endLine [("name", some (.text "B".toList)), ("base_point", some (.text "A".toList)), ("angle", some (.int 0)),
    ("length", some (.int 10))] (some (0, 0)) (toySketch_built 3), ?_, ?_⟩
  · decide +kernel
  · decide +kernel

end Examples

end Patro.Valentina

import Verif.Spec.ValVit
import Verif.Props.Vit
import Verif.Props.ValFormulas
import Verif.Props.ValPrinted
/-! # From a file of measurements and a file of a pattern to the printed page -/

namespace Patro.ValVit

open Patro.Text (Text)
open Measurement (Formula)
open Vit (VSet VMeas KeyOf Makes callOf Node FirstChild VInv readVit VitFile)
open Valentina (Class Element IsClass Sketch)
open ValFormulas (Cached calculatorCache expression valueOf SolvesAll SaysFormulas ReadableFormulas)
open ValPlaces (drawing implemented)
open ValPrinted (Evaluates Prints)
open SketchGeometry (Op St evalSketch)
open Detail (detailScene)

section

variable {K : Type} {isAlnum : Char → Bool} {sympify : Text → Except PyErr (Formula K)}

theorem firstChild_unique {r : Node} {tag : String} {n n' : Node} (h : FirstChild r tag n) (h' : FirstChild r tag n') : n = n' := by
  obtain ⟨a, b, e, ht, hc⟩ := h
  obtain ⟨a', b', e', ht', hc'⟩ := h'
  have heq : a ++ n :: b = a' ++ n' :: b' := e.symm.trans e'
  rcases List.append_eq_append_iff.1 heq with ⟨c, h1, h2⟩ | ⟨c, h1, h2⟩
  · cases c with
    | nil => simp only [List.nil_append, List.cons.injEq] at h2; exact h2.1
    | cons x c =>
      simp only [List.cons_append, List.cons.injEq] at h2
      obtain ⟨rfl, -⟩ := h2
      exact absurd ht (hc' n (by rw [h1]; simp))
  · cases c with
    | nil => simp only [List.nil_append, List.cons.injEq] at h2; exact h2.1.symm
    | cons x c =>
      simp only [List.cons_append, List.cons.injEq] at h2
      obtain ⟨rfl, -⟩ := h2
      exact absurd ht' (hc n' (by rw [h1]; simp))

variable {upper : Text → Text} {tree : Node} {f : VitFile K}

theorem describes_of_mem (h : readVit isAlnum sympify upper tree = .ok f) {m : VMeas K} (hm : m ∈ f.measurements.objects) :
    Describes isAlnum sympify tree m := by
  obtain ⟨h1, -⟩ := Vit.vit_read isAlnum sympify upper tree f h
  obtain ⟨n, h2, -, h3, -⟩ := h1.measurements
  obtain ⟨i, hi⟩ := List.getElem?_of_mem hm
  have hlen := h3.length_eq
  obtain ⟨hi', he⟩ := List.getElem?_eq_some_iff.1 hi
  have := List.forall₂_iff_get.1 h3 |>.2 i (by omega) hi'
  exact ⟨n, n.children[i]'(by omega), h2, List.getElem_mem _, by rw [← he]; exact this⟩

theorem mem_of_describes (h : readVit isAlnum sympify upper tree = .ok f) {m : VMeas K} (hm : Describes isAlnum sympify tree m) :
    ∃ m' ∈ f.measurements.objects, m'.name = m.name ∧ m'.valentinaName = m.valentinaName ∧ m'.core.expression = m.core.expression := by
  obtain ⟨h1, -⟩ := Vit.vit_read isAlnum sympify upper tree f h
  obtain ⟨n, h2, -, h3, -⟩ := h1.measurements
  obtain ⟨n', e, h4, h5, h6⟩ := hm
  cases firstChild_unique h2 h4
  obtain ⟨i, hi⟩ := List.getElem?_of_mem h5
  have hlen := h3.length_eq
  obtain ⟨hi', he⟩ := List.getElem?_eq_some_iff.1 hi
  have := List.forall₂_iff_get.1 h3 |>.2 i hi' (by omega)
  refine ⟨f.measurements.objects[i]'(by omega), List.getElem_mem _, ?_⟩
  have hk : Makes isAlnum sympify (callOf e) (f.measurements.objects[i]'(by omega)) := by rw [← he]; exact this
  refine ⟨hk.name.1.trans h6.name.1.symm, hk.valentinaName.trans h6.valentinaName.symm, ?_⟩
  obtain ⟨t, a1, a2⟩ := hk.value
  obtain ⟨t', b1, b2⟩ := h6.value
  rw [a1] at b1
  cases b1
  rw [a2] at b2
  injection b2

theorem solves_iff (h : readVit isAlnum sympify upper tree = .ok f) (σ : Text → K) :
    Solves isAlnum sympify tree σ ↔ SolvesAll σ f.measurements.objects := by
  refine ⟨fun hs m hm => hs m (describes_of_mem h hm), fun hs m hm => ?_⟩
  obtain ⟨m', h1, h2, -, h4⟩ := mem_of_describes h hm
  rw [← h2, ← h4]
  exact hs m' h1

theorem measures_valueOf (rnd : K → K) (h : readVit isAlnum sympify upper tree = .ok f) (σ : Text → K) :
    Measures isAlnum sympify rnd tree σ (valueOf rnd σ f.measurements.objects) := by
  have hinv : VInv isAlnum f.measurements := by
    obtain ⟨-, n, -, h1⟩ := Vit.vit_read isAlnum sympify upper tree f h
    rw [h1]
    exact Vit.vinv_addAll (sympify := sympify) (Vit.vinv_new (K := K) isAlnum) _
  intro x v
  constructor
  · intro hv
    by_cases hx : ∃ m ∈ f.measurements.objects, KeyOf m x
    · obtain ⟨m, h1, h2⟩ := hx
      rw [ValFormulas.valueOf_eq hinv h1 h2] at hv
      cases hv
      exact ⟨m, describes_of_mem h h1, h2, rfl⟩
    · rw [ValFormulas.valueOf_none fun m hm hk => hx ⟨m, hm, hk⟩] at hv
      cases hv
  · rintro ⟨m, h1, h2, rfl⟩
    obtain ⟨m', k1, k2, k3, -⟩ := mem_of_describes h h1
    have hk : KeyOf m' x := by
      rcases h2 with h2 | ⟨⟨t, ht⟩, h2⟩
      · exact .inl (h2.trans k2.symm)
      · exact .inr ⟨⟨t, k3.trans ht⟩, h2.trans k3.symm⟩
    rw [ValFormulas.valueOf_eq hinv k1 hk, k2]

variable (isAlnum sympify) in
/-- C227. When the calculator of the measurements of a file is made, the measurements have values, only one each, and the calculator has
these values. -/
theorem vit_values [Nonempty K] (upper : Text → Text) (rnd : K → K) (tree : Node) (f : VitFile K)
    (h : readVit isAlnum sympify upper tree = .ok f) (cache : Dict Text (Cached K)) (s' : VSet K)
    (hcache : calculatorCache rnd f.measurements = (.ok cache, s')) :
    (∃ σ, Solves isAlnum sympify tree σ) ∧
    ∀ σ, Solves isAlnum sympify tree σ →
      (∀ m, Describes isAlnum sympify tree m → cache.get? m.name = some (.number (rnd (σ m.name)))) ∧
      (∀ n x, cache.get? n = some x → (∃ m, Describes isAlnum sympify tree m ∧ m.name = n) ∨ (n = "__calculator__".toList ∧ x = .calculator)) ∧
      ∀ τ, Solves isAlnum sympify tree τ → ∀ m, Describes isAlnum sympify tree m → τ m.name = σ m.name := by
  obtain ⟨-, n, -, h1⟩ := Vit.vit_read isAlnum sympify upper tree f h
  have hs := solves_iff h
  have hd := fun m hm => mem_of_describes (m := m) h hm
  have hd' := fun m hm => describes_of_mem (m := m) h hm
  rw [h1] at hcache hs hd hd'
  obtain ⟨⟨σ, k1⟩, k2⟩ := ValFormulas.calculator_solution isAlnum sympify rnd _ cache s' hcache
  refine ⟨⟨σ, (hs σ).2 k1⟩, fun σ hσ => ?_⟩
  obtain ⟨q1, q2⟩ := ValFormulas.calculator_values isAlnum sympify rnd _ cache s' hcache σ ((hs σ).1 hσ)
  refine ⟨fun m hm => ?_, fun n x hx => ?_, fun τ hτ m hm => ?_⟩
  · obtain ⟨m', a1, a2, -⟩ := hd m hm
    rw [← a2]
    exact q1 m' a1
  · rcases q2 n x hx with ⟨m, a1, a2⟩ | a
    · exact .inl ⟨m, hd' m a1, a2⟩
    · exact .inr a
  · obtain ⟨m', a1, a2, -⟩ := hd m hm
    rw [← a2]
    exact k2 τ σ ((hs τ).1 hτ) ((hs σ).1 hσ) m' a1

end

/-- C227, what holds: a file of measurements and the calculations of a pattern are read, the sketch is evaluated, drawn and printed in PDF.
The page has the calls of each element in the order of the file, and the places are those the elements say, their formulas having the values
they denote with the measurements of the file. Missing: formulas which are not readable in the sense of C225. -/
theorem vit_file_printed_partial {F : Type} {env : Valentina.Env F} (builtin isAlnum : _) (sympify : Text → Except PyErr (Formula ℝ))
    (upper : Text → Text) (rnd : ℝ → ℝ) (tree : Node) (f : VitFile ℝ) (hv : readVit isAlnum sympify upper tree = .ok f)
    (cache : Dict Text (Cached ℝ)) (s' : VSet ℝ) (hcache : calculatorCache rnd f.measurements = (.ok cache, s'))
    (real : F → ℝ) (hp : ∀ t err, env.parse t = .error err → err = .valueError) (counter : Int) (es : List Element) (s : Sketch F)
    (ds : List Detail.Drawn) (st : St)
    (h : Evaluates env (expression builtin f.measurements cache) real counter es s ds st) (hne : implemented es ≠ [])
    {black : Colour.Color} (hb : env.db.getItem "black".toList = .ok black) (floatText : Text → Except PyErr ℚ)
    (str : Style.Value → Text) (style : Style.SketchStyle) (width height : ℝ) :
    ∃ scene box parts σ measure,
      detailScene env.db floatText (some style) ds st = .ok (scene, some box) ∧
      List.Forall₂ (fun e calls => ∃ c, IsClass e c ∧ Prints env real (drawing s.ops st) e calls c) (implemented es) parts ∧
      Painters.pdfPainter (Printed.painterScene str scene) (some (some box)) width height (some "reportlab") =
        .ok ([width * (7.2 / 2.54), height * (7.2 / 2.54)], [.translate (-box.xInf * (72 / 2.54)) (-box.yInf * (72 / 2.54)),
          .translate (72 / 2.54) (72 / 2.54), .setFont "Times-Roman".toList 20] ++ parts.flatten) ∧
      Solves isAlnum sympify tree σ ∧ Measures isAlnum sympify rnd tree σ measure ∧
      ∀ before e after c, implemented es = before ++ e :: after → IsClass e c → ReadableFormulas (drawing s.ops st) before e c →
        SaysFormulas measure (drawing s.ops st) before e c := by
  obtain ⟨⟨σ, hσ⟩, -⟩ := vit_values isAlnum sympify upper rnd tree f hv cache s' hcache
  have hmeas := measures_valueOf rnd hv σ
  have hsol := (solves_iff hv σ).1 hσ
  obtain ⟨ds', g1, g2, g3⟩ := ValPrinted.file_printed (expression builtin f.measurements cache) real hp counter es s h.read hne h.complete
    h.drawable h.names hb floatText str style width height
  rw [h.drawn] at g1
  cases g1
  obtain ⟨scene, box, parts, k1, k2, k3⟩ := g3 st h.evaluated h.places
  refine ⟨scene, box, parts, σ, _, k1, k2, k3, hσ, hmeas, fun before e after c he hcl hf => ?_⟩
  obtain ⟨-, n, -, hms⟩ := Vit.vit_read isAlnum sympify upper tree f hv
  rw [hms] at hcache hsol g2 ⊢
  exact ValFormulas.file_places_formulas_partial builtin isAlnum sympify rnd _ cache s' hcache σ hsol hp counter es s h.read h.complete _ g2 st
    h.evaluated before after e c he hcl hf

theorem needs_iff {K : Type} {isAlnum : Char → Bool} {sympify : Text → Except PyErr (Formula K)} {upper : Text → Text}
    {tree : Node} {f : VitFile K} (h : readVit isAlnum sympify upper tree = .ok f) (g : Formula K) (n : Text) :
    Needs isAlnum sympify tree g n ↔ Measurement.Needs (f.measurements.objects.map fun m : VMeas K => (m.name, m.core)) g n := by
  obtain ⟨hv, -⟩ := Vit.vit_read isAlnum sympify upper tree f h
  obtain ⟨-, -, -, -, hnd⟩ := hv.measurements
  have hvalid : Measurement.MSet.Valid (f.measurements.objects.map fun m : VMeas K => (m.name, m.core)) := by
    simpa [Measurement.MSet.Valid, Dict.keys, Function.comp_def] using hnd
  constructor
  · intro hn
    induction hn with
    | direct hn => exact .direct hn
    | through _ hd hr ih =>
      obtain ⟨m', a1, a2, -, a3⟩ := mem_of_describes h hd
      rw [← a2] at ih
      rw [← a3] at hr
      exact .through ih (Measurement.MSet.get?_of_mem _ hvalid _ _ (List.mem_map.2 ⟨m', a1, rfl⟩)) hr
  · intro hn
    induction hn with
    | direct hn => exact .direct hn
    | through _ hg hr ih =>
      obtain ⟨m, hm, rfl, rfl⟩ := ValFormulas.get?_map _ _ hg
      exact .through ih (describes_of_mem h hm) hr

/-- C227. The calculator is made exactly if every name needed for the expression of a measurement of the file is a measurement of the file
which refers only to names later in the alphabet. Otherwise `TypeError` is raised, so that nothing is printed. -/
theorem vit_calculator {K : Type} (isAlnum : Char → Bool) (sympify : Text → Except PyErr (Formula K)) (upper : Text → Text) (rnd : K → K)
    (tree : Node) (f : VitFile K) (h : readVit isAlnum sympify upper tree = .ok f) :
    ((∃ cache s', calculatorCache rnd f.measurements = (.ok cache, s')) ↔
      ∀ m, Describes isAlnum sympify tree m → ∀ n, Needs isAlnum sympify tree m.core.expression n →
        ∃ m', Describes isAlnum sympify tree m' ∧ m'.name = n ∧ ∀ r ∈ m'.core.expression.names, n < r) ∧
    ((¬ ∃ cache s', calculatorCache rnd f.measurements = (.ok cache, s')) → ∃ s', calculatorCache rnd f.measurements = (.error .typeError, s')) := by
  obtain ⟨hv, n, -, h1⟩ := Vit.vit_read isAlnum sympify upper tree f h
  obtain ⟨-, -, -, -, hnd⟩ := hv.measurements
  have hinv : VInv isAlnum f.measurements := by
    rw [h1]
    exact Vit.vinv_addAll (sympify := sympify) (Vit.vinv_new (K := K) isAlnum) _
  have hvalid : Measurement.MSet.Valid (f.measurements.objects.map fun m : VMeas K => (m.name, m.core)) := by
    simpa [Measurement.MSet.Valid, Dict.keys, Function.comp_def] using hnd
  obtain ⟨k1, k2⟩ := ValFormulas.calculator_error isAlnum sympify rnd (n.children.map callOf)
  rw [← h1] at k1 k2
  constructor
  · rw [k1]
    have key : ∀ g : Formula K, (∃ k, (f.measurements.subs g).ground? = some k) ↔ ∀ n, Needs isAlnum sympify tree g n →
        ∃ m', Describes isAlnum sympify tree m' ∧ m'.name = n ∧ ∀ r ∈ m'.core.expression.names, n < r := by
      intro g
      rw [Vit.sub_eq hinv, Measurement.ground_iff _ hvalid]
      refine forall_congr' fun n => ?_
      rw [needs_iff h]
      refine imp_congr_right fun _ => ⟨fun ⟨c, a1, a2⟩ => ?_, fun ⟨m, a1, a2, a3⟩ => ?_⟩
      · obtain ⟨m, hm, rfl, rfl⟩ := ValFormulas.get?_map _ _ a1
        exact ⟨m, describes_of_mem h hm, rfl, a2⟩
      · obtain ⟨m', b1, b2, -, b3⟩ := mem_of_describes h a1
        subst a2
        refine ⟨m'.core, ?_, by rw [b3]; exact a3⟩
        rw [← b2]
        exact Measurement.MSet.get?_of_mem _ hvalid _ _ (List.mem_map.2 ⟨m', b1, rfl⟩)
    constructor
    · intro ha m hm
      obtain ⟨m', b1, -, -, b3⟩ := mem_of_describes h hm
      rw [← b3]
      exact (key _).1 (ha m' b1)
    · intro ha m hm
      exact (key _).2 (ha m (describes_of_mem h hm))
  · intro hno
    rcases hc : calculatorCache rnd f.measurements with ⟨e | c, s'⟩
    · exact ⟨s', by rw [k2 e s' hc]⟩
    · exact absurd ⟨c, s', hc⟩ hno

/-! ## Two files -/

/-- The measurements `hip = 10` and `@ease = hip`. -/
def exVit : Node := Vit.toyVit Vit.toyPersonal
  [⟨some "m", [("name", "hip".toList), ("value", "10".toList)], none, []⟩,
   ⟨some "m", [("name", "@ease".toList), ("value", "hip".toList)], none, []⟩]

/-- The file is read, with the measurements of `ValFormulas.exSet`. -/
theorem exVit_read : ∃ f, readVit Char.isAlphanum ValFormulas.exSympify (fun t => t.map Char.toUpper) exVit = .ok f ∧
    f.measurements = ValFormulas.exSet := ⟨_, rfl, rfl⟩

theorem exDrawable : ∀ e ∈ ValFormulas.exElements, ValPrinted.Drawable Valentina.toyEnv e := by
  have key : ∀ e ∈ ValFormulas.exElements, ∀ c, Valentina.dispatch e = .ok c →
      (c ∈ [Class.alongLine, .endLine, .normal, .line] → (e.attrib.get? "typeLine").isSome) ∧ c ≠ .spline ∧
      (c.isPoint = true → (e.attrib.get? "mx").isSome ∧ (e.attrib.get? "my").isSome) := by
    intro e he c
    simp only [ValFormulas.exElements, List.mem_cons, List.not_mem_nil, or_false] at he
    rcases he with rfl | rfl <;> cases c <;> decide +kernel
  intro e he
  refine ⟨fun c hc h => (key e he c ((Valentina.dispatch_ok _ _).2 h)).1 hc, fun h => ?_, fun c hc h =>
    (key e he c ((Valentina.dispatch_ok _ _).2 h)).2.2 hc⟩
  exact absurd rfl (key e he _ ((Valentina.dispatch_ok _ _).2 h)).2.1

/-- The hypotheses of `vit_file_printed_partial` are met by this file and `ValFormulas.exElements`: the point `B` is at (31, 2). -/
example (style : Style.SketchStyle) : ∃ f cache s' s ds st, readVit Char.isAlphanum ValFormulas.exSympify (fun t => t.map Char.toUpper) exVit = .ok f ∧
    calculatorCache id f.measurements = (.ok cache, s') ∧
    Evaluates Valentina.toyEnv (expression (fun _ => false) f.measurements cache) (fun i : Int => (i : ℝ)) 0 ValFormulas.exElements s ds st ∧
    implemented ValFormulas.exElements ≠ [] ∧ (drawing s.ops st).point 6 = some ⟨31, 2⟩ ∧
    ∀ e ∈ ValFormulas.exElements, ∀ c before, IsClass e c → ReadableFormulas (drawing s.ops st) before e c := by
  obtain ⟨f, h1, h2⟩ := exVit_read
  obtain ⟨cache, s', s, ops, st, k1, -, k3, k4, k5, k6, k7, k8⟩ := ValFormulas.exPlaces
  rw [← h2] at k1 k5
  have hne : implemented ValFormulas.exElements ≠ [] := by
    refine List.ne_nil_of_mem (a := ValFormulas.exElements[0]) (List.mem_filter.2 ⟨by simp [ValFormulas.exElements], ?_⟩)
    simp only [decide_eq_true_eq]
    exact Valentina.not_both (c := .single) ((Valentina.dispatch_ok _ _).1 (by decide +kernel))
  have hnames : ((implemented ValFormulas.exElements).filterMap ValPrinted.pointName).Nodup := by
    have : (ValFormulas.exElements.filterMap ValPrinted.pointName).Nodup := by decide +kernel
    exact this.sublist (List.Sublist.filterMap _ List.filter_sublist)
  have key : ∀ e ∈ ValFormulas.exElements, ∀ c, Valentina.dispatch e = .ok c → c ≠ .lineIntersect ∧ c ≠ .pointOfContact := by
    intro e he c
    simp only [ValFormulas.exElements, List.mem_cons, List.not_mem_nil, or_false] at he
    rcases he with rfl | rfl <;> cases c <;> decide +kernel
  obtain ⟨ds, g1, g2, -⟩ := ValPrinted.file_printed (expression (fun _ => false) f.measurements cache) (fun i : Int => (i : ℝ))
    ValPrinted.toyParse 0 _ s k3 hne k4 exDrawable hnames (black := Valentina.toyEnv.black) (by decide +kernel)
    (fun _ => .error .valueError) (fun _ => []) style 1 1
  rw [k5] at g2
  cases g2
  refine ⟨f, cache, s', s, ds, st, h1, k1, ⟨k4, exDrawable, hnames, k3, g1, k6, fun e he hcl => ?_⟩, hne, k7, k8⟩
  rcases hcl with hcl | hcl
  · exact absurd rfl (key e he _ ((Valentina.dispatch_ok _ _).2 hcl)).1
  · exact absurd rfl (key e he _ ((Valentina.dispatch_ok _ _).2 hcl)).2

/-- A measurement which refers to a name that is not in the file: no calculator is made. -/
example : ∃ f s', readVit Char.isAlphanum ValFormulas.exSympify (fun t => t.map Char.toUpper) (Vit.toyVit Vit.toyPersonal
      [⟨some "m", [("name", "hip".toList), ("value", "waist".toList)], none, []⟩]) = .ok f ∧
    calculatorCache id f.measurements = (.error .typeError, s') := ⟨_, _, rfl, rfl⟩

end Patro.ValVit

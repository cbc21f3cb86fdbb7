import Verif.Spec.ValEval
import Verif.Props.ValPlaces
import Verif.Props.SketchEval
/-! # When a Valentina file is evaluated -/

namespace Patro.ValPlaces

open Valentina (Operation Sketch Class Element IsClass)
open SketchGeometry (Expr Op St WellFormed visible evalSketch Placeable)
open Xml (Text)

variable {F : Type} {env : Valentina.Env F}

theorem ref_iff {ops : List (Operation F)} {e : Element} {attr : String} {i : Int} {j : Nat} (st : St) (h1 : idAttr e attr = some i)
    (h2 : number ops i = some j) (p : Vec ℝ) : Ref (drawing ops st) e attr p ↔ st.vec j = some p := by
  unfold Ref
  constructor
  · rintro ⟨k, hk, hp⟩
    rw [h1, Option.some.injEq] at hk
    subst hk
    simpa only [drawing, h2, Option.bind_some] using hp
  · intro h
    exact ⟨i, h1, by simp only [drawing, h2, Option.bind_some, h]⟩

theorem value_iff {compile : Text → Expr} {d : Drawing} {before : List Element} {e : Element} {current : Option (Vec ℝ)} {attr : String} {t : Text}
    (h : e.attrib.get? attr = some t) (v : ℝ) : Value compile d before e current attr v ↔ compile t ⟨meaning d before e, current⟩ = .ok v := by
  unfold Value
  rw [h]
  constructor
  · rintro ⟨t', ht, hv⟩
    cases ht
    exact hv
  · exact fun h => ⟨t, rfl, h⟩

theorem made_needs {compile : Text → Expr} {ops : List (Operation F)} {k : Nat} {e : Element} {o : Operation F}
    (h : Made compile ops k e o) (op : Op) (hop : toOp compile ops o = some op) (st : St) (before : List Element) :
    Placeable st.vec ⟨meaning (drawing ops st) before e, op.current st.vec⟩ op ↔ Needs compile (drawing ops st) before e o.cls := by
  have ref := h.ref
  have formula := h.formula
  have name := h.name
  cases hcls : o.cls with
  | single =>
    rw [hcls] at ref formula name
    obtain ⟨n, n1, n2⟩ := name rfl
    obtain ⟨tx, x1, x2⟩ := formula ⟨"x", "x", .formula⟩ (by simp [Valentina.table]) rfl
    obtain ⟨ty, y1, y2⟩ := formula ⟨"y", "y", .formula⟩ (by simp [Valentina.table]) rfl
    simp only at x1 x2 y1 y2
    simp only [toOp, hcls, n1, x2, y2, Option.bind_eq_bind, Option.bind_some, Option.pure_def, Option.some.injEq] at hop
    subst hop
    simp only [Placeable, Needs, Op.current, List.forall_mem_cons, HasValue, value_iff x1, value_iff y1]
    simp
  | alongLine =>
    rw [hcls] at ref formula name
    obtain ⟨n, n1, n2⟩ := name rfl
    obtain ⟨i1, j1, a1, a2, a3, a4⟩ := ref ⟨"first_point", "firstPoint", .reference⟩ (by simp [Valentina.table, Valentina.pairRows]) rfl
    obtain ⟨i2, j2, b1, b2, b3, b4⟩ := ref ⟨"second_point", "secondPoint", .reference⟩ (by simp [Valentina.table, Valentina.pairRows]) rfl
    obtain ⟨tx, x1, x2⟩ := formula ⟨"length", "length", .formula⟩ (by simp [Valentina.table]) rfl
    simp only at x1 x2 a1 a2 b1 b2
    simp only [toOp, hcls, n1, x2, a2, b2, Option.bind_eq_bind, Option.bind_some, Option.pure_def, Option.some.injEq] at hop
    subst hop
    simp only [Placeable, Needs, Op.current, HasValue, value_iff x1, ref_iff st a1 a3, ref_iff st b1 b3]
    constructor
    · rintro ⟨⟨a, b, h1, h2, h3⟩, h4⟩
      simp only [h1, h2, Option.bind_eq_bind, Option.bind_some, Option.pure_def] at h4
      exact ⟨a, b, h1, h2, h3, h4⟩
    · rintro ⟨a, b, h1, h2, h3, h4⟩
      refine ⟨⟨a, b, h1, h2, h3⟩, ?_⟩
      simpa only [h1, h2, Option.bind_eq_bind, Option.bind_some, Option.pure_def] using h4
  | endLine =>
    rw [hcls] at ref formula name
    obtain ⟨n, n1, n2⟩ := name rfl
    obtain ⟨i1, j1, a1, a2, a3, a4⟩ := ref ⟨"base_point", "basePoint", .reference⟩ (by simp [Valentina.table]) rfl
    obtain ⟨tx, x1, x2⟩ := formula ⟨"angle", "angle", .formula⟩ (by simp [Valentina.table]) rfl
    obtain ⟨ty, y1, y2⟩ := formula ⟨"length", "length", .formula⟩ (by simp [Valentina.table]) rfl
    simp only at x1 x2 y1 y2 a1 a2
    simp only [toOp, hcls, n1, x2, y2, a2, Option.bind_eq_bind, Option.bind_some, Option.pure_def, Option.some.injEq] at hop
    subst hop
    simp only [Placeable, Needs, Op.current, List.forall_mem_cons, HasValue, HasPlace, value_iff x1, value_iff y1, ref_iff st a1 a3]
    simp
  | lineIntersect =>
    rw [hcls] at ref formula name
    obtain ⟨n, n1, n2⟩ := name rfl
    obtain ⟨i1, j1, a1, a2, a3, a4⟩ := ref ⟨"point1_line1", "p1Line1", .reference⟩ (by simp [Valentina.table]) rfl
    obtain ⟨i2, j2, b1, b2, b3, b4⟩ := ref ⟨"point2_line1", "p2Line1", .reference⟩ (by simp [Valentina.table]) rfl
    obtain ⟨i3, j3, c1, c2, c3, c4⟩ := ref ⟨"point1_line2", "p1Line2", .reference⟩ (by simp [Valentina.table]) rfl
    obtain ⟨i4, j4, d1, d2, d3, d4⟩ := ref ⟨"point2_line2", "p2Line2", .reference⟩ (by simp [Valentina.table]) rfl
    simp only at a1 a2 b1 b2 c1 c2 d1 d2
    simp only [toOp, hcls, n1, a2, b2, c2, d2, Option.bind_eq_bind, Option.bind_some, Option.pure_def, Option.some.injEq] at hop
    subst hop
    simp only [Placeable, Needs, List.forall_mem_cons, HasPlace, ref_iff st a1 a3, ref_iff st b1 b3, ref_iff st c1 c3, ref_iff st d1 d3]
    simp
  | normal =>
    rw [hcls] at ref formula name
    obtain ⟨n, n1, n2⟩ := name rfl
    obtain ⟨i1, j1, a1, a2, a3, a4⟩ := ref ⟨"first_point", "firstPoint", .reference⟩ (by simp [Valentina.table, Valentina.pairRows]) rfl
    obtain ⟨i2, j2, b1, b2, b3, b4⟩ := ref ⟨"second_point", "secondPoint", .reference⟩ (by simp [Valentina.table, Valentina.pairRows]) rfl
    obtain ⟨tx, x1, x2⟩ := formula ⟨"angle", "angle", .formula⟩ (by simp [Valentina.table]) rfl
    obtain ⟨ty, y1, y2⟩ := formula ⟨"length", "length", .formula⟩ (by simp [Valentina.table]) rfl
    simp only at x1 x2 y1 y2 a1 a2 b1 b2
    simp only [toOp, hcls, n1, x2, y2, a2, b2, Option.bind_eq_bind, Option.bind_some, Option.pure_def, Option.some.injEq] at hop
    subst hop
    simp only [Placeable, Needs, Op.current, HasValue, List.forall_mem_cons, value_iff x1, value_iff y1, ref_iff st a1 a3, ref_iff st b1 b3]
    constructor
    · rintro ⟨⟨a, b, h1, h2, h3⟩, h4, h5⟩
      simp only [h1, h2, Option.bind_eq_bind, Option.bind_some, Option.pure_def] at h4 h5
      exact ⟨a, b, h1, h2, h3, h4, h5, by simp⟩
    · rintro ⟨a, b, h1, h2, h3, h4, h5, -⟩
      refine ⟨⟨a, b, h1, h2, h3⟩, ?_⟩
      simpa only [h1, h2, Option.bind_eq_bind, Option.bind_some, Option.pure_def] using ⟨h4, h5⟩
  | pointOfContact =>
    rw [hcls] at ref formula name
    obtain ⟨n, n1, n2⟩ := name rfl
    obtain ⟨i1, j1, a1, a2, a3, a4⟩ := ref ⟨"first_point", "firstPoint", .reference⟩ (by simp [Valentina.table, Valentina.pairRows]) rfl
    obtain ⟨i2, j2, b1, b2, b3, b4⟩ := ref ⟨"second_point", "secondPoint", .reference⟩ (by simp [Valentina.table, Valentina.pairRows]) rfl
    obtain ⟨i3, j3, c1, c2, c3, c4⟩ := ref ⟨"center", "center", .reference⟩ (by simp [Valentina.table]) rfl
    obtain ⟨tx, x1, x2⟩ := formula ⟨"radius", "radius", .formula⟩ (by simp [Valentina.table]) rfl
    simp only at x1 x2 a1 a2 b1 b2 c1 c2
    simp only [toOp, hcls, n1, x2, a2, b2, c2, Option.bind_eq_bind, Option.bind_some, Option.pure_def, Option.some.injEq] at hop
    subst hop
    simp only [Placeable, Needs, Op.current, value_iff x1, ref_iff st a1 a3, ref_iff st b1 b3, ref_iff st c1 c3]
  | pointOfIntersection =>
    rw [hcls] at ref formula name
    obtain ⟨n, n1, n2⟩ := name rfl
    obtain ⟨i1, j1, a1, a2, a3, a4⟩ := ref ⟨"first_point", "firstPoint", .reference⟩ (by simp [Valentina.table, Valentina.pairRows]) rfl
    obtain ⟨i2, j2, b1, b2, b3, b4⟩ := ref ⟨"second_point", "secondPoint", .reference⟩ (by simp [Valentina.table, Valentina.pairRows]) rfl
    simp only at a1 a2 b1 b2
    simp only [toOp, hcls, n1, a2, b2, Option.bind_eq_bind, Option.bind_some, Option.pure_def, Option.some.injEq] at hop
    subst hop
    simp only [Placeable, Needs, List.forall_mem_cons, HasPlace, ref_iff st a1 a3, ref_iff st b1 b3]
    simp
  | line =>
    rw [hcls] at ref
    obtain ⟨i1, j1, a1, a2, a3, a4⟩ := ref ⟨"first_point", "firstPoint", .reference⟩ (by simp [Valentina.table, Valentina.pairRows]) rfl
    obtain ⟨i2, j2, b1, b2, b3, b4⟩ := ref ⟨"second_point", "secondPoint", .reference⟩ (by simp [Valentina.table, Valentina.pairRows]) rfl
    simp only at a1 a2 b1 b2
    simp only [toOp, hcls, a2, b2, Option.bind_eq_bind, Option.bind_some, Option.pure_def, Option.some.injEq] at hop
    subst hop
    exact Iff.rfl
  | spline =>
    rw [hcls] at ref formula
    obtain ⟨i1, j1, a1, a2, a3, a4⟩ := ref ⟨"first_point", "point1", .reference⟩ (by simp [Valentina.table]) rfl
    obtain ⟨i2, j2, b1, b2, b3, b4⟩ := ref ⟨"second_point", "point4", .reference⟩ (by simp [Valentina.table]) rfl
    obtain ⟨t1, x1, x2⟩ := formula ⟨"angle1", "angle1", .formula⟩ (by simp [Valentina.table]) rfl
    obtain ⟨t2, y1, y2⟩ := formula ⟨"length1", "length1", .formula⟩ (by simp [Valentina.table]) rfl
    obtain ⟨t3, z1, z2⟩ := formula ⟨"angle2", "angle2", .formula⟩ (by simp [Valentina.table]) rfl
    obtain ⟨t4, w1, w2⟩ := formula ⟨"length2", "length2", .formula⟩ (by simp [Valentina.table]) rfl
    simp only at a1 a2 b1 b2 x1 x2 y1 y2 z1 z2 w1 w2
    simp only [toOp, hcls, a2, b2, x2, y2, z2, w2, Option.bind_eq_bind, Option.bind_some, Option.pure_def, Option.some.injEq] at hop
    subst hop
    simp only [Placeable, Needs, Op.current, List.forall_mem_cons, HasValue, HasPlace, value_iff x1, value_iff y1, value_iff z1, value_iff w1,
      ref_iff st a1 a3, ref_iff st b1 b3]
    simp

/-- C229. A Valentina file whose calculations are read is evaluated exactly when each of the calculations has what it needs, in the drawing that the
calculations before it gave. -/
theorem file_evaluates_iff (compile : Text → Expr) (hp : ∀ t err, env.parse t = .error err → err = .valueError) (counter : Int)
    (es : List Element) (s : Sketch F) (h : Sketch.read env { counter := counter } es = (s, .ok ())) (hc : ∀ e ∈ es, Complete e)
    (ops : List Op) (hops : toOps compile s.ops = some ops) :
    (∃ st, evalSketch St.empty ops = .ok st) ↔
      ∀ before e after c, implemented es = before ++ e :: after → IsClass e c →
        ∃ st, evalSketch St.empty (ops.take before.length) = .ok st ∧ Needs compile (drawing s.ops st) before e c := by
  have hr := Valentina.read_describes hp counter es s h
  obtain ⟨ops', h1, h2, h3⟩ := to_ops (compile := compile) hr hc
  rw [hops] at h1
  cases h1
  obtain ⟨ops', k1, -, hw⟩ := file_well_formed compile hp counter es s h hc
  rw [hops] at k1
  cases k1
  rw [SketchGeometry.sketch_evaluates_iff ops hw]
  have key : ∀ before e after, implemented es = before ++ e :: after → ∃ op o, ops[before.length]? = some op ∧ IsClass e o ∧ ∀ st : St,
      Placeable st.vec ⟨visible ops st.vec before.length, op.current st.vec⟩ op ↔ Needs compile (drawing s.ops st) before e o := by
    intro before e after hb
    obtain ⟨o, op, g1, g2, g3, g4, g5⟩ := h3 _ _ _ hb
    obtain ⟨op', m1, m2, m3, m4⟩ := made_op g4 g5
    rw [g2] at m1
    cases m1
    refine ⟨op, o.cls, g3, g5.isClass, fun st => ?_⟩
    rw [← made_needs g5 op g2 st before]
    have hm : visible ops st.vec before.length = meaning (drawing s.ops st) before e := by
      funext n
      unfold visible meaning
      rw [List.range_succ, List.reverse_append, List.reverse_singleton, List.singleton_append, List.find?_cons]
      have hown : (ops[before.length]?.bind Op.name = some n) ↔ IsPoint e n := by
        rw [g3]
        exact m3 n
      by_cases hn : IsPoint e n
      · rw [if_pos hn]
        have := hown.2 hn
        simp [this]
      · rw [if_neg hn]
        have : ¬ (ops[before.length]?.bind Op.name = some n) := fun h => hn (hown.1 h)
        simp only [this, decide_false]
        refine find_range _ _ _ _ before fun j p hj => ?_
        have hjl := (List.getElem?_eq_some_iff.1 hj).1
        have hje := (List.getElem?_eq_some_iff.1 hj).2
        obtain ⟨o2, op2, q1, q2, q3, q4, q5⟩ := h3 (before.take j) p (before.drop (j + 1) ++ e :: after) (by
          rw [hb]
          conv_lhs => rw [split_at before j hjl]
          rw [hje]
          simp)
        have hl : (before.take j).length = j := by rw [List.length_take]; omega
        rw [hl] at q1 q3 q4 q5
        obtain ⟨op3, w1, -, w2, -⟩ := made_op q4 q5
        rw [q2] at w1
        cases w1
        refine ⟨?_, ?_⟩
        · rw [q3]
          simp only [Option.bind_some]
          congr 1
          exact propext (w2 n)
        · rw [if_pos hjl, q5.id]
          simp only [Option.bind_some, drawing, q4]
    rw [hm]
  constructor
  · intro hall before e after c hb he
    obtain ⟨op, cls, g1, g2, g3⟩ := key before e after hb
    obtain ⟨st, e1, e2⟩ := hall before.length op g1
    cases Valentina.isClass_unique he g2
    exact ⟨st, e1, (g3 st).1 e2⟩
  · intro hall i op hi
    have hlt : i < (implemented es).length := by rw [← h2]; exact (List.getElem?_eq_some_iff.1 hi).1
    have hl : ((implemented es).take i).length = i := by rw [List.length_take]; omega
    obtain ⟨op', cls, g1, g2, g3⟩ := key _ _ _ (split_at _ i hlt)
    rw [hl, hi] at g1
    cases g1
    obtain ⟨st, e1, e2⟩ := hall _ _ _ cls (split_at _ i hlt) g2
    rw [hl] at e1
    have := (g3 st).2 e2
    rw [hl] at this
    exact ⟨st, e1, this⟩

/-- The hypotheses are met by a file which is evaluated, and each of its calculations has what it needs. -/
example : ∃ s ops, Sketch.read Valentina.toyEnv { counter := 0 } Valentina.toyElements = (s, .ok ()) ∧ toOps toyCompile s.ops = some ops ∧
    (∃ st, evalSketch St.empty ops = .ok st) ∧
    ∀ before e after c, implemented Valentina.toyElements = before ++ e :: after → IsClass e c →
      ∃ st, evalSketch St.empty (ops.take before.length) = .ok st ∧ Needs toyCompile (drawing s.ops st) before e c := by
  obtain ⟨s, ops, st, h1, h2, h3, h4, -⟩ := toyPlaces
  refine ⟨s, ops, h1, h2, ⟨st, h3⟩, (file_evaluates_iff toyCompile ?_ 0 _ s h1 h4 ops h2).1 ⟨st, h3⟩⟩
  exact fun _ _ h => Valentina.intFromText_error h

end Patro.ValPlaces

import Verif.Spec.ValPlaces
import Verif.Props.Valentina
import Verif.Props.SketchGeometry
/-! # The places of the points of a Valentina file (C218, C219) -/

set_option linter.unusedSimpArgs false
set_option linter.unusedVariables false

namespace Patro.ValPlaces

open Valentina (Operation Sketch Class Element IsClass NotImplemented Reading Describes)
open SketchGeometry (Expr Op St AtFrom direction Satisfies WellFormed visible evalSketch sketch_satisfies sketch_values)
open Xml (Text)

variable {F : Type} {env : Valentina.Env F}

/-! ## The operations and the elements -/

theorem implemented_skip {e : Element} (es : List Element) (h : NotImplemented e) : implemented (e :: es) = implemented es := by
  simp [implemented, h]

theorem implemented_read {e : Element} (es : List Element) (h : ¬ NotImplemented e) : implemented (e :: es) = e :: implemented es := by
  simp [implemented, h]

theorem reading_at {counter : Int} {earlier : List (Operation F)} {es : List Element} {ops : List (Operation F)}
    (h : Reading env counter earlier es ops) : (implemented es).length = ops.length ∧
      ∀ before e after, implemented es = before ++ e :: after → ∃ o c, ops[before.length]? = some o ∧
        Describes env c (earlier ++ ops.take before.length) e o := by
  induction h with
  | nil => exact ⟨rfl, fun before e after h => by simp [implemented] at h⟩
  | skip hn _ ih => rw [implemented_skip _ hn]; exact ih
  | @read counter earlier e es o ops hd hf _ ih =>
    rw [implemented_read es (Valentina.not_both hd.isClass)]
    refine ⟨by simp [ih.1], fun before e' after hb => ?_⟩
    cases before with
    | nil =>
      simp only [List.nil_append, List.cons.injEq] at hb
      obtain ⟨rfl, -⟩ := hb
      exact ⟨o, counter, rfl, by simpa using hd⟩
    | cons b before =>
      simp only [List.cons_append, List.cons.injEq] at hb
      obtain ⟨o', c, h1, h2⟩ := ih.2 before e' after hb.2
      exact ⟨o', c, by simpa using h1, by simpa using h2⟩

theorem reading_ids {counter : Int} {earlier : List (Operation F)} {es : List Element} {ops : List (Operation F)}
    (h : Reading env counter earlier es ops) : (ops.map Operation.id).Pairwise (· < ·) ∧ ∀ o ∈ ops, counter < o.id := by
  induction h with
  | nil => exact ⟨.nil, by simp⟩
  | skip _ _ ih => exact ih
  | @read counter earlier e es o ops hd _ _ ih =>
    have := Valentina.newId_lt hd.id
    refine ⟨?_, fun p hp => ?_⟩
    · rw [List.map_cons, List.pairwise_cons]
      refine ⟨fun i hi => ?_, ih.1⟩
      obtain ⟨p, hp, rfl⟩ := List.mem_map.1 hi
      exact ih.2 p hp
    · rcases List.mem_cons.1 hp with rfl | hp
      · exact this
      · exact lt_trans this (ih.2 p hp)

theorem number_of {ops : List (Operation F)} (h : (ops.map Operation.id).Pairwise (· < ·)) {k : Nat} {o : Operation F}
    (ho : ops[k]? = some o) : number ops o.id = some k := by
  unfold number
  obtain ⟨hk, rfl⟩ := List.getElem?_eq_some_iff.1 ho
  rw [List.findIdx?_eq_some_iff_getElem]
  refine ⟨hk, by simp, fun j hj => ?_⟩
  have := List.pairwise_iff_getElem.1 h j k (by simp; omega) (by simpa using hk) hj
  simp only [List.getElem_map] at this
  simp
  omega

theorem number_take {ops : List (Operation F)} (h : (ops.map Operation.id).Pairwise (· < ·)) {k : Nat} {p : Operation F}
    (hp : p ∈ ops.take k) : ∃ j, number ops p.id = some j ∧ j < k := by
  obtain ⟨j, hj, rfl⟩ := List.mem_iff_getElem.1 hp
  rw [List.length_take] at hj
  have : ops[j]? = some ((ops.take k)[j]'(by rw [List.length_take]; exact hj)) := by
    rw [List.getElem_take, List.getElem?_eq_getElem]
  exact ⟨j, number_of h this, by omega⟩

/-- The operation of number `k` is made from the element `e`: what the proofs use of `Describes`. -/
structure Made (compile : Text → Expr) (ops : List (Operation F)) (k : Nat) (e : Element) (o : Operation F) : Prop where
  isClass : IsClass e o.cls
  id : idAttr e "id" = some o.id
  name : o.cls.isPoint = true → ∃ n, nameOf o = some n ∧ (e.attrib.get? "name").map String.ofList = some n
  ref : ∀ r ∈ Valentina.table o.cls, r.meaning = .reference → ∃ i j, idAttr e r.xml = some i ∧ refOf ops o r.py = some j ∧
    number ops i = some j ∧ j < k
  formula : ∀ r ∈ Valentina.table o.cls, r.meaning = .formula → ∃ t, e.attrib.get? r.xml = some t ∧
    exprOf compile o r.py = some (compile t)

theorem made_of {compile : Text → Expr} {ops : List (Operation F)} {k : Nat} {e : Element} {o : Operation F} {c : Int}
    (hids : (ops.map Operation.id).Pairwise (· < ·)) (hd : Describes env c (ops.take k) e o) (hc : Complete e) :
    Made compile ops k e o := by
  obtain ⟨h1, h2, h3⟩ := hc o.cls hd.isClass
  refine ⟨hd.isClass, ?_, fun hp => ?_, fun r hr hm => ?_, fun r hr hm => ?_⟩
  · obtain ⟨t, ht⟩ := Option.isSome_iff_exists.1 h1
    have := hd.id
    rw [ht] at this
    unfold idAttr
    rw [ht]
    simp only [this.1]
    rfl
  · obtain ⟨t, ht⟩ := Option.isSome_iff_exists.1 (h2 hp)
    have hr := Valentina.name_row hp
    obtain ⟨v, hv, hh⟩ := hd.rows _ hr
    rw [ht] at hv
    simp only [Valentina.Says, Option.map_some] at hv
    refine ⟨String.ofList t, ?_, by rw [ht]; rfl⟩
    unfold nameOf
    unfold Operation.Has at hh
    rw [hh, hv]
  · obtain ⟨t, ht⟩ := Option.isSome_iff_exists.1 (h3 r.xml (List.mem_map.2 ⟨r, by simp [List.mem_filter, hr, hm], rfl⟩))
    obtain ⟨v, hv, hh⟩ := hd.rows _ hr
    rw [hm, ht] at hv
    obtain ⟨i, ⟨hi, p, hp, hpi⟩, rfl⟩ := hv
    subst hpi
    obtain ⟨j, hj, hjk⟩ := number_take hids hp
    refine ⟨p.id, j, ?_, ?_, hj, hjk⟩
    · unfold idAttr
      rw [ht]
      simp only [hi]
      rfl
    · unfold refOf
      unfold Operation.Has at hh
      rw [hh]
      exact hj
  · obtain ⟨t, ht⟩ := Option.isSome_iff_exists.1 (h3 r.xml (List.mem_map.2 ⟨r, by simp [List.mem_filter, hr, hm], rfl⟩))
    obtain ⟨v, hv, hh⟩ := hd.rows _ hr
    rw [hm, ht] at hv
    simp only [Valentina.Says, Option.getD_some] at hv
    refine ⟨t, ht, ?_⟩
    unfold exprOf
    unfold Operation.Has at hh
    rw [hh, hv]

/-- The operation that is evaluated, and what its geometric definition says of the element. -/
theorem made_op {compile : Text → Expr} {ops : List (Operation F)} {k : Nat} {e : Element} {o : Operation F}
    (hk : number ops o.id = some k) (h : Made compile ops k e o) : ∃ op, toOp compile ops o = some op ∧ (∀ j ∈ op.refs, j < k) ∧
      (∀ n, op.name = some n ↔ IsPoint e n) ∧
      ∀ (st : St) (before : List Element), Satisfies st.vec st.ctrl st.value k op →
        (∀ slot ex, op.exprs[slot]? = some ex → ∃ v, st.value k slot = some v ∧
          ex ⟨meaning (drawing ops st) before e, op.current st.vec⟩ = .ok v) →
        Says compile (drawing ops st) before e o.cls := by
  have hname : ∀ n, nameOf o = some n → o.cls.isPoint = true → ∀ m, some n = some m ↔ IsPoint e m := by
    intro n hn hp m
    obtain ⟨n', h1, h2⟩ := h.name hp
    rw [hn] at h1
    cases h1
    constructor
    · intro hm
      cases hm
      exact ⟨o.cls, hp, h.isClass, h2⟩
    · rintro ⟨c, -, -, h3⟩
      rw [h2] at h3
      exact h3
  have hnot : o.cls.isPoint = false → ∀ m, (none : Option String) = some m ↔ IsPoint e m := by
    intro hp m
    constructor
    · intro h; cases h
    rintro ⟨c, h1, h2, -⟩
    have := Valentina.isClass_unique h.isClass h2
    rw [this] at hp
    rw [hp] at h1
    cases h1
  have hplace : ∀ st : St, place (drawing ops st) e = st.vec k := by
    intro st
    unfold place
    rw [h.id]
    simp only [Option.bind_some, drawing, hk]
  have hctrl : ∀ st : St, (idAttr e "id").bind (drawing ops st).control = st.ctrl k := by
    intro st
    rw [h.id]
    simp only [Option.bind_some, drawing, hk]
  have href : ∀ (st : St) (attr : String) (i : Int) (j : Nat) (p : Vec ℝ), idAttr e attr = some i → number ops i = some j →
      st.vec j = some p → Ref (drawing ops st) e attr p := by
    intro st attr i j p h1 h2 h3
    refine ⟨i, h1, ?_⟩
    simp only [drawing, h2, Option.bind_some, h3]
  have ref := h.ref
  have formula := h.formula
  have name := h.name
  cases hcls : o.cls with
  | single =>
    rw [hcls] at ref formula name hname
    obtain ⟨n, n1, n2⟩ := name rfl
    obtain ⟨tx, x1, x2⟩ := formula ⟨"x", "x", .formula⟩ (by simp [Valentina.table]) rfl
    obtain ⟨ty, y1, y2⟩ := formula ⟨"y", "y", .formula⟩ (by simp [Valentina.table]) rfl
    simp only at x1 x2 y1 y2
    refine ⟨.single n (compile tx) (compile ty), by simp [toOp, hcls, n1, x2, y2], by simp [Op.refs], hname n n1 rfl, ?_⟩
    intro st before hs hv
    obtain ⟨x, y, s1, s2, s3⟩ := hs
    obtain ⟨x', v1, v2⟩ := hv 0 _ rfl
    obtain ⟨y', v3, v4⟩ := hv 1 _ rfl
    rw [s1] at v1; cases v1
    rw [s2] at v3; cases v3
    exact ⟨x, y, ⟨tx, x1, v2⟩, ⟨ty, y1, v4⟩, (hplace st).trans s3⟩
  | alongLine =>
    rw [hcls] at ref formula name hname
    obtain ⟨n, n1, n2⟩ := name rfl
    obtain ⟨i1, j1, a1, a2, a3, a4⟩ := ref ⟨"first_point", "firstPoint", .reference⟩ (by simp [Valentina.table, Valentina.pairRows]) rfl
    obtain ⟨i2, j2, b1, b2, b3, b4⟩ := ref ⟨"second_point", "secondPoint", .reference⟩ (by simp [Valentina.table, Valentina.pairRows]) rfl
    obtain ⟨tx, x1, x2⟩ := formula ⟨"length", "length", .formula⟩ (by simp [Valentina.table]) rfl
    simp only at x1 x2 a1 a2 b1 b2
    refine ⟨.along n j1 j2 (compile tx), by simp [toOp, hcls, n1, x2, a2, b2], by simp [Op.refs]; omega, hname n n1 rfl, ?_⟩
    intro st before hs hv
    obtain ⟨a, b, l, p, s1, s2, s3, s4, s5⟩ := hs
    obtain ⟨x', v1, v2⟩ := hv 0 _ rfl
    rw [s3] at v1; cases v1
    refine ⟨a, b, l, p, href st _ _ _ _ a1 a3 s1, href st _ _ _ _ b1 b3 s2, ⟨tx, x1, ?_⟩, (hplace st).trans s4, s5⟩
    simpa [Op.current, s1, s2] using v2
  | endLine =>
    rw [hcls] at ref formula name hname
    obtain ⟨n, n1, n2⟩ := name rfl
    obtain ⟨i1, j1, a1, a2, a3, a4⟩ := ref ⟨"base_point", "basePoint", .reference⟩ (by simp [Valentina.table]) rfl
    obtain ⟨tx, x1, x2⟩ := formula ⟨"angle", "angle", .formula⟩ (by simp [Valentina.table]) rfl
    obtain ⟨ty, y1, y2⟩ := formula ⟨"length", "length", .formula⟩ (by simp [Valentina.table]) rfl
    simp only at x1 x2 y1 y2 a1 a2
    refine ⟨.endLine n j1 (compile tx) (compile ty), by simp [toOp, hcls, n1, x2, y2, a2], by simp [Op.refs]; omega, hname n n1 rfl, ?_⟩
    intro st before hs hv
    obtain ⟨a, angle, l, p, s1, s2, s3, s4, s5⟩ := hs
    obtain ⟨x', v1, v2⟩ := hv 0 _ rfl
    obtain ⟨y', v3, v4⟩ := hv 1 _ rfl
    rw [s2] at v1; cases v1
    rw [s3] at v3; cases v3
    exact ⟨a, angle, l, href st _ _ _ _ a1 a3 s1, ⟨tx, x1, v2⟩, ⟨ty, y1, v4⟩, ((hplace st).trans s4).trans (congrArg some s5)⟩
  | lineIntersect =>
    rw [hcls] at ref formula name hname
    obtain ⟨n, n1, n2⟩ := name rfl
    obtain ⟨i1, j1, a1, a2, a3, a4⟩ := ref ⟨"point1_line1", "p1Line1", .reference⟩ (by simp [Valentina.table]) rfl
    obtain ⟨i2, j2, b1, b2, b3, b4⟩ := ref ⟨"point2_line1", "p2Line1", .reference⟩ (by simp [Valentina.table]) rfl
    obtain ⟨i3, j3, c1, c2, c3, c4⟩ := ref ⟨"point1_line2", "p1Line2", .reference⟩ (by simp [Valentina.table]) rfl
    obtain ⟨i4, j4, d1, d2, d3, d4⟩ := ref ⟨"point2_line2", "p2Line2", .reference⟩ (by simp [Valentina.table]) rfl
    simp only at a1 a2 b1 b2 c1 c2 d1 d2
    refine ⟨.lineIntersect n j1 j2 j3 j4, by simp [toOp, hcls, n1, a2, b2, c2, d2], by simp [Op.refs]; omega, hname n n1 rfl, ?_⟩
    intro st before hs hv
    obtain ⟨a, b, c, d, s1, s2, s3, s4, s5, s6⟩ := hs
    refine ⟨a, b, c, d, href st _ _ _ _ a1 a3 s1, href st _ _ _ _ b1 b3 s2, href st _ _ _ _ c1 c3 s3, href st _ _ _ _ d1 d3 s4, ?_, ?_⟩
    · rw [hplace]; exact s5
    · rw [hplace]; exact s6
  | normal =>
    rw [hcls] at ref formula name hname
    obtain ⟨n, n1, n2⟩ := name rfl
    obtain ⟨i1, j1, a1, a2, a3, a4⟩ := ref ⟨"first_point", "firstPoint", .reference⟩ (by simp [Valentina.table, Valentina.pairRows]) rfl
    obtain ⟨i2, j2, b1, b2, b3, b4⟩ := ref ⟨"second_point", "secondPoint", .reference⟩ (by simp [Valentina.table, Valentina.pairRows]) rfl
    obtain ⟨tx, x1, x2⟩ := formula ⟨"angle", "angle", .formula⟩ (by simp [Valentina.table]) rfl
    obtain ⟨ty, y1, y2⟩ := formula ⟨"length", "length", .formula⟩ (by simp [Valentina.table]) rfl
    simp only at x1 x2 y1 y2 a1 a2 b1 b2
    refine ⟨.normal n j1 j2 (compile tx) (compile ty), by simp [toOp, hcls, n1, x2, y2, a2, b2], by simp [Op.refs]; omega,
      hname n n1 rfl, ?_⟩
    intro st before hs hv
    obtain ⟨a, b, angle, l, p, s1, s2, s3, s4, s5, s6⟩ := hs
    obtain ⟨x', v1, v2⟩ := hv 0 _ rfl
    obtain ⟨y', v3, v4⟩ := hv 1 _ rfl
    rw [s3] at v1; cases v1
    rw [s4] at v3; cases v3
    refine ⟨a, b, angle, l, p, href st _ _ _ _ a1 a3 s1, href st _ _ _ _ b1 b3 s2, ⟨tx, x1, ?_⟩, ⟨ty, y1, ?_⟩, (hplace st).trans s5, s6⟩
    · simpa [Op.current, s1, s2] using v2
    · simpa [Op.current, s1, s2] using v4
  | pointOfContact =>
    rw [hcls] at ref formula name hname
    obtain ⟨n, n1, n2⟩ := name rfl
    obtain ⟨i1, j1, a1, a2, a3, a4⟩ := ref ⟨"first_point", "firstPoint", .reference⟩ (by simp [Valentina.table, Valentina.pairRows]) rfl
    obtain ⟨i2, j2, b1, b2, b3, b4⟩ := ref ⟨"second_point", "secondPoint", .reference⟩ (by simp [Valentina.table, Valentina.pairRows]) rfl
    obtain ⟨i3, j3, c1, c2, c3, c4⟩ := ref ⟨"center", "center", .reference⟩ (by simp [Valentina.table]) rfl
    obtain ⟨tx, x1, x2⟩ := formula ⟨"radius", "radius", .formula⟩ (by simp [Valentina.table]) rfl
    simp only at x1 x2 a1 a2 b1 b2 c1 c2
    refine ⟨.contact n j1 j2 j3 (compile tx), by simp [toOp, hcls, n1, x2, a2, b2, c2], by simp [Op.refs]; omega, hname n n1 rfl, ?_⟩
    intro st before hs hv
    obtain ⟨a, b, c, r, s1, s2, s3, s4, s5, s6⟩ := hs
    obtain ⟨x', v1, v2⟩ := hv 0 _ rfl
    rw [s4] at v1; cases v1
    refine ⟨a, b, c, r, href st _ _ _ _ a1 a3 s1, href st _ _ _ _ b1 b3 s2, href st _ _ _ _ c1 c3 s3, ⟨tx, x1, v2⟩, ?_, ?_⟩
    · rw [hplace]; exact s5
    · rw [hplace]; exact s6
  | pointOfIntersection =>
    rw [hcls] at ref formula name hname
    obtain ⟨n, n1, n2⟩ := name rfl
    obtain ⟨i1, j1, a1, a2, a3, a4⟩ := ref ⟨"first_point", "firstPoint", .reference⟩ (by simp [Valentina.table, Valentina.pairRows]) rfl
    obtain ⟨i2, j2, b1, b2, b3, b4⟩ := ref ⟨"second_point", "secondPoint", .reference⟩ (by simp [Valentina.table, Valentina.pairRows]) rfl
    simp only at a1 a2 b1 b2
    refine ⟨.intersection n j1 j2, by simp [toOp, hcls, n1, a2, b2], by simp [Op.refs]; omega, hname n n1 rfl, ?_⟩
    intro st before hs hv
    obtain ⟨a, b, s1, s2, s3⟩ := hs
    exact ⟨a, b, href st _ _ _ _ a1 a3 s1, href st _ _ _ _ b1 b3 s2, (hplace st).trans s3⟩
  | line =>
    rw [hcls] at ref hnot
    obtain ⟨i1, j1, a1, a2, a3, a4⟩ := ref ⟨"first_point", "firstPoint", .reference⟩ (by simp [Valentina.table, Valentina.pairRows]) rfl
    obtain ⟨i2, j2, b1, b2, b3, b4⟩ := ref ⟨"second_point", "secondPoint", .reference⟩ (by simp [Valentina.table, Valentina.pairRows]) rfl
    simp only at a1 a2 b1 b2
    exact ⟨.line j1 j2, by simp [toOp, hcls, a2, b2], by simp [Op.refs]; omega, hnot rfl, fun _ _ _ _ => trivial⟩
  | spline =>
    rw [hcls] at ref formula hnot
    obtain ⟨i1, j1, a1, a2, a3, a4⟩ := ref ⟨"first_point", "point1", .reference⟩ (by simp [Valentina.table]) rfl
    obtain ⟨i2, j2, b1, b2, b3, b4⟩ := ref ⟨"second_point", "point4", .reference⟩ (by simp [Valentina.table]) rfl
    obtain ⟨t1, x1, x2⟩ := formula ⟨"angle1", "angle1", .formula⟩ (by simp [Valentina.table]) rfl
    obtain ⟨t2, y1, y2⟩ := formula ⟨"length1", "length1", .formula⟩ (by simp [Valentina.table]) rfl
    obtain ⟨t3, z1, z2⟩ := formula ⟨"angle2", "angle2", .formula⟩ (by simp [Valentina.table]) rfl
    obtain ⟨t4, w1, w2⟩ := formula ⟨"length2", "length2", .formula⟩ (by simp [Valentina.table]) rfl
    simp only at a1 a2 b1 b2 x1 x2 y1 y2 z1 z2 w1 w2
    refine ⟨.spline j1 j2 (compile t1) (compile t2) (compile t3) (compile t4), by simp [toOp, hcls, a2, b2, x2, y2, z2, w2],
      by simp [Op.refs]; omega, hnot rfl, ?_⟩
    intro st before hs hv
    obtain ⟨a, b, a1', l1, a2', l2, s1, s2, s3, s4, s5, s6, s7⟩ := hs
    obtain ⟨_, v1, v2⟩ := hv 0 _ rfl
    obtain ⟨_, v3, v4⟩ := hv 1 _ rfl
    obtain ⟨_, v5, v6⟩ := hv 2 _ rfl
    obtain ⟨_, v7, v8⟩ := hv 3 _ rfl
    rw [s3] at v1; cases v1
    rw [s4] at v3; cases v3
    rw [s5] at v5; cases v5
    rw [s6] at v7; cases v7
    exact ⟨a, b, a1', l1, a2', l2, href st _ _ _ _ a1 a3 s1, href st _ _ _ _ b1 b3 s2, ⟨t1, x1, v2⟩, ⟨t2, y1, v4⟩, ⟨t3, z1, v6⟩,
      ⟨t4, w1, v8⟩, (hctrl st).trans s7⟩


/-! ## The names -/

theorem find_range {α β : Type} (p : Nat → Bool) (q : α → Bool) (f : Nat → β) (g : α → β) (l : List α)
    (h : ∀ j a, l[j]? = some a → p j = q a ∧ f j = g a) :
    ((List.range l.length).reverse.find? p).map f = (l.reverse.find? q).map g := by
  induction l using List.reverseRecOn with
  | nil => rfl
  | append_singleton l a ih =>
    have ha := h l.length a (by simp)
    have ih := ih fun j b hb => h j b (by
      rw [List.getElem?_append_left (List.getElem?_eq_some_iff.1 hb).1]; exact hb)
    rw [List.length_append, List.length_singleton, List.range_succ, List.reverse_append, List.reverse_append]
    simp only [List.reverse_cons, List.reverse_nil, List.nil_append, List.singleton_append, List.find?_cons]
    rw [ha.1]
    cases q a with
    | true => simp only [Option.map_some, ha.2]
    | false => exact ih

/-! ## Evaluation -/

theorem mapM_at {α β : Type} (f : α → Option β) (l : List α) (h : ∀ a ∈ l, (f a).isSome) :
    ∃ l', l.mapM f = some l' ∧ ∀ (k : Nat) (a : α), l[k]? = some a → ∃ b, f a = some b ∧ l'[k]? = some b := by
  induction l with
  | nil => exact ⟨[], rfl, fun k a h => by simp at h⟩
  | cons x l ih =>
    obtain ⟨b, hb⟩ := Option.isSome_iff_exists.1 (h x List.mem_cons_self)
    obtain ⟨l', h1, h2⟩ := ih fun a ha => h a (List.mem_cons_of_mem _ ha)
    refine ⟨b :: l', by simp [List.mapM_cons, hb, h1], fun k a hk => ?_⟩
    cases k with
    | zero => simp only [List.getElem?_cons_zero, Option.some.injEq] at hk; subst hk; exact ⟨b, hb, by simp⟩
    | succ k => simpa using h2 k a (by simpa using hk)

theorem mapM_length {α β : Type} (f : α → Option β) (l : List α) (l' : List β) (h : l.mapM f = some l') : l'.length = l.length := by
  induction l generalizing l' with
  | nil => simp at h; simp [h]
  | cons x l ih =>
    simp only [List.mapM_cons, bind, Option.bind_eq_some_iff, pure, Option.some.injEq] at h
    obtain ⟨b, -, l'', h2, rfl⟩ := h
    simp [ih _ h2]

/-- Every operation is made from its element. -/
theorem all_made {compile : Text → Expr} {counter : Int} {es : List Element} {ops : List (Operation F)}
    (hr : Reading env counter [] es ops) (hc : ∀ e ∈ es, Complete e) (before after : List Element) (e : Element)
    (hb : implemented es = before ++ e :: after) : ∃ o, ops[before.length]? = some o ∧ number ops o.id = some before.length ∧
      Made compile ops before.length e o := by
  obtain ⟨o, c, h1, h2⟩ := (reading_at hr).2 before e after hb
  have hids := (reading_ids hr).1
  refine ⟨o, h1, number_of hids h1, made_of hids (by simpa using h2) (hc e ?_)⟩
  have : e ∈ implemented es := by rw [hb]; simp
  exact (List.mem_filter.1 this).1

theorem to_ops {compile : Text → Expr} {counter : Int} {es : List Element} {ops : List (Operation F)}
    (hr : Reading env counter [] es ops) (hc : ∀ e ∈ es, Complete e) : ∃ ops', toOps compile ops = some ops' ∧
      ops'.length = (implemented es).length ∧
      ∀ before e after, implemented es = before ++ e :: after → ∃ o op, ops[before.length]? = some o ∧ toOp compile ops o = some op ∧
        ops'[before.length]? = some op ∧ number ops o.id = some before.length ∧ Made compile ops before.length e o := by
  have hlen := (reading_at hr).1
  obtain ⟨ops', h1, h2⟩ := mapM_at (toOp compile ops) ops (fun o ho => by
    obtain ⟨k, hk, rfl⟩ := List.mem_iff_getElem.1 ho
    have hk' : k < (implemented es).length := by omega
    obtain ⟨o, g1, g2, g3⟩ := all_made (compile := compile) hr hc ((implemented es).take k) ((implemented es).drop (k + 1))
      ((implemented es)[k]) (by rw [← List.drop_eq_getElem_cons, List.take_append_drop])
    have hl : ((implemented es).take k).length = k := by rw [List.length_take]; omega
    rw [hl] at g1 g2 g3
    rw [List.getElem?_eq_getElem hk] at g1
    cases g1
    obtain ⟨op, g4, -⟩ := made_op g2 g3
    rw [g4]; rfl)
  refine ⟨ops', h1, (mapM_length _ _ _ h1).trans hlen.symm, fun before e after hb => ?_⟩
  obtain ⟨o, g1, g2, g3⟩ := all_made (compile := compile) hr hc before after e hb
  obtain ⟨op, g4, g5⟩ := h2 _ o g1
  exact ⟨o, op, g1, g4, g5, g2, g3⟩

theorem split_at {α : Type} (l : List α) (k : Nat) (hk : k < l.length) : l = l.take k ++ l[k] :: l.drop (k + 1) := by
  rw [← List.drop_eq_getElem_cons, List.take_append_drop]

/-- C218. The calculations of a Valentina file which are implemented have an id, a name if they are points, and the attributes that
place them. When they are read without exception, the sketch can be evaluated in their order. -/
theorem file_well_formed (compile : Text → Expr) (hp : ∀ t err, env.parse t = .error err → err = .valueError) (counter : Int)
    (es : List Element) (s : Sketch F) (h : Sketch.read env { counter := counter } es = (s, .ok ())) (hc : ∀ e ∈ es, Complete e) :
    ∃ ops, toOps compile s.ops = some ops ∧ ops.length = (implemented es).length ∧ WellFormed ops := by
  have hr := Valentina.read_describes hp counter es s h
  obtain ⟨ops, h1, h2, h3⟩ := to_ops (compile := compile) hr hc
  refine ⟨ops, h1, h2, ?_⟩
  intro i op hop j hj
  have hi : i < (implemented es).length := by rw [← h2]; exact (List.getElem?_eq_some_iff.1 hop).1
  obtain ⟨o, op', g1, g2, g3, g4, g5⟩ := h3 _ _ _ (split_at _ i hi)
  have hl : ((implemented es).take i).length = i := by rw [List.length_take]; omega
  rw [hl] at g1 g3 g4 g5
  obtain ⟨op'', k1, k2, -⟩ := made_op g4 g5
  rw [g2] at k1
  cases k1
  rw [hop] at g3
  cases g3
  exact k2 j hj

/-- C218. When the sketch is evaluated without exception, every point is where its element says, and every spline has the control points
its element says. A formula is evaluated with the points which come before it in the file, under their names, and with
the segment of its element. -/
theorem file_places (compile : Text → Expr) (hp : ∀ t err, env.parse t = .error err → err = .valueError) (counter : Int)
    (es : List Element) (s : Sketch F) (h : Sketch.read env { counter := counter } es = (s, .ok ())) (hc : ∀ e ∈ es, Complete e)
    (ops : List Op) (hops : toOps compile s.ops = some ops) (st : St) (hst : evalSketch St.empty ops = .ok st)
    (before after : List Element) (e : Element) (c : Class) (hb : implemented es = before ++ e :: after) (he : IsClass e c) :
    Says compile (drawing s.ops st) before e c := by
  have hr := Valentina.read_describes hp counter es s h
  obtain ⟨ops', h1, h2, h3⟩ := to_ops (compile := compile) hr hc
  rw [hops] at h1
  cases h1
  obtain ⟨ops', k1, -, hw⟩ := file_well_formed compile hp counter es s h hc
  rw [hops] at k1
  cases k1
  obtain ⟨o, op, g1, g2, g3, g4, g5⟩ := h3 _ _ _ hb
  obtain ⟨op', m1, m2, m3, m4⟩ := made_op g4 g5
  rw [g2] at m1
  cases m1
  have := Valentina.isClass_unique he g5.isClass
  subst this
  refine m4 st before (sketch_satisfies _ _ _ hw hst _ _ g3) fun slot ex hex => ?_
  obtain ⟨v, v1, v2⟩ := sketch_values st ops hw hst _ _ g3 slot ex hex
  refine ⟨v, v1, ?_⟩
  have hm : visible ops st.vec before.length = meaning (drawing s.ops st) before e := by
    funext n
    unfold visible meaning
    rw [List.range_succ, List.reverse_append, List.reverse_singleton, List.singleton_append, List.find?_cons]
    have hown : (ops[before.length]?.bind Op.name = some n) ↔ IsPoint e n := by
      rw [g3]
      exact m3 n
    by_cases hn : IsPoint e n
    · rw [if_pos hn]
      have := hown.2 hn
      simp [this]
    · rw [if_neg hn]
      have : ¬ (ops[before.length]?.bind Op.name = some n) := fun h => hn (hown.1 h)
      simp only [this, decide_false]
      refine find_range _ _ _ _ before fun j p hj => ?_
      have hjl := (List.getElem?_eq_some_iff.1 hj).1
      have hje := (List.getElem?_eq_some_iff.1 hj).2
      obtain ⟨o2, op2, q1, q2, q3, q4, q5⟩ := h3 (before.take j) p (before.drop (j + 1) ++ e :: after) (by
        rw [hb]
        conv_lhs => rw [split_at before j hjl]
        rw [hje]
        simp)
      have hl : (before.take j).length = j := by rw [List.length_take]; omega
      rw [hl] at q1 q3 q4 q5
      obtain ⟨op3, w1, -, w2, -⟩ := made_op q4 q5
      rw [q2] at w1
      cases w1
      refine ⟨?_, ?_⟩
      · rw [q3]
        simp only [Option.bind_some]
        congr 1
        exact propext (w2 n)
      · rw [if_pos hjl, q5.id]
        simp only [Option.bind_some, drawing, q4]
  rw [hm] at v2
  exact v2

/-! ## Writing, reading back and evaluating -/

open Valentina (Same Row table)

theorem same_field {o o' : Operation F} (h : Same o o') {r : Row} (hr : r ∈ table o.cls)
    (hm : r.meaning = .reference ∨ r.meaning = .formula ∨ r.meaning = .name) : o'.fields.get? r.py = o.fields.get? r.py := by
  obtain ⟨v, w, h1, h2, h3⟩ := h.rows r hr
  have : w = v := by
    rcases hm with hm | hm | hm <;> rw [hm] at h3 <;> exact h3
  unfold Operation.Has at h1 h2
  rw [h1, h2, this]

theorem same_ids {ops ops' : List (Operation F)} (h : List.Forall₂ Same ops ops') : ops'.map Operation.id = ops.map Operation.id := by
  induction h with
  | nil => rfl
  | cons h _ ih => simp only [List.map_cons, h.id, ih]

theorem number_ids (ops ops' : List (Operation F)) (h : ops'.map Operation.id = ops.map Operation.id) (i : Int) :
    number ops' i = number ops i := by
  have e : ∀ l : List (Operation F), number l i = (l.map Operation.id).findIdx? fun j => decide (j = i) := by
    intro l
    unfold number
    rw [List.findIdx?_map]
    rfl
  rw [e, e, h]

theorem toOp_fields (compile : Text → Expr) {ops ops' : List (Operation F)} (hids : ops'.map Operation.id = ops.map Operation.id)
    {o o' : Operation F} (hcls' : o'.cls = o.cls)
    (hf : ∀ py xml m, (⟨py, xml, m⟩ : Row) ∈ table o.cls → m = .reference ∨ m = .formula ∨ m = .name →
      o'.fields.get? py = o.fields.get? py) : toOp compile ops' o' = toOp compile ops o := by
  have hn := number_ids ops ops' hids
  unfold toOp
  rw [hcls']
  cases hcls : o.cls <;> rw [hcls] at hf <;> simp only
  case single =>
    simp only [nameOf, exprOf, refOf, hn, hf "name" "name" .name (by simp [table]) (by simp),
      hf "x" "x" .formula (by simp [table]) (by simp), hf "y" "y" .formula (by simp [table]) (by simp)]
  case alongLine =>
    simp only [nameOf, exprOf, refOf, hn, hf "name" "name" .name (by simp [table]) (by simp),
      hf "first_point" "firstPoint" .reference (by simp [table, Valentina.pairRows]) (by simp),
      hf "second_point" "secondPoint" .reference (by simp [table, Valentina.pairRows]) (by simp),
      hf "length" "length" .formula (by simp [table]) (by simp)]
  case endLine =>
    simp only [nameOf, exprOf, refOf, hn, hf "name" "name" .name (by simp [table]) (by simp),
      hf "base_point" "basePoint" .reference (by simp [table]) (by simp),
      hf "length" "length" .formula (by simp [table]) (by simp), hf "angle" "angle" .formula (by simp [table]) (by simp)]
  case lineIntersect =>
    simp only [nameOf, exprOf, refOf, hn, hf "name" "name" .name (by simp [table]) (by simp),
      hf "point1_line1" "p1Line1" .reference (by simp [table]) (by simp), hf "point2_line1" "p2Line1" .reference (by simp [table]) (by simp),
      hf "point1_line2" "p1Line2" .reference (by simp [table]) (by simp), hf "point2_line2" "p2Line2" .reference (by simp [table]) (by simp)]
  case normal =>
    simp only [nameOf, exprOf, refOf, hn, hf "name" "name" .name (by simp [table]) (by simp),
      hf "first_point" "firstPoint" .reference (by simp [table, Valentina.pairRows]) (by simp),
      hf "second_point" "secondPoint" .reference (by simp [table, Valentina.pairRows]) (by simp),
      hf "length" "length" .formula (by simp [table]) (by simp), hf "angle" "angle" .formula (by simp [table]) (by simp)]
  case pointOfContact =>
    simp only [nameOf, exprOf, refOf, hn, hf "name" "name" .name (by simp [table]) (by simp),
      hf "first_point" "firstPoint" .reference (by simp [table, Valentina.pairRows]) (by simp),
      hf "second_point" "secondPoint" .reference (by simp [table, Valentina.pairRows]) (by simp),
      hf "center" "center" .reference (by simp [table]) (by simp), hf "radius" "radius" .formula (by simp [table]) (by simp)]
  case pointOfIntersection =>
    simp only [nameOf, exprOf, refOf, hn, hf "name" "name" .name (by simp [table]) (by simp),
      hf "first_point" "firstPoint" .reference (by simp [table, Valentina.pairRows]) (by simp),
      hf "second_point" "secondPoint" .reference (by simp [table, Valentina.pairRows]) (by simp)]
  case line =>
    simp only [nameOf, exprOf, refOf, hn,
      hf "first_point" "firstPoint" .reference (by simp [table, Valentina.pairRows]) (by simp),
      hf "second_point" "secondPoint" .reference (by simp [table, Valentina.pairRows]) (by simp)]
  case spline =>
    simp only [nameOf, exprOf, refOf, hn, hf "first_point" "point1" .reference (by simp [table]) (by simp),
      hf "second_point" "point4" .reference (by simp [table]) (by simp),
      hf "length1" "length1" .formula (by simp [table]) (by simp), hf "length2" "length2" .formula (by simp [table]) (by simp),
      hf "angle1" "angle1" .formula (by simp [table]) (by simp), hf "angle2" "angle2" .formula (by simp [table]) (by simp)]

theorem toOp_same (compile : Text → Expr) {ops ops' : List (Operation F)} (hids : ops'.map Operation.id = ops.map Operation.id)
    {o o' : Operation F} (h : Same o o') : toOp compile ops' o' = toOp compile ops o :=
  toOp_fields compile hids h.cls fun _ _ _ hr hm => same_field h hr hm

theorem mapM_same {α : Type} {β : Type} (f g : α → Option β) {r : α → α → Prop} (hfg : ∀ a b, r a b → g b = f a) :
    ∀ {l l' : List α}, List.Forall₂ r l l' → l'.mapM g = l.mapM f := by
  intro l l' h
  induction h with
  | nil => rfl
  | cons h _ ih => simp only [List.mapM_cons, hfg _ _ h, ih]

/-- C219. A sketch built with the API is written to a Valentina file, read back and evaluated to the same drawing, under the conditions of
C162: the operations that are evaluated are the same, and every point and control point is found under the same id. -/
theorem written_drawing (s : Sketch F) (h : Valentina.Built env s) (hp : ∀ o ∈ s.ops, Valentina.Portable s.ops o)
    (hoff : Valentina.OffsetsReadBack env s.ops) (counter : Int) (hc : ∀ o ∈ s.ops, counter < o.id) :
    ∃ es s', Valentina.write env s.ops = .ok es ∧ Sketch.read env { counter := counter } es = (s', .ok ()) ∧
      ∀ compile, ∃ ops, toOps compile s.ops = some ops ∧ toOps compile s'.ops = some ops ∧ WellFormed ops ∧
        ∀ st, evalSketch St.empty ops = .ok st → drawing s'.ops st = drawing s.ops st := by
  obtain ⟨es, s', h1, h2, h3⟩ := Valentina.sketch_round_trip_partial s h hp hoff counter hc
  refine ⟨es, s', h1, h2, fun compile => ?_⟩
  have hids := same_ids h3
  have hb := Valentina.built_inv h
  have heq : toOps compile s'.ops = toOps compile s.ops := mapM_same _ _ (fun o o' h => toOp_same compile hids h) h3
  have hop : ∀ (k : Nat) (o : Operation F), s.ops[k]? = some o → ∃ op, toOp compile s.ops o = some op ∧ ∀ j ∈ op.refs, j < k := by
    intro k o ho
    obtain ⟨hk, hko⟩ := List.getElem?_eq_some_iff.1 ho
    have hsplit : s.ops = s.ops.take k ++ o :: s.ops.drop (k + 1) := by
      conv_lhs => rw [split_at s.ops k hk]
      rw [hko]
    have hw := hb.well _ _ _ hsplit
    have hn : o.cls.isPoint = true → ∃ n, nameOf o = some n := by
      intro hpt
      obtain ⟨t, ht⟩ := (hp o (List.mem_of_getElem? ho)).name hpt
      refine ⟨String.ofList t, ?_⟩
      unfold nameOf
      unfold Operation.Has at ht
      rw [ht]
    have href : ∀ py xml, (⟨py, xml, .reference⟩ : Row) ∈ table o.cls → ∃ j, refOf s.ops o py = some j ∧ j < k := by
      intro py xml hr
      obtain ⟨v, v1, v2, -⟩ := hw.rows _ hr
      obtain ⟨i, rfl, p, hpm, rfl⟩ := v2 rfl
      obtain ⟨j, hj, hjk⟩ := number_take hb.ids hpm
      refine ⟨j, ?_, hjk⟩
      unfold refOf
      unfold Operation.Has at v1
      rw [v1]
      exact hj
    have hexp : ∀ py xml, (⟨py, xml, .formula⟩ : Row) ∈ table o.cls → ∃ x, exprOf compile o py = some x := by
      intro py xml hr
      obtain ⟨v, v1, -, v2⟩ := hw.rows _ hr
      obtain ⟨t, rfl⟩ := v2 rfl
      refine ⟨compile t, ?_⟩
      unfold exprOf
      unfold Operation.Has at v1
      rw [v1]
    cases hcls : o.cls <;> rw [hcls] at hn href hexp
    case single =>
      obtain ⟨n, n1⟩ := hn rfl
      obtain ⟨x, x1⟩ := hexp "x" "x" (by simp [table])
      obtain ⟨y, y1⟩ := hexp "y" "y" (by simp [table])
      exact ⟨.single n x y, by simp [toOp, hcls, n1, x1, y1], by simp [Op.refs]⟩
    case alongLine =>
      obtain ⟨n, n1⟩ := hn rfl
      obtain ⟨a, a1, a2⟩ := href "first_point" "firstPoint" (by simp [table, Valentina.pairRows])
      obtain ⟨b, b1, b2⟩ := href "second_point" "secondPoint" (by simp [table, Valentina.pairRows])
      obtain ⟨x, x1⟩ := hexp "length" "length" (by simp [table])
      exact ⟨.along n a b x, by simp [toOp, hcls, n1, x1, a1, b1], by simp [Op.refs]; omega⟩
    case endLine =>
      obtain ⟨n, n1⟩ := hn rfl
      obtain ⟨a, a1, a2⟩ := href "base_point" "basePoint" (by simp [table])
      obtain ⟨x, x1⟩ := hexp "angle" "angle" (by simp [table])
      obtain ⟨y, y1⟩ := hexp "length" "length" (by simp [table])
      exact ⟨.endLine n a x y, by simp [toOp, hcls, n1, x1, a1, y1], by simp [Op.refs]; omega⟩
    case lineIntersect =>
      obtain ⟨n, n1⟩ := hn rfl
      obtain ⟨a, a1, a2⟩ := href "point1_line1" "p1Line1" (by simp [table])
      obtain ⟨b, b1, b2⟩ := href "point2_line1" "p2Line1" (by simp [table])
      obtain ⟨c, c1, c2⟩ := href "point1_line2" "p1Line2" (by simp [table])
      obtain ⟨d, d1, d2⟩ := href "point2_line2" "p2Line2" (by simp [table])
      exact ⟨.lineIntersect n a b c d, by simp [toOp, hcls, n1, a1, b1, c1, d1], by simp [Op.refs]; omega⟩
    case normal =>
      obtain ⟨n, n1⟩ := hn rfl
      obtain ⟨a, a1, a2⟩ := href "first_point" "firstPoint" (by simp [table, Valentina.pairRows])
      obtain ⟨b, b1, b2⟩ := href "second_point" "secondPoint" (by simp [table, Valentina.pairRows])
      obtain ⟨x, x1⟩ := hexp "angle" "angle" (by simp [table])
      obtain ⟨y, y1⟩ := hexp "length" "length" (by simp [table])
      exact ⟨.normal n a b x y, by simp [toOp, hcls, n1, x1, y1, a1, b1], by simp [Op.refs]; omega⟩
    case pointOfContact =>
      obtain ⟨n, n1⟩ := hn rfl
      obtain ⟨a, a1, a2⟩ := href "first_point" "firstPoint" (by simp [table, Valentina.pairRows])
      obtain ⟨b, b1, b2⟩ := href "second_point" "secondPoint" (by simp [table, Valentina.pairRows])
      obtain ⟨c, c1, c2⟩ := href "center" "center" (by simp [table])
      obtain ⟨x, x1⟩ := hexp "radius" "radius" (by simp [table])
      exact ⟨.contact n a b c x, by simp [toOp, hcls, n1, x1, c1, a1, b1], by simp [Op.refs]; omega⟩
    case pointOfIntersection =>
      obtain ⟨n, n1⟩ := hn rfl
      obtain ⟨a, a1, a2⟩ := href "first_point" "firstPoint" (by simp [table, Valentina.pairRows])
      obtain ⟨b, b1, b2⟩ := href "second_point" "secondPoint" (by simp [table, Valentina.pairRows])
      exact ⟨.intersection n a b, by simp [toOp, hcls, n1, a1, b1], by simp [Op.refs]; omega⟩
    case line =>
      obtain ⟨a, a1, a2⟩ := href "first_point" "firstPoint" (by simp [table, Valentina.pairRows])
      obtain ⟨b, b1, b2⟩ := href "second_point" "secondPoint" (by simp [table, Valentina.pairRows])
      exact ⟨.line a b, by simp [toOp, hcls, a1, b1], by simp [Op.refs]; omega⟩
    case spline =>
      obtain ⟨a, a1, a2⟩ := href "first_point" "point1" (by simp [table])
      obtain ⟨b, b1, b2⟩ := href "second_point" "point4" (by simp [table])
      obtain ⟨x, x1⟩ := hexp "angle1" "angle1" (by simp [table])
      obtain ⟨y, y1⟩ := hexp "length1" "length1" (by simp [table])
      obtain ⟨z, z1⟩ := hexp "angle2" "angle2" (by simp [table])
      obtain ⟨w, w1⟩ := hexp "length2" "length2" (by simp [table])
      exact ⟨.spline a b x y z w, by simp [toOp, hcls, a1, b1, x1, y1, z1, w1], by simp [Op.refs]; omega⟩
  obtain ⟨ops, o1, o2⟩ := mapM_at (toOp compile s.ops) s.ops (fun o ho => by
    obtain ⟨k, hk⟩ := List.mem_iff_getElem?.1 ho
    obtain ⟨op, h4, -⟩ := hop k o hk
    rw [h4]; rfl)
  refine ⟨ops, o1, heq.trans o1, ?_, fun st _ => ?_⟩
  · intro i op hi j hj
    have hil : i < s.ops.length := by
      rw [← mapM_length _ _ _ o1]
      exact (List.getElem?_eq_some_iff.1 hi).1
    obtain ⟨op', g1, g2⟩ := o2 i _ (List.getElem?_eq_getElem hil)
    rw [hi] at g2
    cases g2
    obtain ⟨op'', g3, g4⟩ := hop i _ (List.getElem?_eq_getElem hil)
    rw [g1] at g3
    cases g3
    exact g4 j hj
  · unfold drawing
    congr 1 <;> funext i <;> rw [number_ids _ _ hids]

/-! ## Examples -/

/-- Formulas which are whole numbers. -/
noncomputable def toyCompile (t : Text) : Expr := fun _ =>
  match Xml.intFromText t with
  | .ok i => .ok (i : ℝ)
  | .error e => .error (.py e)

theorem toyRead : Sketch.read Valentina.toyEnv { counter := 0 } Valentina.toyElements =
    ((Sketch.read Valentina.toyEnv { counter := 0 } Valentina.toyElements).1, .ok ()) ∧
    (Sketch.read Valentina.toyEnv { counter := 0 } Valentina.toyElements).1.ops = [
      ⟨.single, 4, [("name", some (.text "A".toList)), ("x", some (.expr "1".toList)), ("y", some (.expr "2".toList))], some (3, -4)⟩,
      ⟨.endLine, 6, [("name", some (.text "B".toList)), ("base_point", some (.op 4)), ("angle", some (.expr "0".toList)),
        ("length", some (.expr "10".toList)), ("line_style", some (.stroke .solidLine)),
        ("line_color", some (.color Valentina.toyEnv.black))], some (0, 0)⟩,
      ⟨.line, 7, [("first_point", some (.op 4)), ("second_point", some (.op 6)), ("line_style", some (.stroke .dashLine)),
        ("line_color", some (.color Valentina.toyEnv.black))], none⟩] := by
  refine ⟨Prod.ext rfl ?_, ?_⟩ <;> decide +kernel

theorem toyComplete : ∀ e ∈ Valentina.toyElements, Complete e := by
  have key : ∀ e ∈ Valentina.toyElements, ∀ c, Valentina.dispatch e = .ok c →
      (e.attrib.get? "id").isSome ∧ (c.isPoint = true → (e.attrib.get? "name").isSome) ∧ ∀ a ∈ placing c, (e.attrib.get? a).isSome := by
    intro e he c
    simp only [Valentina.toyElements, List.mem_cons, List.not_mem_nil, or_false] at he
    rcases he with rfl | rfl | rfl | rfl <;> cases c <;> decide +kernel
  intro e he c hc
  exact key e he c ((Valentina.dispatch_ok _ _).2 hc)

/-- The hypotheses of `file_places` are met: the file is read, its sketch is evaluated, and the point of id 6 is at (11, 2). -/
theorem toyPlaces : ∃ s ops st, Sketch.read Valentina.toyEnv { counter := 0 } Valentina.toyElements = (s, .ok ()) ∧
    toOps toyCompile s.ops = some ops ∧ evalSketch St.empty ops = .ok st ∧ (∀ e ∈ Valentina.toyElements, Complete e) ∧
    (drawing s.ops st).point 6 = some ⟨11, 2⟩ := by
  obtain ⟨h1, h2⟩ := toyRead
  refine ⟨(Sketch.read Valentina.toyEnv { counter := 0 } Valentina.toyElements).1, [.single "A" (toyCompile "1".toList) (toyCompile "2".toList),
    .endLine "B" 0 (toyCompile "0".toList) (toyCompile "10".toList), .line 0 1], ?_⟩
  have c0 : toyCompile "0".toList = fun _ => .ok 0 := by
    funext e; simp only [toyCompile, show Xml.intFromText "0".toList = .ok 0 from by decide +kernel]; simp
  have c1 : toyCompile "1".toList = fun _ => .ok 1 := by
    funext e; simp only [toyCompile, show Xml.intFromText "1".toList = .ok 1 from by decide +kernel]; simp
  have c2 : toyCompile "2".toList = fun _ => .ok 2 := by
    funext e; simp only [toyCompile, show Xml.intFromText "2".toList = .ok 2 from by decide +kernel]; simp
  have c10 : toyCompile "10".toList = fun _ => .ok 10 := by
    funext e; simp only [toyCompile, show Xml.intFromText "10".toList = .ok 10 from by decide +kernel]; simp
  have hev : ∃ st, evalSketch St.empty [.single "A" (toyCompile "1".toList) (toyCompile "2".toList),
      .endLine "B" 0 (toyCompile "0".toList) (toyCompile "10".toList), .line 0 1] = .ok st ∧ st.vec 1 = some ⟨11, 2⟩ := by
    rw [c0, c1, c2, c10]
    simp [evalSketch, SketchGeometry.evalFrom, SketchGeometry.evalOp, Op.name, SketchGeometry.evalInternal, St.getValue, St.addPoint,
      St.setVec, St.getVec, St.empty, bind, Except.bind, pure, Except.pure, St.env, Vec.fromAngle, Vec.smul]
    norm_num [Vec.ext_iff, Vec.radians]
  obtain ⟨st, e1, e2⟩ := hev
  refine ⟨st, h1, ?_, e1, toyComplete, ?_⟩
  · rw [h2]
    rfl
  · rw [h2]
    simp only [drawing, number]
    exact e2

end Patro.ValPlaces

import Verif.Model.Primitive
import Verif.Props.Path
/-! # C147, C148 and C149: reversing a primitive, turning it into a path or a polygon, and its runs of points -/

namespace Patro.Primitive

open Path (Reach final draw)

variable {K : Type _}

/-- The classes of the library which a user makes instances of, with points. -/
def concrete : List Cls := [.Segment2D, .Rectangle2D, .Triangle2D, .Polygon2D, .RegularPolygon, .Polyline2D, .QuadraticBezier2D,
  .CubicBezier2D, .QuadraticUniformSpline2D, .CubicUniformSpline2D, .BSpline2D]

/-! ## C147 -/

theorem lookup_reverse (c : Cls) (h : c ∈ concrete) :
    lookup c .reverse = some .PointPrimitive ∧ lookup c .isReversible = some .PointPrimitive := by
  simp only [concrete, List.mem_cons, List.not_mem_nil, or_false] at h
  rcases h with h | h | h | h | h | h | h | h | h | h | h <;> subst h <;> decide +kernel

/-- C147 fails: `reverse` of a segment, a polygon, a curve and any primitive of the library returns the same object, and
`is_reversible` is false. -/
theorem reverse_wrong (o : Obj K) (h : o.cls ∈ concrete) : reverse o = .ok o ∧ isReversible o = .ok (some false) := by
  unfold reverse isReversible
  rw [(lookup_reverse _ h).1, (lookup_reverse _ h).2]
  exact ⟨rfl, rfl⟩

/-- C147. A class has both `reverse` and `is_reversible`, or none of them, and then `AttributeError` is raised. -/
theorem reverse_defined (o : Obj K) : ((∃ o', reverse o = .ok o') ∧ ∃ b, isReversible o = .ok b) ∨
    (reverse o = .error .attributeError ∧ isReversible o = .error .attributeError) := by
  obtain ⟨c, points⟩ := o
  unfold reverse isReversible
  have h : lookup c .reverse = lookup c .isReversible ∧
    (lookup c .reverse = some .PointPrimitive ∨ lookup c .reverse = some .ReversiblePrimitiveMixin ∨ lookup c .reverse = none) := by
    cases c <;> decide +kernel
  dsimp only
  rw [← h.1]
  rcases h.2 with h | h | h <;> rw [h]
  · exact Or.inl ⟨⟨_, rfl⟩, _, rfl⟩
  · exact Or.inl ⟨⟨_, rfl⟩, _, rfl⟩
  · exact Or.inr ⟨rfl, rfl⟩

/-- C147. The primitives whose points are in the reverse order after `reverse` are the ones whose points read the same in
both orders; missing: all the others. -/
theorem reverse_partial (o : Obj K) (h : o.cls ∈ concrete) :
    (∃ o', reverse o = .ok o' ∧ o'.points = o.points.reverse) ↔ o.points = o.points.reverse := by
  rw [(reverse_wrong o h).1]
  constructor
  · rintro ⟨o', h1, h2⟩
    cases h1
    exact h2
  · exact fun h => ⟨o, rfl, h⟩

example : (⟨.Segment2D, [⟨0, 0⟩, ⟨1, 2⟩]⟩ : Obj ℚ).cls ∈ concrete ∧ [(⟨0, 0⟩ : Vec ℚ), ⟨1, 2⟩] ≠ [(⟨0, 0⟩ : Vec ℚ), ⟨1, 2⟩].reverse ∧
    (⟨.Polyline2D, [⟨0, 0⟩, ⟨1, 2⟩, ⟨0, 0⟩]⟩ : Obj ℚ).cls ∈ concrete ∧
    [(⟨0, 0⟩ : Vec ℚ), ⟨1, 2⟩, ⟨0, 0⟩] = [(⟨0, 0⟩ : Vec ℚ), ⟨1, 2⟩, ⟨0, 0⟩].reverse := by decide +kernel

/-! ## C148 -/

/-- C148. The closed primitives are the rectangles, the triangles and the polygons. -/
theorem closed_iff (o : Obj K) (h : o.cls ∈ concrete) :
    isClosed o = .ok (decide (o.cls ∈ [Cls.Rectangle2D, .Triangle2D, .Polygon2D, .RegularPolygon])) := by
  have key : ∀ c ∈ concrete, (lookup c .isClosed = some .Primitive ∧ c ∉ [Cls.Rectangle2D, .Triangle2D, .Polygon2D, .RegularPolygon]) ∨
      ∃ d ∈ [Cls.ClosedPrimitiveMixin, .Rectangle2D, .Triangle2D],
        lookup c .isClosed = some d ∧ c ∈ [Cls.Rectangle2D, .Triangle2D, .Polygon2D, .RegularPolygon] := by decide +kernel
  unfold isClosed
  rcases key _ h with ⟨h1, h2⟩ | ⟨d, hd, h1, h2⟩
  · rw [h1, decide_eq_false h2]
  · rw [h1, decide_eq_true h2]
    simp only [List.mem_cons, List.not_mem_nil, or_false] at hd
    rcases hd with rfl | rfl | rfl <;> rfl

section Field

variable [Field K] [LinearOrder K]

/-- The part added by `line_to`. -/
def linePart (absolute : Bool) (p : Vec K) : Path.Part K := .line p absolute none false false

theorem lines_eq (absolute : Bool) (ps : List (Vec K)) (path : Path.Path K) (h : path.closed = false) :
    lines absolute ps path = .ok { path with parts := path.parts ++ ps.map (linePart absolute) } := by
  induction ps generalizing path with
  | nil => simp [lines]
  | cons p ps ih =>
    have e : path.lineTo p none absolute = (.ok (some path.parts.length), { path with parts := path.parts ++ [linePart absolute p] }) :=
      Path.add_open path h _ (Or.inl rfl)
    unfold lines
    rw [e]
    dsimp only
    refine (ih ⟨path.p0, path.parts ++ [linePart absolute p], path.closed⟩ h).trans ?_
    simp

theorem lines_reach (absolute : Bool) (ps : List (Vec K)) (path path' : Path.Path K) (h : Reach path)
    (h' : lines absolute ps path = .ok path') : Reach path' := by
  induction ps generalizing path with
  | nil => cases h'; exact h
  | cons p ps ih =>
    have hr := Reach.line path p none absolute h
    unfold lines at h'
    split at h'
    · rename_i h1
      rw [h1] at hr
      exact ih _ hr h'
    · cases h'

theorem final_absolute (s : Vec K) (ps : List (Vec K)) : final s (ps.map (linePart true)) = some (ps.getLastD s) := by
  induction ps generalizing s with
  | nil => rfl
  | cons p ps ih =>
    simp only [List.map_cons, final, draw, linePart, if_true, bind, Option.bind, List.getLastD_cons, List.getLastD_nil] at ih ⊢
    exact ih p

theorem final_relative (s : Vec K) (ps : List (Vec K)) : final s (ps.map (linePart false)) = some (ps.foldl (· + ·) s) := by
  induction ps generalizing s with
  | nil => rfl
  | cons p ps ih =>
    simp only [List.map_cons, final, draw, linePart, bind, Option.bind, List.getLastD_cons, List.getLastD_nil, Bool.false_eq_true,
      if_false, List.foldl_cons] at ih ⊢
    exact ih _

end Field

section Ordered

variable [Field K] [LinearOrder K] [IsStrictOrderedRing K]

/-- C148. `to_path` of a polygon is a closed path with a part for each edge, from a vertex to the next one and from the last
one to the first one. -/
theorem toPath_polygon (c : Cls) (hc : c = .Polygon2D ∨ c = .RegularPolygon) (points : List (Vec K)) (p : Polygon K)
    (h : Polygon.create points = .ok p) :
    ∃ path, toPath ⟨c, points⟩ = .ok path ∧ path.closed = true ∧ path.parts.length = points.length ∧
      points[0]? = some path.p0 ∧
      ∀ i, i < points.length → ∃ a b, points[i]? = some a ∧ points[(i + 1) % points.length]? = some b ∧ path.points i = .ok [a, b] := by
  have hl : 3 ≤ points.length := by
    unfold Polygon.create at h
    split at h
    · cases h
    · omega
  obtain ⟨s, ps, rfl⟩ : ∃ s ps, points = s :: ps := by
    cases points with
    | nil => simp at hl
    | cons s ps => exact ⟨s, ps, rfl⟩
  have h1 : lookup c .toPath = some .PathMixin ∧ lookup c .iterFromSecondPoint = some .PrimitiveNP ∧
      lookup c .isClosed = some .ClosedPrimitiveMixin := by
    rcases hc with rfl | rfl <;> decide +kernel
  have hline := lines_eq true ps (Path.Path.new s) rfl
  have hreach := lines_reach true ps (Path.Path.new s) _ (.new s) hline
  obtain ⟨q, hq⟩ : ∃ q : Path.Path K, q = { Path.Path.new s with parts := (Path.Path.new s).parts ++ ps.map (linePart true) } := ⟨_, rfl⟩
  rw [← hq] at hline hreach
  have hadd := Path.add_open q (by rw [hq]; rfl) (linePart true s) (Or.inl rfl)
  have hp0 : q.p0 = s := by rw [hq]; rfl
  have hclose : q.close = (.ok (some q.parts.length), { q with parts := q.parts ++ [linePart true s], closed := true }) := by
    unfold Path.Path.close
    rw [hp0]
    have : Path.Part.line s true (Path.setRadius none) (none : Option K).isSome false = linePart true s := rfl
    rw [this, hadd]
    dsimp only
    rw [hp0]
  have hreach2 : Reach { q with parts := q.parts ++ [linePart true s], closed := true } := by
    have := Reach.close q none none hreach
    rwa [hclose] at this
  have hparts : q.parts ++ [linePart true s] = (ps ++ [s]).map (linePart true) := by rw [hq]; simp [Path.Path.new]
  refine ⟨{ q with parts := q.parts ++ [linePart true s], closed := true }, ?_, rfl, ?_, ?_, ?_⟩
  rotate_left
  · change (q.parts ++ [linePart true s]).length = _
    rw [hparts]; simp
  · change some s = some q.p0
    rw [hp0]
  · intro i hi
    have hlen : ({ q with parts := q.parts ++ [linePart true s], closed := true } : Path.Path K).parts.length = ps.length + 1 := by
      change (q.parts ++ [linePart true s]).length = _
      rw [hparts]; simp
    have hi' : i < ps.length + 1 := by simpa using hi
    have hfin : ∀ j, j ≤ ps.length + 1 → final q.p0 ((q.parts ++ [linePart true s]).take j) = some (((ps ++ [s]).take j).getLastD s) := by
      intro j _
      rw [hparts, ← List.map_take, final_absolute, hp0]
    have hstart := Path.startPoint_eq _ hreach2.inv i (by rw [hlen]; exact hi') _ (hfin i (by omega))
    have hstop := Path.stopPoint_eq _ hreach2.inv i (by rw [hlen]; exact hi') _ (hfin (i + 1) (by omega))
    have hget : ({ q with parts := q.parts ++ [linePart true s], closed := true } : Path.Path K).parts[i]? =
        some (linePart true ((ps ++ [s])[i]'(by simp; omega))) := by
      change (q.parts ++ [linePart true s])[i]? = _
      rw [hparts, List.getElem?_map, List.getElem?_eq_getElem (by simp; omega)]
      rfl
    refine ⟨((ps ++ [s]).take i).getLastD s, ((ps ++ [s]).take (i + 1)).getLastD s, ?_, ?_, ?_⟩
    rotate_left 2
    · unfold Path.Path.points
      rw [hget]
      simp only [hstart, hstop, bind, Except.bind, pure, Except.pure]
      simp only [linePart]
    · cases i with
      | zero => simp
      | succ i =>
        rw [List.getElem?_cons_succ, List.getLastD_eq_getLast?, List.getLast?_take]
        rw [if_neg (by omega), List.getElem?_append_left (by omega)]
        rw [Nat.add_sub_cancel, List.getElem?_eq_getElem (by omega)]
        rfl
    · rw [List.getLastD_eq_getLast?, List.getLast?_take, if_neg (by omega), Nat.add_sub_cancel,
        List.getElem?_eq_getElem (show i < (ps ++ [s]).length by simp; omega)]
      simp only [Option.some_or, Option.getD_some]
      by_cases he : i = ps.length
      · subst he
        simp
      · rw [List.length_cons, Nat.mod_eq_of_lt (by omega), List.getElem?_cons_succ, List.getElem_append_left (by omega),
          List.getElem?_eq_getElem (by omega)]
  · unfold toPath
    simp only [h1.1, iterFromSecondPoint, h1.2.1, isClosed, h1.2.2, List.tail_cons, hline, bind, Except.bind, if_true, hclose, pure,
      Except.pure]

/-- C148 fails for triangles and rectangles: `to_path` raises `TypeError` and `AttributeError`. -/
theorem toPath_wrong (a b c : Vec K) :
    toPath (⟨.Triangle2D, [a, b, c]⟩ : Obj K) = .error .typeError ∧ toPath (⟨.Rectangle2D, [a, b]⟩ : Obj K) = .error .attributeError := by
  have h1 : lookup .Triangle2D .toPath = some .PathMixin ∧ lookup .Triangle2D .iterFromSecondPoint = some .Primitive3P ∧
      lookup .Rectangle2D .toPath = some .PathMixin ∧ lookup .Rectangle2D .iterFromSecondPoint = none := by decide +kernel
  unfold toPath iterFromSecondPoint
  simp only [h1.1, h1.2.1, h1.2.2.1, h1.2.2.2, bind, Except.bind, and_self]

/-- C148 fails: `to_polygon` of a triangle or of a rectangle raises `ValueError`. -/
theorem toPolygon_wrong (c : Cls) (hc : c = .Triangle2D ∨ c = .Rectangle2D) (points : List (Vec K)) :
    toPolygon (⟨c, points⟩ : Obj K) = .error .valueError := by
  have h1 : lookup c .toPolygon = some .PolygonMixin := by rcases hc with rfl | rfl <;> decide +kernel
  unfold toPolygon
  simp only [h1]
  simp

/-- C148. What `to_path` of a polyline makes: the points are taken as displacements, the vertex number `i` of the path is the
sum of the first points. -/
theorem toPath_polyline (s : Vec K) (ps : List (Vec K)) :
    ∃ path, toPath ⟨.Polyline2D, s :: ps⟩ = .ok path ∧ path.closed = false ∧ path.parts.length = ps.length ∧ path.p0 = s ∧
      ∀ i, i < ps.length → path.points i = .ok [(ps.take i).foldl (· + ·) s, (ps.take (i + 1)).foldl (· + ·) s] := by
  have h1 : lookup .Polyline2D .toPath = some .Polyline2D ∧ lookup .Polyline2D .iterFromSecondPoint = some .PrimitiveNP := by
    decide +kernel
  have hline := lines_eq false ps (Path.Path.new s) rfl
  have hreach := lines_reach false ps (Path.Path.new s) _ (.new s) hline
  refine ⟨{ Path.Path.new s with parts := (Path.Path.new s).parts ++ ps.map (linePart false) }, ?_, rfl, ?_, rfl, ?_⟩
  · unfold toPath iterFromSecondPoint
    simp only [h1.1, h1.2, List.tail_cons, hline, bind, Except.bind]
  · simp [Path.Path.new]
  · intro i hi
    have hi' : i < ({ Path.Path.new s with parts := (Path.Path.new s).parts ++ ps.map (linePart false) } : Path.Path K).parts.length := by
      simpa [Path.Path.new] using hi
    have hfin : ∀ j, final s (((Path.Path.new s).parts ++ ps.map (linePart false)).take j) = some ((ps.take j).foldl (· + ·) s) := by
      intro j
      have e : (Path.Path.new s).parts ++ ps.map (linePart false) = ps.map (linePart false) := by simp [Path.Path.new]
      rw [e, ← List.map_take, final_relative]
    have hstart := Path.startPoint_eq _ hreach.inv i hi' _ (hfin i)
    have hstop := Path.stopPoint_eq _ hreach.inv i hi' _ (hfin (i + 1))
    have hget : ({ Path.Path.new s with parts := (Path.Path.new s).parts ++ ps.map (linePart false) } : Path.Path K).parts[i]? =
        some (linePart false ps[i]) := by
      change ((Path.Path.new s).parts ++ ps.map (linePart false))[i]? = _
      have e : (Path.Path.new s).parts ++ ps.map (linePart false) = ps.map (linePart false) := by simp [Path.Path.new]
      rw [e, List.getElem?_map, List.getElem?_eq_getElem hi]
      rfl
    unfold Path.Path.points
    rw [hget]
    simp only [hstart, hstop, linePart, bind, Except.bind, pure, Except.pure]

/-- C148 fails for polylines: the path passes through the points of the polyline only when all of them but the last one are the
origin. -/
theorem toPath_polyline_wrong (s : Vec K) (ps : List (Vec K)) :
    ∃ path, toPath ⟨.Polyline2D, s :: ps⟩ = .ok path ∧
      ((∀ (i : Nat) p, ps[i]? = some p → ∃ a, path.points i = .ok [a, p]) ↔ ∀ p ∈ (s :: ps).dropLast, p = ⟨0, 0⟩) := by
  obtain ⟨path, h1, h3, h4, h5, h2⟩ := toPath_polyline s ps
  refine ⟨path, h1, ?_⟩
  have key : (∀ (i : Nat) p, ps[i]? = some p → ∃ a, path.points i = .ok [a, p]) ↔ ∀ i, i < ps.length → (ps.take i).foldl (· + ·) s = ⟨0, 0⟩ := by
    have hz : ∀ a b : Vec K, a + b = b ↔ a = ⟨0, 0⟩ := by
      intro a b
      constructor
      · intro h
        exact Vec.ext (by simpa using congrArg Vec.x h) (by simpa using congrArg Vec.y h)
      · rintro rfl
        exact Vec.ext (zero_add _) (zero_add _)
    constructor
    · intro h i hi
      obtain ⟨a, ha⟩ := h i ps[i] (List.getElem?_eq_getElem hi)
      rw [h2 i hi] at ha
      have := Except.ok.inj ha
      rw [List.take_add_one, List.getElem?_eq_getElem hi] at this
      simp only [Option.toList_some, List.foldl_append, List.foldl_cons, List.foldl_nil, List.cons.injEq, and_true] at this
      exact (hz _ _).1 this.2
    · intro h i p hp
      obtain ⟨hi, rfl⟩ := List.getElem?_eq_some_iff.1 hp
      refine ⟨(ps.take i).foldl (· + ·) s, (h2 i hi).trans ?_⟩
      rw [List.take_add_one, List.getElem?_eq_getElem hi]
      simp only [Option.toList_some, List.foldl_append, List.foldl_cons, List.foldl_nil]
      rw [(hz _ _).2 (h i hi)]
  rw [key]
  clear key h2 h1 h3 h4 h5
  have hz : ∀ b : Vec K, ⟨0, 0⟩ + b = b := fun b => Vec.ext (zero_add _) (zero_add _)
  induction ps generalizing s with
  | nil => simp
  | cons p ps ih =>
    rw [List.dropLast_cons_cons]
    constructor
    · intro h
      have h0 : s = ⟨0, 0⟩ := by simpa using h 0 (by simp)
      subst h0
      have := (ih p).1 fun i hi => by
        have := h (i + 1) (by simpa using hi)
        rwa [List.take_succ_cons, List.foldl_cons, hz] at this
      intro q hq
      rcases List.mem_cons.1 hq with rfl | hq
      · rfl
      · exact this q hq
    · intro h i hi
      have h0 : s = ⟨0, 0⟩ := h s (by simp)
      subst h0
      cases i with
      | zero => rfl
      | succ i =>
        rw [List.take_succ_cons, List.foldl_cons, hz]
        exact (ih p).2 (fun q hq => h q (List.mem_cons_of_mem _ hq)) i (by simpa using hi)

end Ordered

example : (∃ p, Polygon.create [(⟨0, 0⟩ : Vec ℚ), ⟨2, 0⟩, ⟨2, 1⟩] = .ok p) ∧
    (do let path ← toPath (⟨.Polygon2D, [⟨0, 0⟩, ⟨2, 0⟩, ⟨2, 1⟩]⟩ : Obj ℚ); (List.range 3).mapM path.points) =
      .ok [[⟨0, 0⟩, ⟨2, 0⟩], [⟨2, 0⟩, ⟨2, 1⟩], [⟨2, 1⟩, ⟨0, 0⟩]] ∧
    (do let path ← toPath (⟨.Polyline2D, [⟨1, 0⟩, ⟨2, 0⟩, ⟨2, 1⟩]⟩ : Obj ℚ); (List.range 2).mapM path.points) =
      .ok [[⟨1, 0⟩, ⟨3, 0⟩], [⟨3, 0⟩, ⟨5, 1⟩]] :=
  ⟨⟨_, rfl⟩, by decide +kernel, by decide +kernel⟩

/-! ## C149 -/

/-- C149. `iter_on_nuplets` yields the runs of `size` consecutive points, one for each start, in order; a size larger than the
number of points raises `ValueError`. -/
theorem iterOnNuplets_spec (points : List (Vec K)) (size : Nat) :
    (points.length < size → iterOnNuplets points size = .error .valueError) ∧
    (size ≤ points.length → ∃ runs, iterOnNuplets points size = .ok runs ∧ runs.length = points.length - size + 1 ∧
      ∀ i run, runs[i]? = some run → run.length = size ∧ ∀ j, j < size → run[j]? = points[i + j]?) := by
  unfold iterOnNuplets
  constructor
  · intro h
    rw [if_pos h]
  · intro h
    rw [if_neg (by omega)]
    refine ⟨_, rfl, by simp, ?_⟩
    intro i run hr
    rw [List.getElem?_map] at hr
    obtain ⟨i', hi, rfl⟩ := Option.map_eq_some_iff.1 hr
    obtain ⟨h1, h2⟩ := List.getElem?_eq_some_iff.1 hi
    simp only [List.length_range] at h1
    simp only [List.getElem_range] at h2
    subst h2
    refine ⟨by simp; omega, fun j hj => ?_⟩
    rw [List.getElem?_take_of_lt hj, List.getElem?_drop]

example : iterOnNuplets [(⟨0, 0⟩ : Vec ℚ), ⟨2, 0⟩, ⟨2, 1⟩] 2 = .ok [[⟨0, 0⟩, ⟨2, 0⟩], [⟨2, 0⟩, ⟨2, 1⟩]] := by decide +kernel

end Patro.Primitive
